import Verif.Props.FloatTrip
import Verif.Props.FloatRayImage
import Verif.Props.FloatExamples2
import Verif.Props.FloatExact
/-! # Concrete `f32` cases for C84 and C85 -/

namespace VecMath
open Scalar IEEE

theorem shear_aff : shear.toReal 2 = ![0, 0, 1] := by rw [shear_real]; rfl
theorem shear_inv_aff : shear.toReal⁻¹ 2 = ![0, 0, 1] := by rw [shear_inv]; rfl
theorem grid_shear_inv (i j : Fin 3) : OnGrid 0 5 (shear.toReal⁻¹ i j) := by
  rw [shear_inv]
  fin_cases i <;> fin_cases j
  · exact (OnGrid.int (n := 1) (by norm_num)).congr (by simp)
  · exact (OnGrid.int (n := -2) (by norm_num)).congr (by simp)
  · exact (OnGrid.int (n := 5) (by norm_num)).congr (by simp)
  · exact (OnGrid.int (n := 0) (by norm_num)).congr (by simp)
  · exact (OnGrid.int (n := 1) (by norm_num)).congr (by simp)
  · exact (OnGrid.int (n := -4) (by norm_num)).congr (by simp)
  · exact (OnGrid.int (n := 0) (by norm_num)).congr (by simp)
  · exact (OnGrid.int (n := 0) (by norm_num)).congr (by simp)
  · exact (OnGrid.int (n := 1) (by norm_num)).congr (by simp)

/-- C84: the shear made by `try_from`, there and back. -/
theorem shear_trip : ∃ t : Transform2 F32, Transform2.tryFrom shear = .ok t ∧ AllFinite t.inverse ∧ t.inverse.toReal ≠ 0 ∧
    (∀ i : Fin 2, |(Transform.transform t.inv (Transform.transform t p45 : Point2 F32) : Point2 F32).toReal i - p45.toReal i| ≤
      tripErr F32 t.inverse.toReal t.forward.toReal p45.homog 3 ((1 + uro F32) ^ 2 * (2 * tiny F32)) i.castSucc) ∧
    lost t.inverse.toReal t.forward.toReal p45.homog 0 = 0 := by
  obtain ⟨r, hr, fr, er⟩ := shear_inverse
  have q1 := C68_transform_point2 (e := 0) (f := 0) (⟨shear, r⟩ : Transform2 F32) p45 finite_shear finite_p45 shear_aff
    (fun i j => grid_shear _ _) (fun i => grid_shear _ _) grid_p45 (fits_f32 (by norm_num))
  set q := (Transform.transform (⟨shear, r⟩ : Transform2 F32) p45 : Point2 F32) with hq
  have gq : ∀ i, OnGrid 0 50 (q.toReal i) := by
    intro i
    rw [q1.2 i]
    show OnGrid 0 50 (∑ j : Fin 2, shear.toReal i.castSucc j.castSucc * p45.toReal j + shear.toReal i.castSucc 2)
    rw [shear_real]
    fin_cases i
    · exact (OnGrid.int (n := 17) (by norm_num)).congr (by simp [p45, Point2.toReal, real_int32]; norm_num)
    · exact (OnGrid.int (n := 9) (by norm_num)).congr (by simp [p45, Point2.toReal, real_int32]; norm_num)
  have q2 := C68_transform_point2 (e := 0) (f := 0) (⟨r, shear⟩ : Transform2 F32) q fr q1.1
    (by show r.toReal 2 = _; rw [er]; exact shear_inv_aff)
    (fun i j => by show OnGrid 0 5 (r.toReal _ _); rw [er]; exact grid_shear_inv _ _)
    (fun i => by show OnGrid 0 5 (r.toReal _ _); rw [er]; exact grid_shear_inv _ _) gq (fits_f32 (by norm_num))
  refine ⟨⟨shear, r⟩, ?_, fr, ?_, fun i => ?_, ?_⟩
  · simp [Transform2.tryFrom, hr, Bind.bind, Except.bind, pure, Except.pure, Transform2.new]
  · show r.toReal ≠ 0
    rw [er]
    intro h
    have := congrFun (congrFun h 2) 2
    rw [shear_inv] at this
    simp at this
  · exact C84_point2 ⟨shear, r⟩ p45 finite_shear fr finite_p45 shear_aff (by show r.toReal 2 = _; rw [er]; exact shear_inv_aff)
      q1.1 q2.1 i
  · show lost r.toReal shear.toReal p45.homog 0 = 0
    unfold lost
    rw [er, Matrix.nonsing_inv_mul _ ((Matrix.isUnit_iff_isUnit_det _).1 shear_unit)]
    simp

theorem fits_quarter {e : ℤ} {N : ℕ} (h : -100 ≤ e ∧ e ≤ 0 := by norm_num) (hN : N ≤ 16777216 := by norm_num) : Fits F32 e N :=
  ⟨by have : (Binary.F F32).emin = -149 := by decide
      omega, by simpa [Binary.F, binary32] using hN,
    by have : (Binary.F F32).emax = 128 := by decide
       have : (Binary.F F32).p = 24 := by decide
       omega⟩
theorem g_int (n : ℤ) (h : |n| ≤ 16777216) {N : ℕ} (hN : |n| ≤ N) : G 0 N (int32 n h) n :=
  ⟨⟨finite_int32, rfl⟩, OnGrid.int hN⟩
theorem G.transfer {e : ℤ} {N : ℕ} {a b : F32} {x : ℝ} (h : (a == b) = true) (hb : G e N b x) : G e N a x :=
  ⟨⟨(finite_num (num_of_beq h)).2 hb.ex.1, (real_num (num_of_beq h)).trans hb.ex.2⟩, hb.on⟩

/-- C84: translating the point `(4, 5)` by `(3, 4)` and back. -/
theorem translate_trip :
    (∀ i, |(Transform.transform (Transform2.translate v34).inv (Transform.transform (Transform2.translate v34) p45 : Point2 F32) : Point2 F32).toReal i -
      p45.toReal i| ≤ uro F32 * |p45.toReal i| + (1 + uro F32) * uro F32 * |p45.toReal i + v34.toReal i|) ∧
    ((Transform.transform (Transform2.translate v34).inv (Transform.transform (Transform2.translate v34) v34 : Vector2 F32) : Vector2 F32) == v34) = true := by
  have b1 := Point2.beq_iff.1 (C46_float_translate2 v34 v34 p45 finite_p45 finite_v34.noNaN finite_v34).1
  have gx := G.transfer b1.1 ((g_int 4 (by norm_num) (N := 4) (by norm_num)).add (g_int 3 (by norm_num) (N := 3) (by norm_num)) (fits_f32 (by norm_num)))
  have gy := G.transfer b1.2 ((g_int 5 (by norm_num) (N := 5) (by norm_num)).add (g_int 4 (by norm_num) (N := 4) (by norm_num)) (fits_f32 (by norm_num)))
  have hq : AllFinite (Transform.transform (Transform2.translate v34) p45 : Point2 F32) :=
    Point2.allFinite.2 ⟨gx.ex.1, gy.ex.1⟩
  have hn : AllFinite (-v34) := Vector2.allFinite.2 ⟨finite_neg.2 trivial, finite_neg.2 trivial⟩
  have b2 := Point2.beq_iff.1 (C46_float_translate2 (-v34) v34 _ hq hn.noNaN finite_v34).1
  have hx := G.transfer b2.1 (gx.add (g_int 3 (by norm_num) (N := 3) (by norm_num)).neg (fits_f32 (by norm_num)))
  have hy := G.transfer b2.2 (gy.add (g_int 4 (by norm_num) (N := 4) (by norm_num)).neg (fits_f32 (by norm_num)))
  exact C84_translate2 v34 v34 p45 finite_v34 finite_v34 finite_p45 hq (Point2.allFinite.2 ⟨hx.ex.1, hy.ex.1⟩)
/-- C84: scaling the point `(4, 5)` by `(2, 4)` and back. -/
theorem scale_trip (i : Fin 2) :
    |(Transform.transform (Transform2.scale (int32 2) (int32 4)).inv
        (Transform.transform (Transform2.scale (int32 2) (int32 4)) p45 : Point2 F32) : Point2 F32).toReal i - p45.toReal i| ≤
      ((1 + uro F32) ^ 3 - 1) * |p45.toReal i| := by
  have h2 := g_int 2 (by norm_num) (N := 4) (by norm_num)
  have h4 := g_int 4 (by norm_num) (N := 4) (by norm_num)
  have p4 := g_int 4 (by norm_num) (N := 5) (by norm_num)
  have p5 := g_int 5 (by norm_num) (N := 5) (by norm_num)
  have hone : G 0 1 (Scalar.one : F32) 1 := ⟨⟨finite_one, real_one⟩, (OnGrid.int (n := 1) (by norm_num)).congr (by norm_num)⟩
  have r2 : G (-2) 2 (recip (int32 2)) (1 / ((2 : ℤ) : ℝ)) :=
    G.div hone h2 (by norm_num) ⟨2, by norm_num, by norm_num⟩ fits_quarter
  have r4 : G (-2) 2 (recip (int32 4)) (1 / ((4 : ℤ) : ℝ)) :=
    G.div hone h4 (by norm_num) ⟨1, by norm_num, by norm_num⟩ fits_quarter
  have z : AllFinite (Vector2.zero : Vector2 F32) := Vector2.allFinite.2 ⟨finite_zero, finite_zero⟩
  have b1 := Point2.beq_iff.1 (C46_float_scale2 (int32 2) (int32 4) Vector2.zero p45 h2.ex.1 h4.ex.1 finite_p45 z).1
  have gx := G.transfer b1.1 (h2.mul p4 (fits_f32 (by norm_num)))
  have gy := G.transfer b1.2 (h4.mul p5 (fits_f32 (by norm_num)))
  have hq : AllFinite (Transform.transform (Transform2.scale (int32 2) (int32 4)) p45 : Point2 F32) :=
    Point2.allFinite.2 ⟨gx.ex.1, gy.ex.1⟩
  have b2 := Point2.beq_iff.1 (C46_float_scale2 (recip (int32 2)) (recip (int32 4)) Vector2.zero _ r2.ex.1 r4.ex.1 hq z).1
  have hx := G.transfer b2.1 (r2.mul gx fits_quarter)
  have hy := G.transfer b2.2 (r4.mul gy fits_quarter)
  exact C84_scale2 (int32 2) (int32 4) p45 finite_p45 trivial (by rw [real_int32]; norm_num) trivial
    (by rw [real_int32]; norm_num) r2.ex.1 r4.ex.1 hq (Point2.allFinite.2 ⟨hx.ex.1, hy.ex.1⟩)
    (div_normal (by rw [real_int32]; norm_num)) (div_normal (by rw [show real p45.x = ((4 : ℤ) : ℝ) from rfl, real_int32]; norm_num))
    (div_normal (by rw [r2.ex.2, show real (int32 2 * p45.x) = _ from (h2.mul p4 (fits_f32 (by norm_num))).ex.2]; norm_num))
    (div_normal (by rw [real_int32]; norm_num)) (div_normal (by rw [show real p45.y = ((5 : ℤ) : ℝ) from rfl, real_int32]; norm_num))
    (div_normal (by rw [r4.ex.2, show real (int32 4 * p45.y) = _ from (h4.mul p5 (fits_f32 (by norm_num))).ex.2]; norm_num)) i
/-- C85: the image under the shear of the point `(4, 5) + 10 (3, 4)` of a ray. -/
theorem shear_ray (i : Fin 2) :
    |(Transform.transform (⟨shear, shear⟩ : Transform2 F32) ((⟨p45, v34⟩ : Ray2 F32).at (int32 10)) : Point2 F32).toReal i -
      ((Transform.transform (⟨shear, shear⟩ : Transform2 F32) (⟨p45, v34⟩ : Ray2 F32) : Ray2 F32).at (int32 10)).toReal i| ≤
    (((1 + uro F32) ^ 5 - 1) + ((1 + uro F32) ^ 4 - 1)) *
        imageSize (fun j => shear.toReal i.castSucc j.castSucc) (shear.toReal i.castSucc 2) p45.toReal v34.toReal (real (int32 10)) +
      (flushPoint F32 (fun j => shear.toReal i.castSucc j.castSucc) + flushRay F32 2 (real (int32 10))) := by
  have a1 := C68_at2 (e := 0) (f := 0) (K := 5) (M := 4) (N := 10) (⟨p45, v34⟩ : Ray2 F32) (int32 10) finite_p45 finite_v34
    trivial grid_p45 grid_v34 (OnGrid.int (n := 10) (by norm_num)) (fits_f32 (by norm_num))
  have ga : ∀ i, OnGrid 0 50 (((⟨p45, v34⟩ : Ray2 F32).at (int32 10)).toReal i) := by
    intro i
    rw [a1.2 i]
    fin_cases i
    · exact (OnGrid.int (n := 34) (by norm_num)).congr (by simp [p45, v34, Point2.toReal, Vector2.toReal, real_int32]; norm_num)
    · exact (OnGrid.int (n := 45) (by norm_num)).congr (by simp [p45, v34, Point2.toReal, Vector2.toReal, real_int32]; norm_num)
  have q1 := C68_transform_point2 (e := 0) (f := 0) (⟨shear, shear⟩ : Transform2 F32) _ finite_shear a1.1 shear_aff
    (fun i j => grid_shear _ _) (fun i => grid_shear _ _) ga (fits_f32 (by norm_num))
  have o1 := C68_transform_point2 (e := 0) (f := 0) (⟨shear, shear⟩ : Transform2 F32) p45 finite_shear finite_p45 shear_aff
    (fun i j => grid_shear _ _) (fun i => grid_shear _ _) grid_p45 (fits_f32 (by norm_num))
  have d1 := C68_transform_vector2 (e := 0) (f := 0) (⟨shear, shear⟩ : Transform2 F32) v34 finite_shear finite_v34
    (fun i j => grid_shear _ _) grid_v34 (fits_f32 (by norm_num))
  have go : ∀ i, OnGrid 0 50 ((Transform.transform (⟨shear, shear⟩ : Transform2 F32) p45 : Point2 F32).toReal i) := by
    intro i
    rw [o1.2 i]
    show OnGrid 0 50 (∑ j : Fin 2, shear.toReal i.castSucc j.castSucc * p45.toReal j + shear.toReal i.castSucc 2)
    rw [shear_real]
    fin_cases i
    · exact (OnGrid.int (n := 17) (by norm_num)).congr (by simp [p45, Point2.toReal, real_int32]; norm_num)
    · exact (OnGrid.int (n := 9) (by norm_num)).congr (by simp [p45, Point2.toReal, real_int32]; norm_num)
  have gd : ∀ i, OnGrid 0 50 ((Transform.transform (⟨shear, shear⟩ : Transform2 F32) v34 : Vector2 F32).toReal i) := by
    intro i
    rw [d1.2 i]
    show OnGrid 0 50 (∑ j : Fin 2, shear.toReal i.castSucc j.castSucc * v34.toReal j)
    rw [shear_real]
    fin_cases i
    · exact (OnGrid.int (n := 11) (by norm_num)).congr (by simp [v34, Vector2.toReal, real_int32]; norm_num)
    · exact (OnGrid.int (n := 4) (by norm_num)).congr (by simp [v34, Vector2.toReal, real_int32])
  have a2 := C68_at2 (e := 0) (f := 0) (K := 50) (M := 50) (N := 10)
    (Transform.transform (⟨shear, shear⟩ : Transform2 F32) (⟨p45, v34⟩ : Ray2 F32) : Ray2 F32) (int32 10) o1.1 d1.1
    trivial go gd (OnGrid.int (n := 10) (by norm_num)) (fits_f32 (by norm_num))
  exact C85_commute2 (⟨shear, shear⟩ : Transform2 F32) ⟨p45, v34⟩ (int32 10) finite_shear shear_aff a1.1 q1.1
    finite_p45 d1.1 a2.1 i
end VecMath
