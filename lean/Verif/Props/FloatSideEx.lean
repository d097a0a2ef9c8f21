import Verif.Props.FloatSide
import Verif.Props.FloatMovingEx
import Verif.Props.FloatExamples12
import Verif.Props.FloatExamples8
import Verif.Props.FloatExamples10
/-!
# C107: concrete `f32` cases, and signs that come out wrong
-/

open Classical

namespace VecMath
open Scalar IEEE

theorem big32 {x : ℝ} (h : |x| ≤ 2 ^ 30) : |x| < overflowAt F32 := by
  refine lt_of_le_of_lt h ((?_ : (2 : ℝ) ^ 30 ≤ _).trans_lt (half_le_overflow (S := F32)))
  show (2 : ℝ) ^ 30 ≤ 2 ^ ((128 : ℤ) - 1)
  norm_num
theorem int_sub32 {a b : ℤ} {ha : |a| ≤ 16777216} {hb : |b| ≤ 16777216} (h : |a - b| ≤ 16777216) :
    Exactly (int32 a ha - int32 b hb) ((a - b : ℤ) : ℝ) := by
  refine exec_sub exactly_int exactly_int ?_ ?_ <;> rw [← Int.cast_sub]
  · exact rnd_int32 h
  · refine big32 ?_
    rw [← Int.cast_abs]
    exact_mod_cast h.trans (by norm_num)

/-- `(1028, 514, -43)` -/
noncomputable def wrongU : Vector3 F32 := ⟨int32 1028, int32 514, int32 (-43)⟩
/-- `(65281, 65281, 2341007)` -/
noncomputable def wrongV : Vector3 F32 := ⟨int32 65281, int32 65281, int32 2341007⟩
theorem wrong_dot : Exactly (Api.dot wrongU wrongV) (-8) := by
  have m1 : Exactly ((int32 1028 : F32) * int32 65281) 67108864 := by
    refine exec_mul exactly_int exactly_int ?_ (big32 (by norm_num))
    have := Fmt.rnd_lit_even binary32 (x := 67108868) 26 3 8388608 (by decide) (by decide) (by norm_num) (by norm_num) (by norm_num) (by norm_num)
    norm_num at this ⊢
    exact this
  have m2 : Exactly ((int32 514 : F32) * int32 65281) 33554432 := by
    refine exec_mul exactly_int exactly_int ?_ (big32 (by norm_num))
    have := Fmt.rnd_lit_even binary32 (x := 33554434) 25 2 8388608 (by decide) (by decide) (by norm_num) (by norm_num) (by norm_num) (by norm_num)
    norm_num at this ⊢
    exact this
  have m3 : Exactly ((int32 (-43) : F32) * int32 2341007) (-100663304) := by
    refine exec_mul exactly_int exactly_int ?_ (big32 (by norm_num))
    have := Fmt.rnd_lit binary32 (x := 100663301) 26 3 12582913 (by decide) (by norm_num) (by norm_num) (by norm_num) (by norm_num)
    have n := (IEEE.A F32).rnd_neg 100663301
    norm_num at this n ⊢
    refine Eq.trans n ?_
    rw [← this]; rfl
  have s : Exactly ((int32 1028 : F32) * int32 65281 + int32 514 * int32 65281) 100663296 := by
    refine exec_add m1 m2 ?_ (big32 (by norm_num))
    have := Fmt.rnd_lit binary32 (x := 100663296) 26 3 12582912 (by decide) (by norm_num) (by norm_num) (by norm_num) (by norm_num)
    norm_num at this ⊢
    exact this
  refine exec_add s m3 ?_ (big32 (by norm_num))
  have := rnd_int32 (n := -8) (by norm_num)
  norm_num at this ⊢
  exact this
/-- **C107**: the 3D dot product of `f32` can have the wrong sign: exactly 1, computed -8. -/
theorem C107_wrong_sign : (∑ i, wrongU.toReal i * wrongV.toReal i) = 1 ∧ (Api.dot wrongU wrongV <? zero) = true := by
  constructor
  · rw [Fin.sum_univ_three]
    show real (int32 1028) * real (int32 65281) + real (int32 514) * real (int32 65281) + real (int32 (-43)) * real (int32 2341007) = 1
    simp only [real_int32]; norm_num
  · rw [olt_real wrong_dot.1 finite_zero, wrong_dot.2, real_zero]; norm_num

/-- **C107**: a point strictly on one side of a plane of which the computed side is zero: exactly 1, computed 0. -/
theorem C107_lost_side : ∃ (n : Vector2 F32) (o p : Point2 F32), AllFinite n ∧ AllFinite o ∧ AllFinite p ∧
    planeSide n.toReal o.toReal p.toReal = 1 ∧ (Api.dot n (p - o : Vector2 F32) == zero) = true := by
  refine ⟨⟨int32 1, int32 1⟩, ⟨int32 (-1), int32 16777216⟩, ⟨int32 16777216, int32 0⟩, Vector2.allFinite.2 ⟨trivial, trivial⟩,
    Point2.allFinite.2 ⟨trivial, trivial⟩, Point2.allFinite.2 ⟨trivial, trivial⟩, ?_, ?_⟩
  · rw [planeSide, Fin.sum_univ_two]
    show real (int32 1) * (real (int32 16777216) - real (int32 (-1))) + real (int32 1) * (real (int32 0) - real (int32 16777216)) = 1
    simp only [real_int32]; norm_num
  · have d1 : Exactly ((int32 16777216 : F32) - int32 (-1)) ((16777216 : ℤ) : ℝ) := by
      refine exec_sub exactly_int exactly_int ?_ (big32 (by norm_num [abs_of_pos]))
      have := Fmt.rnd_lit_even binary32 (x := 16777217) 24 1 8388608 (by decide) (by decide) (by norm_num) (by norm_num) (by norm_num) (by norm_num)
      norm_num at this ⊢
      exact this
    have d2 : Exactly ((int32 0 : F32) - int32 16777216) ((-16777216 : ℤ) : ℝ) := int_sub32 (by norm_num)
    have m1 : Exactly (int32 1 * ((int32 16777216 : F32) - int32 (-1))) ((16777216 : ℤ) : ℝ) := by
      refine exec_mul exactly_int d1 ?_ (big32 (by norm_num))
      rw [Int.cast_one, one_mul]; exact rnd_int32 (by norm_num)
    have m2 : Exactly (int32 1 * ((int32 0 : F32) - int32 16777216)) ((-16777216 : ℤ) : ℝ) := by
      refine exec_mul exactly_int d2 ?_ (big32 (by norm_num))
      rw [Int.cast_one, one_mul]; exact rnd_int32 (by norm_num)
    have r : Exactly (int32 1 * ((int32 16777216 : F32) - int32 (-1)) + int32 1 * ((int32 0 : F32) - int32 16777216)) ((0 : ℤ) : ℝ) := by
      refine exec_add m1 m2 ?_ (big32 (by norm_num))
      rw [← Int.cast_add]; exact rnd_int32 (by norm_num)
    refine (obeq_real r.1 finite_zero).2 ?_
    rw [real_zero]
    exact r.2.trans (by norm_num)

/-! ### A plane through `(1, 1, 1)` with normal `(2, 3, 6)`, the point `(3, 3, 2)`; a tetrahedron with integer corners -/

noncomputable def pt3 (a b c : ℤ) (ha : |a| ≤ 16777216 := by norm_num) (hb : |b| ≤ 16777216 := by norm_num) (hc : |c| ≤ 16777216 := by norm_num) :
    Point3 F32 := ⟨int32 a ha, int32 b hb, int32 c hc⟩
noncomputable def pt2 (a b : ℤ) (ha : |a| ≤ 16777216 := by norm_num) (hb : |b| ≤ 16777216 := by norm_num) : Point2 F32 := ⟨int32 a ha, int32 b hb⟩
theorem grid_pt3 {a b c : ℤ} {ha : |a| ≤ 16777216} {hb : |b| ≤ 16777216} {hc : |c| ≤ 16777216} {N : ℕ} (h1 : |a| ≤ N) (h2 : |b| ≤ N) (h3 : |c| ≤ N)
    (i : Fin 3) : OnGrid 0 N ((pt3 a b c ha hb hc).toReal i) := by
  fin_cases i
  · exact (OnGrid.int h1).congr (real_int32 (n := a) (h := ha)).symm
  · exact (OnGrid.int h2).congr (real_int32 (n := b) (h := hb)).symm
  · exact (OnGrid.int h3).congr (real_int32 (n := c) (h := hc)).symm
theorem grid_pt2 {a b : ℤ} {ha : |a| ≤ 16777216} {hb : |b| ≤ 16777216} {N : ℕ} (h1 : |a| ≤ N) (h2 : |b| ≤ N)
    (i : Fin 2) : OnGrid 0 N ((pt2 a b ha hb).toReal i) := by
  fin_cases i
  · exact (OnGrid.int h1).congr (real_int32 (n := a) (h := ha)).symm
  · exact (OnGrid.int h2).congr (real_int32 (n := b) (h := hb)).symm
theorem finite_pt3 {a b c : ℤ} {ha : |a| ≤ 16777216} {hb : |b| ≤ 16777216} {hc : |c| ≤ 16777216} : AllFinite (pt3 a b c ha hb hc) :=
  Point3.allFinite.2 ⟨trivial, trivial, trivial⟩
theorem finite_pt2 {a b : ℤ} {ha : |a| ≤ 16777216} {hb : |b| ≤ 16777216} : AllFinite (pt2 a b ha hb) :=
  Point2.allFinite.2 ⟨trivial, trivial⟩
theorem side_236 : Exactly (Api.dot v236 (pt3 3 3 2 - pt3 1 1 1 : Vector3 F32)) 16 := by
  have := C107_exact_side3 (e := 0) (f := 0) (M := 6) (N := 3) v236 (pt3 1 1 1) (pt3 3 3 2) finite_v236 finite_pt3 finite_pt3 grid_v236
    (grid_pt3 (by norm_num) (by norm_num) (by norm_num)) (grid_pt3 (by norm_num) (by norm_num) (by norm_num)) (fits_f32 (by norm_num)) (fits_f32 (by norm_num))
  refine ⟨this.1, this.2.trans ?_⟩
  rw [planeSide, Fin.sum_univ_three]
  show real (int32 2) * (real (int32 3) - real (int32 1)) + real (int32 3) * (real (int32 3) - real (int32 1)) + real (int32 6) * (real (int32 2) - real (int32 1)) = 16
  simp only [real_int32]; norm_num
theorem side_34 : Exactly (Api.dot v34 (pt2 3 3 - pt2 1 1 : Vector2 F32)) 14 := by
  have := C107_exact_side2 (e := 0) (f := 0) (M := 4) (N := 3) v34 (pt2 1 1) (pt2 3 3) finite_v34 finite_pt2 finite_pt2 grid_v34
    (grid_pt2 (by norm_num) (by norm_num)) (grid_pt2 (by norm_num) (by norm_num)) (fits_f32 (by norm_num)) (fits_f32 (by norm_num))
  refine ⟨this.1, this.2.trans ?_⟩
  rw [planeSide, Fin.sum_univ_two]
  show real (int32 3) * (real (int32 3) - real (int32 1)) + real (int32 4) * (real (int32 3) - real (int32 1)) = 14
  simp only [real_int32]; norm_num
theorem finite_diff3 {a b c a' b' c' : ℤ} {ha : |a| ≤ 16777216} {hb : |b| ≤ 16777216} {hc : |c| ≤ 16777216} {ha' : |a'| ≤ 16777216} {hb' : |b'| ≤ 16777216}
    {hc' : |c'| ≤ 16777216} (h1 : |a - a'| ≤ 16777216) (h2 : |b - b'| ≤ 16777216) (h3 : |c - c'| ≤ 16777216) :
    AllFinite (pt3 a b c ha hb hc - pt3 a' b' c' ha' hb' hc' : Vector3 F32) :=
  Vector3.allFinite.2 ⟨(int_sub32 (ha := ha) (hb := ha') h1).1, (int_sub32 (ha := hb) (hb := hb') h2).1, (int_sub32 (ha := hc) (hb := hc') h3).1⟩
theorem finite_diff2 {a b a' b' : ℤ} {ha : |a| ≤ 16777216} {hb : |b| ≤ 16777216} {ha' : |a'| ≤ 16777216} {hb' : |b'| ≤ 16777216}
    (h1 : |a - a'| ≤ 16777216) (h2 : |b - b'| ≤ 16777216) :
    AllFinite (pt2 a b ha hb - pt2 a' b' ha' hb' : Vector2 F32) :=
  Vector2.allFinite.2 ⟨(int_sub32 (ha := ha) (hb := ha') h1).1, (int_sub32 (ha := hb) (hb := hb') h2).1⟩
theorem finite_236 : AllFinite (pt3 3 3 2 - pt3 1 1 1 : Vector3 F32) :=
  finite_diff3 (by norm_num) (by norm_num) (by norm_num)
theorem finite_34 : AllFinite (pt2 3 3 - pt2 1 1 : Vector2 F32) :=
  finite_diff2 (by norm_num) (by norm_num)
theorem cross_236 : AllFinite (Api.cross v236 (⟨int32 1, int32 0, int32 0⟩ : Vector3 F32) : Vector3 F32) :=
  (C68_cross3 (e := 0) (f := 0) (M := 6) (N := 1) v236 ⟨int32 1, int32 0, int32 0⟩ finite_v236 (Vector3.allFinite.2 ⟨trivial, trivial, trivial⟩) grid_v236
    (grid_pt3 (a := 1) (b := 0) (c := 0) (ha := by norm_num) (hb := by norm_num) (hc := by norm_num) (by norm_num) (by norm_num) (by norm_num)) (fits_f32 (by norm_num))).1
example := C107_cross_sign v236 ⟨int32 1, int32 0, int32 0⟩ finite_v236 (Vector3.allFinite.2 ⟨trivial, trivial, trivial⟩) cross_236.noNaN
/-- the sign claim is not empty: the second component is positive -/
example : ((Api.cross v236 (⟨int32 1, int32 0, int32 0⟩ : Vector3 F32) : Vector3 F32).y >? zero) = true := by
  have c := C68_cross3 (e := 0) (f := 0) (M := 6) (N := 1) v236 ⟨int32 1, int32 0, int32 0⟩ finite_v236 (Vector3.allFinite.2 ⟨trivial, trivial, trivial⟩) grid_v236
    (grid_pt3 (a := 1) (b := 0) (c := 0) (ha := by norm_num) (hb := by norm_num) (hc := by norm_num) (by norm_num) (by norm_num) (by norm_num)) (fits_f32 (by norm_num))
  have f := Vector3.allFinite.1 c.1
  have r : real (Api.cross v236 (⟨int32 1, int32 0, int32 0⟩ : Vector3 F32) : Vector3 F32).y = 6 := by
    have := congrFun c.2 1
    rw [cross_apply] at this
    refine Eq.trans this ?_
    show real (int32 6) * real (int32 1) - real (int32 2) * real (int32 0) = 6
    simp only [real_int32]; norm_num
  exact (olt_real finite_zero f.2.1).2 (by rw [real_zero, r]; norm_num)
example := C107_dot_sign2 v34 (pt2 3 3 - pt2 1 1) finite_v34 finite_34 side_34.1.not_nan
example := C107_flip2 v34 (pt2 1 1) (pt2 3 3) side_34.1.not_nan
example := C107_flip3 v236 (pt3 1 1 1) (pt3 3 3 2) side_236.1.not_nan
example := C107_axis2 (pt2 1 1) (pt2 3 3) .Y finite_34
example := C107_axis3 (pt3 1 1 1) (pt3 3 3 2) .Z finite_236
example := C107_error2 v34 (pt2 1 1) (pt2 3 3) side_34.1
example := C107_error3 v236 (pt3 1 1 1) (pt3 3 3 2) side_236.1
example : (Api.dot v236 (pt3 3 3 2 - pt3 1 1 1 : Vector3 F32) >? zero) = true := by
  refine (C107_side3 v236 (pt3 1 1 1) (pt3 3 3 2) side_236.1).1 ?_
  have e : planeSide v236.toReal (pt3 1 1 1).toReal (pt3 3 3 2).toReal = 16 := by
    rw [planeSide, Fin.sum_univ_three]
    show real (int32 2) * (real (int32 3) - real (int32 1)) + real (int32 3) * (real (int32 3) - real (int32 1)) + real (int32 6) * (real (int32 2) - real (int32 1)) = 16
    simp only [real_int32]; norm_num
  have a : planeAbs v236.toReal (pt3 1 1 1).toReal (pt3 3 3 2).toReal = 16 := by
    rw [planeAbs, Fin.sum_univ_three]
    show |real (int32 2)| * |real (int32 3) - real (int32 1)| + |real (int32 3)| * |real (int32 3) - real (int32 1)| + |real (int32 6)| * |real (int32 2) - real (int32 1)| = 16
    simp only [real_int32]; norm_num [abs_of_pos]
  rw [e, a, planeErr, gam, uroE_f32, tinyE_f32]
  norm_num
/-- The certificate applies: 14 exceeds `8u · 14` and four times `2^-150`. -/
example : 0 < planeSide v34.toReal (pt2 1 1).toReal (pt2 3 3).toReal := by
  have d : ∀ {a b : ℤ} {ha : |a| ≤ 16777216} {hb : |b| ≤ 16777216}, |a - b| ≤ 16777216 → Exactly (Scalar.abs (int32 a ha - int32 b hb)) |((a - b : ℤ) : ℝ)| :=
    fun h => ⟨finite_abs.2 (int_sub32 h).1, by rw [IEEE.real_abs, (int_sub32 h).2]⟩
  have h' : Exactly (Api.dot v34.abs (pt2 3 3 - pt2 1 1 : Vector2 F32).abs : F32) 14 := by
    have x1 : Exactly (Scalar.abs (int32 3 : F32)) ((3 : ℤ) : ℝ) := ⟨finite_abs.2 trivial, by rw [IEEE.real_abs, real_int32]; norm_num⟩
    have x2 : Exactly (Scalar.abs (int32 4 : F32)) ((4 : ℤ) : ℝ) := ⟨finite_abs.2 trivial, by rw [IEEE.real_abs, real_int32]; norm_num⟩
    have y : Exactly (Scalar.abs ((int32 3 : F32) - int32 1)) ((2 : ℤ) : ℝ) := ⟨(d (by norm_num)).1, (d (by norm_num)).2.trans (by norm_num)⟩
    have m1 : Exactly (Scalar.abs (int32 3 : F32) * Scalar.abs ((int32 3 : F32) - int32 1)) ((6 : ℤ) : ℝ) :=
      exec_mul x1 y (by rw [← Int.cast_mul]; exact rnd_int32 (by norm_num)) (big32 (by norm_num))
    have m2 : Exactly (Scalar.abs (int32 4 : F32) * Scalar.abs ((int32 3 : F32) - int32 1)) ((8 : ℤ) : ℝ) :=
      exec_mul x2 y (by rw [← Int.cast_mul]; exact rnd_int32 (by norm_num)) (big32 (by norm_num))
    have r : Exactly (Scalar.abs (int32 3 : F32) * Scalar.abs ((int32 3 : F32) - int32 1) + Scalar.abs (int32 4 : F32) * Scalar.abs ((int32 3 : F32) - int32 1)) ((14 : ℤ) : ℝ) :=
      exec_add m1 m2 (by rw [← Int.cast_add]; exact rnd_int32 (by norm_num)) (big32 (by norm_num))
    exact ⟨r.1, r.2.trans (by norm_num)⟩
  refine (C107_filter2 standard_f32 v34 (pt2 1 1) (pt2 3 3) side_34.1 h'.1).1 ?_
  rw [h'.2, side_34.2, uroE_f32, tinyE_f32]
  norm_num
/-- A flat triangle: `z = 5`. -/
example := C107_flat (pt3 0 0 5) (pt3 1 0 5) (pt3 0 2 5) (finite_diff3 (by norm_num) (by norm_num) (by norm_num))
  (finite_diff3 (by norm_num) (by norm_num) (by norm_num)) .Z .X
  ((obeq_real (finite_int32 (h := by norm_num)) (finite_int32 (h := by norm_num))).2 rfl) ((obeq_real (finite_int32 (h := by norm_num)) (finite_int32 (h := by norm_num))).2 rfl) (by decide)
/-- The tetrahedron `(1,1,1) (3,1,1) (1,4,1) (1,1,6)`: 30, computed exactly. -/
theorem tetra : Exactly (Api.dot (Api.cross (pt3 3 1 1 - pt3 1 1 1 : Vector3 F32) (pt3 1 4 1 - pt3 1 1 1 : Vector3 F32) : Vector3 F32) (pt3 1 1 6 - pt3 1 1 1 : Vector3 F32)) 30 := by
  have := C107_exact_volume (S := F32) (e := 0) (N := 6) (pt3 1 1 1) (pt3 3 1 1) (pt3 1 4 1) (pt3 1 1 6) finite_pt3 finite_pt3 finite_pt3 finite_pt3
    (grid_pt3 (by norm_num) (by norm_num) (by norm_num)) (grid_pt3 (by norm_num) (by norm_num) (by norm_num)) (grid_pt3 (by norm_num) (by norm_num) (by norm_num))
    (grid_pt3 (by norm_num) (by norm_num) (by norm_num)) (fits_f32 (by norm_num)) (fits_f32 (by norm_num)) (fits_f32 (by norm_num))
  refine ⟨this.1, this.2.trans ?_⟩
  rw [Matrix.det_fin_three]
  simp only [edges, Matrix.cons_val_zero, Matrix.cons_val_one, Matrix.cons_val_two, Matrix.head_cons, Matrix.tail_cons,
    Matrix.cons_val, Pi.sub_apply, Point3.toReal, pt3, real_int32]
  norm_num
example := C107_orientation (pt3 1 1 1) (pt3 3 1 1) (pt3 1 4 1) (pt3 1 1 6) (M := 5) tetra.1 (fun i => by
  fin_cases i <;> simp [Point3.toReal, pt3, real_int32] <;> norm_num [abs_of_pos])
example := C107_swap (pt3 1 1 1) (pt3 3 1 1) (pt3 1 4 1) (by
  have h := tetra.1
  have q := finite_of_add h
  exact (Vector3.allFinite.2 ⟨(finite_of_mul (finite_of_add q.1).1).1, (finite_of_mul (finite_of_add q.1).2).1, (finite_of_mul q.2).1⟩).noNaN)
end VecMath
