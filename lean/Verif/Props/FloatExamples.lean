import Verif.Props.FloatExact
import Verif.Props.FloatLimits
import Verif.Props.FloatBoxTr
import Verif.Props.FloatZero
import Verif.Props.FloatRayAcc
/-!
# Concrete `f32` cases for the theorems about rounding

Each example exhibits `f32` values that meet the hypotheses of the theorem it names and applies the theorem.
-/

open Classical

namespace VecMath
open Scalar IEEE

/-- The `f32` integer `n`. -/
noncomputable def int32 (n : ℤ) (h : |n| ≤ 16777216 := by norm_num) : F32 :=
  Fl.of (F := binary32) n ⟨n, 0, by decide, by simpa [binary32] using h, by simp⟩ (by
    have h1 : ((|n| : ℤ) : ℝ) ≤ 16777216 := by exact_mod_cast h
    rw [Int.cast_abs] at h1
    refine h1.trans_lt ?_
    show (16777216 : ℝ) < 2 ^ (128 : ℤ)
    norm_num)
theorem finite_int32 {n : ℤ} {h} : IsFinite (int32 n h) := trivial
theorem real_int32 {n : ℤ} {h} : real (int32 n h) = n := rfl
theorem fits_f32 {N : ℕ} (h : N ≤ 16777216) : Fits F32 0 N :=
  ⟨by decide, by simpa [Binary.F, binary32] using h, by decide⟩
theorem normal_int (n : ℤ) : Normal F32 (n : ℝ) := by
  by_cases h : n = 0
  · left; simp [h]
  · right
    refine (one_normal (S := F32)).trans ?_
    have : 1 ≤ |n| := Int.one_le_abs h
    exact_mod_cast this
theorem normal_int_of {x : ℝ} (n : ℤ) (h : x = n) : Normal F32 x := h ▸ normal_int n

/-- `(3, 4)` -/
noncomputable def v34 : Vector2 F32 := ⟨int32 3, int32 4⟩
/-- `(2, 3, 6)` -/
noncomputable def v236 : Vector3 F32 := ⟨int32 2, int32 3, int32 6⟩
theorem finite_v34 : AllFinite v34 := Vector2.allFinite.2 ⟨trivial, trivial⟩
theorem finite_v236 : AllFinite v236 := Vector3.allFinite.2 ⟨trivial, trivial, trivial⟩
theorem grid_v34 (i : Fin 2) : OnGrid 0 4 (v34.toReal i) := by
  fin_cases i
  · exact OnGrid.int (n := 3) (by norm_num)
  · exact OnGrid.int (n := 4) (by norm_num)
theorem grid_v236 (i : Fin 3) : OnGrid 0 6 (v236.toReal i) := by
  fin_cases i
  · exact OnGrid.int (n := 2) (by norm_num)
  · exact OnGrid.int (n := 3) (by norm_num)
  · exact OnGrid.int (n := 6) (by norm_num)
theorem sq_v34 : ∑ i, v34.toReal i ^ 2 = 5 ^ 2 := by
  rw [Fin.sum_univ_two]; show ((3 : ℤ) : ℝ) ^ 2 + ((4 : ℤ) : ℝ) ^ 2 = _; norm_num
theorem sq_v236 : ∑ i, v236.toReal i ^ 2 = 7 ^ 2 := by
  rw [Fin.sum_univ_three]; show ((2 : ℤ) : ℝ) ^ 2 + ((3 : ℤ) : ℝ) ^ 2 + ((6 : ℤ) : ℝ) ^ 2 = _; norm_num

/-- C68: the `f32` length of `(3, 4)` is exactly 5. -/
theorem length_v34 : Exactly (Api.length v34) 5 := by
  have h5 : √(∑ i, v34.toReal i ^ 2) = 5 := by rw [sq_v34]; exact Real.sqrt_sq (by norm_num)
  have := C68_length2 (d := 0) (K := 5) v34 finite_v34 grid_v34 (fits_f32 (by norm_num))
    (by rw [h5]; exact OnGrid.int (n := 5) (by norm_num)) (fits_f32 (by norm_num))
  rwa [h5] at this
/-- C68: the `f32` length of `(2, 3, 6)` is exactly 7. -/
theorem length_v236 : Exactly (Api.length v236) 7 := by
  have h7 : √(∑ i, v236.toReal i ^ 2) = 7 := by rw [sq_v236]; exact Real.sqrt_sq (by norm_num)
  have := C68_length3 (d := 0) (K := 7) v236 finite_v236 grid_v236 (fits_f32 (by norm_num))
    (by rw [h7]; exact OnGrid.int (n := 7) (by norm_num)) (fits_f32 (by norm_num))
  rwa [h7] at this

/-- C60 -/
example := C60_vector2 v34 v34 (int32 2) finite_v34 finite_v34 trivial
example := C60_vector3 v236 v236 (int32 2) finite_v236 finite_v236 trivial
/-- C59, C62 -/
example := C59_dot2 v34 v34 (C68_dot2 (e := 0) (f := 0) v34 v34 finite_v34 finite_v34 grid_v34 grid_v34
  (fits_f32 (by norm_num))).1
example := C59_dot_normal2 v34 v34 (C68_dot2 (e := 0) (f := 0) v34 v34 finite_v34 finite_v34 grid_v34 grid_v34
  (fits_f32 (by norm_num))).1 (normal_int_of 9 (show ((3 : ℤ) : ℝ) * ((3 : ℤ) : ℝ) = _ by norm_num))
    (normal_int_of 16 (show ((4 : ℤ) : ℝ) * ((4 : ℤ) : ℝ) = _ by norm_num))
example := C59_length2 v34 length_v34.1 (normal_int_of 9 (show ((3 : ℤ) : ℝ) ^ 2 = _ by norm_num))
    (normal_int_of 16 (show ((4 : ℤ) : ℝ) ^ 2 = _ by norm_num))
example := C59_length3 v236 length_v236.1 (normal_int_of 4 (show ((2 : ℤ) : ℝ) ^ 2 = _ by norm_num))
    (normal_int_of 9 (show ((3 : ℤ) : ℝ) ^ 2 = _ by norm_num)) (normal_int_of 36 (show ((6 : ℤ) : ℝ) ^ 2 = _ by norm_num))

theorem div_normal {x : ℝ} (h : 1 / 8 ≤ x) : Normal F32 x := by
  right
  rw [abs_of_nonneg (by linarith)]
  refine le_trans ?_ h
  show (2 : ℝ) ^ ((-149 : ℤ) + (24 : ℕ) - 1) ≤ _
  norm_num
example := C62_normalize2 v34 length_v34.1 (show 0 < ((3 : ℤ) : ℝ) ^ 2 + ((4 : ℤ) : ℝ) ^ 2 by norm_num)
  (normal_int_of 9 (show ((3 : ℤ) : ℝ) ^ 2 = _ by norm_num))
  (normal_int_of 16 (show ((4 : ℤ) : ℝ) ^ 2 = _ by norm_num))
  (div_normal (by rw [length_v34.2]; show 1 / 8 ≤ ((3 : ℤ) : ℝ) / 5; norm_num))
  (div_normal (by rw [length_v34.2]; show 1 / 8 ≤ ((4 : ℤ) : ℝ) / 5; norm_num))
example := C62_normalize3 v236 length_v236.1
  (show 0 < ((2 : ℤ) : ℝ) ^ 2 + ((3 : ℤ) : ℝ) ^ 2 + ((6 : ℤ) : ℝ) ^ 2 by norm_num)
  (normal_int_of 4 (show ((2 : ℤ) : ℝ) ^ 2 = _ by norm_num))
  (normal_int_of 9 (show ((3 : ℤ) : ℝ) ^ 2 = _ by norm_num))
  (normal_int_of 36 (show ((6 : ℤ) : ℝ) ^ 2 = _ by norm_num))
  (div_normal (by rw [length_v236.2]; show 1 / 8 ≤ ((2 : ℤ) : ℝ) / 7; norm_num))
  (div_normal (by rw [length_v236.2]; show 1 / 8 ≤ ((3 : ℤ) : ℝ) / 7; norm_num))
  (div_normal (by rw [length_v236.2]; show 1 / 8 ≤ ((6 : ℤ) : ℝ) / 7; norm_num))
/-- C61 -/
example := C61_cross3 v236 v236 (C68_cross3 (e := 0) (f := 0) v236 v236 finite_v236 finite_v236 grid_v236 grid_v236
  (fits_f32 (by norm_num))).1

/-- `(1, 1)` and `(4, 5)` -/
noncomputable def p11 : Point2 F32 := ⟨int32 1, int32 1⟩
noncomputable def p45 : Point2 F32 := ⟨int32 4, int32 5⟩
theorem finite_p11 : AllFinite p11 := Point2.allFinite.2 ⟨trivial, trivial⟩
theorem finite_p45 : AllFinite p45 := Point2.allFinite.2 ⟨trivial, trivial⟩
theorem grid_p11 (i : Fin 2) : OnGrid 0 5 (p11.toReal i) := by
  fin_cases i <;> exact OnGrid.int (n := 1) (by norm_num)
theorem grid_p45 (i : Fin 2) : OnGrid 0 5 (p45.toReal i) := by
  fin_cases i
  · exact OnGrid.int (n := 4) (by norm_num)
  · exact OnGrid.int (n := 5) (by norm_num)
/-- C68: the `f32` distance from `(1, 1)` to `(4, 5)` is exactly 5. -/
theorem distance_p : Exactly (Api.distance p11 p45) 5 := by
  have h5 : √(∑ i, (p11.toReal i - p45.toReal i) ^ 2) = 5 := by
    have : ∑ i, (p11.toReal i - p45.toReal i) ^ 2 = 5 ^ 2 := by
      rw [Fin.sum_univ_two]
      show (((1 : ℤ) : ℝ) - ((4 : ℤ) : ℝ)) ^ 2 + (((1 : ℤ) : ℝ) - ((5 : ℤ) : ℝ)) ^ 2 = _
      norm_num
    rw [this]; exact Real.sqrt_sq (by norm_num)
  have := C68_distance2 (d := 0) (K := 5) p11 p45 finite_p11 finite_p45 grid_p11 grid_p45 (fits_f32 (by norm_num))
    (fits_f32 (by norm_num)) (by rw [h5]; exact OnGrid.int (n := 5) (by norm_num)) (fits_f32 (by norm_num))
  rwa [h5] at this
example := C60_point2 p11 p45 v34 finite_p11 finite_p45 finite_v34
example : IsFinite (Api.distance p11 p45) := distance_p.1

/-- The shear `x + 2y + 3, y + 4`. -/
noncomputable def shear : Matrix3x3 F32 :=
  ⟨#v[int32 1, int32 2, int32 3, int32 0, int32 1, int32 4, int32 0, int32 0, int32 1]⟩
theorem finite_shear : AllFinite shear := by
  rw [Matrix3x3.allFinite, forall_lt_9]
  exact ⟨trivial, trivial, trivial, trivial, trivial, trivial, trivial, trivial, trivial⟩
theorem shear_real : shear.toReal = !![1, 2, 3; 0, 1, 4; 0, 0, 1] := by
  ext i j
  fin_cases i <;> fin_cases j <;>
    first | exact Int.cast_one | exact Int.cast_zero | exact Int.cast_ofNat 2 | exact Int.cast_ofNat 3 | exact Int.cast_ofNat 4
theorem grid_shear (i j : Fin 3) : OnGrid 0 4 (shear.toReal i j) := by
  fin_cases i <;> fin_cases j <;> exact OnGrid.int (by norm_num)
theorem shear_inv : shear.toReal⁻¹ = !![1, -2, 5; 0, 1, -4; 0, 0, 1] := by
  refine Matrix.inv_eq_right_inv ?_
  rw [shear_real]
  ext i j
  fin_cases i <;> fin_cases j <;> simp [Matrix.mul_apply, Fin.sum_univ_three] <;> norm_num
theorem shear_unit : IsUnit shear.toReal := by
  rw [Matrix.isUnit_iff_isUnit_det, shear_real, Matrix.det_fin_three]
  simp
/-- C68: the computed `f32` inverse of the shear is exact. -/
theorem shear_inverse : ∃ r, shear.inverse = .ok r ∧ AllFinite r ∧ r.toReal = shear.toReal⁻¹ := by
  refine C68_inverse3x3 (d := 0) (K := 5) shear finite_shear grid_shear (fits_f32 (by norm_num))
    (fits_f32 (by norm_num)) shear_unit ?_ (fits_f32 (by norm_num))
  rw [shear_inv]
  intro i j
  fin_cases i <;> fin_cases j
  · exact (OnGrid.int (n := 1) (by norm_num)).congr (by simp)
  · exact (OnGrid.int (n := -2) (by norm_num)).congr (by simp)
  · exact (OnGrid.int (n := 5) (by norm_num)).congr (by simp)
  · exact (OnGrid.int (n := 0) (by norm_num)).congr (by simp)
  · exact (OnGrid.int (n := 1) (by norm_num)).congr (by simp)
  · exact (OnGrid.int (n := -4) (by norm_num)).congr (by simp)
  · exact (OnGrid.int (n := 0) (by norm_num)).congr (by simp)
  · exact (OnGrid.int (n := 0) (by norm_num)).congr (by simp)
  · exact (OnGrid.int (n := 1) (by norm_num)).congr (by simp)
/-- C63 -/
example (i j : Fin 3) := C63_product3x3 shear shear (C68_product3x3 (e := 0) (f := 0) shear shear finite_shear
  finite_shear grid_shear grid_shear (fits_f32 (by norm_num))).1 i j
theorem shear_point : AllFinite (Transform.transform (⟨shear, shear⟩ : Transform2 F32) p45 : Point2 F32) ∧ ∀ i : Fin 2,
    (Transform.transform (⟨shear, shear⟩ : Transform2 F32) p45 : Point2 F32).toReal i =
      ∑ j : Fin 2, shear.toReal i.castSucc j.castSucc * p45.toReal j + shear.toReal i.castSucc 2 := by
  refine C68_transform_point2 (e := 0) (f := 0) ⟨shear, shear⟩ p45 finite_shear finite_p45 ?_
    (fun i j => grid_shear _ _) (fun i => grid_shear _ _) grid_p45 (fits_f32 (by norm_num))
  show shear.toReal 2 = _
  rw [shear_real]; rfl
example (i : Fin 2) := C63_point2 (⟨shear, shear⟩ : Transform2 F32) p45 finite_shear finite_p45
  (by show shear.toReal 2 = _; rw [shear_real]; rfl) shear_point.1 i
example (i : Fin 2) := C63_vector2 (⟨shear, shear⟩ : Transform2 F32) v34
  (C68_transform_vector2 (e := 0) (f := 0) (⟨shear, shear⟩ : Transform2 F32) v34 finite_shear finite_v34
    (fun i j => grid_shear _ _) grid_v34 (fits_f32 (by norm_num))).1 i
/-- C64 -/
example := C64_at2 (⟨p45, v34⟩ : Ray2 F32) (int32 10) (C68_at2 (e := 0) (f := 0) (K := 5) (M := 4) (N := 10)
  (⟨p45, v34⟩ : Ray2 F32) (int32 10) finite_p45 finite_v34 trivial grid_p45 grid_v34
  (OnGrid.int (n := 10) (by norm_num)) (fits_f32 (by norm_num))).1

/-- The box from `(1, 1, 1)` to `(2, 3, 5)`. -/
noncomputable def box3 : BoundingBox3 F32 := ⟨⟨int32 1, int32 1, int32 1⟩, ⟨int32 2, int32 3, int32 5⟩⟩
theorem finite_box3 : AllFinite box3 := BoundingBox3.allFinite.2
  ⟨Point3.allFinite.2 ⟨trivial, trivial, trivial⟩, Point3.allFinite.2 ⟨trivial, trivial, trivial⟩⟩
theorem box3_le : LeAll box3.min box3.max := by
  refine Point3.leAll.2 ⟨?_, ?_, ?_⟩
  · exact (le_real (a := int32 1) (b := int32 2) trivial trivial).2 (show ((1 : ℤ) : ℝ) ≤ ((2 : ℤ) : ℝ) by norm_num)
  · exact (le_real (a := int32 1) (b := int32 3) trivial trivial).2 (show ((1 : ℤ) : ℝ) ≤ ((3 : ℤ) : ℝ) by norm_num)
  · exact (le_real (a := int32 1) (b := int32 5) trivial trivial).2 (show ((1 : ℤ) : ℝ) ≤ ((5 : ℤ) : ℝ) by norm_num)
theorem box3_grid : (∀ i, OnGrid 0 5 (box3.min.toReal i)) ∧ ∀ i, OnGrid 0 5 (box3.max.toReal i) :=
  ⟨fun i => by fin_cases i <;> exact OnGrid.int (by norm_num),
    fun i => by fin_cases i <;> exact OnGrid.int (by norm_num)⟩
/-- C67 -/
example := C67_extent3 box3 finite_box3
example := C67_volume box3 ((C68_box3 box3 finite_box3 box3_grid.1 box3_grid.2 (fits_f32 (by norm_num))).1 (fits_f32 (by norm_num)) (fits_f32 (by norm_num))).1
example := C67_surface box3 box3_le ((C68_box3 box3 finite_box3 box3_grid.1 box3_grid.2 (fits_f32 (by norm_num))).2.1 (fits_f32 (by norm_num))).1
example (i : Fin 3) := C67_center3 box3
  ((C68_box3 box3 finite_box3 box3_grid.1 box3_grid.2 (fits_f32 (by norm_num))).2.2 ⟨by decide, by norm_num [Binary.F, binary32], by decide⟩).1 i
/-- The volume of that box is exactly 8, its surface area exactly 28. -/
example : Exactly box3.volume 8 ∧ Exactly box3.surfaceArea 28 := by
  refine ⟨?_, ?_⟩
  · have := (C68_box3 box3 finite_box3 box3_grid.1 box3_grid.2 (fits_f32 (by norm_num))).1 (fits_f32 (by norm_num)) (fits_f32 (by norm_num))
    convert this using 1
    show (8 : ℝ) = (((2 : ℤ) : ℝ) - ((1 : ℤ) : ℝ)) * (((3 : ℤ) : ℝ) - ((1 : ℤ) : ℝ)) * (((5 : ℤ) : ℝ) - ((1 : ℤ) : ℝ))
    norm_num
  · have := (C68_box3 box3 finite_box3 box3_grid.1 box3_grid.2 (fits_f32 (by norm_num))).2.1 (fits_f32 (by norm_num))
    convert this using 1
    show (28 : ℝ) = 2 * ((((2 : ℤ) : ℝ) - ((1 : ℤ) : ℝ)) * (((3 : ℤ) : ℝ) - ((1 : ℤ) : ℝ)) +
      (((2 : ℤ) : ℝ) - ((1 : ℤ) : ℝ)) * (((5 : ℤ) : ℝ) - ((1 : ℤ) : ℝ)) +
      (((3 : ℤ) : ℝ) - ((1 : ℤ) : ℝ)) * (((5 : ℤ) : ℝ) - ((1 : ℤ) : ℝ)))
    norm_num

/-! ### Limits -/

open Fl in
/-- C13: `f32` vectors that meet the underflow and the overflow hypotheses. -/
example := C13_float_tiny2 (⟨small binary32, small binary32⟩ : Vector2 F32) (Vector2.allFinite.2 ⟨trivial, trivial⟩)
  small_sq small_sq
open Fl in
example := C13_float_huge2 (⟨big binary32, int32 0⟩ : Vector2 F32) (Vector2.allFinite.2 ⟨trivial, trivial⟩)
  (Or.inl big_sq)
open Fl in
example := C45_float_tiny2 (small binary32 : F32) trivial small_sq
open Fl in
example := C45_float_huge3 (big binary32 : F32) trivial big_sq
/-- C32 -/
example := C32_float_iff3 box3 finite_box3 box3_le

end VecMath
