import Verif.Props.FloatExactBox
import Verif.Props.FloatExamples2
/-! # Concrete `f32` cases for C77 and for the boxes of C68 -/

open Classical

namespace VecMath
open Scalar IEEE

/-- Scaling by 2, 3 and -4. -/
noncomputable def grow3 : Transform3 F32 := Transform3.scale (int32 2) (int32 3) (int32 (-4))
theorem grow3_finite : AllFinite grow3.forward := by
  rw [Matrix4x4.allFinite, forall_lt_16]
  exact ⟨trivial, finite_zero, finite_zero, finite_zero, finite_zero, trivial, finite_zero, finite_zero, finite_zero, finite_zero,
    trivial, finite_zero, finite_zero, finite_zero, finite_zero, finite_one⟩
theorem grow3_real : grow3.forward.toReal = !![2, 0, 0, 0; 0, 3, 0, 0; 0, 0, -4, 0; 0, 0, 0, 1] := by
  ext i j
  fin_cases i <;> fin_cases j <;> first | exact real_zero | exact real_one | skip
  · show ((2 : ℤ) : ℝ) = 2; norm_num
  · show ((3 : ℤ) : ℝ) = 3; norm_num
  · show ((-4 : ℤ) : ℝ) = -4; norm_num
theorem grow3_affine : grow3.forward.toReal 3 = ![0, 0, 0, 1] := by rw [grow3_real]; rfl
theorem grow3_signed : OneSigned grow3.forward.toReal := by
  rw [grow3_real]
  intro i
  fin_cases i
  · left; intro j; fin_cases j <;> simp
  · left; intro j; fin_cases j <;> simp
  · right; intro j; fin_cases j <;> simp
theorem grow3_grid (i j : Fin 3) : OnGrid 0 4 (grow3.forward.toReal i.castSucc j.castSucc) := by
  rw [grow3_real]
  have z : OnGrid 0 4 (0 : ℝ) := OnGrid.zero
  fin_cases i <;> fin_cases j <;> first | exact z | skip
  · exact (OnGrid.int (n := 2) (by norm_num)).congr (by norm_num)
  · exact (OnGrid.int (n := 3) (by norm_num)).congr (by norm_num)
  · exact (OnGrid.int (n := -4) (by norm_num)).congr (by norm_num)
theorem grow3_offset (i : Fin 3) : OnGrid (0 + 0) 0 (grow3.forward.toReal i.castSucc 3) := by
  rw [grow3_real]
  fin_cases i <;> exact OnGrid.zero
theorem cube13_min (i : Fin 3) : OnGrid 0 3 ((cube3 1 3).min.toReal i) := by
  fin_cases i <;> exact OnGrid.int (n := 1) (by norm_num)
theorem cube13_max (i : Fin 3) : OnGrid 0 3 ((cube3 1 3).max.toReal i) := by
  fin_cases i <;> exact OnGrid.int (n := 3) (by norm_num)

/-- The image of `[1,3]^3` in `f32` is exactly `[2,6] × [3,9] × [-12,-4]`. -/
example : (Transform.transform grow3 (cube3 1 3) : BoundingBox3 F32).min.toReal = ![2, 3, -12] ∧
    (Transform.transform grow3 (cube3 1 3) : BoundingBox3 F32).max.toReal = ![6, 9, -4] := by
  obtain ⟨-, -, -, h⟩ := C68_transform_box3 grow3 (cube3 1 3) grow3_finite cube3_finite grow3_affine grow3_grid grow3_offset
    cube13_min cube13_max (fits_f32 (by norm_num)) (fits_f32 (by norm_num))
  have e1 : (cube3 1 3).min.toReal = ![1, 1, 1] := by
    funext i; fin_cases i <;> (show ((1 : ℤ) : ℝ) = 1; norm_num)
  have e2 : (cube3 1 3).max.toReal = ![3, 3, 3] := by
    funext i; fin_cases i <;> (show ((3 : ℤ) : ℝ) = 3; norm_num)
  constructor <;> funext i
  · rw [(h i).1, e1, e2, grow3_real]
    fin_cases i <;> simp [image, Fin.sum_univ_three] <;> norm_num
  · rw [(h i).2, e1, e2, grow3_real]
    fin_cases i <;> simp [image, Fin.sum_univ_three] <;> norm_num

/-- C77 applies to the same data. -/
example := by
  obtain ⟨h1, h2, -⟩ := C68_transform_box3 grow3 (cube3 1 3) grow3_finite cube3_finite grow3_affine grow3_grid grow3_offset
    cube13_min cube13_max (fits_f32 (by norm_num)) (fits_f32 (by norm_num))
  exact C77_contains3 grow3 (cube3 1 3) grow3_finite cube3_finite grow3_affine (cube3_le (by norm_num)) h1 h2 grow3_signed
    ![1, 2, 3] (by intro j; fin_cases j <;> constructor <;> first
      | (show ((1 : ℤ) : ℝ) ≤ _; norm_num) | (show _ ≤ ((3 : ℤ) : ℝ); norm_num))

end VecMath
