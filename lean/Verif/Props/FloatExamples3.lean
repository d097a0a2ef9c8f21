import Verif.Props.FloatExamples2
import Verif.Props.FloatChain
/-! # Concrete instances for C71 and C72 -/

open Classical

namespace VecMath
open Scalar IEEE

/-! ## C71 -/

/-- The inverse of the shear. -/
noncomputable def shearInv : Matrix3x3 F32 :=
  ⟨#v[int32 1, int32 (-2), int32 5, int32 0, int32 1, int32 (-4), int32 0, int32 0, int32 1]⟩
theorem finite_shearInv : AllFinite shearInv := by
  rw [Matrix3x3.allFinite, forall_lt_9]
  exact ⟨trivial, trivial, trivial, trivial, trivial, trivial, trivial, trivial, trivial⟩
theorem grid_shearInv (i j : Fin 3) : OnGrid 0 5 (shearInv.toReal i j) := by
  fin_cases i <;> fin_cases j <;> exact OnGrid.int (by norm_num)
noncomputable def shearT : Transform2 F32 := ⟨shear, shearInv⟩
theorem shear_chain :
    AllFinite ([shearT, shearT.inv, shearT].foldl Transform2.andThen shearT).forward ∧
    AllFinite ([shearT, shearT.inv, shearT].foldl Transform2.andThen shearT).inverse := (C71_exact2 (M := 5) shearT [shearT, shearT.inv, shearT] (by norm_num)
  (fun u hu => by
    simp only [List.mem_cons, List.not_mem_nil, or_false] at hu
    rcases hu with rfl | rfl | rfl | rfl
    · exact ⟨finite_shear, finite_shearInv⟩
    · exact ⟨finite_shear, finite_shearInv⟩
    · exact ⟨finite_shearInv, finite_shear⟩
    · exact ⟨finite_shear, finite_shearInv⟩)
  (fun u hu i j => by
    simp only [List.mem_cons, List.not_mem_nil, or_false] at hu
    rcases hu with rfl | rfl | rfl | rfl
    · exact ⟨(grid_shear i j).mono (by norm_num), grid_shearInv i j⟩
    · exact ⟨(grid_shear i j).mono (by norm_num), grid_shearInv i j⟩
    · exact ⟨grid_shearInv i j, (grid_shear i j).mono (by norm_num)⟩
    · exact ⟨(grid_shear i j).mono (by norm_num), grid_shearInv i j⟩)
  (fits_f32 (by norm_num))).1
example (i j : Fin 3) := C71_forward2 shearT [shearT, shearT.inv, shearT] shear_chain.1 i j
example (i j : Fin 3) := C71_inverse2 shearT [shearT, shearT.inv, shearT] shear_chain.2 i j
example (i j : Fin 3) := C71_closed2 (R := 8) shearT [shearT, shearT.inv, shearT] (by norm_num)
  (by
    have h1 : ∀ i, ∑ j, |shear.toReal i j| ≤ 8 := fun i => by
      rw [Fin.sum_univ_three]
      fin_cases i
      · show |((1 : ℤ) : ℝ)| + |((2 : ℤ) : ℝ)| + |((3 : ℤ) : ℝ)| ≤ 8; norm_num
      · show |((0 : ℤ) : ℝ)| + |((1 : ℤ) : ℝ)| + |((4 : ℤ) : ℝ)| ≤ 8; norm_num
      · show |((0 : ℤ) : ℝ)| + |((0 : ℤ) : ℝ)| + |((1 : ℤ) : ℝ)| ≤ 8; norm_num
    have h2 : ∀ i, ∑ j, |shearInv.toReal i j| ≤ 8 := fun i => by
      rw [Fin.sum_univ_three]
      fin_cases i
      · show |((1 : ℤ) : ℝ)| + |((-2 : ℤ) : ℝ)| + |((5 : ℤ) : ℝ)| ≤ 8; norm_num
      · show |((0 : ℤ) : ℝ)| + |((1 : ℤ) : ℝ)| + |((-4 : ℤ) : ℝ)| ≤ 8; norm_num
      · show |((0 : ℤ) : ℝ)| + |((0 : ℤ) : ℝ)| + |((1 : ℤ) : ℝ)| ≤ 8; norm_num
    intro u hu
    simp only [List.mem_cons, List.not_mem_nil, or_false] at hu
    rcases hu with rfl | rfl | rfl | rfl
    exacts [h1, h1, h2, h1]) shear_chain.1 i j

/-- In three dimensions: `x + 2y + 3, y - z + 4, z + 1`. -/
noncomputable def shear3 : Matrix4x4 F32 :=
  ⟨#v[int32 1, int32 2, int32 0, int32 3, int32 0, int32 1, int32 (-1), int32 4, int32 0, int32 0, int32 1, int32 1,
    int32 0, int32 0, int32 0, int32 1]⟩
theorem finite_shear3 : AllFinite shear3 := by
  rw [Matrix4x4.allFinite, forall_lt_16]
  exact ⟨trivial, trivial, trivial, trivial, trivial, trivial, trivial, trivial, trivial, trivial, trivial, trivial,
    trivial, trivial, trivial, trivial⟩
theorem grid_shear3 (i j : Fin 4) : OnGrid 0 4 (shear3.toReal i j) := by
  fin_cases i <;> fin_cases j <;> exact OnGrid.int (by norm_num)
theorem rows_shear3 (i : Fin 4) : ∑ j, |shear3.toReal i j| ≤ 8 := by
  rw [Fin.sum_univ_four]
  fin_cases i
  · show |((1 : ℤ) : ℝ)| + |((2 : ℤ) : ℝ)| + |((0 : ℤ) : ℝ)| + |((3 : ℤ) : ℝ)| ≤ 8; norm_num
  · show |((0 : ℤ) : ℝ)| + |((1 : ℤ) : ℝ)| + |((-1 : ℤ) : ℝ)| + |((4 : ℤ) : ℝ)| ≤ 8; norm_num
  · show |((0 : ℤ) : ℝ)| + |((0 : ℤ) : ℝ)| + |((1 : ℤ) : ℝ)| + |((1 : ℤ) : ℝ)| ≤ 8; norm_num
  · show |((0 : ℤ) : ℝ)| + |((0 : ℤ) : ℝ)| + |((0 : ℤ) : ℝ)| + |((1 : ℤ) : ℝ)| ≤ 8; norm_num
noncomputable def shear3T : Transform3 F32 := ⟨shear3, shear3⟩
theorem shear3_chain :
    AllFinite ([shear3T, shear3T, shear3T].foldl Transform3.andThen shear3T).forward ∧
    AllFinite ([shear3T, shear3T, shear3T].foldl Transform3.andThen shear3T).inverse := (C71_exact3 (M := 4) shear3T [shear3T, shear3T, shear3T] (by norm_num)
  (fun u hu => by
    simp only [List.mem_cons, List.not_mem_nil, or_false] at hu
    rcases hu with rfl | rfl | rfl | rfl <;> exact ⟨finite_shear3, finite_shear3⟩)
  (fun u hu i j => by
    simp only [List.mem_cons, List.not_mem_nil, or_false] at hu
    rcases hu with rfl | rfl | rfl | rfl <;> exact ⟨grid_shear3 i j, grid_shear3 i j⟩)
  (fits_f32 (by norm_num))).1
example (i j : Fin 4) := C71_forward3 shear3T [shear3T, shear3T, shear3T] shear3_chain.1 i j
example (i j : Fin 4) := C71_inverse3 shear3T [shear3T, shear3T, shear3T] shear3_chain.2 i j
example (i j : Fin 4) := C71_closed3 (R := 8) shear3T [shear3T, shear3T, shear3T] (by norm_num)
  (fun u hu => by
    simp only [List.mem_cons, List.not_mem_nil, or_false] at hu
    rcases hu with rfl | rfl | rfl | rfl <;> exact rows_shear3) shear3_chain.1 i j

end VecMath
