import Verif.Spec.Det
import Mathlib.GroupTheory.Perm.Fin
/-! # Expanding permanents -/

namespace VecMath
open Matrix Equiv

theorem permanent_succ_column_zero {n : ℕ} (A : Matrix (Fin n.succ) (Fin n.succ) ℝ) :
    A.permanent = ∑ i : Fin n.succ, A i 0 * (A.submatrix i.succAbove Fin.succ).permanent := by
  rw [Matrix.permanent, Finset.univ_perm_fin_succ, ← Finset.univ_product_univ]
  simp only [Finset.sum_map, Equiv.toEmbedding_apply, Finset.sum_product, Matrix.submatrix]
  refine Finset.sum_congr rfl fun i _ => Fin.cases ?_ (fun i => ?_) i
  · simp [Fin.prod_univ_succ, Matrix.permanent, Finset.mul_sum]
  · rw [← permanent_permute_cols i.cycleRange, Matrix.permanent, Finset.mul_sum]
    refine Finset.sum_congr rfl fun σ _ => ?_
    simp [Fin.prod_univ_succ, Fin.succAbove_cycleRange]

theorem permanent_succ_row_zero {n : ℕ} (A : Matrix (Fin n.succ) (Fin n.succ) ℝ) :
    A.permanent = ∑ j : Fin n.succ, A 0 j * (A.submatrix Fin.succ j.succAbove).permanent := by
  rw [← permanent_transpose A, permanent_succ_column_zero]
  refine Finset.sum_congr rfl fun i _ => ?_
  rw [← permanent_transpose]
  simp [transpose_apply, transpose_submatrix, transpose_transpose]

theorem absDet_succ {n : ℕ} (m : Matrix (Fin (n + 1)) (Fin (n + 1)) ℝ) :
    absDet m = ∑ j, |m 0 j| * absAdj m j 0 := by
  unfold absAdj absDet
  rw [permanent_succ_row_zero]
  rfl
theorem absDet_two (m : Matrix (Fin 2) (Fin 2) ℝ) : absDet m = |m 0 0| * |m 1 1| + |m 0 1| * |m 1 0| := by
  rw [absDet, permanent_succ_row_zero]
  simp [Fin.sum_univ_succ, Fin.succAbove]
theorem absDet_three (m : Matrix (Fin 3) (Fin 3) ℝ) :
    absDet m = |m 0 0| * |m 1 1| * |m 2 2| + |m 0 1| * |m 1 2| * |m 2 0| + |m 0 2| * |m 1 0| * |m 2 1|
      + |m 0 0| * |m 1 2| * |m 2 1| + |m 0 1| * |m 1 0| * |m 2 2| + |m 0 2| * |m 1 1| * |m 2 0| := by
  rw [absDet_succ, Fin.sum_univ_three]
  simp only [absAdj, absDet_two]
  simp [Fin.succAbove]
  ring

end VecMath
