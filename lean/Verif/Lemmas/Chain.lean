import Verif.Spec.Round
import Mathlib.Data.Matrix.Mul
import Mathlib.Algebra.Order.BigOperators.Group.Finset
import Mathlib.Tactic.Linarith
/-! # Accumulated errors of a sequence of approximate matrix products -/

namespace VecMath

variable {n : ℕ} {M C P X A s : Matrix (Fin n) (Fin n) ℝ} {q r τ : ℝ}

/-- Multiplying an approximate factor `C` of `X` from the left by an exact `M`. -/
theorem chain_left (hq : 1 ≤ q)
    (hp : ∀ i j, |P i j - ∑ k, M i k * C k j| ≤ (q - 1) * ∑ k, |M i k * C k j| + τ)
    (hX : ∀ i j, |X i j| ≤ A i j) (hC : ∀ i j, |C i j - X i j| ≤ (r - 1) * A i j + s i j) (i j : Fin n) :
    |(M * X) i j| ≤ (M.map abs * A) i j ∧
    |P i j - (M * X) i j| ≤ (r * q - 1) * (M.map abs * A) i j + (q * (M.map abs * s) i j + τ) := by
  simp only [Matrix.mul_apply, Matrix.map_apply]
  have e1 : |∑ k, M i k * X k j| ≤ ∑ k, |M i k| * A k j :=
    (Finset.abs_sum_le_sum_abs _ _).trans (Finset.sum_le_sum fun k _ => by
      rw [abs_mul]; exact mul_le_mul_of_nonneg_left (hX k j) (abs_nonneg _))
  refine ⟨e1, ?_⟩
  -- the exact product of the approximate factor
  have e2 : |∑ k, M i k * C k j - ∑ k, M i k * X k j| ≤ ∑ k, |M i k| * ((r - 1) * A k j + s k j) := by
    rw [← Finset.sum_sub_distrib]
    refine (Finset.abs_sum_le_sum_abs _ _).trans (Finset.sum_le_sum fun k _ => ?_)
    rw [← mul_sub, abs_mul]; exact mul_le_mul_of_nonneg_left (hC k j) (abs_nonneg _)
  have e3 : ∑ k, |M i k * C k j| ≤ ∑ k, |M i k| * (r * A k j + s k j) := by
    refine Finset.sum_le_sum fun k _ => ?_
    rw [abs_mul]
    refine mul_le_mul_of_nonneg_left ?_ (abs_nonneg _)
    have := abs_add_le (C k j - X k j) (X k j)
    rw [sub_add_cancel] at this
    have h1 := hC k j
    have h2 := hX k j
    linarith
  have e4 : ∑ k, |M i k| * ((r - 1) * A k j + s k j) = (r - 1) * ∑ k, |M i k| * A k j + ∑ k, |M i k| * s k j := by
    rw [Finset.mul_sum, ← Finset.sum_add_distrib]; exact Finset.sum_congr rfl fun k _ => by ring
  have e5 : ∑ k, |M i k| * (r * A k j + s k j) = r * ∑ k, |M i k| * A k j + ∑ k, |M i k| * s k j := by
    rw [Finset.mul_sum, ← Finset.sum_add_distrib]; exact Finset.sum_congr rfl fun k _ => by ring
  rw [e4] at e2; rw [e5] at e3
  have h1 := hp i j
  have h2 := abs_add_le (P i j - ∑ k, M i k * C k j) (∑ k, M i k * C k j - ∑ k, M i k * X k j)
  rw [sub_add_sub_cancel] at h2
  have h3 := mul_le_mul_of_nonneg_left e3 (sub_nonneg.2 hq)
  nlinarith

/-- Multiplying an approximate factor from the right. -/
theorem chain_right (hq : 1 ≤ q)
    (hp : ∀ i j, |P i j - ∑ k, C i k * M k j| ≤ (q - 1) * ∑ k, |C i k * M k j| + τ)
    (hX : ∀ i j, |X i j| ≤ A i j) (hC : ∀ i j, |C i j - X i j| ≤ (r - 1) * A i j + s i j) (i j : Fin n) :
    |(X * M) i j| ≤ (A * M.map abs) i j ∧
    |P i j - (X * M) i j| ≤ (r * q - 1) * (A * M.map abs) i j + (q * (s * M.map abs) i j + τ) := by
  have h := chain_left (P := P.transpose) (M := M.transpose) (C := C.transpose) (X := X.transpose)
    (A := A.transpose) (s := s.transpose) (r := r) (τ := τ) hq
    (fun i j => by simpa only [Matrix.transpose_apply, mul_comm] using hp j i) (fun i j => hX j i)
    (fun i j => hC j i) j i
  have m : ∀ B : Matrix (Fin n) (Fin n) ℝ, (M.transpose.map abs * B.transpose) j i = (B * M.map abs) i j := by
    intro B
    simp only [Matrix.mul_apply, Matrix.map_apply, Matrix.transpose_apply, mul_comm]
  rw [m, m, ← Matrix.transpose_mul] at h
  exact h

/-! ## Closed form for factors with bounded row (column) sums -/

theorem rows_mul {A B : Matrix (Fin n) (Fin n) ℝ} {a b : ℝ} (hA0 : ∀ i j, 0 ≤ A i j) (hA : ∀ i, ∑ j, A i j ≤ a)
    (hB : ∀ i j, B i j ≤ b) (hb : 0 ≤ b) (i j : Fin n) : (A * B) i j ≤ a * b := by
  rw [Matrix.mul_apply]
  calc ∑ k, A i k * B k j ≤ ∑ k, A i k * b := Finset.sum_le_sum fun k _ =>
        mul_le_mul_of_nonneg_left (hB k j) (hA0 i k)
    _ = (∑ k, A i k) * b := (Finset.sum_mul ..).symm
    _ ≤ a * b := mul_le_mul_of_nonneg_right (hA i) hb

theorem cols_mul {A B : Matrix (Fin n) (Fin n) ℝ} {a b : ℝ} (hB0 : ∀ i j, 0 ≤ B i j) (hB : ∀ j, ∑ i, B i j ≤ b)
    (hA : ∀ i j, A i j ≤ a) (ha : 0 ≤ a) (i j : Fin n) : (A * B) i j ≤ b * a := by
  rw [Matrix.mul_apply]
  calc ∑ k, A i k * B k j ≤ ∑ k, a * B k j := Finset.sum_le_sum fun k _ =>
        mul_le_mul_of_nonneg_right (hA i k) (hB0 k j)
    _ = a * ∑ k, B k j := (Finset.mul_sum ..).symm
    _ ≤ a * b := mul_le_mul_of_nonneg_left (hB j) ha
    _ = b * a := mul_comm _ _

end VecMath
