import Verif.Spec.Trig
import Mathlib.Analysis.Matrix.Normed
import Mathlib.Tactic.NoncommRing
/-! # The Frobenius norm -/

namespace VecMath
open scoped Matrix.Norms.Frobenius

variable {n : ℕ} {A B Q P : Matrix (Fin n) (Fin n) ℝ}

theorem size_eq (A : Matrix (Fin n) (Fin n) ℝ) : size A = ‖A‖ := by
  rw [Matrix.frobenius_norm_def, ← Real.sqrt_eq_rpow, size]
  simp
theorem size_nonneg (A : Matrix (Fin n) (Fin n) ℝ) : 0 ≤ size A := Real.sqrt_nonneg _
theorem size_add : size (A + B) ≤ size A + size B := by
  simp only [size_eq]; exact norm_add_le A B
theorem size_mul : size (A * B) ≤ size A * size B := by
  simp only [size_eq]; exact norm_mul_le A B
theorem size_sq : size A ^ 2 = ∑ i, ∑ j, A i j ^ 2 :=
  Real.sq_sqrt (Finset.sum_nonneg fun i _ => Finset.sum_nonneg fun j _ => sq_nonneg _)
theorem size_trace : size A ^ 2 = (A.transpose * A).trace := by
  rw [size_sq, Finset.sum_comm]
  simp [Matrix.trace, Matrix.mul_apply, sq]
theorem size_transpose : size A.transpose = size A := by
  unfold size; rw [Finset.sum_comm]; rfl
theorem size_orth (hQ : Q.transpose * Q = 1) : size (Q * A) = size A := by
  have h : size (Q * A) ^ 2 = size A ^ 2 := by
    rw [size_trace, size_trace, Matrix.transpose_mul, Matrix.mul_assoc, ← Matrix.mul_assoc _ Q, hQ, Matrix.one_mul]
  exact (pow_left_inj₀ (size_nonneg _) (size_nonneg _) two_ne_zero).1 h
theorem size_orth_right (hQ : Q * Q.transpose = 1) : size (A * Q) = size A := by
  rw [← size_transpose, Matrix.transpose_mul, size_orth (by rwa [Matrix.transpose_transpose]), size_transpose]
theorem size_of_orth (hQ : Q.transpose * Q = 1) : size Q ^ 2 = n := by
  rw [size_trace, hQ, Matrix.trace_one, Fintype.card_fin]
theorem size_abs : size (A.map abs) = size A := by
  unfold size; simp
theorem size_mono (h : ∀ i j, |A i j| ≤ B i j) : size A ≤ size B := by
  refine Real.sqrt_le_sqrt (Finset.sum_le_sum fun i _ => Finset.sum_le_sum fun j _ => ?_)
  exact sq_le_sq' (by linarith [(abs_le.1 (h i j)).1]) (abs_le.1 (h i j)).2
theorem size_smul (c : ℝ) (hc : 0 ≤ c) : size (c • A) = c * size A := by
  simp only [size_eq, norm_smul, Real.norm_eq_abs, abs_of_nonneg hc]
theorem size_const (c : ℝ) (hc : 0 ≤ c) : size (Matrix.of fun _ _ : Fin n => c) = n * c := by
  unfold size
  simp only [Matrix.of_apply, Finset.sum_const, Finset.card_univ, Fintype.card_fin, nsmul_eq_mul]
  rw [show (n : ℝ) * (n * c ^ 2) = (n * c) ^ 2 by ring]
  exact Real.sqrt_sq (by positivity)
theorem entry_le_size (i j : Fin n) : |A i j| ≤ size A := by
  refine Real.abs_le_sqrt ?_
  exact (Finset.single_le_sum (f := fun j => A i j ^ 2) (fun j _ => sq_nonneg _) (Finset.mem_univ j)).trans
    (Finset.single_le_sum (f := fun i => ∑ j, A i j ^ 2) (fun i _ => Finset.sum_nonneg fun j _ => sq_nonneg _)
      (Finset.mem_univ i))
theorem size_le_of_entries {ε : ℝ} (h : ∀ i j, |A i j| ≤ ε) (hε : 0 ≤ ε) : size A ≤ n * ε := by
  rw [← size_const ε hε]; exact size_mono h

theorem Orthogonal.mul (hP : Orthogonal P) (hQ : Orthogonal Q) : Orthogonal (P * Q) := by
  constructor
  · rw [Matrix.transpose_mul, Matrix.mul_assoc, ← Matrix.mul_assoc _ P, hP.1, Matrix.one_mul, hQ.1]
  · rw [Matrix.transpose_mul, Matrix.mul_assoc, ← Matrix.mul_assoc Q, hQ.2, Matrix.one_mul, hP.2]
theorem Orthogonal.transpose (hP : Orthogonal P) : Orthogonal P.transpose :=
  ⟨by rw [Matrix.transpose_transpose]; exact hP.2, by rw [Matrix.transpose_transpose]; exact hP.1⟩
theorem Orthogonal.one : Orthogonal (1 : Matrix (Fin n) (Fin n) ℝ) := ⟨by simp, by simp⟩

/-- Product of two nearly orthogonal matrices, with an entrywise rounding error. -/
theorem near_mul {X : Matrix (Fin n) (Fin n) ℝ} {a b γ τ : ℝ} (hP : Orthogonal P) (hQ : Orthogonal Q)
    (hn : 1 ≤ n) (hA : size (A - P) ≤ a) (hB : size (B - Q) ≤ b) (hγ : 0 ≤ γ) (hτ : 0 ≤ τ)
    (hX : ∀ i j, |X i j - ∑ k, A i k * B k j| ≤ γ * ∑ k, |A i k * B k j| + τ) :
    1 + size (X - P * Q) ≤ (1 + n * γ + n * τ) * ((1 + a) * (1 + b)) := by
  have ha : 0 ≤ a := (size_nonneg _).trans hA
  have hb : 0 ≤ b := (size_nonneg _).trans hB
  have hn' : (1 : ℝ) ≤ n := by exact_mod_cast hn
  have h1 : size (X - A * B) ≤ γ * (size A * size B) + n * τ := by
    have : size (X - A * B) ≤ size (γ • (A.map abs * B.map abs) + Matrix.of fun _ _ => τ) := by
      refine size_mono fun i j => ?_
      have := hX i j
      simpa only [Matrix.sub_apply, Matrix.mul_apply, Matrix.add_apply, Matrix.smul_apply, Matrix.map_apply,
        Matrix.of_apply, smul_eq_mul, abs_mul] using this
    refine this.trans (size_add.trans ?_)
    rw [size_smul _ hγ, size_const _ hτ]
    have := size_mul (A := A.map abs) (B := B.map abs)
    rw [size_abs, size_abs] at this
    have := mul_le_mul_of_nonneg_left this hγ
    linarith
  have h2 : size (A * B - P * Q) ≤ a * (1 + b) + b := by
    have e : A * B - P * Q = (A - P) * (B - Q) + ((A - P) * Q + P * (B - Q)) := by noncomm_ring
    rw [e]
    have p1 := size_mul (A := A - P) (B := B - Q)
    have p2 : size ((A - P) * Q) = size (A - P) := size_orth_right hQ.2
    have p3 : size (P * (B - Q)) = size (B - Q) := size_orth hP.1
    have p4 := size_add (A := (A - P) * (B - Q)) (B := (A - P) * Q + P * (B - Q))
    have p5 := size_add (A := (A - P) * Q) (B := P * (B - Q))
    have p6 : size (A - P) * size (B - Q) ≤ a * b := mul_le_mul hA hB (size_nonneg _) ha
    nlinarith
  have h3 : size (X - P * Q) ≤ size (X - A * B) + size (A * B - P * Q) := by
    have := size_add (A := X - A * B) (B := A * B - P * Q)
    rwa [sub_add_sub_cancel] at this
  have sz : ∀ {A P : Matrix (Fin n) (Fin n) ℝ} {a : ℝ}, Orthogonal P → size (A - P) ≤ a → 0 ≤ a →
      size A ≤ √n * (1 + a) := by
    intro A P a hP hA ha
    have e := size_of_orth hP.1
    have e' : size P = √n := by rw [← e, Real.sqrt_sq (size_nonneg _)]
    have := size_add (A := A - P) (B := P)
    rw [sub_add_cancel, e'] at this
    have h1 : 1 ≤ √(n : ℝ) := Real.one_le_sqrt.2 hn'
    nlinarith
  have h4 : size A * size B ≤ n * ((1 + a) * (1 + b)) := by
    have := mul_le_mul (sz hP hA ha) (sz hQ hB hb) (size_nonneg _) (by positivity)
    have s : √(n : ℝ) * √n = n := Real.mul_self_sqrt (by positivity)
    rw [show √(n : ℝ) * (1 + a) * (√n * (1 + b)) = (√n * √n) * ((1 + a) * (1 + b)) by ring, s] at this
    exact this
  have h5 := mul_le_mul_of_nonneg_left h4 hγ
  have h6 : (n : ℝ) * τ ≤ n * τ * ((1 + a) * (1 + b)) :=
    le_mul_of_one_le_right (by positivity) (by nlinarith)
  nlinarith

end VecMath
