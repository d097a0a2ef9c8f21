import Verif.Lemmas.RealMat
import Mathlib.LinearAlgebra.Matrix.Adjugate
/-!
# Determinant and inverse over exact arithmetic

The determinant and adjugate expressions of `inverse()` are the mathematical ones, so `inverse()` returns the
mathematical inverse exactly when the determinant is nonzero. (Generated by tools/gen/genri.py.)
-/

set_option linter.unusedSimpArgs false
set_option linter.unusedVariables false

namespace VecMath
open Scalar IEEE

theorem ideal_bne_zero {d : Ideal} (hd : IsFinite d) : (d != zero) = true ↔ real d ≠ 0 := by
  rw [bne, Bool.not_eq_true', ← Bool.not_eq_true, Ideal.beq_real hd finite_zero]
  simp [real_zero]

section
variable {m n : Matrix3x3 Ideal}
theorem Matrix3x3.fin_det (h : AllFinite m) : IsFinite m.det := by
  rw [Matrix3x3.allFinite, forall_lt_9] at h
  unfold Matrix3x3.det
  simp (maxDischargeDepth := 20) only [Ideal.finite_add, Ideal.finite_sub, Ideal.finite_mul, h]
theorem Matrix3x3.real_det (h : AllFinite m) : real m.det = m.toReal.det := by
  rw [Matrix3x3.allFinite, forall_lt_9] at h
  rw [Matrix3x3.toReal_eq, Matrix.det_fin_three]
  unfold Matrix3x3.det
  simp (maxDischargeDepth := 20) only [Ideal.finite_add, Ideal.finite_sub, Ideal.finite_mul, Ideal.real_add,
    Ideal.real_sub, Ideal.real_mul, h]
  simp
  ring
/-- The adjugate entries computed inside `inverse`. -/
noncomputable def Matrix3x3.adj (m : Matrix3x3 Ideal) : Matrix3x3 Ideal := ⟨#v[
      (m.m[4] * m.m[8] - m.m[5] * m.m[7]),
      (m.m[2] * m.m[7] - m.m[1] * m.m[8]),
      (m.m[1] * m.m[5] - m.m[2] * m.m[4]),
      (m.m[5] * m.m[6] - m.m[3] * m.m[8]),
      (m.m[0] * m.m[8] - m.m[2] * m.m[6]),
      (m.m[2] * m.m[3] - m.m[0] * m.m[5]),
      (m.m[3] * m.m[7] - m.m[4] * m.m[6]),
      (m.m[1] * m.m[6] - m.m[0] * m.m[7]),
      (m.m[0] * m.m[4] - m.m[1] * m.m[3])]⟩
theorem Matrix3x3.inverse_eq (m : Matrix3x3 Ideal) :
    m.inverse = if m.det != zero then .ok (m.adj / m.det) else .error .mk := rfl
theorem Matrix3x3.fin_adj (h : AllFinite m) : AllFinite m.adj := by
  rw [Matrix3x3.allFinite, forall_lt_9] at h ⊢
  refine ⟨?_, ?_, ?_, ?_, ?_, ?_, ?_, ?_, ?_⟩ <;>
    exact Ideal.finite_sub (Ideal.finite_mul (by simp only [h]) (by simp only [h]))
      (Ideal.finite_mul (by simp only [h]) (by simp only [h]))
theorem Matrix3x3.toReal_adj (h : AllFinite m) : m.adj.toReal = m.toReal.adjugate := by
  rw [Matrix3x3.allFinite, forall_lt_9] at h
  rw [Matrix.adjugate_fin_three, Matrix3x3.toReal_eq, Matrix3x3.toReal_eq m]
  unfold Matrix3x3.adj
  ext i j
  fin_cases i <;> fin_cases j <;> simp (maxDischargeDepth := 20) [Ideal.finite_add, Ideal.finite_sub, Ideal.finite_mul, Ideal.real_add,
    Ideal.real_sub, Ideal.real_mul, h] <;> ring
end

section
variable {m n : Matrix4x4 Ideal}
theorem Matrix4x4.sub_real (m : Matrix4x4 Ideal) (i j : Fin 4) (r c : Fin 3) :
    real (m.sub i j r c) = m.toReal.submatrix i.succAbove j.succAbove r c := by
  show real (m.elem _ _) = m.toReal (i.succAbove r) (j.succAbove c)
  unfold Matrix4x4.elem Matrix4x4.toReal Fin.succAbove
  congr 2
  omega
theorem Matrix4x4.fin_elem (h : AllFinite m) (i j : Fin 4) : IsFinite (m.elem i j) :=
  Matrix4x4.allFinite.1 h _ _
theorem Matrix4x4.fin_sub (h : AllFinite m) (i j : Fin 4) (r c : Fin 3) : IsFinite (m.sub i j r c) :=
  Matrix4x4.fin_elem h _ _
theorem Matrix4x4.sign_cases (i j : Fin 4) :
    IsFinite (if (i.val + j.val) % 2 == 0 then one else -one : Ideal) ∧
    real (if (i.val + j.val) % 2 == 0 then one else -one : Ideal) = (-1) ^ (i.val + j.val) := by
  by_cases h : (i.val + j.val) % 2 = 0
  · simp [h, finite_one, real_one, (Nat.even_iff.2 h).neg_one_pow]
  · simp [h, finite_neg, finite_one, real_one, IEEE.real_neg, (Nat.odd_iff.2 (Nat.mod_two_ne_zero.1 h)).neg_one_pow]
theorem Matrix4x4.fin_cofactor (h : AllFinite m) (i j : Fin 4) : IsFinite (m.cofactor i j) := by
  have hs := (Matrix4x4.sign_cases i j).1
  have hf := Matrix4x4.fin_sub h i j
  unfold Matrix4x4.cofactor
  simp (maxDischargeDepth := 20) only [Ideal.finite_add, Ideal.finite_sub, Ideal.finite_mul, hf, hs]
theorem Matrix4x4.real_cofactor (h : AllFinite m) (i j : Fin 4) :
    real (m.cofactor i j) = m.toReal.adjugate j i := by
  obtain ⟨hs, hr⟩ := Matrix4x4.sign_cases i j
  have hf := Matrix4x4.fin_sub h i j
  rw [Matrix.adjugate_fin_succ_eq_det_submatrix, Matrix.det_fin_three]
  unfold Matrix4x4.cofactor
  simp (maxDischargeDepth := 20) only [Ideal.finite_add, Ideal.finite_sub, Ideal.finite_mul, Ideal.real_add,
    Ideal.real_sub, Ideal.real_mul, hf, hs, hr, Matrix4x4.sub_real]
  ring
theorem Matrix4x4.fin_adjugate (h : AllFinite m) : AllFinite m.adjugate := by
  have hf := Matrix4x4.fin_cofactor h
  rw [Matrix4x4.allFinite, forall_lt_16]
  exact ⟨hf _ _, hf _ _, hf _ _, hf _ _, hf _ _, hf _ _, hf _ _, hf _ _, hf _ _, hf _ _, hf _ _, hf _ _,
    hf _ _, hf _ _, hf _ _, hf _ _⟩
theorem Matrix4x4.toReal_adjugate (h : AllFinite m) : m.adjugate.toReal = m.toReal.adjugate := by
  ext i j
  rw [← Matrix4x4.real_cofactor h]
  fin_cases i <;> fin_cases j <;> rfl
/-- the computed determinant -/
noncomputable def Matrix4x4.det (m : Matrix4x4 Ideal) : Ideal := m.detOf m.adjugate
noncomputable def Matrix4x4.adj (m : Matrix4x4 Ideal) : Matrix4x4 Ideal := m.adjugate
theorem Matrix4x4.inverse_eq (m : Matrix4x4 Ideal) :
    m.inverse = if m.det != zero then .ok (m.adj / m.det) else .error .mk := rfl
theorem Matrix4x4.fin_adj (h : AllFinite m) : AllFinite m.adj := Matrix4x4.fin_adjugate h
theorem Matrix4x4.toReal_adj (h : AllFinite m) : m.adj.toReal = m.toReal.adjugate := Matrix4x4.toReal_adjugate h
theorem Matrix4x4.fin_det (h : AllFinite m) : IsFinite m.det := by
  have ha := Matrix4x4.fin_adjugate h
  rw [Matrix4x4.allFinite, forall_lt_16] at h ha
  unfold Matrix4x4.det Matrix4x4.detOf
  simp (maxDischargeDepth := 20) only [Ideal.finite_add, Ideal.finite_mul, h, ha]
theorem Matrix4x4.real_det (h : AllFinite m) : real m.det = m.toReal.det := by
  have ha := Matrix4x4.fin_adjugate h
  have e := congrFun (congrFun (Matrix.mul_adjugate m.toReal) 0) 0
  rw [← Matrix4x4.toReal_adjugate h, Matrix.mul_apply, Fin.sum_univ_four] at e
  simp only [Matrix.smul_apply, Matrix.one_apply_eq, smul_eq_mul, mul_one] at e
  rw [← e]
  rw [Matrix4x4.allFinite, forall_lt_16] at h ha
  unfold Matrix4x4.det Matrix4x4.detOf
  simp (maxDischargeDepth := 20) only [Ideal.finite_add, Ideal.finite_mul, Ideal.real_add, Ideal.real_mul, h, ha]
  rfl
end

section
variable {m n : Matrix3x3 Ideal}
theorem Matrix3x3.inverse_cases (h : AllFinite m) :
    (m.toReal.det = 0 ∧ m.inverse = .error .mk) ∨
    (m.toReal.det ≠ 0 ∧ ∃ n, m.inverse = .ok n ∧ AllFinite n ∧ n.toReal = (m.toReal)⁻¹) := by
  have hd := Matrix3x3.fin_det h
  rw [Matrix3x3.inverse_eq, ← Matrix3x3.real_det h]
  by_cases h0 : real m.det = 0
  · left
    rw [if_neg (by rw [ideal_bne_zero hd]; exact not_not.2 h0)]
    exact ⟨h0, rfl⟩
  · right
    rw [if_pos ((ideal_bne_zero hd).2 h0)]
    refine ⟨h0, _, rfl, Matrix3x3.fin_divs (Matrix3x3.fin_adj h) hd h0, ?_⟩
    rw [Matrix3x3.toReal_divs (Matrix3x3.fin_adj h) hd h0, Matrix3x3.toReal_adj h, Matrix.inv_def, Matrix3x3.real_det h, Ring.inverse_eq_inv]
theorem Matrix3x3.inverse_ok (h : AllFinite m) (e : m.inverse = .ok n) :
    m.toReal.det ≠ 0 ∧ AllFinite n ∧ n.toReal = (m.toReal)⁻¹ := by
  rcases Matrix3x3.inverse_cases h with ⟨_, e'⟩ | ⟨h0, n', e', hf, hr⟩
  · rw [e'] at e; cases e
  · rw [e'] at e; cases e; exact ⟨h0, hf, hr⟩
end

section
variable {m n : Matrix4x4 Ideal}
theorem Matrix4x4.inverse_cases (h : AllFinite m) :
    (m.toReal.det = 0 ∧ m.inverse = .error .mk) ∨
    (m.toReal.det ≠ 0 ∧ ∃ n, m.inverse = .ok n ∧ AllFinite n ∧ n.toReal = (m.toReal)⁻¹) := by
  have hd := Matrix4x4.fin_det h
  rw [Matrix4x4.inverse_eq, ← Matrix4x4.real_det h]
  by_cases h0 : real m.det = 0
  · left
    rw [if_neg (by rw [ideal_bne_zero hd]; exact not_not.2 h0)]
    exact ⟨h0, rfl⟩
  · right
    rw [if_pos ((ideal_bne_zero hd).2 h0)]
    refine ⟨h0, _, rfl, Matrix4x4.fin_divs (Matrix4x4.fin_adj h) hd h0, ?_⟩
    rw [Matrix4x4.toReal_divs (Matrix4x4.fin_adj h) hd h0, Matrix4x4.toReal_adj h, Matrix.inv_def, Matrix4x4.real_det h, Ring.inverse_eq_inv]
theorem Matrix4x4.inverse_ok (h : AllFinite m) (e : m.inverse = .ok n) :
    m.toReal.det ≠ 0 ∧ AllFinite n ∧ n.toReal = (m.toReal)⁻¹ := by
  rcases Matrix4x4.inverse_cases h with ⟨_, e'⟩ | ⟨h0, n', e', hf, hr⟩
  · rw [e'] at e; cases e
  · rw [e'] at e; cases e; exact ⟨h0, hf, hr⟩
end

end VecMath
