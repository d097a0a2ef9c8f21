import Verif.Lemmas.RealInv
import Mathlib.LinearAlgebra.Matrix.ToLinearEquiv
/-!
# Matrices in exact real arithmetic (layer R): C41-C45, C57

All statements are about `Ideal`: the crate's code run on exact reals. `toReal` is the real matrix.
(Generated by tools/gen/genrx.py.)
-/

set_option linter.unusedSimpArgs false
set_option linter.unusedVariables false

namespace VecMath
open Scalar IEEE

theorem not_finite_div_zero {a b : Ideal} (hb : IsFinite b) (h : real b = 0) : ¬ IsFinite (a / b) := by
  unfold IsFinite at *
  unfold real at h
  rw [den_div]
  generalize den a = x at *
  generalize den b = y at *
  revert h
  refine Val.IsFin.cases (P := fun y => y.real = 0 → ¬ ((IEEE.A Ideal).div x y).IsFin) hb ?_ ?_
  · intro _
    rcases x with _ | s | _ | z <;> simp [Rounding.div, Val.IsFin]
    split_ifs <;> simp
  · intro y hy
    have hy : y = 0 := hy
    subst hy
    rcases x with _ | s | _ | z <;> simp [Rounding.div, Val.IsFin]
    split_ifs <;> simp

/-! ## Matrix3x3 -/
section
variable {a b c m n : Matrix3x3 Ideal} {p q : Point2 Ideal} {u v : Vector2 Ideal} {s t : Ideal}

/-- **C41** in real arithmetic: `*` is the matrix product; it is associative and compatible with scalar
multiplication; finite matrices stay finite. -/
theorem C41_real2 (a b c : Matrix3x3 Ideal) (s : Ideal) (ha : AllFinite a) (hb : AllFinite b) (hc : AllFinite c)
    (hs : IsFinite s) :
    AllFinite (a * b) ∧ (∀ i j, (a * b).toReal i j = ∑ k, a.toReal i k * b.toReal k j) ∧
    ((a * b) * c == a * (b * c)) = true ∧ ((a * s) * b == (a * b) * s) = true ∧
    (a * (b * s) == (a * b) * s) = true ∧
    (a * b).toReal.det = a.toReal.det * b.toReal.det := by
  have hab := Matrix3x3.fin_mul ha hb
  have hbc := Matrix3x3.fin_mul hb hc
  refine ⟨hab, fun i j => ?_, ?_, ?_, ?_, ?_⟩
  · rw [Matrix3x3.toReal_mul ha hb, Matrix.mul_apply]
  · rw [Matrix3x3.beq_toReal (Matrix3x3.fin_mul hab hc) (Matrix3x3.fin_mul ha hbc), Matrix3x3.toReal_mul hab hc, Matrix3x3.toReal_mul ha hbc,
      Matrix3x3.toReal_mul ha hb, Matrix3x3.toReal_mul hb hc, mul_assoc]
  · rw [Matrix3x3.beq_toReal (Matrix3x3.fin_mul (Matrix3x3.fin_muls ha hs) hb) (Matrix3x3.fin_muls hab hs),
      Matrix3x3.toReal_mul (Matrix3x3.fin_muls ha hs) hb, Matrix3x3.toReal_muls ha hs, Matrix3x3.toReal_muls hab hs, Matrix3x3.toReal_mul ha hb,
      Matrix.smul_mul]
  · rw [Matrix3x3.beq_toReal (Matrix3x3.fin_mul ha (Matrix3x3.fin_muls hb hs)) (Matrix3x3.fin_muls hab hs),
      Matrix3x3.toReal_mul ha (Matrix3x3.fin_muls hb hs), Matrix3x3.toReal_muls hb hs, Matrix3x3.toReal_muls hab hs, Matrix3x3.toReal_mul ha hb,
      Matrix.mul_smul]
  · rw [Matrix3x3.toReal_mul ha hb, Matrix.det_mul]

/-- **C42** in real arithmetic: scaling a matrix and dividing again (or the other way round) gives it
back, and scalings compose. -/
theorem C42_real2 (m : Matrix3x3 Ideal) (s t : Ideal) (hm : AllFinite m) (hs : IsFinite s) (ht : IsFinite t) :
    ((m * s) * t == m * (s * t)) = true ∧ (m * (one : Ideal) == m) = true ∧
    (real s ≠ 0 → ((m * s) / s == m) = true ∧ ((m / s) * s == m) = true) := by
  refine ⟨?_, ?_, fun h0 => ⟨?_, ?_⟩⟩
  · rw [Matrix3x3.beq_toReal (Matrix3x3.fin_muls (Matrix3x3.fin_muls hm hs) ht) (Matrix3x3.fin_muls hm (Ideal.finite_mul hs ht)),
      Matrix3x3.toReal_muls (Matrix3x3.fin_muls hm hs) ht, Matrix3x3.toReal_muls hm hs, Matrix3x3.toReal_muls hm (Ideal.finite_mul hs ht),
      Ideal.real_mul hs ht, smul_smul, mul_comm]
  · rw [Matrix3x3.beq_toReal (Matrix3x3.fin_muls hm finite_one) hm, Matrix3x3.toReal_muls hm finite_one, real_one, one_smul]
  · rw [Matrix3x3.beq_toReal (Matrix3x3.fin_divs (Matrix3x3.fin_muls hm hs) hs h0) hm, Matrix3x3.toReal_divs (Matrix3x3.fin_muls hm hs) hs h0,
      Matrix3x3.toReal_muls hm hs, smul_smul, inv_mul_cancel₀ h0, one_smul]
  · rw [Matrix3x3.beq_toReal (Matrix3x3.fin_muls (Matrix3x3.fin_divs hm hs h0) hs) hm, Matrix3x3.toReal_muls (Matrix3x3.fin_divs hm hs h0) hs,
      Matrix3x3.toReal_divs hm hs h0, smul_smul, mul_inv_cancel₀ h0, one_smul]

/-- **C43** in real arithmetic: `m * p` is the projective action. With nonzero homogeneous weight
`w = (M (p,1))_last` the result is finite and equals the first coordinates of `M (p,1)` divided by `w`; with
weight zero no coordinate of the result is finite. -/
theorem C43_real_point2 (m : Matrix3x3 Ideal) (p : Point2 Ideal) (hm : AllFinite m) (hp : AllFinite p) :
    (m.weight p ≠ 0 → AllFinite (m * p) ∧
      ∀ i : Fin 2, (m * p).toReal i = (m.toReal.mulVec p.hom) i.castSucc / m.weight p) ∧
    (m.weight p = 0 → ∀ s ∈ Comps.comps (m * p), ¬ IsFinite s) := by
  refine ⟨fun h => Matrix3x3.mulp_aux hm hp h, fun h => ?_⟩
  rw [Matrix3x3.allFinite, forall_lt_9] at hm
  rw [Point2.allFinite] at hp
  have hd : IsFinite (m.m[6] * p.x + m.m[7] * p.y + m.m[8]) := by
    simp (maxDischargeDepth := 20) only [Ideal.finite_add, Ideal.finite_mul, hm, hp]
  have hr : real (m.m[6] * p.x + m.m[7] * p.y + m.m[8]) = m.weight p := by
    simp (maxDischargeDepth := 20) only [Ideal.real_add, Ideal.finite_add, Ideal.finite_mul, Ideal.real_mul, hm, hp]
    rw [Matrix3x3.weight, Matrix3x3.toReal_eq]
    simp [Matrix.mulVec, dotProduct, Fin.sum_univ_succ, Point2.hom, Fin.last, add_assoc]
  rw [h] at hr
  intro s hs
  have : ∃ x : Ideal, s = x / (m.m[6] * p.x + m.m[7] * p.y + m.m[8]) := by
    simp only [Comps.comps, List.mem_cons, List.not_mem_nil, or_false] at hs
    rcases hs with rfl | rfl <;> exact ⟨_, rfl⟩
  obtain ⟨x, rfl⟩ := this
  exact not_finite_div_zero hd hr

/-- **C43**: `m * v` is the linear part of the matrix applied to the vector. -/
theorem C43_real_vector2 (m : Matrix3x3 Ideal) (v : Vector2 Ideal) (hm : AllFinite m) (hv : AllFinite v) :
    AllFinite (m * v) ∧ ∀ i : Fin 2, (m * v).toReal i = ∑ j, m.linear i j * v.toReal j := by
  refine ⟨Matrix3x3.fin_mulv hm hv, fun i => ?_⟩
  rw [Matrix3x3.toReal_mulv hm hv, Matrix.mulVec, dotProduct, Fin.sum_univ_castSucc]
  simp only [← Vector2.toReal_hom hv]
  rw [Vector2.hom_last, mul_zero, add_zero]
  rfl

theorem Matrix3x3.weight_mul (ha : AllFinite a) (hb : AllFinite b) (hp : AllFinite p) (hw : b.weight p ≠ 0) :
    (a * b).weight p = a.weight (b * p) * b.weight p := by
  unfold Matrix3x3.weight
  rw [Matrix3x3.toReal_mul ha hb, Matrix3x3.hom_mulp hb hp hw, Matrix.mulVec_smul, ← Matrix.mulVec_mulVec, Pi.smul_apply,
    smul_eq_mul]
  change _ = (b.weight p)⁻¹ * _ * b.weight p
  field_simp

/-- **C43**: the product of matrices acts as the composition, on points of nonzero weight. -/
theorem C43_real_compose2 (a b : Matrix3x3 Ideal) (p : Point2 Ideal) (ha : AllFinite a) (hb : AllFinite b)
    (hp : AllFinite p) (h1 : b.weight p ≠ 0) (h2 : a.weight (b * p) ≠ 0) :
    (a * b).weight p ≠ 0 ∧ ((a * b) * p == a * (b * p)) = true := by
  have hw : (a * b).weight p ≠ 0 := by
    rw [Matrix3x3.weight_mul ha hb hp h1]; exact mul_ne_zero h2 h1
  refine ⟨hw, ?_⟩
  have f1 := Matrix3x3.fin_mulp hb hp h1
  rw [Point2.beq_toReal (Matrix3x3.fin_mulp (Matrix3x3.fin_mul ha hb) hp hw) (Matrix3x3.fin_mulp ha f1 h2)]
  apply Point2.hom_inj
  rw [Matrix3x3.hom_mulp (Matrix3x3.fin_mul ha hb) hp hw, Matrix3x3.hom_mulp ha f1 h2, Matrix3x3.hom_mulp hb hp h1, Matrix3x3.weight_mul ha hb hp h1,
    Matrix3x3.toReal_mul ha hb, Matrix.mulVec_smul, ← Matrix.mulVec_mulVec, smul_smul, mul_inv]

/-- **C43**: an affine matrix (last row `0 .. 0 1`) gives every point weight 1, respects the affine
structure, and its products act by composition on points and vectors. -/
theorem C43_real_affine2 (m a : Matrix3x3 Ideal) (p q : Point2 Ideal) (u v : Vector2 Ideal) (s : Ideal) (hm : AllFinite m)
    (h : m.Affine) (ha : AllFinite a) (hp : AllFinite p) (hq : AllFinite q) (hu : AllFinite u)
    (hv : AllFinite v) (hs : IsFinite s) :
    m.weight p = 1 ∧ AllFinite (m * p) ∧ (m * (p + v) == m * p + m * v) = true ∧
    ((m * p) - (m * q) == m * (p - q)) = true ∧ (m * (u + v) == m * u + m * v) = true ∧
    (m * (v * s) == (m * v) * s) = true ∧ ((a * m) * v == a * (m * v)) = true := by
  have hpv := Point2.fin_addv hp hv
  have hpq := Vector2.fin_subp hp hq
  have huv := Vector2.fin_add hu hv
  have hvs := Vector2.fin_mul hv hs
  have fp := h.fin_mulp hm hp
  have fq := h.fin_mulp hm hq
  have fv := Matrix3x3.fin_mulv hm hv
  have fu := Matrix3x3.fin_mulv hm hu
  refine ⟨h.weight p, fp, ?_, ?_, ?_, ?_, ?_⟩
  · rw [Point2.beq_toReal (h.fin_mulp hm hpv) (Point2.fin_addv fp fv), Point2.toReal_addv fp fv]
    ext i
    rw [Pi.add_apply, Point2.toReal_hom, Point2.toReal_hom, Vector2.toReal_hom fv, h.hom_mulp hm hpv, h.hom_mulp hm hp,
      h.hom_mulv hm hv, Point2.hom_addv hp hv, Matrix.mulVec_add, Pi.add_apply]
  · rw [Vector2.beq_toReal (Vector2.fin_subp fp fq) (Matrix3x3.fin_mulv hm hpq), Vector2.toReal_subp fp fq]
    ext i
    rw [Pi.sub_apply, Point2.toReal_hom, Point2.toReal_hom, Vector2.toReal_hom (Matrix3x3.fin_mulv hm hpq), h.hom_mulp hm hp, h.hom_mulp hm hq,
      h.hom_mulv hm hpq, Vector2.hom_subp hp hq, Matrix.mulVec_sub, Pi.sub_apply]
  · rw [Vector2.beq_toReal (Matrix3x3.fin_mulv hm huv) (Vector2.fin_add fu fv), Vector2.toReal_add fu fv, Matrix3x3.toReal_mulv' hm huv,
      Matrix3x3.toReal_mulv' hm hu, Matrix3x3.toReal_mulv' hm hv, Vector2.toReal_add hu hv, Matrix.mulVec_add]
  · rw [Vector2.beq_toReal (Matrix3x3.fin_mulv hm hvs) (Vector2.fin_mul fv hs), Vector2.toReal_mul fv hs, Matrix3x3.toReal_mulv' hm hvs,
      Matrix3x3.toReal_mulv' hm hv, Vector2.toReal_mul hv hs, Matrix.mulVec_smul]
  · rw [Vector2.beq_toReal (Matrix3x3.fin_mulv (Matrix3x3.fin_mul ha hm) hv) (Matrix3x3.fin_mulv ha fv)]
    ext i
    rw [Matrix3x3.toReal_mulv (Matrix3x3.fin_mul ha hm) hv, Matrix3x3.toReal_mulv ha fv, h.hom_mulv hm hv, Matrix3x3.toReal_mul ha hm, Matrix.mulVec_mulVec]

/-- **C44**: a returned inverse is a two-sided inverse, and inverting again gives the matrix back. -/
theorem C44_real2 (m n : Matrix3x3 Ideal) (hm : AllFinite m) (e : m.inverse = .ok n) :
    AllFinite n ∧ (m * n == Matrix3x3.identity) = true ∧ (n * m == Matrix3x3.identity) = true ∧
    ∃ m', n.inverse = .ok m' ∧ (m' == m) = true := by
  obtain ⟨h0, fn, hr⟩ := Matrix3x3.inverse_ok hm e
  have hu : IsUnit m.toReal.det := isUnit_iff_ne_zero.2 h0
  refine ⟨fn, ?_, ?_, ?_⟩
  · rw [Matrix3x3.beq_toReal (Matrix3x3.fin_mul hm fn) Matrix3x3.fin_identity, Matrix3x3.toReal_mul hm fn, hr, Matrix3x3.toReal_identity,
      Matrix.mul_nonsing_inv _ hu]
  · rw [Matrix3x3.beq_toReal (Matrix3x3.fin_mul fn hm) Matrix3x3.fin_identity, Matrix3x3.toReal_mul fn hm, hr, Matrix3x3.toReal_identity,
      Matrix.nonsing_inv_mul _ hu]
  · rcases Matrix3x3.inverse_cases fn with ⟨h, _⟩ | ⟨h, m', e', hf, hr'⟩
    · exfalso
      rw [hr] at h
      have := Matrix.det_nonsing_inv_mul_det m.toReal hu
      rw [h, zero_mul] at this
      exact zero_ne_one this
    · refine ⟨m', e', ?_⟩
      rw [Matrix3x3.beq_toReal hf hm, hr', hr, Matrix.nonsing_inv_nonsing_inv _ hu]

/-- **C44**: any one-sided inverse `n` of `m` is the matrix that `m.inverse()` returns. -/
theorem C44_unique2 (m n : Matrix3x3 Ideal) (hm : AllFinite m) (hn : AllFinite n)
    (h : (m * n == Matrix3x3.identity) = true ∨ (n * m == Matrix3x3.identity) = true) :
    ∃ n', m.inverse = .ok n' ∧ (n' == n) = true := by
  have h1 : m.toReal * n.toReal = 1 := by
    rcases h with h | h
    · rwa [Matrix3x3.beq_toReal (Matrix3x3.fin_mul hm hn) Matrix3x3.fin_identity, Matrix3x3.toReal_mul hm hn, Matrix3x3.toReal_identity] at h
    · rw [Matrix3x3.beq_toReal (Matrix3x3.fin_mul hn hm) Matrix3x3.fin_identity, Matrix3x3.toReal_mul hn hm, Matrix3x3.toReal_identity] at h
      exact mul_eq_one_comm.1 h
  rcases Matrix3x3.inverse_cases hm with ⟨h0, _⟩ | ⟨_, n', e, hf, hr⟩
  · exfalso
    have := congrArg Matrix.det h1
    rw [Matrix.det_mul, h0, zero_mul, Matrix.det_one] at this
    exact zero_ne_one this
  · refine ⟨n', e, ?_⟩
    rw [Matrix3x3.beq_toReal hf hn, hr]
    exact Matrix.inv_eq_right_inv h1

/-- **C45**: in real arithmetic `inverse()` fails exactly on matrices of determinant zero, that is, exactly
when some nonzero combination of the columns vanishes. -/
theorem C45_real2 (m : Matrix3x3 Ideal) (hm : AllFinite m) :
    (m.inverse = .error .mk ↔ m.toReal.det = 0) ∧
    (m.inverse = .error .mk ↔ ∃ x : Fin 3 → ℝ, x ≠ 0 ∧ m.toReal.mulVec x = 0) := by
  have key : m.inverse = .error .mk ↔ m.toReal.det = 0 := by
    rcases Matrix3x3.inverse_cases hm with ⟨h0, e⟩ | ⟨h0, n', e, hf, hr⟩
    · simp [h0, e]
    · simp [h0, e]
  exact ⟨key, key.trans Matrix.exists_mulVec_eq_zero_iff.symm⟩

/-- **C41**: a product is invertible exactly when both factors are, and its inverse is the product of the
inverses in the opposite order. -/
theorem C41_real_inverse2 (a b : Matrix3x3 Ideal) (ha : AllFinite a) (hb : AllFinite b) :
    ((∃ n, (a * b).inverse = .ok n) ↔ (∃ a', a.inverse = .ok a') ∧ ∃ b', b.inverse = .ok b') ∧
    ∀ a' b', a.inverse = .ok a' → b.inverse = .ok b' →
      ∃ n, (a * b).inverse = .ok n ∧ (n == b' * a') = true := by
  have hab := Matrix3x3.fin_mul ha hb
  have key : ∀ {m : Matrix3x3 Ideal}, AllFinite m → ((∃ n, m.inverse = .ok n) ↔ m.toReal.det ≠ 0) := by
    intro m hm
    rcases Matrix3x3.inverse_cases hm with ⟨h0, e⟩ | ⟨h0, n', e, hf, hr⟩
    · simp [h0, e]
    · simp [h0, e]
  refine ⟨?_, fun a' b' ea eb => ?_⟩
  · rw [key hab, key ha, key hb, Matrix3x3.toReal_mul ha hb, Matrix.det_mul, mul_ne_zero_iff]
  · obtain ⟨da, fa, ra⟩ := Matrix3x3.inverse_ok ha ea
    obtain ⟨db, fb, rb⟩ := Matrix3x3.inverse_ok hb eb
    obtain ⟨n, en⟩ := (key hab).2 (by rw [Matrix3x3.toReal_mul ha hb, Matrix.det_mul]; exact mul_ne_zero da db)
    obtain ⟨_, fn, rn⟩ := Matrix3x3.inverse_ok hab en
    refine ⟨n, en, ?_⟩
    rw [Matrix3x3.beq_toReal fn (Matrix3x3.fin_mul fb fa), Matrix3x3.toReal_mul fb fa, rn, ra, rb, Matrix3x3.toReal_mul ha hb, Matrix.mul_inv_rev]

/-- **C57** in real arithmetic: `try_from(m)` succeeds exactly when the determinant is nonzero; the result
has `m` as its forward matrix and the true inverse. -/
theorem C57_real2 (m : Matrix3x3 Ideal) (hm : AllFinite m) :
    ((∃ t, Transform2.tryFrom m = .ok t) ↔ m.toReal.det ≠ 0) ∧
    ∀ t, Transform2.tryFrom m = .ok t → t.forward = m ∧ t.Paired := by
  rcases Matrix3x3.inverse_cases hm with ⟨h0, e⟩ | ⟨h0, n', e, hf, hr⟩
  · have : Transform2.tryFrom m = .error .mk := by unfold Transform2.tryFrom; rw [e]; rfl
    simp [this, h0]
  · have : Transform2.tryFrom m = .ok ⟨m, n'⟩ := by unfold Transform2.tryFrom; rw [e]; rfl
    have ⟨_, c1, c2, _⟩ := C44_real2 m n' hm e
    refine ⟨by simp [this, h0], fun t ht => ?_⟩
    rw [this] at ht; cases ht
    exact ⟨rfl, c1, c2⟩
end

/-! ## Matrix4x4 -/
section
variable {a b c m n : Matrix4x4 Ideal} {p q : Point3 Ideal} {u v : Vector3 Ideal} {s t : Ideal}

/-- **C41** in real arithmetic: `*` is the matrix product; it is associative and compatible with scalar
multiplication; finite matrices stay finite. -/
theorem C41_real3 (a b c : Matrix4x4 Ideal) (s : Ideal) (ha : AllFinite a) (hb : AllFinite b) (hc : AllFinite c)
    (hs : IsFinite s) :
    AllFinite (a * b) ∧ (∀ i j, (a * b).toReal i j = ∑ k, a.toReal i k * b.toReal k j) ∧
    ((a * b) * c == a * (b * c)) = true ∧ ((a * s) * b == (a * b) * s) = true ∧
    (a * (b * s) == (a * b) * s) = true ∧
    (a * b).toReal.det = a.toReal.det * b.toReal.det := by
  have hab := Matrix4x4.fin_mul ha hb
  have hbc := Matrix4x4.fin_mul hb hc
  refine ⟨hab, fun i j => ?_, ?_, ?_, ?_, ?_⟩
  · rw [Matrix4x4.toReal_mul ha hb, Matrix.mul_apply]
  · rw [Matrix4x4.beq_toReal (Matrix4x4.fin_mul hab hc) (Matrix4x4.fin_mul ha hbc), Matrix4x4.toReal_mul hab hc, Matrix4x4.toReal_mul ha hbc,
      Matrix4x4.toReal_mul ha hb, Matrix4x4.toReal_mul hb hc, mul_assoc]
  · rw [Matrix4x4.beq_toReal (Matrix4x4.fin_mul (Matrix4x4.fin_muls ha hs) hb) (Matrix4x4.fin_muls hab hs),
      Matrix4x4.toReal_mul (Matrix4x4.fin_muls ha hs) hb, Matrix4x4.toReal_muls ha hs, Matrix4x4.toReal_muls hab hs, Matrix4x4.toReal_mul ha hb,
      Matrix.smul_mul]
  · rw [Matrix4x4.beq_toReal (Matrix4x4.fin_mul ha (Matrix4x4.fin_muls hb hs)) (Matrix4x4.fin_muls hab hs),
      Matrix4x4.toReal_mul ha (Matrix4x4.fin_muls hb hs), Matrix4x4.toReal_muls hb hs, Matrix4x4.toReal_muls hab hs, Matrix4x4.toReal_mul ha hb,
      Matrix.mul_smul]
  · rw [Matrix4x4.toReal_mul ha hb, Matrix.det_mul]

/-- **C42** in real arithmetic: scaling a matrix and dividing again (or the other way round) gives it
back, and scalings compose. -/
theorem C42_real3 (m : Matrix4x4 Ideal) (s t : Ideal) (hm : AllFinite m) (hs : IsFinite s) (ht : IsFinite t) :
    ((m * s) * t == m * (s * t)) = true ∧ (m * (one : Ideal) == m) = true ∧
    (real s ≠ 0 → ((m * s) / s == m) = true ∧ ((m / s) * s == m) = true) := by
  refine ⟨?_, ?_, fun h0 => ⟨?_, ?_⟩⟩
  · rw [Matrix4x4.beq_toReal (Matrix4x4.fin_muls (Matrix4x4.fin_muls hm hs) ht) (Matrix4x4.fin_muls hm (Ideal.finite_mul hs ht)),
      Matrix4x4.toReal_muls (Matrix4x4.fin_muls hm hs) ht, Matrix4x4.toReal_muls hm hs, Matrix4x4.toReal_muls hm (Ideal.finite_mul hs ht),
      Ideal.real_mul hs ht, smul_smul, mul_comm]
  · rw [Matrix4x4.beq_toReal (Matrix4x4.fin_muls hm finite_one) hm, Matrix4x4.toReal_muls hm finite_one, real_one, one_smul]
  · rw [Matrix4x4.beq_toReal (Matrix4x4.fin_divs (Matrix4x4.fin_muls hm hs) hs h0) hm, Matrix4x4.toReal_divs (Matrix4x4.fin_muls hm hs) hs h0,
      Matrix4x4.toReal_muls hm hs, smul_smul, inv_mul_cancel₀ h0, one_smul]
  · rw [Matrix4x4.beq_toReal (Matrix4x4.fin_muls (Matrix4x4.fin_divs hm hs h0) hs) hm, Matrix4x4.toReal_muls (Matrix4x4.fin_divs hm hs h0) hs,
      Matrix4x4.toReal_divs hm hs h0, smul_smul, mul_inv_cancel₀ h0, one_smul]

/-- **C43** in real arithmetic: `m * p` is the projective action. With nonzero homogeneous weight
`w = (M (p,1))_last` the result is finite and equals the first coordinates of `M (p,1)` divided by `w`; with
weight zero no coordinate of the result is finite. -/
theorem C43_real_point3 (m : Matrix4x4 Ideal) (p : Point3 Ideal) (hm : AllFinite m) (hp : AllFinite p) :
    (m.weight p ≠ 0 → AllFinite (m * p) ∧
      ∀ i : Fin 3, (m * p).toReal i = (m.toReal.mulVec p.hom) i.castSucc / m.weight p) ∧
    (m.weight p = 0 → ∀ s ∈ Comps.comps (m * p), ¬ IsFinite s) := by
  refine ⟨fun h => Matrix4x4.mulp_aux hm hp h, fun h => ?_⟩
  rw [Matrix4x4.allFinite, forall_lt_16] at hm
  rw [Point3.allFinite] at hp
  have hd : IsFinite (m.m[12] * p.x + m.m[13] * p.y + m.m[14] * p.z + m.m[15]) := by
    simp (maxDischargeDepth := 20) only [Ideal.finite_add, Ideal.finite_mul, hm, hp]
  have hr : real (m.m[12] * p.x + m.m[13] * p.y + m.m[14] * p.z + m.m[15]) = m.weight p := by
    simp (maxDischargeDepth := 20) only [Ideal.real_add, Ideal.finite_add, Ideal.finite_mul, Ideal.real_mul, hm, hp]
    rw [Matrix4x4.weight, Matrix4x4.toReal_eq]
    simp [Matrix.mulVec, dotProduct, Fin.sum_univ_succ, Point3.hom, Fin.last, add_assoc]
  rw [h] at hr
  intro s hs
  have : ∃ x : Ideal, s = x / (m.m[12] * p.x + m.m[13] * p.y + m.m[14] * p.z + m.m[15]) := by
    simp only [Comps.comps, List.mem_cons, List.not_mem_nil, or_false] at hs
    rcases hs with rfl | rfl | rfl <;> exact ⟨_, rfl⟩
  obtain ⟨x, rfl⟩ := this
  exact not_finite_div_zero hd hr

/-- **C43**: `m * v` is the linear part of the matrix applied to the vector. -/
theorem C43_real_vector3 (m : Matrix4x4 Ideal) (v : Vector3 Ideal) (hm : AllFinite m) (hv : AllFinite v) :
    AllFinite (m * v) ∧ ∀ i : Fin 3, (m * v).toReal i = ∑ j, m.linear i j * v.toReal j := by
  refine ⟨Matrix4x4.fin_mulv hm hv, fun i => ?_⟩
  rw [Matrix4x4.toReal_mulv hm hv, Matrix.mulVec, dotProduct, Fin.sum_univ_castSucc]
  simp only [← Vector3.toReal_hom hv]
  rw [Vector3.hom_last, mul_zero, add_zero]
  rfl

theorem Matrix4x4.weight_mul (ha : AllFinite a) (hb : AllFinite b) (hp : AllFinite p) (hw : b.weight p ≠ 0) :
    (a * b).weight p = a.weight (b * p) * b.weight p := by
  unfold Matrix4x4.weight
  rw [Matrix4x4.toReal_mul ha hb, Matrix4x4.hom_mulp hb hp hw, Matrix.mulVec_smul, ← Matrix.mulVec_mulVec, Pi.smul_apply,
    smul_eq_mul]
  change _ = (b.weight p)⁻¹ * _ * b.weight p
  field_simp

/-- **C43**: the product of matrices acts as the composition, on points of nonzero weight. -/
theorem C43_real_compose3 (a b : Matrix4x4 Ideal) (p : Point3 Ideal) (ha : AllFinite a) (hb : AllFinite b)
    (hp : AllFinite p) (h1 : b.weight p ≠ 0) (h2 : a.weight (b * p) ≠ 0) :
    (a * b).weight p ≠ 0 ∧ ((a * b) * p == a * (b * p)) = true := by
  have hw : (a * b).weight p ≠ 0 := by
    rw [Matrix4x4.weight_mul ha hb hp h1]; exact mul_ne_zero h2 h1
  refine ⟨hw, ?_⟩
  have f1 := Matrix4x4.fin_mulp hb hp h1
  rw [Point3.beq_toReal (Matrix4x4.fin_mulp (Matrix4x4.fin_mul ha hb) hp hw) (Matrix4x4.fin_mulp ha f1 h2)]
  apply Point3.hom_inj
  rw [Matrix4x4.hom_mulp (Matrix4x4.fin_mul ha hb) hp hw, Matrix4x4.hom_mulp ha f1 h2, Matrix4x4.hom_mulp hb hp h1, Matrix4x4.weight_mul ha hb hp h1,
    Matrix4x4.toReal_mul ha hb, Matrix.mulVec_smul, ← Matrix.mulVec_mulVec, smul_smul, mul_inv]

/-- **C43**: an affine matrix (last row `0 .. 0 1`) gives every point weight 1, respects the affine
structure, and its products act by composition on points and vectors. -/
theorem C43_real_affine3 (m a : Matrix4x4 Ideal) (p q : Point3 Ideal) (u v : Vector3 Ideal) (s : Ideal) (hm : AllFinite m)
    (h : m.Affine) (ha : AllFinite a) (hp : AllFinite p) (hq : AllFinite q) (hu : AllFinite u)
    (hv : AllFinite v) (hs : IsFinite s) :
    m.weight p = 1 ∧ AllFinite (m * p) ∧ (m * (p + v) == m * p + m * v) = true ∧
    ((m * p) - (m * q) == m * (p - q)) = true ∧ (m * (u + v) == m * u + m * v) = true ∧
    (m * (v * s) == (m * v) * s) = true ∧ ((a * m) * v == a * (m * v)) = true := by
  have hpv := Point3.fin_addv hp hv
  have hpq := Vector3.fin_subp hp hq
  have huv := Vector3.fin_add hu hv
  have hvs := Vector3.fin_mul hv hs
  have fp := h.fin_mulp hm hp
  have fq := h.fin_mulp hm hq
  have fv := Matrix4x4.fin_mulv hm hv
  have fu := Matrix4x4.fin_mulv hm hu
  refine ⟨h.weight p, fp, ?_, ?_, ?_, ?_, ?_⟩
  · rw [Point3.beq_toReal (h.fin_mulp hm hpv) (Point3.fin_addv fp fv), Point3.toReal_addv fp fv]
    ext i
    rw [Pi.add_apply, Point3.toReal_hom, Point3.toReal_hom, Vector3.toReal_hom fv, h.hom_mulp hm hpv, h.hom_mulp hm hp,
      h.hom_mulv hm hv, Point3.hom_addv hp hv, Matrix.mulVec_add, Pi.add_apply]
  · rw [Vector3.beq_toReal (Vector3.fin_subp fp fq) (Matrix4x4.fin_mulv hm hpq), Vector3.toReal_subp fp fq]
    ext i
    rw [Pi.sub_apply, Point3.toReal_hom, Point3.toReal_hom, Vector3.toReal_hom (Matrix4x4.fin_mulv hm hpq), h.hom_mulp hm hp, h.hom_mulp hm hq,
      h.hom_mulv hm hpq, Vector3.hom_subp hp hq, Matrix.mulVec_sub, Pi.sub_apply]
  · rw [Vector3.beq_toReal (Matrix4x4.fin_mulv hm huv) (Vector3.fin_add fu fv), Vector3.toReal_add fu fv, Matrix4x4.toReal_mulv' hm huv,
      Matrix4x4.toReal_mulv' hm hu, Matrix4x4.toReal_mulv' hm hv, Vector3.toReal_add hu hv, Matrix.mulVec_add]
  · rw [Vector3.beq_toReal (Matrix4x4.fin_mulv hm hvs) (Vector3.fin_mul fv hs), Vector3.toReal_mul fv hs, Matrix4x4.toReal_mulv' hm hvs,
      Matrix4x4.toReal_mulv' hm hv, Vector3.toReal_mul hv hs, Matrix.mulVec_smul]
  · rw [Vector3.beq_toReal (Matrix4x4.fin_mulv (Matrix4x4.fin_mul ha hm) hv) (Matrix4x4.fin_mulv ha fv)]
    ext i
    rw [Matrix4x4.toReal_mulv (Matrix4x4.fin_mul ha hm) hv, Matrix4x4.toReal_mulv ha fv, h.hom_mulv hm hv, Matrix4x4.toReal_mul ha hm, Matrix.mulVec_mulVec]

/-- **C44**: a returned inverse is a two-sided inverse, and inverting again gives the matrix back. -/
theorem C44_real3 (m n : Matrix4x4 Ideal) (hm : AllFinite m) (e : m.inverse = .ok n) :
    AllFinite n ∧ (m * n == Matrix4x4.identity) = true ∧ (n * m == Matrix4x4.identity) = true ∧
    ∃ m', n.inverse = .ok m' ∧ (m' == m) = true := by
  obtain ⟨h0, fn, hr⟩ := Matrix4x4.inverse_ok hm e
  have hu : IsUnit m.toReal.det := isUnit_iff_ne_zero.2 h0
  refine ⟨fn, ?_, ?_, ?_⟩
  · rw [Matrix4x4.beq_toReal (Matrix4x4.fin_mul hm fn) Matrix4x4.fin_identity, Matrix4x4.toReal_mul hm fn, hr, Matrix4x4.toReal_identity,
      Matrix.mul_nonsing_inv _ hu]
  · rw [Matrix4x4.beq_toReal (Matrix4x4.fin_mul fn hm) Matrix4x4.fin_identity, Matrix4x4.toReal_mul fn hm, hr, Matrix4x4.toReal_identity,
      Matrix.nonsing_inv_mul _ hu]
  · rcases Matrix4x4.inverse_cases fn with ⟨h, _⟩ | ⟨h, m', e', hf, hr'⟩
    · exfalso
      rw [hr] at h
      have := Matrix.det_nonsing_inv_mul_det m.toReal hu
      rw [h, zero_mul] at this
      exact zero_ne_one this
    · refine ⟨m', e', ?_⟩
      rw [Matrix4x4.beq_toReal hf hm, hr', hr, Matrix.nonsing_inv_nonsing_inv _ hu]

/-- **C44**: any one-sided inverse `n` of `m` is the matrix that `m.inverse()` returns. -/
theorem C44_unique3 (m n : Matrix4x4 Ideal) (hm : AllFinite m) (hn : AllFinite n)
    (h : (m * n == Matrix4x4.identity) = true ∨ (n * m == Matrix4x4.identity) = true) :
    ∃ n', m.inverse = .ok n' ∧ (n' == n) = true := by
  have h1 : m.toReal * n.toReal = 1 := by
    rcases h with h | h
    · rwa [Matrix4x4.beq_toReal (Matrix4x4.fin_mul hm hn) Matrix4x4.fin_identity, Matrix4x4.toReal_mul hm hn, Matrix4x4.toReal_identity] at h
    · rw [Matrix4x4.beq_toReal (Matrix4x4.fin_mul hn hm) Matrix4x4.fin_identity, Matrix4x4.toReal_mul hn hm, Matrix4x4.toReal_identity] at h
      exact mul_eq_one_comm.1 h
  rcases Matrix4x4.inverse_cases hm with ⟨h0, _⟩ | ⟨_, n', e, hf, hr⟩
  · exfalso
    have := congrArg Matrix.det h1
    rw [Matrix.det_mul, h0, zero_mul, Matrix.det_one] at this
    exact zero_ne_one this
  · refine ⟨n', e, ?_⟩
    rw [Matrix4x4.beq_toReal hf hn, hr]
    exact Matrix.inv_eq_right_inv h1

/-- **C45**: in real arithmetic `inverse()` fails exactly on matrices of determinant zero, that is, exactly
when some nonzero combination of the columns vanishes. -/
theorem C45_real3 (m : Matrix4x4 Ideal) (hm : AllFinite m) :
    (m.inverse = .error .mk ↔ m.toReal.det = 0) ∧
    (m.inverse = .error .mk ↔ ∃ x : Fin 4 → ℝ, x ≠ 0 ∧ m.toReal.mulVec x = 0) := by
  have key : m.inverse = .error .mk ↔ m.toReal.det = 0 := by
    rcases Matrix4x4.inverse_cases hm with ⟨h0, e⟩ | ⟨h0, n', e, hf, hr⟩
    · simp [h0, e]
    · simp [h0, e]
  exact ⟨key, key.trans Matrix.exists_mulVec_eq_zero_iff.symm⟩

/-- **C41**: a product is invertible exactly when both factors are, and its inverse is the product of the
inverses in the opposite order. -/
theorem C41_real_inverse3 (a b : Matrix4x4 Ideal) (ha : AllFinite a) (hb : AllFinite b) :
    ((∃ n, (a * b).inverse = .ok n) ↔ (∃ a', a.inverse = .ok a') ∧ ∃ b', b.inverse = .ok b') ∧
    ∀ a' b', a.inverse = .ok a' → b.inverse = .ok b' →
      ∃ n, (a * b).inverse = .ok n ∧ (n == b' * a') = true := by
  have hab := Matrix4x4.fin_mul ha hb
  have key : ∀ {m : Matrix4x4 Ideal}, AllFinite m → ((∃ n, m.inverse = .ok n) ↔ m.toReal.det ≠ 0) := by
    intro m hm
    rcases Matrix4x4.inverse_cases hm with ⟨h0, e⟩ | ⟨h0, n', e, hf, hr⟩
    · simp [h0, e]
    · simp [h0, e]
  refine ⟨?_, fun a' b' ea eb => ?_⟩
  · rw [key hab, key ha, key hb, Matrix4x4.toReal_mul ha hb, Matrix.det_mul, mul_ne_zero_iff]
  · obtain ⟨da, fa, ra⟩ := Matrix4x4.inverse_ok ha ea
    obtain ⟨db, fb, rb⟩ := Matrix4x4.inverse_ok hb eb
    obtain ⟨n, en⟩ := (key hab).2 (by rw [Matrix4x4.toReal_mul ha hb, Matrix.det_mul]; exact mul_ne_zero da db)
    obtain ⟨_, fn, rn⟩ := Matrix4x4.inverse_ok hab en
    refine ⟨n, en, ?_⟩
    rw [Matrix4x4.beq_toReal fn (Matrix4x4.fin_mul fb fa), Matrix4x4.toReal_mul fb fa, rn, ra, rb, Matrix4x4.toReal_mul ha hb, Matrix.mul_inv_rev]

/-- **C57** in real arithmetic: `try_from(m)` succeeds exactly when the determinant is nonzero; the result
has `m` as its forward matrix and the true inverse. -/
theorem C57_real3 (m : Matrix4x4 Ideal) (hm : AllFinite m) :
    ((∃ t, Transform3.tryFrom m = .ok t) ↔ m.toReal.det ≠ 0) ∧
    ∀ t, Transform3.tryFrom m = .ok t → t.forward = m ∧ t.Paired := by
  rcases Matrix4x4.inverse_cases hm with ⟨h0, e⟩ | ⟨h0, n', e, hf, hr⟩
  · have : Transform3.tryFrom m = .error .mk := by unfold Transform3.tryFrom; rw [e]; rfl
    simp [this, h0]
  · have : Transform3.tryFrom m = .ok ⟨m, n'⟩ := by unfold Transform3.tryFrom; rw [e]; rfl
    have ⟨_, c1, c2, _⟩ := C44_real3 m n' hm e
    refine ⟨by simp [this, h0], fun t ht => ?_⟩
    rw [this] at ht; cases ht
    exact ⟨rfl, c1, c2⟩
end

/-! ## The hypotheses are met by concrete, non-trivial values -/

/-- a projective, invertible matrix -/
noncomputable def exM3 : Matrix3x3 Ideal := ⟨(#v[2, 1, 3, 0, 1, -1, 1, 0, 1] : Vector ℝ 9).map Ideal.of⟩
/-- a projective, invertible matrix -/
noncomputable def exM4 : Matrix4x4 Ideal :=
  ⟨(#v[2, 1, 0, 3, 0, 1, 1, -1, 0, 0, 3, 2, 1, 0, 0, 1] : Vector ℝ 16).map Ideal.of⟩
/-- an affine shear with translation -/
noncomputable def exA3 : Matrix3x3 Ideal := ⟨(#v[2, 1, 3, 0, 1, -1, 0, 0, 1] : Vector ℝ 9).map Ideal.of⟩
/-- an affine shear with translation -/
noncomputable def exA4 : Matrix4x4 Ideal :=
  ⟨(#v[2, 1, 0, 3, 0, 1, 1, -1, 0, 0, 3, 2, 0, 0, 0, 1] : Vector ℝ 16).map Ideal.of⟩
noncomputable def exP2 : Point2 Ideal := ⟨.of 3, .of (-4)⟩
noncomputable def exP3 : Point3 Ideal := ⟨.of 3, .of (-4), .of 5⟩

theorem exM3_fin : AllFinite exM3 := by
  rw [Matrix3x3.allFinite]; intro i hi; rw [exM3, Vector.getElem_map]; exact Ideal.finite_of _
theorem exM4_fin : AllFinite exM4 := by
  rw [Matrix4x4.allFinite]; intro i hi; rw [exM4, Vector.getElem_map]; exact Ideal.finite_of _
theorem exA3_fin : AllFinite exA3 := by
  rw [Matrix3x3.allFinite]; intro i hi; rw [exA3, Vector.getElem_map]; exact Ideal.finite_of _
theorem exA4_fin : AllFinite exA4 := by
  rw [Matrix4x4.allFinite]; intro i hi; rw [exA4, Vector.getElem_map]; exact Ideal.finite_of _
theorem exP2_fin : AllFinite exP2 := by rw [Point2.allFinite]; exact ⟨trivial, trivial⟩
theorem exP3_fin : AllFinite exP3 := by rw [Point3.allFinite]; exact ⟨trivial, trivial, trivial⟩
theorem exM3_det : exM3.toReal.det = -2 := by
  rw [Matrix3x3.toReal_eq, Matrix.det_fin_three]
  simp [exM3]; norm_num
theorem exA3_det : exA3.toReal.det = 2 := by
  rw [Matrix3x3.toReal_eq, Matrix.det_fin_three]
  simp [exA3]
theorem exA3_affine : exA3.Affine := by
  intro j; rw [Matrix3x3.toReal_eq]; fin_cases j <;> simp [exA3, Fin.last]
theorem exA4_affine : exA4.Affine := by
  intro j; rw [Matrix4x4.toReal_eq]; fin_cases j <;> simp [exA4, Fin.last]
theorem exA4_det : exA4.toReal.det = 6 := by
  rw [exA4_affine.det, Matrix.det_fin_three]
  simp only [Matrix4x4.linear]
  rw [Matrix4x4.toReal_eq]
  simp [exA4]; norm_num
theorem exM3_weight : exM3.weight exP2 = 4 := by
  rw [Matrix3x3.weight, Matrix3x3.toReal_eq]
  simp [Matrix.mulVec, dotProduct, Fin.sum_univ_succ, Point2.hom, Fin.last, exM3, exP2]; norm_num
theorem exM4_weight : exM4.weight exP3 = 4 := by
  rw [Matrix4x4.weight, Matrix4x4.toReal_eq]
  simp [Matrix.mulVec, dotProduct, Fin.sum_univ_succ, Point3.hom, Fin.last, exM4, exP3]; norm_num

example := C41_real2 exM3 exA3 exM3 (.of 7) exM3_fin exA3_fin exM3_fin trivial
example := C41_real3 exM4 exA4 exM4 (.of 7) exM4_fin exA4_fin exM4_fin trivial
example := (C42_real2 exM3 (.of 3) (.of 5) exM3_fin trivial trivial).2.2 (by norm_num)
example := (C42_real3 exM4 (.of 3) (.of 5) exM4_fin trivial trivial).2.2 (by norm_num)
/-- nonzero weight is met -/
example : AllFinite (exM3 * exP2) :=
  ((C43_real_point2 exM3 exP2 exM3_fin exP2_fin).1 (by rw [exM3_weight]; norm_num)).1
example : AllFinite (exM4 * exP3) :=
  ((C43_real_point3 exM4 exP3 exM4_fin exP3_fin).1 (by rw [exM4_weight]; norm_num)).1
/-- weight zero is met: the point `(-1, 0)` -/
example : exM3.weight ⟨.of (-1), .of 0⟩ = 0 := by
  rw [Matrix3x3.weight, Matrix3x3.toReal_eq]
  simp [Matrix.mulVec, dotProduct, Fin.sum_univ_succ, Point2.hom, Fin.last, exM3]
example : exM4.weight ⟨.of (-1), .of 0, .of 0⟩ = 0 := by
  rw [Matrix4x4.weight, Matrix4x4.toReal_eq]
  simp [Matrix.mulVec, dotProduct, Fin.sum_univ_succ, Point3.hom, Fin.last, exM4]
/-- composition of a projective and an affine map -/
example := C43_real_compose2 exA3 exM3 exP2 exA3_fin exM3_fin exP2_fin (by rw [exM3_weight]; norm_num)
  (by rw [exA3_affine.weight]; norm_num)
example := C43_real_compose3 exA4 exM4 exP3 exA4_fin exM4_fin exP3_fin (by rw [exM4_weight]; norm_num)
  (by rw [exA4_affine.weight]; norm_num)
example := C43_real_affine2 exA3 exM3 exP2 exP2 ⟨.of 1, .of 2⟩ ⟨.of 1, .of 2⟩ (.of 3) exA3_fin exA3_affine
  exM3_fin exP2_fin exP2_fin (by rw [Vector2.allFinite]; exact ⟨trivial, trivial⟩)
  (by rw [Vector2.allFinite]; exact ⟨trivial, trivial⟩) trivial
example := C43_real_affine3 exA4 exM4 exP3 exP3 ⟨.of 1, .of 2, .of 0⟩ ⟨.of 1, .of 2, .of 6⟩ (.of 3) exA4_fin
  exA4_affine exM4_fin exP3_fin exP3_fin (by rw [Vector3.allFinite]; exact ⟨trivial, trivial, trivial⟩)
  (by rw [Vector3.allFinite]; exact ⟨trivial, trivial, trivial⟩) trivial
/-- invertible matrices exist -/
example : ∃ n, exM3.inverse = .ok n := by
  rcases Matrix3x3.inverse_cases exM3_fin with ⟨h, _⟩ | ⟨_, n, e, _⟩
  · rw [exM3_det] at h; norm_num at h
  · exact ⟨n, e⟩
example : ∃ n, exA4.inverse = .ok n := by
  rcases Matrix4x4.inverse_cases exA4_fin with ⟨h, _⟩ | ⟨_, n, e, _⟩
  · rw [exA4_det] at h; norm_num at h
  · exact ⟨n, e⟩
/-- singular matrices exist and are rejected -/
example : (Matrix3x3.scale (.of 2) (.of 0) : Matrix3x3 Ideal).inverse = .error .mk := by
  refine (C45_real2 _ ?_).1.2 ?_
  · rw [Matrix3x3.allFinite, forall_lt_9]; mat_simp []; simp [finite_zero, finite_one]
  · rw [Matrix3x3.toReal_eq, Matrix.det_fin_three]; mat_simp []; simp [real_zero]
example : (Matrix4x4.scale (.of 2) (.of 0) (.of 1) : Matrix4x4 Ideal).inverse = .error .mk := by
  refine (C45_real3 _ ?_).2.2 ⟨![0, 1, 0, 0], ?_, ?_⟩
  · rw [Matrix4x4.allFinite, forall_lt_16]; mat_simp []; simp [finite_zero, finite_one]
  · intro h; have := congrFun h 1; simp at this
  · rw [Matrix4x4.toReal_eq]; mat_simp []
    ext i; fin_cases i <;> simp [Matrix.mulVec, dotProduct, Fin.sum_univ_succ, real_zero]

end VecMath
