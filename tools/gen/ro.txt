import Verif.Lemmas.RealTr
import Mathlib.Tactic.NoncommRing
/-!
# Rotation matrices

`rot2 θ` and Rodrigues' matrix `rod k θ` over the reals, and the proof that the crate's rotation
constructors produce them.
-/

set_option linter.unusedSimpArgs false
set_option linter.unusedVariables false

namespace VecMath
open Scalar IEEE
open scoped Matrix

/-! ## The plane -/

/-- The plane rotation matrix. -/
noncomputable def rot2 (θ : ℝ) : Matrix (Fin 2) (Fin 2) ℝ := !![Real.cos θ, -Real.sin θ; Real.sin θ, Real.cos θ]
theorem rot2_mul (a b : ℝ) : rot2 b * rot2 a = rot2 (a + b) := by
  unfold rot2
  rw [Real.cos_add, Real.sin_add]
  ext i j; fin_cases i <;> fin_cases j <;> simp [Matrix.mul_apply, Fin.sum_univ_succ] <;> ring
theorem rot2_zero : rot2 0 = 1 := by
  unfold rot2; ext i j; fin_cases i <;> fin_cases j <;> simp
theorem rot2_transpose (a : ℝ) : (rot2 a).transpose = rot2 (-a) := by
  unfold rot2; ext i j; fin_cases i <;> fin_cases j <;> simp
theorem rot2_orth (a : ℝ) : (rot2 a).transpose * rot2 a = 1 := by
  rw [rot2_transpose, rot2_mul, add_neg_cancel, rot2_zero]
theorem rot2_det (a : ℝ) : (rot2 a).det = 1 := by
  rw [rot2, Matrix.det_fin_two_of]
  have := Real.sin_sq_add_cos_sq a
  nlinarith

section
variable {a b : Ideal}
theorem Matrix3x3.fin_rotate (ha : IsFinite a) : AllFinite (Matrix3x3.rotate a) := by
  have h1 := Ideal.finite_sin ha
  have h2 := Ideal.finite_cos ha
  have h3 := finite_neg.2 h1
  rw [Matrix3x3.allFinite, forall_lt_9]
  exact ⟨h2, h3, finite_zero, h1, h2, finite_zero, finite_zero, finite_zero, finite_one⟩
theorem Matrix3x3.toReal_rotate (ha : IsFinite a) : (Matrix3x3.rotate a).toReal =
    !![Real.cos (real a), -Real.sin (real a), 0; Real.sin (real a), Real.cos (real a), 0; 0, 0, 1] := by
  have h : (Matrix3x3.rotate a).toReal = !![real (cos a), real (-sin a), real (zero : Ideal);
      real (sin a), real (cos a), real (zero : Ideal); real (zero : Ideal), real (zero : Ideal), real (one : Ideal)] := by
    rw [Matrix3x3.toReal_eq]; rfl
  rw [h, Ideal.real_cos ha, IEEE.real_neg, Ideal.real_sin ha, real_zero, real_one]
theorem Matrix3x3.rotate_affine (ha : IsFinite a) : (Matrix3x3.rotate a).Affine := by
  intro j; rw [Matrix3x3.toReal_rotate ha]; fin_cases j <;> simp [Fin.last]
theorem Matrix3x3.linear_rotate (ha : IsFinite a) : (Matrix3x3.rotate a).linear = rot2 (real a) := by
  unfold Matrix3x3.linear
  rw [Matrix3x3.toReal_rotate ha]
  ext i j; fin_cases i <;> fin_cases j <;> simp [rot2]
theorem Matrix3x3.offset_rotate (ha : IsFinite a) : (Matrix3x3.rotate a).offset = 0 := by
  unfold Matrix3x3.offset
  rw [Matrix3x3.toReal_rotate ha]
  ext i; fin_cases i <;> simp [Fin.last]
end

/-! ## Space -/

/-- The matrix of `v ↦ k × v`. -/
def crossM (k : Fin 3 → ℝ) : Matrix (Fin 3) (Fin 3) ℝ := !![0, -k 2, k 1; k 2, 0, -k 0; -k 1, k 0, 0]
/-- Rodrigues' rotation matrix about the unit vector `k`. -/
noncomputable def rod (k : Fin 3 → ℝ) (θ : ℝ) : Matrix (Fin 3) (Fin 3) ℝ :=
  Real.cos θ • (1 : Matrix (Fin 3) (Fin 3) ℝ) + Real.sin θ • crossM k + (1 - Real.cos θ) • Matrix.vecMulVec k k

variable {k : Fin 3 → ℝ}
theorem crossM_mulVec (k v : Fin 3 → ℝ) : (crossM k).mulVec v = crossProduct k v := by
  rw [cross_apply]; unfold crossM
  ext i; fin_cases i <;> simp [Matrix.mulVec, dotProduct, Fin.sum_univ_succ] <;> ring
theorem vecMulVec_mulVec' (k v : Fin 3 → ℝ) : (Matrix.vecMulVec k k).mulVec v = (k ⬝ᵥ v) • k := by
  ext i
  simp [Matrix.mulVec, dotProduct, Fin.sum_univ_succ, Matrix.vecMulVec_apply]; ring
/-- Rodrigues' formula. -/
theorem rod_mulVec (k v : Fin 3 → ℝ) (θ : ℝ) : (rod k θ).mulVec v =
    Real.cos θ • v + Real.sin θ • crossProduct k v + ((1 - Real.cos θ) * (k ⬝ᵥ v)) • k := by
  unfold rod
  rw [Matrix.add_mulVec, Matrix.add_mulVec, Matrix.smul_mulVec, Matrix.smul_mulVec, Matrix.smul_mulVec,
    Matrix.one_mulVec, crossM_mulVec, vecMulVec_mulVec', smul_smul]
theorem kk (h : k ⬝ᵥ k = 1) : k 0 * k 0 + k 1 * k 1 + k 2 * k 2 = 1 := by
  simpa [dotProduct, Fin.sum_univ_succ, add_assoc] using h
theorem crossM_sq (h : k ⬝ᵥ k = 1) : crossM k * crossM k = Matrix.vecMulVec k k - 1 := by
  have h := kk h
  unfold crossM
  ext i j; fin_cases i <;> fin_cases j <;>
    simp [Matrix.mul_apply, Fin.sum_univ_succ, Matrix.vecMulVec_apply] <;> first | ring1 | linear_combination -h
theorem crossM_P : crossM k * Matrix.vecMulVec k k = 0 := by
  unfold crossM
  ext i j; fin_cases i <;> fin_cases j <;>
    simp [Matrix.mul_apply, Fin.sum_univ_succ, Matrix.vecMulVec_apply] <;> ring
theorem P_crossM : Matrix.vecMulVec k k * crossM k = 0 := by
  unfold crossM
  ext i j; fin_cases i <;> fin_cases j <;>
    simp [Matrix.mul_apply, Fin.sum_univ_succ, Matrix.vecMulVec_apply] <;> ring
theorem P_sq (h : k ⬝ᵥ k = 1) : Matrix.vecMulVec k k * Matrix.vecMulVec k k = Matrix.vecMulVec k k := by
  rw [Matrix.vecMulVec_mul_vecMulVec, h, one_smul]
theorem rod_mul (h : k ⬝ᵥ k = 1) (a b : ℝ) : rod k b * rod k a = rod k (a + b) := by
  have h1 := crossM_sq h
  have h2 := @crossM_P k
  have h3 := @P_crossM k
  have h4 := P_sq h
  unfold rod
  rw [Real.cos_add, Real.sin_add]
  generalize crossM k = K at *
  generalize Matrix.vecMulVec k k = P at *
  simp only [add_mul, mul_add, smul_mul_assoc, mul_smul_comm, one_mul, mul_one, h1, h2, h3, h4]
  module
theorem rod_zero (k : Fin 3 → ℝ) : rod k 0 = 1 := by simp [rod]
theorem rod_transpose (k : Fin 3 → ℝ) (a : ℝ) : (rod k a).transpose = rod k (-a) := by
  unfold rod crossM
  ext i j; fin_cases i <;> fin_cases j <;> simp [Matrix.vecMulVec_apply] <;> first | ring1 | (left; ring1)
theorem rod_orth (h : k ⬝ᵥ k = 1) (a : ℝ) : (rod k a).transpose * rod k a = 1 := by
  rw [rod_transpose, rod_mul h, add_neg_cancel, rod_zero]
theorem rod_det (h : k ⬝ᵥ k = 1) (a : ℝ) : (rod k a).det = 1 := by
  have h1 : ∀ a, (rod k a).det * (rod k a).det = 1 := by
    intro a
    have := congrArg Matrix.det (rod_orth h a)
    rwa [Matrix.det_mul, Matrix.det_transpose, Matrix.det_one] at this
  rw [show a = a / 2 + a / 2 by ring, ← rod_mul h, Matrix.det_mul, h1]
theorem rod_neg (k : Fin 3 → ℝ) (a : ℝ) : rod (-k) a = rod k (-a) := by
  unfold rod crossM
  ext i j; fin_cases i <;> fin_cases j <;> simp [Matrix.vecMulVec_apply] <;> ring

section
variable {a b : Ideal} {axis : Vector3 Ideal}

/-- what a rotation constructor yields -/
structure IsRot (m : Matrix4x4 Ideal) (k : Fin 3 → ℝ) (θ : ℝ) : Prop where
  fin : AllFinite m
  affine : m.Affine
  linear : m.linear = rod k θ
  offset : m.offset = 0

theorem IsRot.mk' {m : Matrix4x4 Ideal} {k : Fin 3 → ℝ} {θ : ℝ} (hf : AllFinite m)
    (h : m.toReal = !![rod k θ 0 0, rod k θ 0 1, rod k θ 0 2, 0; rod k θ 1 0, rod k θ 1 1, rod k θ 1 2, 0;
      rod k θ 2 0, rod k θ 2 1, rod k θ 2 2, 0; 0, 0, 0, 1]) : IsRot m k θ := by
  refine ⟨hf, ?_, ?_, ?_⟩
  · intro j; rw [h]; fin_cases j <;> simp [Fin.last]
  · unfold Matrix4x4.linear; rw [h]
    ext i j; fin_cases i <;> fin_cases j <;> simp
  · unfold Matrix4x4.offset; rw [h]
    ext i; fin_cases i <;> simp [Fin.last]

theorem isRot_rotateX (ha : IsFinite a) : IsRot (Matrix4x4.rotateX a) ![1, 0, 0] (real a) := by
  have h1 := Ideal.finite_sin ha
  have h2 := Ideal.finite_cos ha
  have h3 := finite_neg.2 h1
  have z := finite_zero (S := Ideal)
  have o := finite_one (S := Ideal)
  refine IsRot.mk' ?_ ?_
  · rw [Matrix4x4.allFinite, forall_lt_16]
    exact ⟨o, z, z, z, z, h2, h3, z, z, h1, h2, z, z, z, z, o⟩
  · rw [Matrix4x4.toReal_eq]
    show !![real one, real zero, real zero, real zero; real zero, real (cos a), real (-sin a), real zero;
      real zero, real (sin a), real (cos a), real zero; real zero, real zero, real zero, real one] = _
    rw [Ideal.real_cos ha, IEEE.real_neg, Ideal.real_sin ha, real_zero, real_one]
    ext i j; fin_cases i <;> fin_cases j <;> simp [rod, crossM, Matrix.vecMulVec_apply]
theorem isRot_rotateY (ha : IsFinite a) : IsRot (Matrix4x4.rotateY a) ![0, 1, 0] (real a) := by
  have h1 := Ideal.finite_sin ha
  have h2 := Ideal.finite_cos ha
  have h3 := finite_neg.2 h1
  have z := finite_zero (S := Ideal)
  have o := finite_one (S := Ideal)
  refine IsRot.mk' ?_ ?_
  · rw [Matrix4x4.allFinite, forall_lt_16]
    exact ⟨h2, z, h1, z, z, o, z, z, h3, z, h2, z, z, z, z, o⟩
  · rw [Matrix4x4.toReal_eq]
    show !![real (cos a), real zero, real (sin a), real zero; real zero, real one, real zero, real zero;
      real (-sin a), real zero, real (cos a), real zero; real zero, real zero, real zero, real one] = _
    rw [Ideal.real_cos ha, IEEE.real_neg, Ideal.real_sin ha, real_zero, real_one]
    ext i j; fin_cases i <;> fin_cases j <;> simp [rod, crossM, Matrix.vecMulVec_apply]
theorem isRot_rotateZ (ha : IsFinite a) : IsRot (Matrix4x4.rotateZ a) ![0, 0, 1] (real a) := by
  have h1 := Ideal.finite_sin ha
  have h2 := Ideal.finite_cos ha
  have h3 := finite_neg.2 h1
  have z := finite_zero (S := Ideal)
  have o := finite_one (S := Ideal)
  refine IsRot.mk' ?_ ?_
  · rw [Matrix4x4.allFinite, forall_lt_16]
    exact ⟨h2, h3, z, z, h1, h2, z, z, z, z, o, z, z, z, z, o⟩
  · rw [Matrix4x4.toReal_eq]
    show !![real (cos a), real (-sin a), real zero, real zero; real (sin a), real (cos a), real zero, real zero;
      real zero, real zero, real one, real zero; real zero, real zero, real zero, real one] = _
    rw [Ideal.real_cos ha, IEEE.real_neg, Ideal.real_sin ha, real_zero, real_one]
    ext i j; fin_cases i <;> fin_cases j <;> simp [rod, crossM, Matrix.vecMulVec_apply]
theorem isRot_rotateAxis (hk : AllFinite axis) (h0 : axis.toReal ≠ 0) (ha : IsFinite a) :
    IsRot (Matrix4x4.rotateAxis axis a) axis.normalize.toReal (real a) := by
  have hn := Vector3.fin_normalize hk h0
  unfold Matrix4x4.rotateAxis
  generalize axis.normalize = n at *
  have h1 := Ideal.finite_sin ha
  have h2 := Ideal.finite_cos ha
  have z := finite_zero (S := Ideal)
  have o := finite_one (S := Ideal)
  rw [Vector3.allFinite] at hn
  refine IsRot.mk' ?_ ?_
  · rw [Matrix4x4.allFinite, forall_lt_16]
    simp (maxDischargeDepth := 20) [Matrix4x4.new, sinCos, Ideal.finite_add, Ideal.finite_sub, Ideal.finite_mul, hn, h1, h2, z, o]
  · rw [Matrix4x4.toReal_eq]
    simp (maxDischargeDepth := 20) [Matrix4x4.new, sinCos, Ideal.finite_add, Ideal.finite_sub, Ideal.finite_mul, hn, h1, h2, z, o,
      Ideal.real_add, Ideal.real_sub, Ideal.real_mul, Ideal.real_sin ha, Ideal.real_cos ha, real_zero, real_one, -EmbeddingLike.apply_eq_iff_eq]
    ext i j; fin_cases i <;> fin_cases j <;> simp [rod, crossM, Matrix.vecMulVec_apply, Vector3.toReal] <;> ring
theorem unit_normalize (hk : AllFinite axis) (h0 : axis.toReal ≠ 0) :
    axis.normalize.toReal ⬝ᵥ axis.normalize.toReal = 1 := by
  rw [Vector3.toReal_normalize hk h0, ← Vector3.real_length hk]
  rw [smul_dotProduct, dotProduct_smul, ← Vector3.real_length_sq hk]
  have := mt (Vector3.real_length_eq_zero hk).1 h0
  simp only [smul_eq_mul]
  field_simp

variable {m m' : Matrix4x4 Ideal} {θ θ' : ℝ}
theorem IsRot.rigid (h : IsRot m k θ) (hk : k ⬝ᵥ k = 1) : (Transform3.new m m.transpose).Rigid :=
  Transform3.rigid_of h.fin h.affine (by show m.linear.transpose * m.linear = 1; rw [h.linear, rod_orth hk])
    (by show m.linear.det = 1; rw [h.linear, rod_det hk])
theorem IsRot.paired (h : IsRot m k θ) (hk : k ⬝ᵥ k = 1) : (Transform3.new m m.transpose).Paired :=
  Transform3.paired_transpose h.fin h.affine h.offset (by rw [h.linear, rod_orth hk])
theorem IsRot.toReal_eq (h : IsRot m k θ) (h' : IsRot m' k θ) : m.toReal = m'.toReal :=
  Matrix4x4.Affine.ext h.affine h'.affine (by rw [h.linear, h'.linear]) (by rw [h.offset, h'.offset])
theorem IsRot.beq (h : IsRot m k θ) (h' : IsRot m' k θ) : (m == m') = true := by
  rw [Matrix4x4.beq_toReal h.fin h'.fin, h.toReal_eq h']
theorem IsRot.beq_transpose (h : IsRot m k θ) (h' : IsRot m' k θ) : (m.transpose == m'.transpose) = true := by
  rw [Matrix4x4.beq_toReal (Matrix4x4.fin_transpose h.fin) (Matrix4x4.fin_transpose h'.fin), Matrix4x4.toReal_transpose,
    Matrix4x4.toReal_transpose, h.toReal_eq h']
theorem IsRot.beq_tr (h : IsRot m k θ) (h' : IsRot m' k θ) :
    (Transform3.new m m.transpose == Transform3.new m' m'.transpose) = true :=
  Transform3.beq_iff.2 ⟨h.beq h', h.beq_transpose h'⟩
theorem IsRot.mul (h : IsRot m k θ) (h' : IsRot m' k θ') (hk : k ⬝ᵥ k = 1) : IsRot (m' * m) k (θ + θ') := by
  refine ⟨Matrix4x4.fin_mul h'.fin h.fin, h'.affine.mul h.affine h'.fin h.fin, ?_, ?_⟩
  · rw [h.affine.linear_mul h'.fin h.fin, h.linear, h'.linear, rod_mul hk]
  · rw [h.affine.offset_mul h'.fin h.fin, h.offset, h'.offset, Matrix.mulVec_zero, add_zero]
theorem IsRot.transpose (h : IsRot m k θ) : IsRot m.transpose k (-θ) :=
  ⟨Matrix4x4.fin_transpose h.fin, h.affine.transpose h.offset,
    by rw [Matrix4x4.linear_transpose, h.linear, rod_transpose], h.affine.offset_transpose⟩
theorem IsRot.andThen (h : IsRot m k θ) (h' : IsRot m' k θ') (hk : k ⬝ᵥ k = 1) {n : Matrix4x4 Ideal}
    (hn : IsRot n k (θ + θ')) :
    ((Transform3.new m m.transpose).andThen (Transform3.new m' m'.transpose) == Transform3.new n n.transpose) = true := by
  refine Transform3.beq_iff.2 ⟨(h.mul h' hk).beq hn, ?_⟩
  have h2 := h'.transpose.mul h.transpose hk
  have hn2 := hn.transpose
  rw [neg_add_rev] at hn2
  exact h2.beq hn2
theorem IsRot.identity (k : Fin 3 → ℝ) : IsRot (Matrix4x4.identity : Matrix4x4 Ideal) k 0 :=
  ⟨Matrix4x4.fin_identity, Matrix4x4.identity_affine, by rw [rod_zero, Matrix4x4.linear_identity], Matrix4x4.offset_identity⟩
theorem IsRot.vector (h : IsRot m k θ) {v : Vector3 Ideal} (hv : AllFinite v) :
    (m * v).toReal = Real.cos θ • v.toReal + Real.sin θ • crossProduct k v.toReal +
      ((1 - Real.cos θ) * (k ⬝ᵥ v.toReal)) • k := by
  rw [Matrix4x4.toReal_mulv' h.fin hv, h.linear, rod_mulVec]
theorem IsRot.point (h : IsRot m k θ) {p : Point3 Ideal} (hp : AllFinite p) :
    (m * p).toReal = Real.cos θ • p.toReal + Real.sin θ • crossProduct k p.toReal +
      ((1 - Real.cos θ) * (k ⬝ᵥ p.toReal)) • k := by
  rw [h.affine.toReal_mulp h.fin hp, h.linear, rod_mulVec, h.offset, add_zero]
end
end VecMath
