import Verif.Lemmas.Rotation
/-!
# `look_at` over exact arithmetic
-/

set_option linter.unusedSimpArgs false
set_option linter.unusedVariables false

namespace VecMath
open Scalar IEEE
open scoped Matrix

theorem dot3 (x y : Fin 3 → ℝ) : x ⬝ᵥ y = x 0 * y 0 + x 1 * y 1 + x 2 * y 2 := by
  simp [dotProduct, Fin.sum_univ_succ, add_assoc]

section
variable {v : Vector3 Ideal}
theorem normalize_pos (hv : AllFinite v) (h : v.toReal ≠ 0) :
    ∃ α : ℝ, 0 < α ∧ v.normalize.toReal = α • v.toReal ∧ α * √(v.toReal ⬝ᵥ v.toReal) = 1 := by
  have hl := mt (Vector3.real_length_eq_zero hv).1 h
  have hp : 0 < real (Api.length v) := by
    rw [Vector3.real_length' hv] at hl ⊢
    exact lt_of_le_of_ne (Real.sqrt_nonneg _) (Ne.symm hl)
  refine ⟨(real (Api.length v))⁻¹, inv_pos.2 hp, ?_, ?_⟩
  · rw [Vector3.toReal_normalize hv h, Vector3.real_length hv]
  · rw [← Vector3.real_length' hv, inv_mul_cancel₀ hl]
end

/-- matrix with columns `r`, `n`, `d` -/
def cols (r n d : Fin 3 → ℝ) : Matrix (Fin 3) (Fin 3) ℝ := fun i => ![r i, n i, d i]

theorem cols_transpose_mulVec (r n d x : Fin 3 → ℝ) : (cols r n d).transpose.mulVec x = ![r ⬝ᵥ x, n ⬝ᵥ x, d ⬝ᵥ x] := by
  ext i; fin_cases i <;> simp [Matrix.mulVec, cols, dot3, dotProduct, Fin.sum_univ_succ] <;> ring
theorem cols_orth {r d : Fin 3 → ℝ} (hd : d ⬝ᵥ d = 1) (hr : r ⬝ᵥ r = 1) (hrd : r ⬝ᵥ d = 0) :
    (cols r (crossProduct d r) d).transpose * cols r (crossProduct d r) d = 1 := by
  rw [dot3] at hd hr hrd
  rw [cross_apply]
  ext i j; fin_cases i <;> fin_cases j <;> simp [Matrix.mul_apply, cols, Fin.sum_univ_succ]
  · linear_combination hr
  · ring
  · linear_combination hrd
  · ring
  · linear_combination (r 0 * r 0 + r 1 * r 1 + r 2 * r 2) * hd + hr - (r 0 * d 0 + r 1 * d 1 + r 2 * d 2) * hrd
  · ring
  · linear_combination hrd
  · ring
  · linear_combination hd
theorem cols_det {r d : Fin 3 → ℝ} (hd : d ⬝ᵥ d = 1) (hr : r ⬝ᵥ r = 1) (hrd : r ⬝ᵥ d = 0) :
    (cols r (crossProduct d r) d).det = 1 := by
  rw [dot3] at hd hr hrd
  rw [cross_apply, Matrix.det_fin_three]
  simp [cols]
  linear_combination (r 0 * r 0 + r 1 * r 1 + r 2 * r 2) * hd + hr - (r 0 * d 0 + r 1 * d 1 + r 2 * d 2) * hrd

/-- The inverse of a finite affine matrix. -/
theorem inverse_affine {m n : Matrix4x4 Ideal} (hm : AllFinite m) (ha : m.Affine) (fn : AllFinite n)
    (h : m.toReal * n.toReal = 1) : n.Affine := by
  intro j
  have e := congrFun (congrFun h (Fin.last 3)) j
  rw [Matrix.mul_apply] at e
  simp only [ha _] at e
  simp only [ite_mul, one_mul, zero_mul, Finset.sum_ite_eq', Finset.mem_univ, if_true, Matrix.one_apply] at e
  rw [e]; simp only [eq_comm]
theorem inverse_affine2 {m n : Matrix3x3 Ideal} (hm : AllFinite m) (ha : m.Affine) (fn : AllFinite n)
    (h : m.toReal * n.toReal = 1) : n.Affine := by
  intro j
  have e := congrFun (congrFun h (Fin.last 2)) j
  rw [Matrix.mul_apply] at e
  simp only [ha _] at e
  simp only [ite_mul, one_mul, zero_mul, Finset.sum_ite_eq', Finset.mem_univ, if_true, Matrix.one_apply] at e
  rw [e]; simp only [eq_comm]

section
variable {o t : Point3 Ideal} {up : Vector3 Ideal}

/-- Everything about the frame that `look_at` builds. -/
theorem look_frame (ho : AllFinite o) (ht : AllFinite t) (hu : AllFinite up)
    (h : crossProduct up.toReal (t.toReal - o.toReal) ≠ 0) :
    ∃ r d : Fin 3 → ℝ, d ⬝ᵥ d = 1 ∧ r ⬝ᵥ r = 1 ∧ r ⬝ᵥ d = 0 ∧
      t.toReal - o.toReal = √((t.toReal - o.toReal) ⬝ᵥ (t.toReal - o.toReal)) • d ∧
      r ⬝ᵥ up.toReal = 0 ∧ 0 < crossProduct d r ⬝ᵥ up.toReal ∧
      AllFinite (Matrix4x4.inverseLookAt o t up) ∧ (Matrix4x4.inverseLookAt o t up).Affine ∧
      (Matrix4x4.inverseLookAt o t up).linear = cols r (crossProduct d r) d ∧
      (Matrix4x4.inverseLookAt o t up).offset = o.toReal := by
  have fD := Vector3.fin_subp ht ho
  have rD := Vector3.toReal_subp ht ho
  have hD0 : (t - o).toReal ≠ 0 := by
    rw [rD]; intro h'; rw [h', map_zero] at h; exact h rfl
  have hU0 : up.toReal ≠ 0 := by
    intro h'; rw [h', map_zero, LinearMap.zero_apply] at h; exact h rfl
  obtain ⟨α, hα, eα, lα⟩ := normalize_pos fD hD0
  obtain ⟨β, hβ, eβ, -⟩ := normalize_pos hu hU0
  have fd := Vector3.fin_normalize fD hD0
  have fu := Vector3.fin_normalize hu hU0
  have fc := Vector3.fin_cross fu fd
  have ec : (Api.cross up.normalize (t - o).normalize : Vector3 Ideal).toReal = (α * β) • crossProduct up.toReal (t.toReal - o.toReal) := by
    rw [Vector3.toReal_cross fu fd, eα, eβ, rD, map_smul, map_smul, LinearMap.smul_apply, smul_smul]
  have hc0 : (Api.cross up.normalize (t - o).normalize : Vector3 Ideal).toReal ≠ 0 := by
    rw [ec]; exact smul_ne_zero (mul_pos hα hβ).ne' h
  obtain ⟨γ, hγ, eγ, -⟩ := normalize_pos fc hc0
  have fr := Vector3.fin_normalize fc hc0
  have hd1 := unit_normalize fD hD0
  have hr1 := unit_normalize fc hc0
  have fn := Vector3.fin_cross fd fr
  have rn := Vector3.toReal_cross fd fr
  have hM : Matrix4x4.inverseLookAt o t up = ⟨#v[
      (Api.cross up.normalize (t - o).normalize : Vector3 Ideal).normalize.x,
      (Api.cross (t - o).normalize (Api.cross up.normalize (t - o).normalize : Vector3 Ideal).normalize : Vector3 Ideal).x,
      (t - o).normalize.x, o.x,
      (Api.cross up.normalize (t - o).normalize : Vector3 Ideal).normalize.y,
      (Api.cross (t - o).normalize (Api.cross up.normalize (t - o).normalize : Vector3 Ideal).normalize : Vector3 Ideal).y,
      (t - o).normalize.y, o.y,
      (Api.cross up.normalize (t - o).normalize : Vector3 Ideal).normalize.z,
      (Api.cross (t - o).normalize (Api.cross up.normalize (t - o).normalize : Vector3 Ideal).normalize : Vector3 Ideal).z,
      (t - o).normalize.z, o.z, zero, zero, zero, one]⟩ := rfl
  rw [hM]
  have hDd : t.toReal - o.toReal = √((t.toReal - o.toReal) ⬝ᵥ (t.toReal - o.toReal)) • (t - o).normalize.toReal := by
    rw [eα, rD, smul_smul, ← rD, mul_comm, lα, one_smul]
  have hdr : (t - o).normalize.toReal = α • (t.toReal - o.toReal) := by rw [eα, rD]
  have hrr : (Api.cross up.normalize (t - o).normalize : Vector3 Ideal).normalize.toReal
      = (γ * (α * β)) • crossProduct up.toReal (t.toReal - o.toReal) := by rw [eγ, ec, smul_smul]
  generalize (Api.cross (t - o).normalize (Api.cross up.normalize (t - o).normalize : Vector3 Ideal).normalize : Vector3 Ideal) = n at *
  generalize (Api.cross up.normalize (t - o).normalize : Vector3 Ideal).normalize = r at *
  generalize (t - o).normalize = d at *
  have hrd : r.toReal ⬝ᵥ d.toReal = 0 := by
    rw [hdr, hrr, smul_dotProduct, dotProduct_smul, dotProduct_comm, dot_cross_self, smul_zero, smul_zero]
  refine ⟨r.toReal, d.toReal, hd1, hr1, hrd, hDd, ?_, ?_, ?_, ?_, ?_, ?_⟩
  · rw [hrr, smul_dotProduct, dotProduct_comm, dot_self_cross, smul_zero]
  · have e1 : crossProduct d.toReal r.toReal ⬝ᵥ up.toReal = r.toReal ⬝ᵥ crossProduct up.toReal d.toReal := by
      simp only [cross_apply, dot3]; simp; ring
    have e2 : crossProduct up.toReal d.toReal = (γ * β)⁻¹ • r.toReal := by
      rw [hrr, hdr, map_smul, smul_smul]; congr 1
      field_simp
    rw [e1, e2, dotProduct_smul, hr1]
    exact mul_pos (inv_pos.2 (mul_pos hγ hβ)) one_pos
  · rw [Vector3.allFinite] at fr fn fd
    rw [Point3.allFinite] at ho
    rw [Matrix4x4.allFinite, forall_lt_16]
    exact ⟨fr.1, fn.1, fd.1, ho.1, fr.2.1, fn.2.1, fd.2.1, ho.2.1, fr.2.2, fn.2.2, fd.2.2, ho.2.2, finite_zero, finite_zero,
      finite_zero, finite_one⟩
  · intro j; rw [Matrix4x4.toReal_eq]; fin_cases j <;> simp [Fin.last, real_zero, real_one]
  · rw [← rn]
    unfold Matrix4x4.linear
    rw [Matrix4x4.toReal_eq]
    ext i j; fin_cases i <;> fin_cases j <;> simp [cols, Vector3.toReal]
  · unfold Matrix4x4.offset
    rw [Matrix4x4.toReal_eq]
    ext i; fin_cases i <;> simp [Point3.toReal, Fin.last]

/-- `look_at` succeeds on non-degenerate input, and what its forward matrix is. -/
theorem lookAt_ok (ho : AllFinite o) (ht : AllFinite t) (hu : AllFinite up)
    (h : crossProduct up.toReal (t.toReal - o.toReal) ≠ 0) :
    ∃ (r d : Fin 3 → ℝ) (f : Matrix4x4 Ideal), d ⬝ᵥ d = 1 ∧ r ⬝ᵥ r = 1 ∧ r ⬝ᵥ d = 0 ∧
      t.toReal - o.toReal = √((t.toReal - o.toReal) ⬝ᵥ (t.toReal - o.toReal)) • d ∧
      r ⬝ᵥ up.toReal = 0 ∧ 0 < crossProduct d r ⬝ᵥ up.toReal ∧
      AllFinite (Matrix4x4.inverseLookAt o t up) ∧ (Matrix4x4.inverseLookAt o t up).Affine ∧
      Transform3.lookAt o t up = .ok ⟨f, Matrix4x4.inverseLookAt o t up⟩ ∧
      AllFinite f ∧ f.Affine ∧ f.toReal * (Matrix4x4.inverseLookAt o t up).toReal = 1 ∧
      f.linear = (cols r (crossProduct d r) d).transpose ∧
      f.offset = -(cols r (crossProduct d r) d).transpose.mulVec o.toReal := by
  obtain ⟨r, d, hd, hr, hrd, hD, hru, hnu, fM, aM, lM, oM⟩ := look_frame ho ht hu h
  have hdet : (Matrix4x4.inverseLookAt o t up).toReal.det = 1 := by
    rw [aM.det, lM, cols_det hd hr hrd]
  have orth := cols_orth hd hr hrd
  rcases Matrix4x4.inverse_cases fM with ⟨h0, _⟩ | ⟨h0, f, ef, ff, rf⟩
  · rw [hdet] at h0; norm_num at h0
  have hu' : IsUnit (Matrix4x4.inverseLookAt o t up).toReal.det := isUnit_iff_ne_zero.2 h0
  have h1 : f.toReal * (Matrix4x4.inverseLookAt o t up).toReal = 1 := by rw [rf, Matrix.nonsing_inv_mul _ hu']
  have h2 := mul_eq_one_comm.1 h1
  have af := inverse_affine fM aM ff h2
  have hl : f.linear * cols r (crossProduct d r) d = 1 := by
    rw [← lM, ← aM.linear_mul ff fM, ← Matrix4x4.linear_identity]
    unfold Matrix4x4.linear
    rw [Matrix4x4.toReal_mul ff fM, h1, Matrix4x4.toReal_identity]
  have hlin : f.linear = (cols r (crossProduct d r) d).transpose := by
    have : f.linear * cols r (crossProduct d r) d * (cols r (crossProduct d r) d).transpose = (cols r (crossProduct d r) d).transpose := by
      rw [hl, one_mul]
    rwa [mul_assoc, mul_eq_one_comm.1 orth, mul_one] at this
  have hoff : f.linear.mulVec o.toReal + f.offset = 0 := by
    rw [← oM, ← aM.offset_mul ff fM, ← Matrix4x4.offset_identity]
    unfold Matrix4x4.offset
    rw [Matrix4x4.toReal_mul ff fM, h1, Matrix4x4.toReal_identity]
  refine ⟨r, d, f, hd, hr, hrd, hD, hru, hnu, fM, aM, ?_, ff, af, h1, hlin, ?_⟩
  · simp only [Transform3.lookAt, ef]; rfl
  · rw [← hlin]; exact (neg_eq_of_add_eq_zero_right hoff).symm
end
end VecMath
