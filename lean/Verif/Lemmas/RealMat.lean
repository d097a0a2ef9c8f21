import Verif.Lemmas.Real
import Verif.Spec.Real
import Mathlib.LinearAlgebra.Matrix.NonsingularInverse
/-!
# From exact matrices to real matrices

On finite matrices over `Ideal` the crate's matrix operations are the real matrix operations, and `m * p` is
the projective action in homogeneous coordinates. (Generated by tools/genrm.py.)
-/

set_option linter.unusedSimpArgs false
set_option linter.unusedVariables false

namespace VecMath
open Scalar IEEE

/-! ## Matrix3x3 -/
section
variable {a b m : Matrix3x3 Ideal} {p q : Point2 Ideal} {u v : Vector2 Ideal} {s : Ideal}

theorem Matrix3x3.toReal_eq (m : Matrix3x3 Ideal) : m.toReal = !![real m.m[0], real m.m[1], real m.m[2]; real m.m[3], real m.m[4], real m.m[5]; real m.m[6], real m.m[7], real m.m[8]] := by
  ext i j; fin_cases i <;> fin_cases j <;> rfl
theorem Matrix3x3.beq_toReal (ha : AllFinite a) (hb : AllFinite b) : (a == b) = true ↔ a.toReal = b.toReal := by
  rw [Matrix3x3.allFinite] at ha hb
  rw [Matrix3x3.beq_iff]
  constructor
  · intro h
    ext i j
    exact (Ideal.beq_real (ha _ (by omega)) (hb _ (by omega))).1 (h _ (by omega))
  · intro h k hk
    rw [Ideal.beq_real (ha k hk) (hb k hk)]
    have := congrFun (congrFun h ⟨k / 3, by omega⟩) ⟨k % 3, by omega⟩
    simp only [Matrix3x3.toReal, Nat.div_add_mod] at this
    exact this
theorem Matrix3x3.fin_mul (ha : AllFinite a) (hb : AllFinite b) : AllFinite (a * b) := by
  rw [Matrix3x3.allFinite, forall_lt_9] at ha hb ⊢
  mat_simp []
  refine ⟨?_, ?_, ?_, ?_, ?_, ?_, ?_, ?_, ?_⟩ <;> simp (maxDischargeDepth := 20) only [Ideal.finite_add, Ideal.finite_mul, ha, hb]
theorem Matrix3x3.toReal_mul (ha : AllFinite a) (hb : AllFinite b) : (a * b).toReal = a.toReal * b.toReal := by
  rw [Matrix3x3.allFinite, forall_lt_9] at ha hb
  rw [Matrix3x3.toReal_eq, Matrix3x3.toReal_eq a, Matrix3x3.toReal_eq b]
  mat_simp []
  simp (maxDischargeDepth := 20) only [Ideal.real_add, Ideal.finite_add, Ideal.finite_mul, Ideal.real_mul, ha, hb]
  ext i j
  fin_cases i <;> fin_cases j <;> simp [Matrix.mul_apply, Fin.sum_univ_succ, add_assoc]
theorem Matrix3x3.fin_transpose (ha : AllFinite a) : AllFinite a.transpose := by
  rw [Matrix3x3.allFinite, forall_lt_9] at ha ⊢
  mat_simp []
  simp only [ha, and_self]
theorem Matrix3x3.toReal_transpose (a : Matrix3x3 Ideal) : a.transpose.toReal = a.toReal.transpose := by
  ext i j; fin_cases i <;> fin_cases j <;> rfl
theorem Matrix3x3.fin_muls (ha : AllFinite a) (hs : IsFinite s) : AllFinite (a * s) := by
  rw [Matrix3x3.allFinite] at ha ⊢
  intro i hi
  rw [Matrix3x3.muls]; exact Ideal.finite_mul (ha i hi) hs
theorem Matrix3x3.toReal_muls (ha : AllFinite a) (hs : IsFinite s) : (a * s).toReal = real s • a.toReal := by
  rw [Matrix3x3.allFinite] at ha
  ext i j
  show real ((a * s).m[3 * i.val + j.val]) = real s * real _
  rw [Matrix3x3.muls, Ideal.real_mul (ha _ (by omega)) hs, mul_comm]
theorem Matrix3x3.fin_divs (ha : AllFinite a) (hs : IsFinite s) (h0 : real s ≠ 0) : AllFinite (a / s) := by
  rw [Matrix3x3.allFinite] at ha ⊢
  intro i hi
  rw [Matrix3x3.divs]; exact Ideal.finite_div (ha i hi) hs h0
theorem Matrix3x3.toReal_divs (ha : AllFinite a) (hs : IsFinite s) (h0 : real s ≠ 0) :
    (a / s).toReal = (real s)⁻¹ • a.toReal := by
  rw [Matrix3x3.allFinite] at ha
  ext i j
  show real ((a / s).m[3 * i.val + j.val]) = (real s)⁻¹ * real _
  rw [Matrix3x3.divs, Ideal.real_div (ha _ (by omega)) hs h0, div_eq_inv_mul]
theorem Matrix3x3.fin_identity : AllFinite (Matrix3x3.identity : Matrix3x3 Ideal) := by
  rw [Matrix3x3.allFinite, forall_lt_9]
  mat_simp []
  simp only [finite_zero, finite_one, and_self]
theorem Matrix3x3.toReal_identity : (Matrix3x3.identity : Matrix3x3 Ideal).toReal = 1 := by
  rw [Matrix3x3.toReal_eq]
  mat_simp []
  ext i j
  fin_cases i <;> fin_cases j <;> simp

theorem Vector2.toReal_hom (hv : AllFinite v) (i : Fin 2) : v.toReal i = v.hom i.castSucc := by
  fin_cases i <;> rfl
theorem Point2.toReal_hom (i : Fin 2) : p.toReal i = p.hom i.castSucc := by
  fin_cases i <;> rfl
theorem Point2.hom_last : p.hom (Fin.last 2) = 1 := rfl
theorem Vector2.hom_last : v.hom (Fin.last 2) = 0 := rfl
theorem Point2.hom_inj (h : p.hom = q.hom) : p.toReal = q.toReal := by
  ext i; rw [Point2.toReal_hom, Point2.toReal_hom, h]
theorem Vector2.hom_inj (h : u.hom = v.hom) : u.toReal = v.toReal := by
  ext i; fin_cases i
  · exact congrFun h 0
  · exact congrFun h 1

theorem Matrix3x3.fin_mulv (hm : AllFinite m) (hv : AllFinite v) : AllFinite (m * v) := by
  rw [Matrix3x3.allFinite, forall_lt_9] at hm
  rw [Vector2.allFinite] at hv ⊢
  mat_simp []
  simp (maxDischargeDepth := 20) only [Ideal.finite_add, Ideal.finite_mul, hm, hv, and_self]
theorem Matrix3x3.toReal_mulv (hm : AllFinite m) (hv : AllFinite v) (i : Fin 2) :
    (m * v).toReal i = (m.toReal.mulVec v.hom) i.castSucc := by
  rw [Matrix3x3.allFinite, forall_lt_9] at hm
  rw [Vector2.allFinite] at hv
  rw [Matrix3x3.toReal_eq, Vector2.toReal]
  mat_simp []
  simp (maxDischargeDepth := 20) only [Ideal.real_add, Ideal.finite_add, Ideal.finite_mul, Ideal.real_mul, hm, hv]
  fin_cases i <;> simp [Matrix.mulVec, dotProduct, Fin.sum_univ_succ, Vector2.hom, add_assoc]
theorem Matrix3x3.mulp_aux (hm : AllFinite m) (hp : AllFinite p) (hw : m.weight p ≠ 0) :
    AllFinite (m * p) ∧ ∀ i : Fin 2, (m * p).toReal i = (m.toReal.mulVec p.hom) i.castSucc / m.weight p := by
  rw [Matrix3x3.allFinite, forall_lt_9] at hm
  rw [Point2.allFinite] at hp ⊢
  have hd : IsFinite (m.m[6] * p.x + m.m[7] * p.y + m.m[8]) := by
    simp (maxDischargeDepth := 20) only [Ideal.finite_add, Ideal.finite_mul, hm, hp]
  have hr : real (m.m[6] * p.x + m.m[7] * p.y + m.m[8]) = m.weight p := by
    simp (maxDischargeDepth := 20) only [Ideal.real_add, Ideal.finite_add, Ideal.finite_mul, Ideal.real_mul, hm, hp]
    rw [Matrix3x3.weight, Matrix3x3.toReal_eq]
    simp [Matrix.mulVec, dotProduct, Fin.sum_univ_succ, Point2.hom, Fin.last, add_assoc]
  rw [← hr] at hw ⊢
  mat_simp []
  have hf : ∀ x : Ideal, IsFinite x → IsFinite (x / (m.m[6] * p.x + m.m[7] * p.y + m.m[8])) := fun x hx => Ideal.finite_div hx hd hw
  refine ⟨⟨hf _ ?_, hf _ ?_⟩, fun i => ?_⟩
  rotate_right
  · rw [Point2.toReal]
    mat_simp []
    have hr' : ∀ x : Ideal, IsFinite x → real (x / (m.m[6] * p.x + m.m[7] * p.y + m.m[8])) = real x / real (m.m[6] * p.x + m.m[7] * p.y + m.m[8]) :=
      fun x hx => Ideal.real_div hx hd hw
    generalize (m.m[6] * p.x + m.m[7] * p.y + m.m[8]) = w at *
    fin_cases i
    all_goals
      refine (hr' _ ?_).trans ?_
      · simp (maxDischargeDepth := 20) only [Ideal.finite_add, Ideal.finite_mul, hm, hp]
      · simp (maxDischargeDepth := 20) only [Ideal.real_add, Ideal.finite_add, Ideal.finite_mul, Ideal.real_mul, hm, hp]
        congr 1
        rw [Matrix3x3.toReal_eq]
        simp [Matrix.mulVec, dotProduct, Fin.sum_univ_succ, Point2.hom, add_assoc]
  all_goals simp (maxDischargeDepth := 20) only [Ideal.finite_add, Ideal.finite_mul, hm, hp]
theorem Matrix3x3.fin_mulp (hm : AllFinite m) (hp : AllFinite p) (hw : m.weight p ≠ 0) : AllFinite (m * p) :=
  (Matrix3x3.mulp_aux hm hp hw).1
theorem Matrix3x3.hom_mulp (hm : AllFinite m) (hp : AllFinite p) (hw : m.weight p ≠ 0) :
    (m * p).hom = (m.weight p)⁻¹ • m.toReal.mulVec p.hom := by
  ext i
  refine Fin.lastCases ?_ (fun i => ?_) i
  · rw [Point2.hom_last, Pi.smul_apply, smul_eq_mul]
    exact (inv_mul_cancel₀ hw).symm
  · rw [← Point2.toReal_hom, (Matrix3x3.mulp_aux hm hp hw).2, Pi.smul_apply, smul_eq_mul, div_eq_inv_mul]
theorem Matrix3x3.hom_mulv (hm : AllFinite m) (hv : AllFinite v)
    (h : (m.toReal.mulVec v.hom) (Fin.last 2) = 0) :
    (m * v).hom = m.toReal.mulVec v.hom := by
  ext i
  refine Fin.lastCases ?_ (fun i => ?_) i
  · rw [Vector2.hom_last, h]
  · rw [← Vector2.toReal_hom (Matrix3x3.fin_mulv hm hv), Matrix3x3.toReal_mulv hm hv]

theorem Matrix3x3.Affine.weight (h : m.Affine) (p : Point2 Ideal) : m.weight p = 1 := by
  unfold Matrix3x3.weight Matrix.mulVec dotProduct
  simp only [h _]
  simp only [ite_mul, one_mul, zero_mul, Finset.sum_ite_eq', Finset.sum_ite_eq, Finset.mem_univ, if_true]
  rfl
theorem Matrix3x3.Affine.vec (h : m.Affine) (v : Vector2 Ideal) : (m.toReal.mulVec v.hom) (Fin.last 2) = 0 := by
  unfold Matrix.mulVec dotProduct
  simp only [h _]
  simp only [ite_mul, one_mul, zero_mul, Finset.sum_ite_eq', Finset.sum_ite_eq, Finset.mem_univ, if_true]
  rfl
theorem Matrix3x3.Affine.hom_mulp (h : m.Affine) (hm : AllFinite m) (hp : AllFinite p) :
    (m * p).hom = m.toReal.mulVec p.hom := by
  rw [Matrix3x3.hom_mulp hm hp (by rw [h.weight]; exact one_ne_zero), h.weight, inv_one, one_smul]
theorem Matrix3x3.Affine.hom_mulv (h : m.Affine) (hm : AllFinite m) (hv : AllFinite v) :
    (m * v).hom = m.toReal.mulVec v.hom := Matrix3x3.hom_mulv hm hv (h.vec v)
theorem Matrix3x3.Affine.fin_mulp (h : m.Affine) (hm : AllFinite m) (hp : AllFinite p) : AllFinite (m * p) :=
  Matrix3x3.fin_mulp hm hp (by rw [h.weight]; exact one_ne_zero)
theorem Matrix3x3.Affine.mul (ha : a.Affine) (hb : b.Affine) (fa : AllFinite a) (fb : AllFinite b) :
    (a * b).Affine := by
  intro j
  rw [Matrix3x3.toReal_mul fa fb, Matrix.mul_apply]
  simp only [ha _]
  simp only [ite_mul, one_mul, zero_mul, Finset.sum_ite_eq', Finset.sum_ite_eq, Finset.mem_univ, if_true]
  exact hb j
theorem Matrix3x3.identity_affine : (Matrix3x3.identity : Matrix3x3 Ideal).Affine := by
  intro j
  rw [Matrix3x3.toReal_identity, Matrix.one_apply]
  simp only [eq_comm]

theorem Point2.hom_snoc (p : Point2 Ideal) : p.hom = Fin.snoc p.toReal (1 : ℝ) := by
  ext i; refine Fin.lastCases ?_ (fun i => ?_) i
  · rw [Fin.snoc_last]; rfl
  · rw [Fin.snoc_castSucc, Point2.toReal_hom]
theorem Vector2.hom_snoc (hv : AllFinite v) : v.hom = Fin.snoc v.toReal (0 : ℝ) := by
  ext i; refine Fin.lastCases ?_ (fun i => ?_) i
  · rw [Fin.snoc_last]; rfl
  · rw [Fin.snoc_castSucc, Vector2.toReal_hom hv]
theorem Point2.hom_addv (hp : AllFinite p) (hv : AllFinite v) : (p + v).hom = p.hom + v.hom := by
  ext i; refine Fin.lastCases ?_ (fun i => ?_) i
  · rw [Pi.add_apply, Point2.hom_last, Point2.hom_last, Vector2.hom_last, add_zero]
  · rw [Pi.add_apply, ← Point2.toReal_hom, ← Point2.toReal_hom, ← Vector2.toReal_hom hv, Point2.toReal_addv hp hv, Pi.add_apply]
theorem Vector2.hom_subp (hp : AllFinite p) (hq : AllFinite q) : (p - q).hom = p.hom - q.hom := by
  have hf := Vector2.fin_subp hp hq
  ext i; refine Fin.lastCases ?_ (fun i => ?_) i
  · rw [Pi.sub_apply, Point2.hom_last, Point2.hom_last, Vector2.hom_last, sub_self]
  · rw [Pi.sub_apply, ← Point2.toReal_hom, ← Point2.toReal_hom, ← Vector2.toReal_hom hf, Vector2.toReal_subp hp hq, Pi.sub_apply]
theorem Matrix3x3.mulVec_vhom (hv : AllFinite v) (i : Fin 3) :
    (m.toReal.mulVec v.hom) i = ∑ j, m.toReal i j.castSucc * v.toReal j := by
  rw [Matrix.mulVec, dotProduct, Fin.sum_univ_castSucc]
  simp only [← Vector2.toReal_hom hv]
  rw [Vector2.hom_last, mul_zero, add_zero]
theorem Matrix3x3.mulVec_phom (i : Fin 3) :
    (m.toReal.mulVec p.hom) i = ∑ j, m.toReal i j.castSucc * p.toReal j + m.toReal i (Fin.last 2) := by
  rw [Matrix.mulVec, dotProduct, Fin.sum_univ_castSucc]
  simp only [← Point2.toReal_hom]
  rw [Point2.hom_last, mul_one]
theorem Matrix3x3.toReal_mulv' (hm : AllFinite m) (hv : AllFinite v) : (m * v).toReal = m.linear.mulVec v.toReal := by
  ext i
  rw [Matrix3x3.toReal_mulv hm hv, Matrix3x3.mulVec_vhom hv]
  rfl
theorem Matrix3x3.Affine.toReal_mulp (h : m.Affine) (hm : AllFinite m) (hp : AllFinite p) :
    (m * p).toReal = m.linear.mulVec p.toReal + m.offset := by
  ext i
  rw [Point2.toReal_hom, h.hom_mulp hm hp, Matrix3x3.mulVec_phom]
  rfl
theorem Matrix3x3.Affine.ext (ha : a.Affine) (hb : b.Affine) (hl : a.linear = b.linear) (ho : a.offset = b.offset) :
    a.toReal = b.toReal := by
  ext i j
  refine Fin.lastCases ?_ (fun i => ?_) i
  · rw [ha, hb]
  · refine Fin.lastCases ?_ (fun j => ?_) j
    · exact congrFun ho i
    · exact congrFun (congrFun hl i) j
theorem Matrix3x3.Affine.linear_mul (hb : b.Affine) (fa : AllFinite a) (fb : AllFinite b) :
    (a * b).linear = a.linear * b.linear := by
  ext i j
  show (a * b).toReal _ _ = _
  rw [Matrix3x3.toReal_mul fa fb, Matrix.mul_apply, Fin.sum_univ_castSucc, hb, if_neg (Fin.castSucc_lt_last j).ne, mul_zero,
    add_zero]
  rfl
theorem Matrix3x3.Affine.offset_mul (hb : b.Affine) (fa : AllFinite a) (fb : AllFinite b) :
    (a * b).offset = a.linear.mulVec b.offset + a.offset := by
  ext i
  show (a * b).toReal _ _ = _
  rw [Matrix3x3.toReal_mul fa fb, Matrix.mul_apply, Fin.sum_univ_castSucc, hb, if_pos rfl, mul_one]
  rfl
theorem Matrix3x3.linear_identity : (Matrix3x3.identity : Matrix3x3 Ideal).linear = 1 := by
  ext i j
  show (Matrix3x3.identity : Matrix3x3 Ideal).toReal _ _ = _
  rw [Matrix3x3.toReal_identity, Matrix.one_apply, Matrix.one_apply]
  simp
theorem Matrix3x3.offset_identity : (Matrix3x3.identity : Matrix3x3 Ideal).offset = 0 := by
  ext i
  show (Matrix3x3.identity : Matrix3x3 Ideal).toReal _ _ = _
  rw [Matrix3x3.toReal_identity, Matrix.one_apply, if_neg (Fin.castSucc_lt_last i).ne]
  rfl
theorem Matrix3x3.Affine.det (h : m.Affine) : m.toReal.det = m.linear.det := by
  rw [Matrix.det_succ_row m.toReal (Fin.last 2), Fin.sum_univ_castSucc]
  simp only [h _]
  rw [Finset.sum_eq_zero]
  · simp only [if_true, zero_add, mul_one]
    rw [← two_mul, pow_mul, neg_one_sq, one_pow, one_mul]
    congr 1
    ext i j
    rw [Matrix.submatrix_apply, Fin.succAbove_last]
    rfl
  · intro j _
    rw [if_neg (Fin.castSucc_lt_last j).ne]; simp
end

/-! ## Matrix4x4 -/
section
variable {a b m : Matrix4x4 Ideal} {p q : Point3 Ideal} {u v : Vector3 Ideal} {s : Ideal}

theorem Matrix4x4.toReal_eq (m : Matrix4x4 Ideal) : m.toReal = !![real m.m[0], real m.m[1], real m.m[2], real m.m[3]; real m.m[4], real m.m[5], real m.m[6], real m.m[7]; real m.m[8], real m.m[9], real m.m[10], real m.m[11]; real m.m[12], real m.m[13], real m.m[14], real m.m[15]] := by
  ext i j; fin_cases i <;> fin_cases j <;> rfl
theorem Matrix4x4.beq_toReal (ha : AllFinite a) (hb : AllFinite b) : (a == b) = true ↔ a.toReal = b.toReal := by
  rw [Matrix4x4.allFinite] at ha hb
  rw [Matrix4x4.beq_iff]
  constructor
  · intro h
    ext i j
    exact (Ideal.beq_real (ha _ (by omega)) (hb _ (by omega))).1 (h _ (by omega))
  · intro h k hk
    rw [Ideal.beq_real (ha k hk) (hb k hk)]
    have := congrFun (congrFun h ⟨k / 4, by omega⟩) ⟨k % 4, by omega⟩
    simp only [Matrix4x4.toReal, Nat.div_add_mod] at this
    exact this
theorem Matrix4x4.fin_mul (ha : AllFinite a) (hb : AllFinite b) : AllFinite (a * b) := by
  rw [Matrix4x4.allFinite, forall_lt_16] at ha hb ⊢
  mat_simp []
  refine ⟨?_, ?_, ?_, ?_, ?_, ?_, ?_, ?_, ?_, ?_, ?_, ?_, ?_, ?_, ?_, ?_⟩ <;> simp (maxDischargeDepth := 20) only [Ideal.finite_add, Ideal.finite_mul, ha, hb]
theorem Matrix4x4.toReal_mul (ha : AllFinite a) (hb : AllFinite b) : (a * b).toReal = a.toReal * b.toReal := by
  rw [Matrix4x4.allFinite, forall_lt_16] at ha hb
  rw [Matrix4x4.toReal_eq, Matrix4x4.toReal_eq a, Matrix4x4.toReal_eq b]
  mat_simp []
  simp (maxDischargeDepth := 20) only [Ideal.real_add, Ideal.finite_add, Ideal.finite_mul, Ideal.real_mul, ha, hb]
  ext i j
  fin_cases i <;> fin_cases j <;> simp [Matrix.mul_apply, Fin.sum_univ_succ, add_assoc]
theorem Matrix4x4.fin_transpose (ha : AllFinite a) : AllFinite a.transpose := by
  rw [Matrix4x4.allFinite, forall_lt_16] at ha ⊢
  mat_simp []
  simp only [ha, and_self]
theorem Matrix4x4.toReal_transpose (a : Matrix4x4 Ideal) : a.transpose.toReal = a.toReal.transpose := by
  ext i j; fin_cases i <;> fin_cases j <;> rfl
theorem Matrix4x4.fin_muls (ha : AllFinite a) (hs : IsFinite s) : AllFinite (a * s) := by
  rw [Matrix4x4.allFinite] at ha ⊢
  intro i hi
  rw [Matrix4x4.muls]; exact Ideal.finite_mul (ha i hi) hs
theorem Matrix4x4.toReal_muls (ha : AllFinite a) (hs : IsFinite s) : (a * s).toReal = real s • a.toReal := by
  rw [Matrix4x4.allFinite] at ha
  ext i j
  show real ((a * s).m[4 * i.val + j.val]) = real s * real _
  rw [Matrix4x4.muls, Ideal.real_mul (ha _ (by omega)) hs, mul_comm]
theorem Matrix4x4.fin_divs (ha : AllFinite a) (hs : IsFinite s) (h0 : real s ≠ 0) : AllFinite (a / s) := by
  rw [Matrix4x4.allFinite] at ha ⊢
  intro i hi
  rw [Matrix4x4.divs]; exact Ideal.finite_div (ha i hi) hs h0
theorem Matrix4x4.toReal_divs (ha : AllFinite a) (hs : IsFinite s) (h0 : real s ≠ 0) :
    (a / s).toReal = (real s)⁻¹ • a.toReal := by
  rw [Matrix4x4.allFinite] at ha
  ext i j
  show real ((a / s).m[4 * i.val + j.val]) = (real s)⁻¹ * real _
  rw [Matrix4x4.divs, Ideal.real_div (ha _ (by omega)) hs h0, div_eq_inv_mul]
theorem Matrix4x4.fin_identity : AllFinite (Matrix4x4.identity : Matrix4x4 Ideal) := by
  rw [Matrix4x4.allFinite, forall_lt_16]
  mat_simp []
  simp only [finite_zero, finite_one, and_self]
theorem Matrix4x4.toReal_identity : (Matrix4x4.identity : Matrix4x4 Ideal).toReal = 1 := by
  rw [Matrix4x4.toReal_eq]
  mat_simp []
  ext i j
  fin_cases i <;> fin_cases j <;> simp

theorem Vector3.toReal_hom (hv : AllFinite v) (i : Fin 3) : v.toReal i = v.hom i.castSucc := by
  fin_cases i <;> rfl
theorem Point3.toReal_hom (i : Fin 3) : p.toReal i = p.hom i.castSucc := by
  fin_cases i <;> rfl
theorem Point3.hom_last : p.hom (Fin.last 3) = 1 := rfl
theorem Vector3.hom_last : v.hom (Fin.last 3) = 0 := rfl
theorem Point3.hom_inj (h : p.hom = q.hom) : p.toReal = q.toReal := by
  ext i; rw [Point3.toReal_hom, Point3.toReal_hom, h]
theorem Vector3.hom_inj (h : u.hom = v.hom) : u.toReal = v.toReal := by
  ext i; fin_cases i
  · exact congrFun h 0
  · exact congrFun h 1
  · exact congrFun h 2

theorem Matrix4x4.fin_mulv (hm : AllFinite m) (hv : AllFinite v) : AllFinite (m * v) := by
  rw [Matrix4x4.allFinite, forall_lt_16] at hm
  rw [Vector3.allFinite] at hv ⊢
  mat_simp []
  simp (maxDischargeDepth := 20) only [Ideal.finite_add, Ideal.finite_mul, hm, hv, and_self]
theorem Matrix4x4.toReal_mulv (hm : AllFinite m) (hv : AllFinite v) (i : Fin 3) :
    (m * v).toReal i = (m.toReal.mulVec v.hom) i.castSucc := by
  rw [Matrix4x4.allFinite, forall_lt_16] at hm
  rw [Vector3.allFinite] at hv
  rw [Matrix4x4.toReal_eq, Vector3.toReal]
  mat_simp []
  simp (maxDischargeDepth := 20) only [Ideal.real_add, Ideal.finite_add, Ideal.finite_mul, Ideal.real_mul, hm, hv]
  fin_cases i <;> simp [Matrix.mulVec, dotProduct, Fin.sum_univ_succ, Vector3.hom, add_assoc]
theorem Matrix4x4.mulp_aux (hm : AllFinite m) (hp : AllFinite p) (hw : m.weight p ≠ 0) :
    AllFinite (m * p) ∧ ∀ i : Fin 3, (m * p).toReal i = (m.toReal.mulVec p.hom) i.castSucc / m.weight p := by
  rw [Matrix4x4.allFinite, forall_lt_16] at hm
  rw [Point3.allFinite] at hp ⊢
  have hd : IsFinite (m.m[12] * p.x + m.m[13] * p.y + m.m[14] * p.z + m.m[15]) := by
    simp (maxDischargeDepth := 20) only [Ideal.finite_add, Ideal.finite_mul, hm, hp]
  have hr : real (m.m[12] * p.x + m.m[13] * p.y + m.m[14] * p.z + m.m[15]) = m.weight p := by
    simp (maxDischargeDepth := 20) only [Ideal.real_add, Ideal.finite_add, Ideal.finite_mul, Ideal.real_mul, hm, hp]
    rw [Matrix4x4.weight, Matrix4x4.toReal_eq]
    simp [Matrix.mulVec, dotProduct, Fin.sum_univ_succ, Point3.hom, Fin.last, add_assoc]
  rw [← hr] at hw ⊢
  mat_simp []
  have hf : ∀ x : Ideal, IsFinite x → IsFinite (x / (m.m[12] * p.x + m.m[13] * p.y + m.m[14] * p.z + m.m[15])) := fun x hx => Ideal.finite_div hx hd hw
  refine ⟨⟨hf _ ?_, hf _ ?_, hf _ ?_⟩, fun i => ?_⟩
  rotate_right
  · rw [Point3.toReal]
    mat_simp []
    have hr' : ∀ x : Ideal, IsFinite x → real (x / (m.m[12] * p.x + m.m[13] * p.y + m.m[14] * p.z + m.m[15])) = real x / real (m.m[12] * p.x + m.m[13] * p.y + m.m[14] * p.z + m.m[15]) :=
      fun x hx => Ideal.real_div hx hd hw
    generalize (m.m[12] * p.x + m.m[13] * p.y + m.m[14] * p.z + m.m[15]) = w at *
    fin_cases i
    all_goals
      refine (hr' _ ?_).trans ?_
      · simp (maxDischargeDepth := 20) only [Ideal.finite_add, Ideal.finite_mul, hm, hp]
      · simp (maxDischargeDepth := 20) only [Ideal.real_add, Ideal.finite_add, Ideal.finite_mul, Ideal.real_mul, hm, hp]
        congr 1
        rw [Matrix4x4.toReal_eq]
        simp [Matrix.mulVec, dotProduct, Fin.sum_univ_succ, Point3.hom, add_assoc]
  all_goals simp (maxDischargeDepth := 20) only [Ideal.finite_add, Ideal.finite_mul, hm, hp]
theorem Matrix4x4.fin_mulp (hm : AllFinite m) (hp : AllFinite p) (hw : m.weight p ≠ 0) : AllFinite (m * p) :=
  (Matrix4x4.mulp_aux hm hp hw).1
theorem Matrix4x4.hom_mulp (hm : AllFinite m) (hp : AllFinite p) (hw : m.weight p ≠ 0) :
    (m * p).hom = (m.weight p)⁻¹ • m.toReal.mulVec p.hom := by
  ext i
  refine Fin.lastCases ?_ (fun i => ?_) i
  · rw [Point3.hom_last, Pi.smul_apply, smul_eq_mul]
    exact (inv_mul_cancel₀ hw).symm
  · rw [← Point3.toReal_hom, (Matrix4x4.mulp_aux hm hp hw).2, Pi.smul_apply, smul_eq_mul, div_eq_inv_mul]
theorem Matrix4x4.hom_mulv (hm : AllFinite m) (hv : AllFinite v)
    (h : (m.toReal.mulVec v.hom) (Fin.last 3) = 0) :
    (m * v).hom = m.toReal.mulVec v.hom := by
  ext i
  refine Fin.lastCases ?_ (fun i => ?_) i
  · rw [Vector3.hom_last, h]
  · rw [← Vector3.toReal_hom (Matrix4x4.fin_mulv hm hv), Matrix4x4.toReal_mulv hm hv]

theorem Matrix4x4.Affine.weight (h : m.Affine) (p : Point3 Ideal) : m.weight p = 1 := by
  unfold Matrix4x4.weight Matrix.mulVec dotProduct
  simp only [h _]
  simp only [ite_mul, one_mul, zero_mul, Finset.sum_ite_eq', Finset.sum_ite_eq, Finset.mem_univ, if_true]
  rfl
theorem Matrix4x4.Affine.vec (h : m.Affine) (v : Vector3 Ideal) : (m.toReal.mulVec v.hom) (Fin.last 3) = 0 := by
  unfold Matrix.mulVec dotProduct
  simp only [h _]
  simp only [ite_mul, one_mul, zero_mul, Finset.sum_ite_eq', Finset.sum_ite_eq, Finset.mem_univ, if_true]
  rfl
theorem Matrix4x4.Affine.hom_mulp (h : m.Affine) (hm : AllFinite m) (hp : AllFinite p) :
    (m * p).hom = m.toReal.mulVec p.hom := by
  rw [Matrix4x4.hom_mulp hm hp (by rw [h.weight]; exact one_ne_zero), h.weight, inv_one, one_smul]
theorem Matrix4x4.Affine.hom_mulv (h : m.Affine) (hm : AllFinite m) (hv : AllFinite v) :
    (m * v).hom = m.toReal.mulVec v.hom := Matrix4x4.hom_mulv hm hv (h.vec v)
theorem Matrix4x4.Affine.fin_mulp (h : m.Affine) (hm : AllFinite m) (hp : AllFinite p) : AllFinite (m * p) :=
  Matrix4x4.fin_mulp hm hp (by rw [h.weight]; exact one_ne_zero)
theorem Matrix4x4.Affine.mul (ha : a.Affine) (hb : b.Affine) (fa : AllFinite a) (fb : AllFinite b) :
    (a * b).Affine := by
  intro j
  rw [Matrix4x4.toReal_mul fa fb, Matrix.mul_apply]
  simp only [ha _]
  simp only [ite_mul, one_mul, zero_mul, Finset.sum_ite_eq', Finset.sum_ite_eq, Finset.mem_univ, if_true]
  exact hb j
theorem Matrix4x4.identity_affine : (Matrix4x4.identity : Matrix4x4 Ideal).Affine := by
  intro j
  rw [Matrix4x4.toReal_identity, Matrix.one_apply]
  simp only [eq_comm]

theorem Point3.hom_snoc (p : Point3 Ideal) : p.hom = Fin.snoc p.toReal (1 : ℝ) := by
  ext i; refine Fin.lastCases ?_ (fun i => ?_) i
  · rw [Fin.snoc_last]; rfl
  · rw [Fin.snoc_castSucc, Point3.toReal_hom]
theorem Vector3.hom_snoc (hv : AllFinite v) : v.hom = Fin.snoc v.toReal (0 : ℝ) := by
  ext i; refine Fin.lastCases ?_ (fun i => ?_) i
  · rw [Fin.snoc_last]; rfl
  · rw [Fin.snoc_castSucc, Vector3.toReal_hom hv]
theorem Point3.hom_addv (hp : AllFinite p) (hv : AllFinite v) : (p + v).hom = p.hom + v.hom := by
  ext i; refine Fin.lastCases ?_ (fun i => ?_) i
  · rw [Pi.add_apply, Point3.hom_last, Point3.hom_last, Vector3.hom_last, add_zero]
  · rw [Pi.add_apply, ← Point3.toReal_hom, ← Point3.toReal_hom, ← Vector3.toReal_hom hv, Point3.toReal_addv hp hv, Pi.add_apply]
theorem Vector3.hom_subp (hp : AllFinite p) (hq : AllFinite q) : (p - q).hom = p.hom - q.hom := by
  have hf := Vector3.fin_subp hp hq
  ext i; refine Fin.lastCases ?_ (fun i => ?_) i
  · rw [Pi.sub_apply, Point3.hom_last, Point3.hom_last, Vector3.hom_last, sub_self]
  · rw [Pi.sub_apply, ← Point3.toReal_hom, ← Point3.toReal_hom, ← Vector3.toReal_hom hf, Vector3.toReal_subp hp hq, Pi.sub_apply]
theorem Matrix4x4.mulVec_vhom (hv : AllFinite v) (i : Fin 4) :
    (m.toReal.mulVec v.hom) i = ∑ j, m.toReal i j.castSucc * v.toReal j := by
  rw [Matrix.mulVec, dotProduct, Fin.sum_univ_castSucc]
  simp only [← Vector3.toReal_hom hv]
  rw [Vector3.hom_last, mul_zero, add_zero]
theorem Matrix4x4.mulVec_phom (i : Fin 4) :
    (m.toReal.mulVec p.hom) i = ∑ j, m.toReal i j.castSucc * p.toReal j + m.toReal i (Fin.last 3) := by
  rw [Matrix.mulVec, dotProduct, Fin.sum_univ_castSucc]
  simp only [← Point3.toReal_hom]
  rw [Point3.hom_last, mul_one]
theorem Matrix4x4.toReal_mulv' (hm : AllFinite m) (hv : AllFinite v) : (m * v).toReal = m.linear.mulVec v.toReal := by
  ext i
  rw [Matrix4x4.toReal_mulv hm hv, Matrix4x4.mulVec_vhom hv]
  rfl
theorem Matrix4x4.Affine.toReal_mulp (h : m.Affine) (hm : AllFinite m) (hp : AllFinite p) :
    (m * p).toReal = m.linear.mulVec p.toReal + m.offset := by
  ext i
  rw [Point3.toReal_hom, h.hom_mulp hm hp, Matrix4x4.mulVec_phom]
  rfl
theorem Matrix4x4.Affine.ext (ha : a.Affine) (hb : b.Affine) (hl : a.linear = b.linear) (ho : a.offset = b.offset) :
    a.toReal = b.toReal := by
  ext i j
  refine Fin.lastCases ?_ (fun i => ?_) i
  · rw [ha, hb]
  · refine Fin.lastCases ?_ (fun j => ?_) j
    · exact congrFun ho i
    · exact congrFun (congrFun hl i) j
theorem Matrix4x4.Affine.linear_mul (hb : b.Affine) (fa : AllFinite a) (fb : AllFinite b) :
    (a * b).linear = a.linear * b.linear := by
  ext i j
  show (a * b).toReal _ _ = _
  rw [Matrix4x4.toReal_mul fa fb, Matrix.mul_apply, Fin.sum_univ_castSucc, hb, if_neg (Fin.castSucc_lt_last j).ne, mul_zero,
    add_zero]
  rfl
theorem Matrix4x4.Affine.offset_mul (hb : b.Affine) (fa : AllFinite a) (fb : AllFinite b) :
    (a * b).offset = a.linear.mulVec b.offset + a.offset := by
  ext i
  show (a * b).toReal _ _ = _
  rw [Matrix4x4.toReal_mul fa fb, Matrix.mul_apply, Fin.sum_univ_castSucc, hb, if_pos rfl, mul_one]
  rfl
theorem Matrix4x4.linear_identity : (Matrix4x4.identity : Matrix4x4 Ideal).linear = 1 := by
  ext i j
  show (Matrix4x4.identity : Matrix4x4 Ideal).toReal _ _ = _
  rw [Matrix4x4.toReal_identity, Matrix.one_apply, Matrix.one_apply]
  simp
theorem Matrix4x4.offset_identity : (Matrix4x4.identity : Matrix4x4 Ideal).offset = 0 := by
  ext i
  show (Matrix4x4.identity : Matrix4x4 Ideal).toReal _ _ = _
  rw [Matrix4x4.toReal_identity, Matrix.one_apply, if_neg (Fin.castSucc_lt_last i).ne]
  rfl
theorem Matrix4x4.Affine.det (h : m.Affine) : m.toReal.det = m.linear.det := by
  rw [Matrix.det_succ_row m.toReal (Fin.last 3), Fin.sum_univ_castSucc]
  simp only [h _]
  rw [Finset.sum_eq_zero]
  · simp only [if_true, zero_add, mul_one]
    rw [← two_mul, pow_mul, neg_one_sq, one_pow, one_mul]
    congr 1
    ext i j
    rw [Matrix.submatrix_apply, Fin.succAbove_last]
    rfl
  · intro j _
    rw [if_neg (Fin.castSucc_lt_last j).ne]; simp
end

end VecMath
