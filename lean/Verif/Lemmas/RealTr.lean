import Verif.Lemmas.RealInv
/-!
# Transforms over exact arithmetic: linear part, offset, rigidity

(Generated by tools/gen/genrt.py.)
-/

set_option linter.unusedSimpArgs false
set_option linter.unusedVariables false

namespace VecMath
open Scalar IEEE
open scoped Matrix

theorem Ideal.finite_recip {s : Ideal} (hs : IsFinite s) (h : real s ≠ 0) : IsFinite (recip s) :=
  Ideal.finite_div finite_one hs h
theorem Ideal.real_recip {s : Ideal} (hs : IsFinite s) (h : real s ≠ 0) : real (recip s) = (real s)⁻¹ := by
  unfold recip; rw [Ideal.real_div finite_one hs h, real_one, one_div]

/-! ## Transform2 -/
section
variable {a b m n : Matrix3x3 Ideal} {p q : Point2 Ideal} {u v : Vector2 Ideal} {s : Ideal} {t t' : Transform2 Ideal}

theorem Transform2.tr_point (t : Transform2 Ideal) (p : Point2 Ideal) : (Transform.transform t p : Point2 Ideal) = t.forward * p := rfl
theorem Transform2.tr_vector (t : Transform2 Ideal) (p : Vector2 Ideal) : (Transform.transform t p : Vector2 Ideal) = t.forward * p := rfl
theorem Transform2.tr_ray (t : Transform2 Ideal) (r : Ray2 Ideal) :
    (Transform.transform t r : Ray2 Ideal) = ⟨t.forward * r.origin, t.forward * r.direction⟩ := rfl

theorem Transform2.paired_iff (hf : AllFinite t.forward) (hi : AllFinite t.inverse) :
    t.Paired ↔ t.forward.toReal * t.inverse.toReal = 1 := by
  unfold Transform2.Paired
  rw [Matrix3x3.beq_toReal (Matrix3x3.fin_mul hf hi) Matrix3x3.fin_identity, Matrix3x3.beq_toReal (Matrix3x3.fin_mul hi hf) Matrix3x3.fin_identity,
    Matrix3x3.toReal_mul hf hi, Matrix3x3.toReal_mul hi hf, Matrix3x3.toReal_identity]
  exact ⟨fun h => h.1, fun h => ⟨h, mul_eq_one_comm.1 h⟩⟩
theorem Transform2.paired_of_affine (hf : AllFinite t.forward) (hi : AllFinite t.inverse) (af : t.forward.Affine)
    (ai : t.inverse.Affine) (hl : t.forward.linear * t.inverse.linear = 1)
    (ho : t.forward.linear.mulVec t.inverse.offset + t.forward.offset = 0) : t.Paired := by
  rw [Transform2.paired_iff hf hi, ← Matrix3x3.toReal_mul hf hi, ← Matrix3x3.toReal_identity]
  refine Matrix3x3.Affine.ext (af.mul ai hf hi) Matrix3x3.identity_affine ?_ ?_
  · rw [ai.linear_mul hf hi, hl, Matrix3x3.linear_identity]
  · rw [ai.offset_mul hf hi, ho, Matrix3x3.offset_identity]
theorem Matrix3x3.Affine.transpose (h : m.Affine) (ho : m.offset = 0) : m.transpose.Affine := by
  intro j
  rw [Matrix3x3.toReal_transpose, Matrix.transpose_apply]
  refine Fin.lastCases ?_ (fun j => ?_) j
  · rw [h]
  · rw [if_neg (Fin.castSucc_lt_last j).ne]
    exact congrFun ho j
theorem Matrix3x3.linear_transpose (m : Matrix3x3 Ideal) : m.transpose.linear = m.linear.transpose := by
  ext i j
  show m.transpose.toReal _ _ = _
  rw [Matrix3x3.toReal_transpose]; rfl
theorem Matrix3x3.Affine.offset_transpose (h : m.Affine) : m.transpose.offset = 0 := by
  ext i
  show m.transpose.toReal _ _ = _
  rw [Matrix3x3.toReal_transpose, Matrix.transpose_apply, h, if_neg (Fin.castSucc_lt_last i).ne]; rfl
theorem Transform2.paired_transpose (hf : AllFinite m) (ha : m.Affine) (ho : m.offset = 0)
    (h : m.linear.transpose * m.linear = 1) : (Transform2.new m m.transpose).Paired := by
  refine Transform2.paired_of_affine hf (Matrix3x3.fin_transpose hf) ha (ha.transpose ho) ?_ ?_
  · show m.linear * m.transpose.linear = 1
    rw [Matrix3x3.linear_transpose]; exact mul_eq_one_comm.1 h
  · show m.linear.mulVec m.transpose.offset + m.offset = 0
    rw [ho, ha.offset_transpose, Matrix.mulVec_zero, add_zero]
theorem Matrix3x3.Affine.sub_mulp (h : m.Affine) (hm : AllFinite m) (hp : AllFinite p) (hq : AllFinite q) :
    (m * p - m * q).toReal = m.linear.mulVec (p.toReal - q.toReal) := by
  rw [Vector2.toReal_subp (h.fin_mulp hm hp) (h.fin_mulp hm hq), h.toReal_mulp hm hp, h.toReal_mulp hm hq, Matrix.mulVec_sub]
  abel
theorem Transform2.dot_mulVec {n : ℕ} (L : Matrix (Fin n) (Fin n) ℝ) (h : L.transpose * L = 1) (x y : Fin n → ℝ) :
    L.mulVec x ⬝ᵥ L.mulVec y = x ⬝ᵥ y := by
  rw [Matrix.dotProduct_mulVec, ← Matrix.mulVec_transpose, Matrix.mulVec_mulVec, h, Matrix.one_mulVec]
theorem Vector2.real_length' (hu : AllFinite u) : real (Api.length u) = √(u.toReal ⬝ᵥ u.toReal) := by
  rw [Vector2.length_def, Ideal.real_sqrt (Vector2.fin_dot hu hu) (Vector2.real_dot_self_nonneg hu), Vector2.real_dot hu hu]
theorem Transform2.rigid_of (hf : AllFinite t.forward) (ha : t.forward.Affine)
    (ho : t.forward.linear.transpose * t.forward.linear = 1) (hd : t.forward.linear.det = 1) : t.Rigid where
  dot u v hu hv := by
    rw [Transform2.tr_vector, Transform2.tr_vector, Ideal.beq_real (Vector2.fin_dot (Matrix3x3.fin_mulv hf hu) (Matrix3x3.fin_mulv hf hv)) (Vector2.fin_dot hu hv),
      Vector2.real_dot (Matrix3x3.fin_mulv hf hu) (Matrix3x3.fin_mulv hf hv), Vector2.real_dot hu hv, Matrix3x3.toReal_mulv' hf hu,
      Matrix3x3.toReal_mulv' hf hv, Transform2.dot_mulVec _ ho]
  length v hv := by
    rw [Transform2.tr_vector, Ideal.beq_real (Vector2.fin_length (Matrix3x3.fin_mulv hf hv)) (Vector2.fin_length hv), Vector2.real_length' hv,
      Vector2.real_length' (Matrix3x3.fin_mulv hf hv), Matrix3x3.toReal_mulv' hf hv, Transform2.dot_mulVec _ ho]
  distance p q hp hq := by
    have fp := ha.fin_mulp hf hp
    have fq := ha.fin_mulp hf hq
    rw [Transform2.tr_point, Transform2.tr_point, Ideal.beq_real (Point2.fin_distance fp fq) (Point2.fin_distance hp hq), Point2.distance_def,
      Point2.distance_def, Vector2.real_length' (Vector2.fin_subp fq fp), Vector2.real_length' (Vector2.fin_subp hq hp), ha.sub_mulp hf hq hp,
      Transform2.dot_mulVec _ ho, Vector2.toReal_subp hq hp]
  orientation := hd

theorem Matrix3x3.fin_translate (hv : AllFinite v) : AllFinite (Matrix3x3.translate v) := by
  rw [Vector2.allFinite] at hv
  rw [Matrix3x3.allFinite, forall_lt_9]
  mat_simp []
  simp only [finite_zero, finite_one, hv, and_self]
theorem Matrix3x3.translate_affine (v : Vector2 Ideal) : (Matrix3x3.translate v).Affine := by
  intro j; rw [Matrix3x3.toReal_eq]; fin_cases j <;> mat_simp [] <;> simp [Fin.last, real_zero, real_one]
theorem Matrix3x3.linear_translate (v : Vector2 Ideal) : (Matrix3x3.translate v).linear = 1 := by
  unfold Matrix3x3.linear
  rw [Matrix3x3.toReal_eq]; mat_simp []
  ext i j; fin_cases i <;> fin_cases j <;> simp [real_zero, real_one, Fin.last]
theorem Matrix3x3.offset_translate (v : Vector2 Ideal) : (Matrix3x3.translate v).offset = v.toReal := by
  unfold Matrix3x3.offset
  rw [Matrix3x3.toReal_eq]; mat_simp []
  ext i; fin_cases i <;> simp [real_zero, real_one, Fin.last, Vector2.toReal]
theorem Matrix3x3.fin_scale {sx sy : Ideal} (hs : IsFinite sx ∧ IsFinite sy) : AllFinite (Matrix3x3.scale sx sy) := by
  rw [Matrix3x3.allFinite, forall_lt_9]
  mat_simp []
  simp only [finite_zero, finite_one, hs, and_self]
theorem Matrix3x3.scale_affine (sx sy : Ideal) : (Matrix3x3.scale sx sy).Affine := by
  intro j; rw [Matrix3x3.toReal_eq]; fin_cases j <;> mat_simp [] <;> simp [Fin.last, real_zero, real_one]
theorem Matrix3x3.linear_scale (sx sy : Ideal) : (Matrix3x3.scale sx sy).linear = Matrix.diagonal ![real sx, real sy] := by
  unfold Matrix3x3.linear
  rw [Matrix3x3.toReal_eq]; mat_simp []
  ext i j; fin_cases i <;> fin_cases j <;> simp [real_zero, real_one, Fin.last]
theorem Matrix3x3.offset_scale (sx sy : Ideal) : (Matrix3x3.scale sx sy).offset = 0 := by
  unfold Matrix3x3.offset
  rw [Matrix3x3.toReal_eq]; mat_simp []
  ext i; fin_cases i <;> simp [real_zero, real_one, Fin.last]
theorem Matrix3x3.scaleUniform_eq (s : Ideal) : (Matrix3x3.scaleUniform s) = Matrix3x3.scale s s := rfl
end

/-! ## Transform3 -/
section
variable {a b m n : Matrix4x4 Ideal} {p q : Point3 Ideal} {u v : Vector3 Ideal} {s : Ideal} {t t' : Transform3 Ideal}

theorem Transform3.tr_point (t : Transform3 Ideal) (p : Point3 Ideal) : (Transform.transform t p : Point3 Ideal) = t.forward * p := rfl
theorem Transform3.tr_vector (t : Transform3 Ideal) (p : Vector3 Ideal) : (Transform.transform t p : Vector3 Ideal) = t.forward * p := rfl
theorem Transform3.tr_ray (t : Transform3 Ideal) (r : Ray3 Ideal) :
    (Transform.transform t r : Ray3 Ideal) = ⟨t.forward * r.origin, t.forward * r.direction⟩ := rfl

theorem Transform3.paired_iff (hf : AllFinite t.forward) (hi : AllFinite t.inverse) :
    t.Paired ↔ t.forward.toReal * t.inverse.toReal = 1 := by
  unfold Transform3.Paired
  rw [Matrix4x4.beq_toReal (Matrix4x4.fin_mul hf hi) Matrix4x4.fin_identity, Matrix4x4.beq_toReal (Matrix4x4.fin_mul hi hf) Matrix4x4.fin_identity,
    Matrix4x4.toReal_mul hf hi, Matrix4x4.toReal_mul hi hf, Matrix4x4.toReal_identity]
  exact ⟨fun h => h.1, fun h => ⟨h, mul_eq_one_comm.1 h⟩⟩
theorem Transform3.paired_of_affine (hf : AllFinite t.forward) (hi : AllFinite t.inverse) (af : t.forward.Affine)
    (ai : t.inverse.Affine) (hl : t.forward.linear * t.inverse.linear = 1)
    (ho : t.forward.linear.mulVec t.inverse.offset + t.forward.offset = 0) : t.Paired := by
  rw [Transform3.paired_iff hf hi, ← Matrix4x4.toReal_mul hf hi, ← Matrix4x4.toReal_identity]
  refine Matrix4x4.Affine.ext (af.mul ai hf hi) Matrix4x4.identity_affine ?_ ?_
  · rw [ai.linear_mul hf hi, hl, Matrix4x4.linear_identity]
  · rw [ai.offset_mul hf hi, ho, Matrix4x4.offset_identity]
theorem Matrix4x4.Affine.transpose (h : m.Affine) (ho : m.offset = 0) : m.transpose.Affine := by
  intro j
  rw [Matrix4x4.toReal_transpose, Matrix.transpose_apply]
  refine Fin.lastCases ?_ (fun j => ?_) j
  · rw [h]
  · rw [if_neg (Fin.castSucc_lt_last j).ne]
    exact congrFun ho j
theorem Matrix4x4.linear_transpose (m : Matrix4x4 Ideal) : m.transpose.linear = m.linear.transpose := by
  ext i j
  show m.transpose.toReal _ _ = _
  rw [Matrix4x4.toReal_transpose]; rfl
theorem Matrix4x4.Affine.offset_transpose (h : m.Affine) : m.transpose.offset = 0 := by
  ext i
  show m.transpose.toReal _ _ = _
  rw [Matrix4x4.toReal_transpose, Matrix.transpose_apply, h, if_neg (Fin.castSucc_lt_last i).ne]; rfl
theorem Transform3.paired_transpose (hf : AllFinite m) (ha : m.Affine) (ho : m.offset = 0)
    (h : m.linear.transpose * m.linear = 1) : (Transform3.new m m.transpose).Paired := by
  refine Transform3.paired_of_affine hf (Matrix4x4.fin_transpose hf) ha (ha.transpose ho) ?_ ?_
  · show m.linear * m.transpose.linear = 1
    rw [Matrix4x4.linear_transpose]; exact mul_eq_one_comm.1 h
  · show m.linear.mulVec m.transpose.offset + m.offset = 0
    rw [ho, ha.offset_transpose, Matrix.mulVec_zero, add_zero]
theorem Matrix4x4.Affine.sub_mulp (h : m.Affine) (hm : AllFinite m) (hp : AllFinite p) (hq : AllFinite q) :
    (m * p - m * q).toReal = m.linear.mulVec (p.toReal - q.toReal) := by
  rw [Vector3.toReal_subp (h.fin_mulp hm hp) (h.fin_mulp hm hq), h.toReal_mulp hm hp, h.toReal_mulp hm hq, Matrix.mulVec_sub]
  abel
theorem Transform3.dot_mulVec {n : ℕ} (L : Matrix (Fin n) (Fin n) ℝ) (h : L.transpose * L = 1) (x y : Fin n → ℝ) :
    L.mulVec x ⬝ᵥ L.mulVec y = x ⬝ᵥ y := by
  rw [Matrix.dotProduct_mulVec, ← Matrix.mulVec_transpose, Matrix.mulVec_mulVec, h, Matrix.one_mulVec]
theorem Vector3.real_length' (hu : AllFinite u) : real (Api.length u) = √(u.toReal ⬝ᵥ u.toReal) := by
  rw [Vector3.length_def, Ideal.real_sqrt (Vector3.fin_dot hu hu) (Vector3.real_dot_self_nonneg hu), Vector3.real_dot hu hu]
theorem Transform3.rigid_of (hf : AllFinite t.forward) (ha : t.forward.Affine)
    (ho : t.forward.linear.transpose * t.forward.linear = 1) (hd : t.forward.linear.det = 1) : t.Rigid where
  dot u v hu hv := by
    rw [Transform3.tr_vector, Transform3.tr_vector, Ideal.beq_real (Vector3.fin_dot (Matrix4x4.fin_mulv hf hu) (Matrix4x4.fin_mulv hf hv)) (Vector3.fin_dot hu hv),
      Vector3.real_dot (Matrix4x4.fin_mulv hf hu) (Matrix4x4.fin_mulv hf hv), Vector3.real_dot hu hv, Matrix4x4.toReal_mulv' hf hu,
      Matrix4x4.toReal_mulv' hf hv, Transform3.dot_mulVec _ ho]
  length v hv := by
    rw [Transform3.tr_vector, Ideal.beq_real (Vector3.fin_length (Matrix4x4.fin_mulv hf hv)) (Vector3.fin_length hv), Vector3.real_length' hv,
      Vector3.real_length' (Matrix4x4.fin_mulv hf hv), Matrix4x4.toReal_mulv' hf hv, Transform3.dot_mulVec _ ho]
  distance p q hp hq := by
    have fp := ha.fin_mulp hf hp
    have fq := ha.fin_mulp hf hq
    rw [Transform3.tr_point, Transform3.tr_point, Ideal.beq_real (Point3.fin_distance fp fq) (Point3.fin_distance hp hq), Point3.distance_def,
      Point3.distance_def, Vector3.real_length' (Vector3.fin_subp fq fp), Vector3.real_length' (Vector3.fin_subp hq hp), ha.sub_mulp hf hq hp,
      Transform3.dot_mulVec _ ho, Vector3.toReal_subp hq hp]
  orientation := hd

theorem Matrix4x4.fin_translate (hv : AllFinite v) : AllFinite (Matrix4x4.translate v) := by
  rw [Vector3.allFinite] at hv
  rw [Matrix4x4.allFinite, forall_lt_16]
  mat_simp []
  simp only [finite_zero, finite_one, hv, and_self]
theorem Matrix4x4.translate_affine (v : Vector3 Ideal) : (Matrix4x4.translate v).Affine := by
  intro j; rw [Matrix4x4.toReal_eq]; fin_cases j <;> mat_simp [] <;> simp [Fin.last, real_zero, real_one]
theorem Matrix4x4.linear_translate (v : Vector3 Ideal) : (Matrix4x4.translate v).linear = 1 := by
  unfold Matrix4x4.linear
  rw [Matrix4x4.toReal_eq]; mat_simp []
  ext i j; fin_cases i <;> fin_cases j <;> simp [real_zero, real_one, Fin.last]
theorem Matrix4x4.offset_translate (v : Vector3 Ideal) : (Matrix4x4.translate v).offset = v.toReal := by
  unfold Matrix4x4.offset
  rw [Matrix4x4.toReal_eq]; mat_simp []
  ext i; fin_cases i <;> simp [real_zero, real_one, Fin.last, Vector3.toReal]
theorem Matrix4x4.fin_scale {sx sy sz : Ideal} (hs : IsFinite sx ∧ IsFinite sy ∧ IsFinite sz) : AllFinite (Matrix4x4.scale sx sy sz) := by
  rw [Matrix4x4.allFinite, forall_lt_16]
  mat_simp []
  simp only [finite_zero, finite_one, hs, and_self]
theorem Matrix4x4.scale_affine (sx sy sz : Ideal) : (Matrix4x4.scale sx sy sz).Affine := by
  intro j; rw [Matrix4x4.toReal_eq]; fin_cases j <;> mat_simp [] <;> simp [Fin.last, real_zero, real_one]
theorem Matrix4x4.linear_scale (sx sy sz : Ideal) : (Matrix4x4.scale sx sy sz).linear = Matrix.diagonal ![real sx, real sy, real sz] := by
  unfold Matrix4x4.linear
  rw [Matrix4x4.toReal_eq]; mat_simp []
  ext i j; fin_cases i <;> fin_cases j <;> simp [real_zero, real_one, Fin.last]
theorem Matrix4x4.offset_scale (sx sy sz : Ideal) : (Matrix4x4.scale sx sy sz).offset = 0 := by
  unfold Matrix4x4.offset
  rw [Matrix4x4.toReal_eq]; mat_simp []
  ext i; fin_cases i <;> simp [real_zero, real_one, Fin.last]
theorem Matrix4x4.scaleUniform_eq (s : Ideal) : (Matrix4x4.scaleUniform s) = Matrix4x4.scale s s s := rfl
end

end VecMath
