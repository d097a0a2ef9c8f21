hd='''import Verif.Lemmas.Rotation
/-!
# Rotations in exact real arithmetic (layer R): C47, C48

`rotate` (2D), `rotate_x`, `rotate_y`, `rotate_z`, `rotate_axis`. `Rigid` (in `Verif.Spec.Real`): preserves dot
products, lengths, distances and orientation. (Generated by tools/gen/rr.py.)
-/

set_option linter.unusedSimpArgs false
set_option linter.unusedVariables false

namespace VecMath
open Scalar IEEE
open scoped Matrix

/-! ## The plane -/

/-- **C47** (2D): `rotate(a)` is the counter-clockwise rotation by `a`: on vectors and points alike it gives
`(cos a x - sin a y, sin a x + cos a y)`. -/
theorem C47_real_formula2 (a : Ideal) (v : Vector2 Ideal) (p : Point2 Ideal) (ha : IsFinite a) (hv : AllFinite v)
    (hp : AllFinite p) :
    AllFinite (Transform.transform (Transform2.rotate a) v : Vector2 Ideal) ∧
    AllFinite (Transform.transform (Transform2.rotate a) p : Point2 Ideal) ∧
    (Transform.transform (Transform2.rotate a) v : Vector2 Ideal).toReal =
      ![Real.cos (real a) * v.toReal 0 - Real.sin (real a) * v.toReal 1,
        Real.sin (real a) * v.toReal 0 + Real.cos (real a) * v.toReal 1] ∧
    (Transform.transform (Transform2.rotate a) p : Point2 Ideal).toReal =
      ![Real.cos (real a) * p.toReal 0 - Real.sin (real a) * p.toReal 1,
        Real.sin (real a) * p.toReal 0 + Real.cos (real a) * p.toReal 1] := by
  have fm := Matrix3x3.fin_rotate ha
  have am := Matrix3x3.rotate_affine ha
  rw [Transform2.tr_vector, Transform2.tr_point]
  show AllFinite (Matrix3x3.rotate a * v) ∧ AllFinite (Matrix3x3.rotate a * p) ∧ (Matrix3x3.rotate a * v).toReal = _ ∧
    (Matrix3x3.rotate a * p).toReal = _
  refine ⟨Matrix3x3.fin_mulv fm hv, am.fin_mulp fm hp, ?_, ?_⟩
  · rw [Matrix3x3.toReal_mulv' fm hv, Matrix3x3.linear_rotate ha, rot2]
    ext i; fin_cases i <;> simp [Matrix.mulVec, dotProduct, Fin.sum_univ_succ, sub_eq_add_neg]
  · rw [am.toReal_mulp fm hp, Matrix3x3.linear_rotate ha, Matrix3x3.offset_rotate ha, rot2]
    ext i; fin_cases i <;> simp [Matrix.mulVec, dotProduct, Fin.sum_univ_succ, sub_eq_add_neg]

theorem C47_real_rigid2 (a : Ideal) (ha : IsFinite a) : (Transform2.rotate a).Rigid :=
  Transform2.rigid_of (Matrix3x3.fin_rotate ha) (Matrix3x3.rotate_affine ha)
    (by show (Matrix3x3.rotate a).linear.transpose * (Matrix3x3.rotate a).linear = 1
        rw [Matrix3x3.linear_rotate ha, rot2_orth])
    (by show (Matrix3x3.rotate a).linear.det = 1
        rw [Matrix3x3.linear_rotate ha, rot2_det])

theorem rotate2_toReal {a b : Ideal} (ha : IsFinite a) (hb : IsFinite b) (h : real a = real b) :
    (Matrix3x3.rotate a).toReal = (Matrix3x3.rotate b).toReal := by
  rw [Matrix3x3.toReal_rotate ha, Matrix3x3.toReal_rotate hb, h]

/-- **C47** (2D): rotations compose by adding angles; angle 0 is the identity; rotating by `-a` is the
inverse transform. -/
theorem C47_real_angles2 (a b : Ideal) (ha : IsFinite a) (hb : IsFinite b) :
    ((Transform2.rotate a).andThen (Transform2.rotate b) == Transform2.rotate (a + b)) = true ∧
    (Transform2.rotate (zero : Ideal) == Transform2.identity) = true ∧
    (Transform2.rotate (-a) == (Transform2.rotate a).inv) = true := by
  have hab := Ideal.finite_add ha hb
  have fa := Matrix3x3.fin_rotate ha
  have fb := Matrix3x3.fin_rotate hb
  have fab := Matrix3x3.fin_rotate hab
  have key : (Matrix3x3.rotate b * Matrix3x3.rotate a).toReal = (Matrix3x3.rotate (a + b)).toReal := by
    refine Matrix3x3.Affine.ext ((Matrix3x3.rotate_affine hb).mul (Matrix3x3.rotate_affine ha) fb fa)
      (Matrix3x3.rotate_affine hab) ?_ ?_
    · rw [(Matrix3x3.rotate_affine ha).linear_mul fb fa, Matrix3x3.linear_rotate ha, Matrix3x3.linear_rotate hb,
        Matrix3x3.linear_rotate hab, rot2_mul, Ideal.real_add ha hb]
    · rw [(Matrix3x3.rotate_affine ha).offset_mul fb fa, Matrix3x3.offset_rotate ha, Matrix3x3.offset_rotate hb,
        Matrix3x3.offset_rotate hab, Matrix.mulVec_zero, add_zero]
  have key0 : (Matrix3x3.rotate (zero : Ideal)).toReal = 1 := by
    rw [Matrix3x3.toReal_rotate finite_zero, real_zero]
    ext i j; fin_cases i <;> fin_cases j <;> simp
  have keyn : (Matrix3x3.rotate (-a)).toReal = (Matrix3x3.rotate a).transpose.toReal := by
    rw [Matrix3x3.toReal_rotate (finite_neg.2 ha), Matrix3x3.toReal_transpose, Matrix3x3.toReal_rotate ha, IEEE.real_neg]
    ext i j; fin_cases i <;> fin_cases j <;> simp
  have ft := fun {m : Matrix3x3 Ideal} (h : AllFinite m) => Matrix3x3.fin_transpose h
  refine ⟨Transform2.beq_iff.2 ⟨?_, ?_⟩, Transform2.beq_iff.2 ⟨?_, ?_⟩, Transform2.beq_iff.2 ⟨?_, ?_⟩⟩
  · show (Matrix3x3.rotate b * Matrix3x3.rotate a == Matrix3x3.rotate (a + b)) = true
    rw [Matrix3x3.beq_toReal (Matrix3x3.fin_mul fb fa) fab, key]
  · show ((Matrix3x3.rotate a).transpose * (Matrix3x3.rotate b).transpose == (Matrix3x3.rotate (a + b)).transpose) = true
    rw [Matrix3x3.beq_toReal (Matrix3x3.fin_mul (ft fa) (ft fb)) (ft fab), Matrix3x3.toReal_mul (ft fa) (ft fb),
      Matrix3x3.toReal_transpose, Matrix3x3.toReal_transpose, Matrix3x3.toReal_transpose, ← key,
      Matrix3x3.toReal_mul fb fa, Matrix.transpose_mul]
  · show (Matrix3x3.rotate (zero : Ideal) == Matrix3x3.identity) = true
    rw [Matrix3x3.beq_toReal (Matrix3x3.fin_rotate finite_zero) Matrix3x3.fin_identity, key0, Matrix3x3.toReal_identity]
  · show ((Matrix3x3.rotate (zero : Ideal)).transpose == Matrix3x3.identity) = true
    rw [Matrix3x3.beq_toReal (ft (Matrix3x3.fin_rotate finite_zero)) Matrix3x3.fin_identity, Matrix3x3.toReal_transpose, key0,
      Matrix3x3.toReal_identity, Matrix.transpose_one]
  · show (Matrix3x3.rotate (-a) == (Matrix3x3.rotate a).transpose) = true
    rw [Matrix3x3.beq_toReal (Matrix3x3.fin_rotate (finite_neg.2 ha)) (ft fa), keyn]
  · show ((Matrix3x3.rotate (-a)).transpose == Matrix3x3.rotate a) = true
    rw [Matrix3x3.beq_toReal (ft (Matrix3x3.fin_rotate (finite_neg.2 ha))) fa, Matrix3x3.toReal_transpose, keyn,
      Matrix3x3.toReal_transpose, Matrix.transpose_transpose]

/-- **C47** (2D): a quarter turn takes the x axis to the y axis and the y axis to minus the x axis. -/
theorem C47_real_quarter2 (q : Ideal) (hq : IsFinite q) (h : real q = Real.pi / 2) :
    (Transform.transform (Transform2.rotate q) (Vector2.xAxis : Vector2 Ideal) == Vector2.yAxis) = true ∧
    (Transform.transform (Transform2.rotate q) (Vector2.yAxis : Vector2 Ideal) == -(Vector2.xAxis : Vector2 Ideal)) = true := by
  have fx : AllFinite (Vector2.xAxis : Vector2 Ideal) := by rw [Vector2.allFinite]; exact ⟨finite_one, finite_zero⟩
  have fy : AllFinite (Vector2.yAxis : Vector2 Ideal) := by rw [Vector2.allFinite]; exact ⟨finite_zero, finite_one⟩
  have pp : AllFinite (Point2.origin : Point2 Ideal) := by rw [Point2.allFinite]; exact ⟨finite_zero, finite_zero⟩
  have ⟨f1, _, e1, _⟩ := C47_real_formula2 q _ _ hq fx pp
  have ⟨f2, _, e2, _⟩ := C47_real_formula2 q _ _ hq fy pp
  rw [Vector2.beq_toReal f1 fy, Vector2.beq_toReal f2 (Vector2.fin_neg fx), e1, e2, Vector2.toReal_neg fx, h]
  constructor <;> ext i <;> fin_cases i <;> simp [Vector2.toReal, real_one, real_zero]

/-! ## Space: the coordinate axes -/

theorem axis_unit_x : (![1, 0, 0] : Fin 3 → ℝ) ⬝ᵥ ![1, 0, 0] = 1 := by simp
theorem axis_unit_y : (![0, 1, 0] : Fin 3 → ℝ) ⬝ᵥ ![0, 1, 0] = 1 := by simp
theorem axis_unit_z : (![0, 0, 1] : Fin 3 → ℝ) ⬝ᵥ ![0, 0, 1] = 1 := by simp
theorem fin_xAxis : AllFinite (Vector3.xAxis : Vector3 Ideal) := by
  rw [Vector3.allFinite]; exact ⟨finite_one, finite_zero, finite_zero⟩
theorem fin_yAxis : AllFinite (Vector3.yAxis : Vector3 Ideal) := by
  rw [Vector3.allFinite]; exact ⟨finite_zero, finite_one, finite_zero⟩
theorem fin_zAxis : AllFinite (Vector3.zAxis : Vector3 Ideal) := by
  rw [Vector3.allFinite]; exact ⟨finite_zero, finite_zero, finite_one⟩
theorem toReal_xAxis : (Vector3.xAxis : Vector3 Ideal).toReal = ![1, 0, 0] := by
  ext i; fin_cases i <;> simp [Vector3.toReal, real_one, real_zero]
theorem toReal_yAxis : (Vector3.yAxis : Vector3 Ideal).toReal = ![0, 1, 0] := by
  ext i; fin_cases i <;> simp [Vector3.toReal, real_one, real_zero]
theorem toReal_zAxis : (Vector3.zAxis : Vector3 Ideal).toReal = ![0, 0, 1] := by
  ext i; fin_cases i <;> simp [Vector3.toReal, real_one, real_zero]

'''
out=hd
spec={
 'X':("![x 0, Real.cos (real a) * x 1 - Real.sin (real a) * x 2,\n        Real.sin (real a) * x 1 + Real.cos (real a) * x 2]",'y','z'),
 'Y':("![Real.cos (real a) * x 0 + Real.sin (real a) * x 2, x 1,\n        -Real.sin (real a) * x 0 + Real.cos (real a) * x 2]",'z','x'),
 'Z':("![Real.cos (real a) * x 0 - Real.sin (real a) * x 1,\n        Real.sin (real a) * x 0 + Real.cos (real a) * x 1, x 2]",'x','y'),
}
for A,(f,b,c) in spec.items():
    l=A.lower(); k={'X':'![1, 0, 0]','Y':'![0, 1, 0]','Z':'![0, 0, 1]'}[A]
    fv=f.replace('x ','v.toReal '); fp=f.replace('x ','p.toReal ')
    fx=f
    out+=f'''/-- **C47** (3D, {l} axis): `rotate_{l}(a)` rotates vectors and points by the angle `a` about the {l} axis,
turning {b} towards {c}. -/
theorem C47_real_formula_{l} (a : Ideal) (v : Vector3 Ideal) (p : Point3 Ideal) (ha : IsFinite a) (hv : AllFinite v)
    (hp : AllFinite p) :
    AllFinite (Transform.transform (Transform3.rotate{A} a) v : Vector3 Ideal) ∧
    AllFinite (Transform.transform (Transform3.rotate{A} a) p : Point3 Ideal) ∧
    (Transform.transform (Transform3.rotate{A} a) v : Vector3 Ideal).toReal =
      {fv} ∧
    (Transform.transform (Transform3.rotate{A} a) p : Point3 Ideal).toReal =
      {fp} := by
  have h := isRot_rotate{A} ha
  refine ⟨Matrix4x4.fin_mulv h.fin hv, h.affine.fin_mulp h.fin hp, (h.vector hv).trans ?_, (h.point hp).trans ?_⟩ <;>
    rw [cross_apply] <;> ext i <;> fin_cases i <;> simp [dotProduct, Fin.sum_univ_succ, Matrix.vecHead, Matrix.vecTail] <;> ring
theorem C47_real_rigid_{l} (a : Ideal) (ha : IsFinite a) : (Transform3.rotate{A} a).Rigid :=
  (isRot_rotate{A} ha).rigid axis_unit_{l}
/-- **C47** (3D, {l} axis): angles add; angle 0 is the identity; `-a` gives the inverse; every multiple of the
axis, as a vector or a point, is fixed; a quarter turn takes {b} to {c} and {c} to `-{b}`. -/
theorem C47_real_angles_{l} (a b : Ideal) (ha : IsFinite a) (hb : IsFinite b) :
    ((Transform3.rotate{A} a).andThen (Transform3.rotate{A} b) == Transform3.rotate{A} (a + b)) = true ∧
    (Transform3.rotate{A} (zero : Ideal) == Transform3.identity) = true ∧
    (Transform3.rotate{A} (-a) == (Transform3.rotate{A} a).inv) = true := by
  have hab := isRot_rotate{A} (Ideal.finite_add ha hb)
  rw [Ideal.real_add ha hb] at hab
  have h0 := isRot_rotate{A} (finite_zero (S := Ideal))
  rw [real_zero] at h0
  have hn := isRot_rotate{A} (finite_neg.2 ha)
  rw [IEEE.real_neg] at hn
  have hm := hn.transpose
  rw [neg_neg] at hm
  refine ⟨(isRot_rotate{A} ha).andThen (isRot_rotate{A} hb) axis_unit_{l} hab, ?_, ?_⟩
  · refine Transform3.beq_iff.2 ⟨h0.beq (IsRot.identity _), h0.transpose.beq ?_⟩
    rw [neg_zero]; exact IsRot.identity _
  · exact Transform3.beq_iff.2 ⟨hn.beq (isRot_rotate{A} ha).transpose, hm.beq (isRot_rotate{A} ha)⟩
theorem C47_real_axis_{l} (a s : Ideal) (ha : IsFinite a) (hs : IsFinite s) :
    (Transform.transform (Transform3.rotate{A} a) ((Vector3.{l}Axis : Vector3 Ideal) * s)
      == (Vector3.{l}Axis : Vector3 Ideal) * s) = true ∧
    (Transform.transform (Transform3.rotate{A} a) ((Point3.origin : Point3 Ideal) + (Vector3.{l}Axis : Vector3 Ideal) * s)
      == (Point3.origin : Point3 Ideal) + (Vector3.{l}Axis : Vector3 Ideal) * s) = true := by
  have fv := Vector3.fin_mul fin_{l}Axis hs
  have fp := Point3.fin_addv (a := (Point3.origin : Point3 Ideal)) (by rw [Point3.allFinite]; exact ⟨finite_zero, finite_zero, finite_zero⟩) fv
  have ⟨f1, f2, e1, e2⟩ := C47_real_formula_{l} a _ _ ha fv fp
  rw [Vector3.beq_toReal f1 fv, Point3.beq_toReal f2 fp, e1, e2]
  constructor <;> ext i <;> fin_cases i <;>
    simp [Vector3.toReal, Point3.toReal, real_one, real_zero, hs, finite_one, finite_zero, Ideal.real_mul, Ideal.real_add, Ideal.finite_mul]
theorem C47_real_quarter_{l} (q : Ideal) (hq : IsFinite q) (h : real q = Real.pi / 2) :
    (Transform.transform (Transform3.rotate{A} q) (Vector3.{b}Axis : Vector3 Ideal) == Vector3.{c}Axis) = true ∧
    (Transform.transform (Transform3.rotate{A} q) (Vector3.{c}Axis : Vector3 Ideal) == -(Vector3.{b}Axis : Vector3 Ideal)) = true := by
  have pp : AllFinite (Point3.origin : Point3 Ideal) := by rw [Point3.allFinite]; exact ⟨finite_zero, finite_zero, finite_zero⟩
  have ⟨f1, _, e1, _⟩ := C47_real_formula_{l} q _ _ hq fin_{b}Axis pp
  have ⟨f2, _, e2, _⟩ := C47_real_formula_{l} q _ _ hq fin_{c}Axis pp
  rw [Vector3.beq_toReal f1 fin_{c}Axis, Vector3.beq_toReal f2 (Vector3.fin_neg fin_{b}Axis), e1, e2,
    Vector3.toReal_neg fin_{b}Axis, h, toReal_{b}Axis, toReal_{c}Axis]
  constructor <;> ext i <;> fin_cases i <;> simp

'''
out+='''/-! ## Space: an arbitrary axis -/

section
variable {axis : Vector3 Ideal}
theorem axis_ne (hk : AllFinite axis) (h : (axis == Vector3.zero) = false) : axis.toReal ≠ 0 := by
  rwa [Bool.eq_false_iff, ne_eq, Vector3.beq_toReal hk Vector3.fin_zero, Vector3.toReal_zero] at h

/-- **C48**: `rotate_axis(axis, a)` follows Rodrigues' formula with the unit vector `k` along the axis:
`v cos a + (k × v) sin a + k (k·v)(1 - cos a)`, on vectors and on points. -/
theorem C48_real_rodrigues (axis v : Vector3 Ideal) (p : Point3 Ideal) (a : Ideal) (hk : AllFinite axis)
    (h : (axis == Vector3.zero) = false) (ha : IsFinite a) (hv : AllFinite v) (hp : AllFinite p)
    (k : Fin 3 → ℝ) (hkk : k = (√(∑ i, axis.toReal i ^ 2))⁻¹ • axis.toReal) :
    AllFinite (Transform.transform (Transform3.rotateAxis axis a) v : Vector3 Ideal) ∧
    AllFinite (Transform.transform (Transform3.rotateAxis axis a) p : Point3 Ideal) ∧
    (Transform.transform (Transform3.rotateAxis axis a) v : Vector3 Ideal).toReal =
      Real.cos (real a) • v.toReal + Real.sin (real a) • crossProduct k v.toReal +
        ((1 - Real.cos (real a)) * (k ⬝ᵥ v.toReal)) • k ∧
    (Transform.transform (Transform3.rotateAxis axis a) p : Point3 Ideal).toReal =
      Real.cos (real a) • p.toReal + Real.sin (real a) • crossProduct k p.toReal +
        ((1 - Real.cos (real a)) * (k ⬝ᵥ p.toReal)) • k := by
  have h0 := axis_ne hk h
  have hr := isRot_rotateAxis hk h0 ha
  have : k = axis.normalize.toReal := by
    rw [hkk, Vector3.toReal_normalize hk h0, EuclideanSpace.norm_eq]
    simp [Vector3.toE]
  rw [this]
  exact ⟨Matrix4x4.fin_mulv hr.fin hv, hr.affine.fin_mulp hr.fin hp, hr.vector hv, hr.point hp⟩
theorem C48_real_rigid (axis : Vector3 Ideal) (a : Ideal) (hk : AllFinite axis)
    (h : (axis == Vector3.zero) = false) (ha : IsFinite a) : (Transform3.rotateAxis axis a).Rigid :=
  (isRot_rotateAxis hk (axis_ne hk h) ha).rigid (unit_normalize hk (axis_ne hk h))
/-- **C48**: the axis is fixed (as a vector, and pointwise as a line through the origin). -/
theorem C48_real_fixes_axis (axis : Vector3 Ideal) (a s : Ideal) (hk : AllFinite axis)
    (h : (axis == Vector3.zero) = false) (ha : IsFinite a) (hs : IsFinite s) :
    (Transform.transform (Transform3.rotateAxis axis a) (axis * s) == axis * s) = true ∧
    (Transform.transform (Transform3.rotateAxis axis a) ((Point3.origin : Point3 Ideal) + axis * s)
      == (Point3.origin : Point3 Ideal) + axis * s) = true := by
  have h0 := axis_ne hk h
  have hr := isRot_rotateAxis hk h0 ha
  have fo : AllFinite (Point3.origin : Point3 Ideal) := by rw [Point3.allFinite]; exact ⟨finite_zero, finite_zero, finite_zero⟩
  have fv := Vector3.fin_mul hk hs
  have fp := Point3.fin_addv fo fv
  have e : ((Point3.origin : Point3 Ideal) + axis * s).toReal = (axis * s).toReal := by
    rw [Point3.toReal_addv fo fv]
    have : (Point3.origin : Point3 Ideal).toReal = 0 := by
      ext i; fin_cases i <;> simp [Point3.toReal, real_zero]
    rw [this, zero_add]
  have key : Real.cos (real a) • (axis * s).toReal + Real.sin (real a) • crossProduct axis.normalize.toReal (axis * s).toReal +
      ((1 - Real.cos (real a)) * (axis.normalize.toReal ⬝ᵥ (axis * s).toReal)) • axis.normalize.toReal
      = (axis * s).toReal := by
    rw [Vector3.toReal_mul hk hs, Vector3.toReal_normalize hk h0, ← Vector3.real_length hk]
    have hl := mt (Vector3.real_length_eq_zero hk).1 h0
    have h2 := Vector3.real_length_sq hk
    rw [map_smul, map_smul, LinearMap.smul_apply, cross_self, smul_zero, smul_zero, smul_zero, add_zero,
      smul_dotProduct, dotProduct_smul, ← h2, smul_smul]
    rw [smul_smul, ← add_smul]
    congr 1
    simp only [smul_eq_mul]
    field_simp
    ring
  constructor
  · refine (Vector3.beq_toReal (Matrix4x4.fin_mulv hr.fin fv) fv).2 ((hr.vector fv).trans key)
  · refine (Point3.beq_toReal (hr.affine.fin_mulp hr.fin fp) fp).2 ((hr.point fp).trans ?_)
    rw [e]; exact key
/-- **C48**: angles about one axis add, angle 0 is the identity, `-a` gives the inverse. -/
theorem C48_real_angles (axis : Vector3 Ideal) (a b : Ideal) (hk : AllFinite axis)
    (h : (axis == Vector3.zero) = false) (ha : IsFinite a) (hb : IsFinite b) :
    ((Transform3.rotateAxis axis a).andThen (Transform3.rotateAxis axis b) == Transform3.rotateAxis axis (a + b)) = true ∧
    (Transform3.rotateAxis axis (zero : Ideal) == Transform3.identity) = true ∧
    (Transform3.rotateAxis axis (-a) == (Transform3.rotateAxis axis a).inv) = true := by
  have h0 := axis_ne hk h
  have hu := unit_normalize hk h0
  have hra := isRot_rotateAxis hk h0 ha
  have hab := isRot_rotateAxis hk h0 (Ideal.finite_add ha hb)
  rw [Ideal.real_add ha hb] at hab
  have hz := isRot_rotateAxis hk h0 (finite_zero (S := Ideal))
  rw [real_zero] at hz
  have hn := isRot_rotateAxis hk h0 (finite_neg.2 ha)
  rw [IEEE.real_neg] at hn
  have hm := hn.transpose
  rw [neg_neg] at hm
  refine ⟨hra.andThen (isRot_rotateAxis hk h0 hb) hu hab, ?_, ?_⟩
  · refine Transform3.beq_iff.2 ⟨hz.beq (IsRot.identity _), hz.transpose.beq ?_⟩
    rw [neg_zero]; exact IsRot.identity _
  · exact Transform3.beq_iff.2 ⟨hn.beq hra.transpose, hm.beq hra⟩
/-- **C48**: only the direction of the axis matters; reversing the axis reverses the angle. -/
theorem C48_real_direction (axis : Vector3 Ideal) (a s : Ideal) (hk : AllFinite axis)
    (h : (axis == Vector3.zero) = false) (ha : IsFinite a) (hs : IsFinite s) :
    (0 < real s → (Transform3.rotateAxis (axis * s) a == Transform3.rotateAxis axis a) = true) ∧
    (real s < 0 → (Transform3.rotateAxis (axis * s) a == Transform3.rotateAxis axis (-a)) = true) := by
  have h0 := axis_ne hk h
  have fs := Vector3.fin_mul hk hs
  have hl := mt (Vector3.real_length_eq_zero hk).1 h0
  have hlp : 0 < real (Api.length axis) := by
    rw [Vector3.real_length hk] at hl ⊢
    exact lt_of_le_of_ne (norm_nonneg _) (Ne.symm hl)
  have len : real (Api.length (axis * s)) = |real s| * real (Api.length axis) := by
    rw [Vector3.real_length' fs, Vector3.toReal_mul hk hs, smul_dotProduct, dotProduct_smul, ← Vector3.real_length_sq hk]
    simp only [smul_eq_mul]
    rw [show real s * (real s * (real (Api.length axis) * real (Api.length axis))) =
      (real s * real (Api.length axis)) ^ 2 by ring, Real.sqrt_sq_eq_abs, abs_mul, abs_of_pos hlp]
  have hne : real s ≠ 0 → (axis * s).toReal ≠ 0 := by
    intro hs0; rw [Vector3.toReal_mul hk hs]; exact smul_ne_zero hs0 h0
  have nrm : real s ≠ 0 → (axis * s).normalize.toReal = (|real s|⁻¹ * real s) • axis.normalize.toReal := by
    intro hs0
    rw [Vector3.toReal_normalize fs (hne hs0), Vector3.toReal_normalize hk h0, ← Vector3.real_length fs, ← Vector3.real_length hk,
      len, Vector3.toReal_mul hk hs, smul_smul, smul_smul]
    congr 1
    rw [mul_inv]; ring
  constructor
  · intro hp
    have hr := isRot_rotateAxis fs (hne hp.ne') ha
    rw [nrm hp.ne', abs_of_pos hp, inv_mul_cancel₀ hp.ne', one_smul] at hr
    exact hr.beq_tr (isRot_rotateAxis hk h0 ha)
  · intro hp
    have hr := isRot_rotateAxis fs (hne hp.ne) ha
    rw [nrm hp.ne, abs_of_neg hp, ← neg_inv, neg_mul, inv_mul_cancel₀ hp.ne, neg_smul, one_smul] at hr
    have hr' : IsRot (Matrix4x4.rotateAxis (axis * s) a) axis.normalize.toReal (-(real a)) :=
      ⟨hr.fin, hr.affine, by rw [hr.linear, rod_neg], hr.offset⟩
    have hn := isRot_rotateAxis hk h0 (finite_neg.2 ha)
    rw [IEEE.real_neg] at hn
    exact hr'.beq_tr hn
theorem norm_axis (hk : AllFinite axis) (h1 : axis.toReal ⬝ᵥ axis.toReal = 1) : axis.normalize.toReal = axis.toReal := by
  have h0 : axis.toReal ≠ 0 := by intro h; rw [h] at h1; simp at h1
  rw [Vector3.toReal_normalize hk h0, ← Vector3.real_length hk, Vector3.real_length' hk, h1, Real.sqrt_one, inv_one, one_smul]
/-- **C48**: on the coordinate axes `rotate_axis` agrees with `rotate_x`, `rotate_y`, `rotate_z`. -/
theorem C48_real_coordinate_axes (a : Ideal) (ha : IsFinite a) :
    (Transform3.rotateAxis Vector3.xAxis a == Transform3.rotateX a) = true ∧
    (Transform3.rotateAxis Vector3.yAxis a == Transform3.rotateY a) = true ∧
    (Transform3.rotateAxis Vector3.zAxis a == Transform3.rotateZ a) = true := by
  have ne : ∀ {w : Vector3 Ideal}, w.toReal ⬝ᵥ w.toReal = 1 → w.toReal ≠ 0 := by
    intro w hw h; rw [h] at hw; simp at hw
  have hx : (Vector3.xAxis : Vector3 Ideal).toReal ⬝ᵥ (Vector3.xAxis : Vector3 Ideal).toReal = 1 := by rw [toReal_xAxis]; simp
  have hy : (Vector3.yAxis : Vector3 Ideal).toReal ⬝ᵥ (Vector3.yAxis : Vector3 Ideal).toReal = 1 := by rw [toReal_yAxis]; simp
  have hz : (Vector3.zAxis : Vector3 Ideal).toReal ⬝ᵥ (Vector3.zAxis : Vector3 Ideal).toReal = 1 := by rw [toReal_zAxis]; simp
  have rx := isRot_rotateAxis fin_xAxis (ne hx) ha
  have ry := isRot_rotateAxis fin_yAxis (ne hy) ha
  have rz := isRot_rotateAxis fin_zAxis (ne hz) ha
  rw [norm_axis fin_xAxis hx, toReal_xAxis] at rx
  rw [norm_axis fin_yAxis hy, toReal_yAxis] at ry
  rw [norm_axis fin_zAxis hz, toReal_zAxis] at rz
  exact ⟨rx.beq_tr (isRot_rotateX ha), ry.beq_tr (isRot_rotateY ha), rz.beq_tr (isRot_rotateZ ha)⟩
end

/-! ## The hypotheses are met -/

example := C47_real_formula2 (.of 1) ⟨.of 1, .of 2⟩ ⟨.of 1, .of 2⟩ trivial (by rw [Vector2.allFinite]; exact ⟨trivial, trivial⟩)
  (by rw [Point2.allFinite]; exact ⟨trivial, trivial⟩)
example := C47_real_quarter2 (.of (Real.pi / 2)) trivial rfl
example := C47_real_quarter_x (.of (Real.pi / 2)) trivial rfl
example := C47_real_quarter_y (.of (Real.pi / 2)) trivial rfl
example := C47_real_quarter_z (.of (Real.pi / 2)) trivial rfl
example := C47_real_angles2 (.of 1) (.of 2) trivial trivial
example := C47_real_angles_x (.of 1) (.of 2) trivial trivial
example := C47_real_rigid2 (.of 1) trivial
/-- a skew axis, not of unit length -/
noncomputable def exAxis : Vector3 Ideal := ⟨.of 1, .of 2, .of (-2)⟩
theorem exAxis_fin : AllFinite exAxis := by rw [Vector3.allFinite]; exact ⟨trivial, trivial, trivial⟩
theorem exAxis_ne : (exAxis == Vector3.zero) = false := by
  rw [Bool.eq_false_iff, ne_eq, Vector3.beq_toReal exAxis_fin Vector3.fin_zero, Vector3.toReal_zero]
  intro h; have := congrFun h 0; simp [Vector3.toReal, exAxis] at this
example := C48_real_rodrigues exAxis ⟨.of 1, .of 2, .of 3⟩ ⟨.of 1, .of 2, .of 3⟩ (.of 1) exAxis_fin exAxis_ne trivial
  (by rw [Vector3.allFinite]; exact ⟨trivial, trivial, trivial⟩)
  (by rw [Point3.allFinite]; exact ⟨trivial, trivial, trivial⟩) _ rfl
example := C48_real_rigid exAxis (.of 1) exAxis_fin exAxis_ne trivial
example := C48_real_fixes_axis exAxis (.of 1) (.of 5) exAxis_fin exAxis_ne trivial trivial
example := C48_real_angles exAxis (.of 1) (.of 5) exAxis_fin exAxis_ne trivial trivial
example := (C48_real_direction exAxis (.of 1) (.of 5) exAxis_fin exAxis_ne trivial trivial).1 (by norm_num)
example := (C48_real_direction exAxis (.of 1) (.of (-5)) exAxis_fin exAxis_ne trivial trivial).2 (by norm_num)
example := C48_real_coordinate_axes (.of 1) trivial

end VecMath
'''
open('/verif/lean/Verif/Props/RealRotation.lean','w').write(out)
