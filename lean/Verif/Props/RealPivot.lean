import Verif.Spec.Pivot
import Verif.Props.RealTransform
import Verif.Props.RealRotation
/-!
# Transforms about a pivot, in exact arithmetic (layer R): C111

(Generated by tools/gen.)
-/

namespace VecMath
open Scalar IEEE

/-! ## Dimension 2 -/
section
variable {t : Transform2 Ideal} {c p : Point2 Ideal} {v : Vector2 Ideal}
theorem Vector2.fin_fromPoint (hc : AllFinite c) : AllFinite (Vector2.fromPoint c) := by
  rw [Vector2.allFinite]; rw [Point2.allFinite] at hc; exact hc
theorem Vector2.toReal_fromPoint (c : Point2 Ideal) : (Vector2.fromPoint c).toReal = c.toReal := rfl
theorem Point2.fin_fromVector (hv : AllFinite v) : AllFinite (Point2.fromVector v) := by
  rw [Point2.allFinite]; rw [Vector2.allFinite] at hv; exact hv
theorem Point2.toReal_fromVector (v : Vector2 Ideal) : (Point2.fromVector v).toReal = v.toReal := rfl
theorem Matrix3x3.pivot (m : Matrix3x3 Ideal) (x y : Vector2 Ideal) (hm : AllFinite m) (ha : m.Affine) (hx : AllFinite x) (hy : AllFinite y) :
    (AllFinite (Matrix3x3.translate x * (m * Matrix3x3.translate y)) ∧ (Matrix3x3.translate x * (m * Matrix3x3.translate y)).Affine ∧
      (Matrix3x3.translate x * (m * Matrix3x3.translate y)).linear = m.linear ∧ (Matrix3x3.translate x * (m * Matrix3x3.translate y)).offset = m.linear.mulVec y.toReal + m.offset + x.toReal) ∧
    (AllFinite ((Matrix3x3.translate x * m) * Matrix3x3.translate y) ∧ ((Matrix3x3.translate x * m) * Matrix3x3.translate y).Affine ∧
      ((Matrix3x3.translate x * m) * Matrix3x3.translate y).linear = m.linear ∧ ((Matrix3x3.translate x * m) * Matrix3x3.translate y).offset = m.linear.mulVec y.toReal + m.offset + x.toReal) := by
  have fx := Matrix3x3.fin_translate hx
  have fy := Matrix3x3.fin_translate hy
  have ax := Matrix3x3.translate_affine x
  have ay := Matrix3x3.translate_affine y
  have f1 := Matrix3x3.fin_mul hm fy
  have a1 := ha.mul ay hm fy
  have f2 := Matrix3x3.fin_mul fx hm
  have a2 := ax.mul ha fx hm
  refine ⟨⟨Matrix3x3.fin_mul fx f1, ax.mul a1 fx f1, ?_, ?_⟩, Matrix3x3.fin_mul f2 fy, a2.mul ay f2 fy, ?_, ?_⟩
  · rw [a1.linear_mul fx f1, ay.linear_mul hm fy, Matrix3x3.linear_translate, Matrix3x3.linear_translate, one_mul, mul_one]
  · rw [a1.offset_mul fx f1, ay.offset_mul hm fy, Matrix3x3.linear_translate, Matrix3x3.offset_translate, Matrix3x3.offset_translate, Matrix.one_mulVec]
  · rw [ay.linear_mul f2 fy, ha.linear_mul fx hm, Matrix3x3.linear_translate, Matrix3x3.linear_translate, one_mul, mul_one]
  · rw [ay.offset_mul f2 fy, ha.linear_mul fx hm, ha.offset_mul fx hm, Matrix3x3.linear_translate, Matrix3x3.offset_translate, Matrix3x3.offset_translate, Matrix.one_mulVec, one_mul, add_assoc]
theorem Transform2.about_forward (hf : AllFinite t.forward) (ha : t.forward.Affine) (hc : AllFinite c) :
    AllFinite (t.about c).forward ∧ (t.about c).forward.Affine ∧ (t.about c).forward.linear = t.forward.linear ∧
      (t.about c).forward.offset = t.forward.linear.mulVec (-c.toReal) + t.forward.offset + c.toReal := by
  have := (Matrix3x3.pivot t.forward (Vector2.fromPoint c) (-(Vector2.fromPoint c)) hf ha (Vector2.fin_fromPoint hc) (Vector2.fin_neg (Vector2.fin_fromPoint hc))).1
  rw [Vector2.toReal_neg (Vector2.fin_fromPoint hc)] at this
  exact this
theorem Transform2.about_inverse (hf : AllFinite t.inverse) (ha : t.inverse.Affine) (hc : AllFinite c) :
    AllFinite (t.about c).inverse ∧ (t.about c).inverse.Affine ∧ (t.about c).inverse.linear = t.inverse.linear ∧
      (t.about c).inverse.offset = t.inverse.linear.mulVec (-c.toReal) + t.inverse.offset + c.toReal := by
  have := (Matrix3x3.pivot t.inverse (-(-(Vector2.fromPoint c))) (-(Vector2.fromPoint c)) hf ha (Vector2.fin_neg (Vector2.fin_neg (Vector2.fin_fromPoint hc))) (Vector2.fin_neg (Vector2.fin_fromPoint hc))).2
  rw [Vector2.toReal_neg (Vector2.fin_neg (Vector2.fin_fromPoint hc)), Vector2.toReal_neg (Vector2.fin_fromPoint hc), neg_neg] at this
  exact this
/-- **C111** (2D): about a pivot, points move as their offsets from the pivot do and vectors move as before. -/
theorem C111_real_about2 (t : Transform2 Ideal) (hf : AllFinite t.forward) (ha : t.forward.Affine) (c p : Point2 Ideal) (hc : AllFinite c) (hp : AllFinite p) (v : Vector2 Ideal) (hv : AllFinite v) :
    (Transform.transform (t.about c) p == (Transform.transform t (Point2.fromVector (p - c)) : Point2 Ideal) + Vector2.fromPoint c) = true ∧
    (Transform.transform (t.about c) v == (Transform.transform t v : Vector2 Ideal)) = true := by
  obtain ⟨f, a, l, o⟩ := Transform2.about_forward hf ha hc
  have fd := Point2.fin_fromVector (Vector2.fin_subp hp hc)
  refine ⟨(Point2.beq_toReal (a.fin_mulp f hp) (Point2.fin_addv (ha.fin_mulp hf fd) (Vector2.fin_fromPoint hc))).2 ?_, (Vector2.beq_toReal (Matrix3x3.fin_mulv f hv) (Matrix3x3.fin_mulv hf hv)).2 ?_⟩
  · rw [Point2.toReal_addv (ha.fin_mulp hf fd) (Vector2.fin_fromPoint hc), Vector2.toReal_fromPoint]
    show ((t.about c).forward * p).toReal = (t.forward * Point2.fromVector (p - c)).toReal + _
    rw [a.toReal_mulp f hp, ha.toReal_mulp hf fd, l, o, Point2.toReal_fromVector, Vector2.toReal_subp hp hc, Matrix.mulVec_neg, Matrix.mulVec_sub]
    abel
  · show ((t.about c).forward * v).toReal = (t.forward * v).toReal
    rw [Matrix3x3.toReal_mulv' f hv, Matrix3x3.toReal_mulv' hf hv, l]
/-- **C111** (2D): a transform that fixes the origin fixes the pivot when done about it. -/
theorem C111_real_fixed2 (t : Transform2 Ideal) (hf : AllFinite t.forward) (ha : t.forward.Affine) (h0 : (Transform.transform t (Point2.origin : Point2 Ideal) == (Point2.origin : Point2 Ideal)) = true) (c : Point2 Ideal) (hc : AllFinite c) :
    (Transform.transform (t.about c) c == c) = true := by
  obtain ⟨f, a, l, o⟩ := Transform2.about_forward hf ha hc
  have fo : AllFinite (Point2.origin : Point2 Ideal) := by rw [Point2.allFinite]; exact ⟨finite_zero, finite_zero⟩
  have h0' : (t.forward * (Point2.origin : Point2 Ideal)).toReal = _ := (Point2.beq_toReal (ha.fin_mulp hf fo) fo).1 h0
  have z : (Point2.origin : Point2 Ideal).toReal = 0 := by
    funext i; fin_cases i <;> exact real_zero (S := Ideal)
  rw [ha.toReal_mulp hf fo, z, Matrix.mulVec_zero, zero_add] at h0'
  refine (Point2.beq_toReal (a.fin_mulp f hc) hc).2 ?_
  show ((t.about c).forward * c).toReal = _
  rw [a.toReal_mulp f hc, l, o, h0', Matrix.mulVec_neg]
  abel
/-- **C111** (2D): a rigid motion is one about any pivot too, and one that fixes the origin keeps every point at its distance from the pivot. -/
theorem C111_real_rigid2 (t : Transform2 Ideal) (h : Motion2 t) (c : Point2 Ideal) (hc : AllFinite c) :
    (t.about c).Rigid ∧ (t.about c).inv.Rigid ∧
    ((Transform.transform t (Point2.origin : Point2 Ideal) == (Point2.origin : Point2 Ideal)) = true → ∀ p : Point2 Ideal, AllFinite p →
      (Api.distance c (Transform.transform (t.about c) p : Point2 Ideal) == Api.distance c p) = true) := by
  have m : Motion2 (t.about c) := .andThen _ _ (.andThen _ _ (.translate _ (Vector2.fin_neg (Vector2.fin_fromPoint hc))) h) (.translate _ (Vector2.fin_fromPoint hc))
  have r := C52_rigid2 _ m
  refine ⟨r.1, r.2, fun h0 p hp => ?_⟩
  have b := (motion_inv2 t h).1
  have hf := (built_inv2 (fun m hm => hm.1) t b).1
  have ha := (built_affine2 t b).1
  obtain ⟨f, a, -, -⟩ := Transform2.about_forward hf ha hc
  have fp : AllFinite (Transform.transform (t.about c) p : Point2 Ideal) := a.fin_mulp f hp
  have fc : AllFinite (Transform.transform (t.about c) c : Point2 Ideal) := a.fin_mulp f hc
  have e := r.1.distance c p hc hp
  have e2 := (Point2.beq_toReal fc hc).1 (C111_real_fixed2 t hf ha h0 c hc)
  rw [Ideal.beq_real (Point2.fin_distance fc fp) (Point2.fin_distance hc hp), Point2.distance_def, Vector2.real_length' (Vector2.fin_subp fp fc), Vector2.toReal_subp fp fc, e2] at e
  rw [Ideal.beq_real (Point2.fin_distance hc fp) (Point2.fin_distance hc hp), ← e, Point2.distance_def, Vector2.real_length' (Vector2.fin_subp fp hc), Vector2.toReal_subp fp hc]
/-- **C111** (2D): about a fixed pivot, the identity is the identity, composing is composing, inverting is inverting, and inverse pairs stay inverse pairs. -/
theorem C111_real_laws2 (a b : Transform2 Ideal) (ha : AllFinite a) (hb : AllFinite b) (fa : a.forward.Affine) (ga : a.inverse.Affine) (fb : b.forward.Affine) (gb : b.inverse.Affine)
    (c : Point2 Ideal) (hc : AllFinite c) :
    (Transform2.identity.about c == Transform2.identity) = true ∧
    ((a.about c).andThen (b.about c) == (a.andThen b).about c) = true ∧
    ((a.about c).inv == a.inv.about c) = true ∧
    (a.Paired → (a.about c).Paired) := by
  rw [Transform2.allFinite] at ha hb
  obtain ⟨af, aa, al, ao⟩ := Transform2.about_forward ha.1 fa hc
  obtain ⟨ag, ab, ak, ap⟩ := Transform2.about_inverse ha.2 ga hc
  obtain ⟨bf, ba, bl, bo⟩ := Transform2.about_forward hb.1 fb hc
  obtain ⟨bg, bb, bk, bp⟩ := Transform2.about_inverse hb.2 gb hc
  obtain ⟨i1, i2, i3, i4⟩ := Transform2.about_forward (t := Transform2.identity) (c := c) Matrix3x3.fin_identity Matrix3x3.identity_affine hc
  obtain ⟨j1, j2, j3, j4⟩ := Transform2.about_inverse (t := Transform2.identity) (c := c) Matrix3x3.fin_identity Matrix3x3.identity_affine hc
  obtain ⟨k1, k2, k3, k4⟩ := Transform2.about_forward (t := a.andThen b) (c := c) (Matrix3x3.fin_mul hb.1 ha.1) (fb.mul fa hb.1 ha.1) hc
  obtain ⟨l1, l2, l3, l4⟩ := Transform2.about_inverse (t := a.andThen b) (c := c) (Matrix3x3.fin_mul ha.2 hb.2) (ga.mul gb ha.2 hb.2) hc
  obtain ⟨m1, m2, m3, m4⟩ := Transform2.about_forward (t := a.inv) (c := c) ha.2 ga hc
  obtain ⟨n1, n2, n3, n4⟩ := Transform2.about_inverse (t := a.inv) (c := c) ha.1 fa hc
  have z1 : (Transform2.identity : Transform2 Ideal).forward.linear = 1 := Matrix3x3.linear_identity
  have z2 : (Transform2.identity : Transform2 Ideal).forward.offset = 0 := Matrix3x3.offset_identity
  have z3 : (Transform2.identity : Transform2 Ideal).inverse.linear = 1 := Matrix3x3.linear_identity
  have z4 : (Transform2.identity : Transform2 Ideal).inverse.offset = 0 := Matrix3x3.offset_identity
  refine ⟨Transform2.beq_iff.2 ⟨(Matrix3x3.beq_toReal i1 Matrix3x3.fin_identity).2 (i2.ext Matrix3x3.identity_affine ?_ ?_), (Matrix3x3.beq_toReal j1 Matrix3x3.fin_identity).2 (j2.ext Matrix3x3.identity_affine ?_ ?_)⟩,
    Transform2.beq_iff.2 ⟨(Matrix3x3.beq_toReal (Matrix3x3.fin_mul bf af) k1).2 ((ba.mul aa bf af).ext k2 ?_ ?_), (Matrix3x3.beq_toReal (Matrix3x3.fin_mul ag bg) l1).2 ((ab.mul bb ag bg).ext l2 ?_ ?_)⟩,
    Transform2.beq_iff.2 ⟨(Matrix3x3.beq_toReal ag m1).2 (ab.ext m2 ?_ ?_), (Matrix3x3.beq_toReal af n1).2 (aa.ext n2 ?_ ?_)⟩, fun hp => ?_⟩
  · rw [i3, z1, Matrix3x3.linear_identity]
  · rw [i4, z1, z2, Matrix3x3.offset_identity, Matrix.one_mulVec]; abel
  · rw [j3, z3, Matrix3x3.linear_identity]
  · rw [j4, z3, z4, Matrix3x3.offset_identity, Matrix.one_mulVec]; abel
  · rw [aa.linear_mul bf af, al, bl, k3]; exact (fa.linear_mul hb.1 ha.1).symm
  · rw [aa.offset_mul bf af, ao, bl, bo, k4]
    have e1 : (a.andThen b).forward.linear = _ := fa.linear_mul hb.1 ha.1
    have e2 : (a.andThen b).forward.offset = _ := fa.offset_mul hb.1 ha.1
    rw [e1, e2]
    simp only [Matrix.mulVec_add, Matrix.mulVec_neg, Matrix.mulVec_mulVec]
    abel
  · rw [bb.linear_mul ag bg, ak, bk, l3]; exact (gb.linear_mul ha.2 hb.2).symm
  · rw [bb.offset_mul ag bg, ap, ak, bp, l4]
    have e1 : (a.andThen b).inverse.linear = _ := gb.linear_mul ha.2 hb.2
    have e2 : (a.andThen b).inverse.offset = _ := gb.offset_mul ha.2 hb.2
    rw [e1, e2]
    simp only [Matrix.mulVec_add, Matrix.mulVec_neg, Matrix.mulVec_mulVec]
    abel
  · rw [ak, m3]; rfl
  · rw [ap, m4]; rfl
  · rw [al, n3]; rfl
  · rw [ao, n4]; rfl
  · have e := (Transform2.paired_iff ha.1 ha.2).1 hp
    have e1 : a.forward.linear * a.inverse.linear = 1 := by
      rw [← ga.linear_mul ha.1 ha.2, ← Matrix3x3.linear_identity]
      unfold Matrix3x3.linear
      rw [Matrix3x3.toReal_mul ha.1 ha.2, e, Matrix3x3.toReal_identity]
    have e2 : a.forward.linear.mulVec a.inverse.offset + a.forward.offset = 0 := by
      rw [← ga.offset_mul ha.1 ha.2, ← Matrix3x3.offset_identity]
      unfold Matrix3x3.offset
      rw [Matrix3x3.toReal_mul ha.1 ha.2, e, Matrix3x3.toReal_identity]
    refine Transform2.paired_of_affine af ag aa ab (by rw [al, ak, e1]) ?_
    rw [al, ap, ao]
    simp only [Matrix.mulVec_add, Matrix.mulVec_neg, Matrix.mulVec_mulVec, e1, Matrix.one_mulVec]
    rw [show ∀ x y z w : Fin 2 → ℝ, -x + y + z + (-z + w + x) = y + w by intros; abel]
    exact e2
end

/-! ## Dimension 3 -/
section
variable {t : Transform3 Ideal} {c p : Point3 Ideal} {v : Vector3 Ideal}
theorem Vector3.fin_fromPoint (hc : AllFinite c) : AllFinite (Vector3.fromPoint c) := by
  rw [Vector3.allFinite]; rw [Point3.allFinite] at hc; exact hc
theorem Vector3.toReal_fromPoint (c : Point3 Ideal) : (Vector3.fromPoint c).toReal = c.toReal := rfl
theorem Point3.fin_fromVector (hv : AllFinite v) : AllFinite (Point3.fromVector v) := by
  rw [Point3.allFinite]; rw [Vector3.allFinite] at hv; exact hv
theorem Point3.toReal_fromVector (v : Vector3 Ideal) : (Point3.fromVector v).toReal = v.toReal := rfl
theorem Matrix4x4.pivot (m : Matrix4x4 Ideal) (x y : Vector3 Ideal) (hm : AllFinite m) (ha : m.Affine) (hx : AllFinite x) (hy : AllFinite y) :
    (AllFinite (Matrix4x4.translate x * (m * Matrix4x4.translate y)) ∧ (Matrix4x4.translate x * (m * Matrix4x4.translate y)).Affine ∧
      (Matrix4x4.translate x * (m * Matrix4x4.translate y)).linear = m.linear ∧ (Matrix4x4.translate x * (m * Matrix4x4.translate y)).offset = m.linear.mulVec y.toReal + m.offset + x.toReal) ∧
    (AllFinite ((Matrix4x4.translate x * m) * Matrix4x4.translate y) ∧ ((Matrix4x4.translate x * m) * Matrix4x4.translate y).Affine ∧
      ((Matrix4x4.translate x * m) * Matrix4x4.translate y).linear = m.linear ∧ ((Matrix4x4.translate x * m) * Matrix4x4.translate y).offset = m.linear.mulVec y.toReal + m.offset + x.toReal) := by
  have fx := Matrix4x4.fin_translate hx
  have fy := Matrix4x4.fin_translate hy
  have ax := Matrix4x4.translate_affine x
  have ay := Matrix4x4.translate_affine y
  have f1 := Matrix4x4.fin_mul hm fy
  have a1 := ha.mul ay hm fy
  have f2 := Matrix4x4.fin_mul fx hm
  have a2 := ax.mul ha fx hm
  refine ⟨⟨Matrix4x4.fin_mul fx f1, ax.mul a1 fx f1, ?_, ?_⟩, Matrix4x4.fin_mul f2 fy, a2.mul ay f2 fy, ?_, ?_⟩
  · rw [a1.linear_mul fx f1, ay.linear_mul hm fy, Matrix4x4.linear_translate, Matrix4x4.linear_translate, one_mul, mul_one]
  · rw [a1.offset_mul fx f1, ay.offset_mul hm fy, Matrix4x4.linear_translate, Matrix4x4.offset_translate, Matrix4x4.offset_translate, Matrix.one_mulVec]
  · rw [ay.linear_mul f2 fy, ha.linear_mul fx hm, Matrix4x4.linear_translate, Matrix4x4.linear_translate, one_mul, mul_one]
  · rw [ay.offset_mul f2 fy, ha.linear_mul fx hm, ha.offset_mul fx hm, Matrix4x4.linear_translate, Matrix4x4.offset_translate, Matrix4x4.offset_translate, Matrix.one_mulVec, one_mul, add_assoc]
theorem Transform3.about_forward (hf : AllFinite t.forward) (ha : t.forward.Affine) (hc : AllFinite c) :
    AllFinite (t.about c).forward ∧ (t.about c).forward.Affine ∧ (t.about c).forward.linear = t.forward.linear ∧
      (t.about c).forward.offset = t.forward.linear.mulVec (-c.toReal) + t.forward.offset + c.toReal := by
  have := (Matrix4x4.pivot t.forward (Vector3.fromPoint c) (-(Vector3.fromPoint c)) hf ha (Vector3.fin_fromPoint hc) (Vector3.fin_neg (Vector3.fin_fromPoint hc))).1
  rw [Vector3.toReal_neg (Vector3.fin_fromPoint hc)] at this
  exact this
theorem Transform3.about_inverse (hf : AllFinite t.inverse) (ha : t.inverse.Affine) (hc : AllFinite c) :
    AllFinite (t.about c).inverse ∧ (t.about c).inverse.Affine ∧ (t.about c).inverse.linear = t.inverse.linear ∧
      (t.about c).inverse.offset = t.inverse.linear.mulVec (-c.toReal) + t.inverse.offset + c.toReal := by
  have := (Matrix4x4.pivot t.inverse (-(-(Vector3.fromPoint c))) (-(Vector3.fromPoint c)) hf ha (Vector3.fin_neg (Vector3.fin_neg (Vector3.fin_fromPoint hc))) (Vector3.fin_neg (Vector3.fin_fromPoint hc))).2
  rw [Vector3.toReal_neg (Vector3.fin_neg (Vector3.fin_fromPoint hc)), Vector3.toReal_neg (Vector3.fin_fromPoint hc), neg_neg] at this
  exact this
/-- **C111** (3D): about a pivot, points move as their offsets from the pivot do and vectors move as before. -/
theorem C111_real_about3 (t : Transform3 Ideal) (hf : AllFinite t.forward) (ha : t.forward.Affine) (c p : Point3 Ideal) (hc : AllFinite c) (hp : AllFinite p) (v : Vector3 Ideal) (hv : AllFinite v) :
    (Transform.transform (t.about c) p == (Transform.transform t (Point3.fromVector (p - c)) : Point3 Ideal) + Vector3.fromPoint c) = true ∧
    (Transform.transform (t.about c) v == (Transform.transform t v : Vector3 Ideal)) = true := by
  obtain ⟨f, a, l, o⟩ := Transform3.about_forward hf ha hc
  have fd := Point3.fin_fromVector (Vector3.fin_subp hp hc)
  refine ⟨(Point3.beq_toReal (a.fin_mulp f hp) (Point3.fin_addv (ha.fin_mulp hf fd) (Vector3.fin_fromPoint hc))).2 ?_, (Vector3.beq_toReal (Matrix4x4.fin_mulv f hv) (Matrix4x4.fin_mulv hf hv)).2 ?_⟩
  · rw [Point3.toReal_addv (ha.fin_mulp hf fd) (Vector3.fin_fromPoint hc), Vector3.toReal_fromPoint]
    show ((t.about c).forward * p).toReal = (t.forward * Point3.fromVector (p - c)).toReal + _
    rw [a.toReal_mulp f hp, ha.toReal_mulp hf fd, l, o, Point3.toReal_fromVector, Vector3.toReal_subp hp hc, Matrix.mulVec_neg, Matrix.mulVec_sub]
    abel
  · show ((t.about c).forward * v).toReal = (t.forward * v).toReal
    rw [Matrix4x4.toReal_mulv' f hv, Matrix4x4.toReal_mulv' hf hv, l]
/-- **C111** (3D): a transform that fixes the origin fixes the pivot when done about it. -/
theorem C111_real_fixed3 (t : Transform3 Ideal) (hf : AllFinite t.forward) (ha : t.forward.Affine) (h0 : (Transform.transform t (Point3.origin : Point3 Ideal) == (Point3.origin : Point3 Ideal)) = true) (c : Point3 Ideal) (hc : AllFinite c) :
    (Transform.transform (t.about c) c == c) = true := by
  obtain ⟨f, a, l, o⟩ := Transform3.about_forward hf ha hc
  have fo : AllFinite (Point3.origin : Point3 Ideal) := by rw [Point3.allFinite]; exact ⟨finite_zero, finite_zero, finite_zero⟩
  have h0' : (t.forward * (Point3.origin : Point3 Ideal)).toReal = _ := (Point3.beq_toReal (ha.fin_mulp hf fo) fo).1 h0
  have z : (Point3.origin : Point3 Ideal).toReal = 0 := by
    funext i; fin_cases i <;> exact real_zero (S := Ideal)
  rw [ha.toReal_mulp hf fo, z, Matrix.mulVec_zero, zero_add] at h0'
  refine (Point3.beq_toReal (a.fin_mulp f hc) hc).2 ?_
  show ((t.about c).forward * c).toReal = _
  rw [a.toReal_mulp f hc, l, o, h0', Matrix.mulVec_neg]
  abel
/-- **C111** (3D): a rigid motion is one about any pivot too, and one that fixes the origin keeps every point at its distance from the pivot. -/
theorem C111_real_rigid3 (t : Transform3 Ideal) (h : Motion3 t) (c : Point3 Ideal) (hc : AllFinite c) :
    (t.about c).Rigid ∧ (t.about c).inv.Rigid ∧
    ((Transform.transform t (Point3.origin : Point3 Ideal) == (Point3.origin : Point3 Ideal)) = true → ∀ p : Point3 Ideal, AllFinite p →
      (Api.distance c (Transform.transform (t.about c) p : Point3 Ideal) == Api.distance c p) = true) := by
  have m : Motion3 (t.about c) := .andThen _ _ (.andThen _ _ (.translate _ (Vector3.fin_neg (Vector3.fin_fromPoint hc))) h) (.translate _ (Vector3.fin_fromPoint hc))
  have r := C52_rigid3 _ m
  refine ⟨r.1, r.2, fun h0 p hp => ?_⟩
  have b := (motion_inv3 t h).1
  have hf := (built_inv3 (fun m hm => hm.1) t b).1
  have ha := (built_affine3 t b).1
  obtain ⟨f, a, -, -⟩ := Transform3.about_forward hf ha hc
  have fp : AllFinite (Transform.transform (t.about c) p : Point3 Ideal) := a.fin_mulp f hp
  have fc : AllFinite (Transform.transform (t.about c) c : Point3 Ideal) := a.fin_mulp f hc
  have e := r.1.distance c p hc hp
  have e2 := (Point3.beq_toReal fc hc).1 (C111_real_fixed3 t hf ha h0 c hc)
  rw [Ideal.beq_real (Point3.fin_distance fc fp) (Point3.fin_distance hc hp), Point3.distance_def, Vector3.real_length' (Vector3.fin_subp fp fc), Vector3.toReal_subp fp fc, e2] at e
  rw [Ideal.beq_real (Point3.fin_distance hc fp) (Point3.fin_distance hc hp), ← e, Point3.distance_def, Vector3.real_length' (Vector3.fin_subp fp hc), Vector3.toReal_subp fp hc]
/-- **C111** (3D): about a fixed pivot, the identity is the identity, composing is composing, inverting is inverting, and inverse pairs stay inverse pairs. -/
theorem C111_real_laws3 (a b : Transform3 Ideal) (ha : AllFinite a) (hb : AllFinite b) (fa : a.forward.Affine) (ga : a.inverse.Affine) (fb : b.forward.Affine) (gb : b.inverse.Affine)
    (c : Point3 Ideal) (hc : AllFinite c) :
    (Transform3.identity.about c == Transform3.identity) = true ∧
    ((a.about c).andThen (b.about c) == (a.andThen b).about c) = true ∧
    ((a.about c).inv == a.inv.about c) = true ∧
    (a.Paired → (a.about c).Paired) := by
  rw [Transform3.allFinite] at ha hb
  obtain ⟨af, aa, al, ao⟩ := Transform3.about_forward ha.1 fa hc
  obtain ⟨ag, ab, ak, ap⟩ := Transform3.about_inverse ha.2 ga hc
  obtain ⟨bf, ba, bl, bo⟩ := Transform3.about_forward hb.1 fb hc
  obtain ⟨bg, bb, bk, bp⟩ := Transform3.about_inverse hb.2 gb hc
  obtain ⟨i1, i2, i3, i4⟩ := Transform3.about_forward (t := Transform3.identity) (c := c) Matrix4x4.fin_identity Matrix4x4.identity_affine hc
  obtain ⟨j1, j2, j3, j4⟩ := Transform3.about_inverse (t := Transform3.identity) (c := c) Matrix4x4.fin_identity Matrix4x4.identity_affine hc
  obtain ⟨k1, k2, k3, k4⟩ := Transform3.about_forward (t := a.andThen b) (c := c) (Matrix4x4.fin_mul hb.1 ha.1) (fb.mul fa hb.1 ha.1) hc
  obtain ⟨l1, l2, l3, l4⟩ := Transform3.about_inverse (t := a.andThen b) (c := c) (Matrix4x4.fin_mul ha.2 hb.2) (ga.mul gb ha.2 hb.2) hc
  obtain ⟨m1, m2, m3, m4⟩ := Transform3.about_forward (t := a.inv) (c := c) ha.2 ga hc
  obtain ⟨n1, n2, n3, n4⟩ := Transform3.about_inverse (t := a.inv) (c := c) ha.1 fa hc
  have z1 : (Transform3.identity : Transform3 Ideal).forward.linear = 1 := Matrix4x4.linear_identity
  have z2 : (Transform3.identity : Transform3 Ideal).forward.offset = 0 := Matrix4x4.offset_identity
  have z3 : (Transform3.identity : Transform3 Ideal).inverse.linear = 1 := Matrix4x4.linear_identity
  have z4 : (Transform3.identity : Transform3 Ideal).inverse.offset = 0 := Matrix4x4.offset_identity
  refine ⟨Transform3.beq_iff.2 ⟨(Matrix4x4.beq_toReal i1 Matrix4x4.fin_identity).2 (i2.ext Matrix4x4.identity_affine ?_ ?_), (Matrix4x4.beq_toReal j1 Matrix4x4.fin_identity).2 (j2.ext Matrix4x4.identity_affine ?_ ?_)⟩,
    Transform3.beq_iff.2 ⟨(Matrix4x4.beq_toReal (Matrix4x4.fin_mul bf af) k1).2 ((ba.mul aa bf af).ext k2 ?_ ?_), (Matrix4x4.beq_toReal (Matrix4x4.fin_mul ag bg) l1).2 ((ab.mul bb ag bg).ext l2 ?_ ?_)⟩,
    Transform3.beq_iff.2 ⟨(Matrix4x4.beq_toReal ag m1).2 (ab.ext m2 ?_ ?_), (Matrix4x4.beq_toReal af n1).2 (aa.ext n2 ?_ ?_)⟩, fun hp => ?_⟩
  · rw [i3, z1, Matrix4x4.linear_identity]
  · rw [i4, z1, z2, Matrix4x4.offset_identity, Matrix.one_mulVec]; abel
  · rw [j3, z3, Matrix4x4.linear_identity]
  · rw [j4, z3, z4, Matrix4x4.offset_identity, Matrix.one_mulVec]; abel
  · rw [aa.linear_mul bf af, al, bl, k3]; exact (fa.linear_mul hb.1 ha.1).symm
  · rw [aa.offset_mul bf af, ao, bl, bo, k4]
    have e1 : (a.andThen b).forward.linear = _ := fa.linear_mul hb.1 ha.1
    have e2 : (a.andThen b).forward.offset = _ := fa.offset_mul hb.1 ha.1
    rw [e1, e2]
    simp only [Matrix.mulVec_add, Matrix.mulVec_neg, Matrix.mulVec_mulVec]
    abel
  · rw [bb.linear_mul ag bg, ak, bk, l3]; exact (gb.linear_mul ha.2 hb.2).symm
  · rw [bb.offset_mul ag bg, ap, ak, bp, l4]
    have e1 : (a.andThen b).inverse.linear = _ := gb.linear_mul ha.2 hb.2
    have e2 : (a.andThen b).inverse.offset = _ := gb.offset_mul ha.2 hb.2
    rw [e1, e2]
    simp only [Matrix.mulVec_add, Matrix.mulVec_neg, Matrix.mulVec_mulVec]
    abel
  · rw [ak, m3]; rfl
  · rw [ap, m4]; rfl
  · rw [al, n3]; rfl
  · rw [ao, n4]; rfl
  · have e := (Transform3.paired_iff ha.1 ha.2).1 hp
    have e1 : a.forward.linear * a.inverse.linear = 1 := by
      rw [← ga.linear_mul ha.1 ha.2, ← Matrix4x4.linear_identity]
      unfold Matrix4x4.linear
      rw [Matrix4x4.toReal_mul ha.1 ha.2, e, Matrix4x4.toReal_identity]
    have e2 : a.forward.linear.mulVec a.inverse.offset + a.forward.offset = 0 := by
      rw [← ga.offset_mul ha.1 ha.2, ← Matrix4x4.offset_identity]
      unfold Matrix4x4.offset
      rw [Matrix4x4.toReal_mul ha.1 ha.2, e, Matrix4x4.toReal_identity]
    refine Transform3.paired_of_affine af ag aa ab (by rw [al, ak, e1]) ?_
    rw [al, ap, ao]
    simp only [Matrix.mulVec_add, Matrix.mulVec_neg, Matrix.mulVec_mulVec, e1, Matrix.one_mulVec]
    rw [show ∀ x y z w : Fin 3 → ℝ, -x + y + z + (-z + w + x) = y + w by intros; abel]
    exact e2
end

/-! ## Concrete cases -/
/-- A quarter turn about the point `(3, 4)`: the pivot stays, and distances from it are kept. -/
theorem about_pivot_ex (q : Ideal) (hq : IsFinite q) (c p : Point2 Ideal) (hc : AllFinite c) (hp : AllFinite p) :
    (Transform.transform ((Transform2.rotate q).about c) c == c) = true ∧
    (Api.distance c (Transform.transform ((Transform2.rotate q).about c) p : Point2 Ideal) == Api.distance c p) = true := by
  have m : Motion2 (Transform2.rotate q) := .rotate q hq
  have b := (motion_inv2 _ m).1
  have h0 : (Transform.transform (Transform2.rotate q) (Point2.origin : Point2 Ideal) == (Point2.origin : Point2 Ideal)) = true := by
    have fo : AllFinite (Point2.origin : Point2 Ideal) := by rw [Point2.allFinite]; exact ⟨finite_zero, finite_zero⟩
    have hf := (built_inv2 (fun m hm => hm.1) _ b).1
    have ha := (built_affine2 _ b).1
    refine (Point2.beq_toReal (ha.fin_mulp hf fo) fo).2 ?_
    show ((Transform2.rotate q).forward * (Point2.origin : Point2 Ideal)).toReal = _
    rw [ha.toReal_mulp hf fo]
    have z : (Point2.origin : Point2 Ideal).toReal = 0 := by funext i; fin_cases i <;> exact real_zero (S := Ideal)
    rw [z, Matrix.mulVec_zero, zero_add]
    exact Matrix3x3.offset_rotate hq
  exact ⟨C111_real_fixed2 _ (built_inv2 (fun m hm => hm.1) _ b).1 (built_affine2 _ b).1 h0 c hc, (C111_real_rigid2 _ m c hc).2.2 h0 p hp⟩

end VecMath
