import Verif.Props.RealBox
import Verif.Props.RealTransform
import Verif.Lemmas.LookAt
/-!
# Instancing, in real arithmetic: C93

A renderer that places a box with a transform intersects the box with the ray transformed by the inverse. Generated by
tools/gen/inst.py.
-/
open Classical

namespace VecMath
open Scalar IEEE

/-- the inverse of an affine transform is affine -/
theorem Transform2.Paired.affine_inverse {t : Transform2 Ideal} (ht : AllFinite t) (h : t.Paired) (ha : t.forward.Affine) : t.inverse.Affine := by
  rw [Transform2.allFinite] at ht
  exact inverse_affine2 ht.1 ha ht.2 ((Transform2.paired_iff ht.1 ht.2).1 h)
theorem Transform2.Paired.symm {t : Transform2 Ideal} (ht : AllFinite t) (h : t.Paired) : t.inv.Paired := by
  rw [Transform2.allFinite] at ht
  exact (Transform2.paired_iff (t := t.inv) ht.2 ht.1).2 (mul_eq_one_comm.1 ((Transform2.paired_iff ht.1 ht.2).1 h))

/-- **C93**: intersecting a box with the ray transformed by the inverse reports exactly the parameters at which the ray
itself is in the transformed box: at the image of a point of the box. -/
theorem C93_real2 (t : Transform2 Ideal) (ht : AllFinite t) (hp : t.Paired) (ha : t.forward.Affine)
    (b : BoundingBox2 Ideal) (hb : AllFinite b) (wb : LeAll b.min b.max) (ray : Ray2 Ideal) (hr : AllFinite ray)
    (hd : ray.direction.toReal ≠ 0) (hf : FaceFree2 b (Transform.transform t.inv ray)) :
    (∀ r : Range Ideal, Api.intersect b (Transform.transform t.inv ray : Ray2 Ideal) = some r →
      ∀ s : Ideal, IsFinite s → ((zero ≤? s) = true ∧
        (∃ q : Point2 Ideal, AllFinite q ∧ b.isInside q = true ∧ ((Transform.transform t q : Point2 Ideal) == ray.at s) = true) ↔
        (r.start ≤? s) = true ∧ (s ≤? r.stop) = true)) ∧
    (Api.intersect b (Transform.transform t.inv ray : Ray2 Ideal) = (none : Option (Range Ideal)) ↔
      ∀ s : Ideal, IsFinite s → (zero ≤? s) = true →
        ¬ ∃ q : Point2 Ideal, AllFinite q ∧ b.isInside q = true ∧ ((Transform.transform t q : Point2 Ideal) == ray.at s) = true) := by
  have hi := hp.affine_inverse ht ha
  have ht' := ht
  rw [Transform2.allFinite] at ht
  have fti : AllFinite t.inv := Transform2.allFinite.2 ⟨ht.2, ht.1⟩
  have hr' := Ray2.allFinite.1 hr
  have fl : AllFinite (Transform.transform t.inv ray : Ray2 Ideal) :=
    Ray2.allFinite.2 ⟨hi.fin_mulp ht.2 hr'.1, Matrix3x3.fin_mulv ht.2 hr'.2⟩
  have hd' : (Transform.transform t.inv ray : Ray2 Ideal).direction.toReal ≠ 0 := by
    intro h0
    apply hd
    have h1 := (C51_real2 t.inv fti (hp.symm ht') ray.origin hr'.1 ray.direction hr'.2).2 hi
    have h2 : (t.forward * (t.inverse * ray.direction)).toReal = ray.direction.toReal :=
      (Vector2.beq_toReal (Matrix3x3.fin_mulv ht.1 (Matrix3x3.fin_mulv ht.2 hr'.2)) hr'.2).1 h1
    rw [Matrix3x3.toReal_mulv' ht.1 (Matrix3x3.fin_mulv ht.2 hr'.2), show (t.inverse * ray.direction).toReal = 0 from h0, Matrix.mulVec_zero] at h2
    exact h2.symm
  -- being inside at `s` is being the image of a point inside
  have key : ∀ s : Ideal, IsFinite s → (b.isInside ((Transform.transform t.inv ray : Ray2 Ideal).at s) = true ↔
      ∃ q : Point2 Ideal, AllFinite q ∧ b.isInside q = true ∧ ((Transform.transform t q : Point2 Ideal) == ray.at s) = true) := by
    intro s hs
    have fa : AllFinite (ray.at s) := Point2.fin_addv hr'.1 (Vector2.fin_mul hr'.2 hs)
    have fl' := Ray2.allFinite.1 fl
    have fla : AllFinite ((Transform.transform t.inv ray : Ray2 Ideal).at s) := Point2.fin_addv fl'.1 (Vector2.fin_mul fl'.2 hs)
    have fti' : AllFinite (t.inverse * ray.at s) := hi.fin_mulp ht.2 fa
    have e1 : ((Transform.transform t.inv ray : Ray2 Ideal).at s).toReal = (t.inverse * ray.at s).toReal :=
      (Point2.beq_toReal fla fti').1 (C55_real2 t.inv ht.2 hi ray hr s hs)
    have e2 : (t.forward * (t.inverse * ray.at s)).toReal = (ray.at s).toReal :=
      (Point2.beq_toReal (ha.fin_mulp ht.1 fti') fa).1
        ((C51_real2 t.inv fti (hp.symm ht') (ray.at s) fa ray.direction hr'.2).1 (by
          rw [show t.inv.forward = t.inverse from rfl, hi.weight]; norm_num))
    constructor
    · intro h
      refine ⟨_, fla, h, ?_⟩
      refine (Point2.beq_toReal (ha.fin_mulp ht.1 fla) fa).2 ?_
      rw [ha.toReal_mulp ht.1 fla, e1, ← ha.toReal_mulp ht.1 fti', e2]
    · rintro ⟨q, fq, hq, e⟩
      have e3 : (t.forward * q).toReal = (ray.at s).toReal := (Point2.beq_toReal (ha.fin_mulp ht.1 fq) fa).1 e
      have e4 : (t.inverse * (t.forward * q)).toReal = q.toReal :=
        (Point2.beq_toReal (hi.fin_mulp ht.2 (ha.fin_mulp ht.1 fq)) fq).1
          ((C51_real2 t ht' hp q fq ray.direction hr'.2).1 (by rw [ha.weight]; norm_num))
      have e5 : ((Transform.transform t.inv ray : Ray2 Ideal).at s).toReal = q.toReal := by
        rw [e1, hi.toReal_mulp ht.2 fa, ← e3, ← hi.toReal_mulp ht.2 (ha.fin_mulp ht.1 fq), e4]
      rw [BoundingBox2.inside_real hb fla, e5, ← BoundingBox2.inside_real hb fq]
      exact hq
  obtain ⟨k1, k2⟩ := C35_real2 b hb wb _ fl hd' hf
  refine ⟨fun r h s hs => ?_, k2.trans ⟨fun h s hs h0 hc => ?_, fun h s hs h0 => ?_⟩⟩
  · rw [← key s hs]
    exact (k1 r h).2.2 s hs
  · have := h s hs h0
    rw [(key s hs).2 hc] at this
    cases this
  · rw [Bool.eq_false_iff]
    exact fun hc => h s hs h0 ((key s hs).1 hc)

/-- the inverse of an affine transform is affine -/
theorem Transform3.Paired.affine_inverse {t : Transform3 Ideal} (ht : AllFinite t) (h : t.Paired) (ha : t.forward.Affine) : t.inverse.Affine := by
  rw [Transform3.allFinite] at ht
  exact inverse_affine ht.1 ha ht.2 ((Transform3.paired_iff ht.1 ht.2).1 h)
theorem Transform3.Paired.symm {t : Transform3 Ideal} (ht : AllFinite t) (h : t.Paired) : t.inv.Paired := by
  rw [Transform3.allFinite] at ht
  exact (Transform3.paired_iff (t := t.inv) ht.2 ht.1).2 (mul_eq_one_comm.1 ((Transform3.paired_iff ht.1 ht.2).1 h))

/-- **C93**: intersecting a box with the ray transformed by the inverse reports exactly the parameters at which the ray
itself is in the transformed box: at the image of a point of the box. -/
theorem C93_real3 (t : Transform3 Ideal) (ht : AllFinite t) (hp : t.Paired) (ha : t.forward.Affine)
    (b : BoundingBox3 Ideal) (hb : AllFinite b) (wb : LeAll b.min b.max) (ray : Ray3 Ideal) (hr : AllFinite ray)
    (hd : ray.direction.toReal ≠ 0) (hf : FaceFree3 b (Transform.transform t.inv ray)) :
    (∀ r : Range Ideal, Api.intersect b (Transform.transform t.inv ray : Ray3 Ideal) = some r →
      ∀ s : Ideal, IsFinite s → ((zero ≤? s) = true ∧
        (∃ q : Point3 Ideal, AllFinite q ∧ b.isInside q = true ∧ ((Transform.transform t q : Point3 Ideal) == ray.at s) = true) ↔
        (r.start ≤? s) = true ∧ (s ≤? r.stop) = true)) ∧
    (Api.intersect b (Transform.transform t.inv ray : Ray3 Ideal) = (none : Option (Range Ideal)) ↔
      ∀ s : Ideal, IsFinite s → (zero ≤? s) = true →
        ¬ ∃ q : Point3 Ideal, AllFinite q ∧ b.isInside q = true ∧ ((Transform.transform t q : Point3 Ideal) == ray.at s) = true) := by
  have hi := hp.affine_inverse ht ha
  have ht' := ht
  rw [Transform3.allFinite] at ht
  have fti : AllFinite t.inv := Transform3.allFinite.2 ⟨ht.2, ht.1⟩
  have hr' := Ray3.allFinite.1 hr
  have fl : AllFinite (Transform.transform t.inv ray : Ray3 Ideal) :=
    Ray3.allFinite.2 ⟨hi.fin_mulp ht.2 hr'.1, Matrix4x4.fin_mulv ht.2 hr'.2⟩
  have hd' : (Transform.transform t.inv ray : Ray3 Ideal).direction.toReal ≠ 0 := by
    intro h0
    apply hd
    have h1 := (C51_real3 t.inv fti (hp.symm ht') ray.origin hr'.1 ray.direction hr'.2).2 hi
    have h2 : (t.forward * (t.inverse * ray.direction)).toReal = ray.direction.toReal :=
      (Vector3.beq_toReal (Matrix4x4.fin_mulv ht.1 (Matrix4x4.fin_mulv ht.2 hr'.2)) hr'.2).1 h1
    rw [Matrix4x4.toReal_mulv' ht.1 (Matrix4x4.fin_mulv ht.2 hr'.2), show (t.inverse * ray.direction).toReal = 0 from h0, Matrix.mulVec_zero] at h2
    exact h2.symm
  -- being inside at `s` is being the image of a point inside
  have key : ∀ s : Ideal, IsFinite s → (b.isInside ((Transform.transform t.inv ray : Ray3 Ideal).at s) = true ↔
      ∃ q : Point3 Ideal, AllFinite q ∧ b.isInside q = true ∧ ((Transform.transform t q : Point3 Ideal) == ray.at s) = true) := by
    intro s hs
    have fa : AllFinite (ray.at s) := Point3.fin_addv hr'.1 (Vector3.fin_mul hr'.2 hs)
    have fl' := Ray3.allFinite.1 fl
    have fla : AllFinite ((Transform.transform t.inv ray : Ray3 Ideal).at s) := Point3.fin_addv fl'.1 (Vector3.fin_mul fl'.2 hs)
    have fti' : AllFinite (t.inverse * ray.at s) := hi.fin_mulp ht.2 fa
    have e1 : ((Transform.transform t.inv ray : Ray3 Ideal).at s).toReal = (t.inverse * ray.at s).toReal :=
      (Point3.beq_toReal fla fti').1 (C55_real3 t.inv ht.2 hi ray hr s hs)
    have e2 : (t.forward * (t.inverse * ray.at s)).toReal = (ray.at s).toReal :=
      (Point3.beq_toReal (ha.fin_mulp ht.1 fti') fa).1
        ((C51_real3 t.inv fti (hp.symm ht') (ray.at s) fa ray.direction hr'.2).1 (by
          rw [show t.inv.forward = t.inverse from rfl, hi.weight]; norm_num))
    constructor
    · intro h
      refine ⟨_, fla, h, ?_⟩
      refine (Point3.beq_toReal (ha.fin_mulp ht.1 fla) fa).2 ?_
      rw [ha.toReal_mulp ht.1 fla, e1, ← ha.toReal_mulp ht.1 fti', e2]
    · rintro ⟨q, fq, hq, e⟩
      have e3 : (t.forward * q).toReal = (ray.at s).toReal := (Point3.beq_toReal (ha.fin_mulp ht.1 fq) fa).1 e
      have e4 : (t.inverse * (t.forward * q)).toReal = q.toReal :=
        (Point3.beq_toReal (hi.fin_mulp ht.2 (ha.fin_mulp ht.1 fq)) fq).1
          ((C51_real3 t ht' hp q fq ray.direction hr'.2).1 (by rw [ha.weight]; norm_num))
      have e5 : ((Transform.transform t.inv ray : Ray3 Ideal).at s).toReal = q.toReal := by
        rw [e1, hi.toReal_mulp ht.2 fa, ← e3, ← hi.toReal_mulp ht.2 (ha.fin_mulp ht.1 fq), e4]
      rw [BoundingBox3.inside_real hb fla, e5, ← BoundingBox3.inside_real hb fq]
      exact hq
  obtain ⟨k1, k2⟩ := C35_real3 b hb wb _ fl hd' hf
  refine ⟨fun r h s hs => ?_, k2.trans ⟨fun h s hs h0 hc => ?_, fun h s hs h0 => ?_⟩⟩
  · rw [← key s hs]
    exact (k1 r h).2.2 s hs
  · have := h s hs h0
    rw [(key s hs).2 hc] at this
    cases this
  · rw [Bool.eq_false_iff]
    exact fun hc => h s hs h0 ((key s hs).1 hc)

/-- a scaling that is not uniform, and a ray that is parallel to no face -/
example := C93_real2 (Transform2.scale (.of 2) (.of 4))
  (Transform2.allFinite.2 ⟨Matrix3x3.fin_scale ⟨trivial, trivial⟩, Matrix3x3.fin_scale ⟨Ideal.finite_recip (s := .of 2) trivial (by norm_num), Ideal.finite_recip (s := .of 4) trivial (by norm_num)⟩⟩)
  (C49_real2 ⟨.of 0, .of 0⟩ (by rw [Vector2.allFinite]; exact ⟨trivial, trivial⟩) (.of 2) (.of 4) (.of 1) ⟨⟨trivial, by norm_num⟩, ⟨trivial, by norm_num⟩⟩ ⟨trivial, by norm_num⟩).2.2.1
  (Matrix3x3.scale_affine _ _) exB2 exB2_fin exB2_wf ⟨⟨.of 1, .of 1⟩, ⟨.of 1, .of 1⟩⟩
  (by rw [Ray2.allFinite, Point2.allFinite, Vector2.allFinite]; exact ⟨⟨trivial, trivial⟩, ⟨trivial, trivial⟩⟩)
  (by intro h; have := congrFun h 0; simp [Vector2.toReal] at this)
  (by
    intro i hi
    exfalso
    have e : (Matrix3x3.scale (recip (Ideal.of 2)) (recip (Ideal.of 4)) * (⟨.of 1, .of 1⟩ : Vector2 Ideal)).toReal i = 0 := hi
    rw [Matrix3x3.toReal_mulv' (Matrix3x3.fin_scale ⟨Ideal.finite_recip (s := .of 2) trivial (by norm_num), Ideal.finite_recip (s := .of 4) trivial (by norm_num)⟩) (by rw [Vector2.allFinite]; exact ⟨trivial, trivial⟩), Matrix3x3.linear_scale, Matrix.mulVec_diagonal] at e
    fin_cases i <;> simp [Vector2.toReal, Ideal.real_recip (s := .of 2) trivial (by norm_num), Ideal.real_recip (s := .of 4) trivial (by norm_num)] at e)
/-- a scaling that is not uniform, and a ray that is parallel to no face -/
example := C93_real3 (Transform3.scale (.of 2) (.of 4) (.of 8))
  (Transform3.allFinite.2 ⟨Matrix4x4.fin_scale ⟨trivial, trivial, trivial⟩, Matrix4x4.fin_scale ⟨Ideal.finite_recip (s := .of 2) trivial (by norm_num), Ideal.finite_recip (s := .of 4) trivial (by norm_num), Ideal.finite_recip (s := .of 8) trivial (by norm_num)⟩⟩)
  (C49_real3 ⟨.of 0, .of 0, .of 0⟩ (by rw [Vector3.allFinite]; exact ⟨trivial, trivial, trivial⟩) (.of 2) (.of 4) (.of 8) (.of 1) ⟨⟨trivial, by norm_num⟩, ⟨trivial, by norm_num⟩, ⟨trivial, by norm_num⟩⟩ ⟨trivial, by norm_num⟩).2.2.1
  (Matrix4x4.scale_affine _ _ _) exB3 exB3_fin exB3_wf ⟨⟨.of 1, .of 1, .of 1⟩, ⟨.of 1, .of 1, .of 1⟩⟩
  (by rw [Ray3.allFinite, Point3.allFinite, Vector3.allFinite]; exact ⟨⟨trivial, trivial, trivial⟩, ⟨trivial, trivial, trivial⟩⟩)
  (by intro h; have := congrFun h 0; simp [Vector3.toReal] at this)
  (by
    intro i hi
    exfalso
    have e : (Matrix4x4.scale (recip (Ideal.of 2)) (recip (Ideal.of 4)) (recip (Ideal.of 8)) * (⟨.of 1, .of 1, .of 1⟩ : Vector3 Ideal)).toReal i = 0 := hi
    rw [Matrix4x4.toReal_mulv' (Matrix4x4.fin_scale ⟨Ideal.finite_recip (s := .of 2) trivial (by norm_num), Ideal.finite_recip (s := .of 4) trivial (by norm_num), Ideal.finite_recip (s := .of 8) trivial (by norm_num)⟩) (by rw [Vector3.allFinite]; exact ⟨trivial, trivial, trivial⟩), Matrix4x4.linear_scale, Matrix.mulVec_diagonal] at e
    fin_cases i <;> simp [Vector3.toReal, Ideal.real_recip (s := .of 2) trivial (by norm_num), Ideal.real_recip (s := .of 4) trivial (by norm_num), Ideal.real_recip (s := .of 8) trivial (by norm_num)] at e)

end VecMath
