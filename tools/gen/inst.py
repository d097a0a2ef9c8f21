out='''import Verif.Props.RealBox
import Verif.Props.RealTransform
import Verif.Lemmas.LookAt
/-!
# Instancing, in real arithmetic: C93

A renderer that places a box with a transform intersects the box with the ray transformed by the inverse. Generated by
tools/gen/inst.py.
-/
open Classical

namespace VecMath
open Scalar IEEE

'''
for D,M in ((2,'Matrix3x3'),(3,'Matrix4x4')):
    T=f'Transform{D}'; P=f'Point{D}'; R=f'Ray{D}'; BB=f'BoundingBox{D}'; aff='inverse_affine' if D==3 else 'inverse_affine2'
    out+=f'''/-- the inverse of an affine transform is affine -/
theorem {T}.Paired.affine_inverse {{t : {T} Ideal}} (ht : AllFinite t) (h : t.Paired) (ha : t.forward.Affine) : t.inverse.Affine := by
  rw [{T}.allFinite] at ht
  exact {aff} ht.1 ha ht.2 (({T}.paired_iff ht.1 ht.2).1 h)
theorem {T}.Paired.symm {{t : {T} Ideal}} (ht : AllFinite t) (h : t.Paired) : t.inv.Paired := by
  rw [{T}.allFinite] at ht
  exact ({T}.paired_iff (t := t.inv) ht.2 ht.1).2 (mul_eq_one_comm.1 (({T}.paired_iff ht.1 ht.2).1 h))

/-- **C93**: intersecting a box with the ray transformed by the inverse reports exactly the parameters at which the ray
itself is in the transformed box: at the image of a point of the box. -/
theorem C93_real{D} (t : {T} Ideal) (ht : AllFinite t) (hp : t.Paired) (ha : t.forward.Affine)
    (b : {BB} Ideal) (hb : AllFinite b) (wb : LeAll b.min b.max) (ray : {R} Ideal) (hr : AllFinite ray)
    (hd : ray.direction.toReal ≠ 0) (hf : FaceFree{D} b (Transform.transform t.inv ray)) :
    (∀ r : Range Ideal, Api.intersect b (Transform.transform t.inv ray : {R} Ideal) = some r →
      ∀ s : Ideal, IsFinite s → ((zero ≤? s) = true ∧
        (∃ q : {P} Ideal, AllFinite q ∧ b.isInside q = true ∧ ((Transform.transform t q : {P} Ideal) == ray.at s) = true) ↔
        (r.start ≤? s) = true ∧ (s ≤? r.stop) = true)) ∧
    (Api.intersect b (Transform.transform t.inv ray : {R} Ideal) = (none : Option (Range Ideal)) ↔
      ∀ s : Ideal, IsFinite s → (zero ≤? s) = true →
        ¬ ∃ q : {P} Ideal, AllFinite q ∧ b.isInside q = true ∧ ((Transform.transform t q : {P} Ideal) == ray.at s) = true) := by
  have hi := hp.affine_inverse ht ha
  have ht' := ht
  rw [{T}.allFinite] at ht
  have fti : AllFinite t.inv := {T}.allFinite.2 ⟨ht.2, ht.1⟩
  have hr' := {R}.allFinite.1 hr
  have fl : AllFinite (Transform.transform t.inv ray : {R} Ideal) :=
    {R}.allFinite.2 ⟨hi.fin_mulp ht.2 hr'.1, {M}.fin_mulv ht.2 hr'.2⟩
  have hd' : (Transform.transform t.inv ray : {R} Ideal).direction.toReal ≠ 0 := by
    intro h0
    apply hd
    have h1 := (C51_real{D} t.inv fti (hp.symm ht') ray.origin hr'.1 ray.direction hr'.2).2 hi
    have h2 : (t.forward * (t.inverse * ray.direction)).toReal = ray.direction.toReal :=
      (Vector{D}.beq_toReal ({M}.fin_mulv ht.1 ({M}.fin_mulv ht.2 hr'.2)) hr'.2).1 h1
    rw [{M}.toReal_mulv' ht.1 ({M}.fin_mulv ht.2 hr'.2), show (t.inverse * ray.direction).toReal = 0 from h0, Matrix.mulVec_zero] at h2
    exact h2.symm
  -- being inside at `s` is being the image of a point inside
  have key : ∀ s : Ideal, IsFinite s → (b.isInside ((Transform.transform t.inv ray : {R} Ideal).at s) = true ↔
      ∃ q : {P} Ideal, AllFinite q ∧ b.isInside q = true ∧ ((Transform.transform t q : {P} Ideal) == ray.at s) = true) := by
    intro s hs
    have fa : AllFinite (ray.at s) := {P}.fin_addv hr'.1 (Vector{D}.fin_mul hr'.2 hs)
    have fl' := {R}.allFinite.1 fl
    have fla : AllFinite ((Transform.transform t.inv ray : {R} Ideal).at s) := {P}.fin_addv fl'.1 (Vector{D}.fin_mul fl'.2 hs)
    have fti' : AllFinite (t.inverse * ray.at s) := hi.fin_mulp ht.2 fa
    have e1 : ((Transform.transform t.inv ray : {R} Ideal).at s).toReal = (t.inverse * ray.at s).toReal :=
      ({P}.beq_toReal fla fti').1 (C55_real{D} t.inv ht.2 hi ray hr s hs)
    have e2 : (t.forward * (t.inverse * ray.at s)).toReal = (ray.at s).toReal :=
      ({P}.beq_toReal (ha.fin_mulp ht.1 fti') fa).1
        ((C51_real{D} t.inv fti (hp.symm ht') (ray.at s) fa ray.direction hr'.2).1 (by
          rw [show t.inv.forward = t.inverse from rfl, hi.weight]; norm_num))
    constructor
    · intro h
      refine ⟨_, fla, h, ?_⟩
      refine ({P}.beq_toReal (ha.fin_mulp ht.1 fla) fa).2 ?_
      rw [ha.toReal_mulp ht.1 fla, e1, ← ha.toReal_mulp ht.1 fti', e2]
    · rintro ⟨q, fq, hq, e⟩
      have e3 : (t.forward * q).toReal = (ray.at s).toReal := ({P}.beq_toReal (ha.fin_mulp ht.1 fq) fa).1 e
      have e4 : (t.inverse * (t.forward * q)).toReal = q.toReal :=
        ({P}.beq_toReal (hi.fin_mulp ht.2 (ha.fin_mulp ht.1 fq)) fq).1
          ((C51_real{D} t ht' hp q fq ray.direction hr'.2).1 (by rw [ha.weight]; norm_num))
      have e5 : ((Transform.transform t.inv ray : {R} Ideal).at s).toReal = q.toReal := by
        rw [e1, hi.toReal_mulp ht.2 fa, ← e3, ← hi.toReal_mulp ht.2 (ha.fin_mulp ht.1 fq), e4]
      rw [{BB}.inside_real hb fla, e5, ← {BB}.inside_real hb fq]
      exact hq
  obtain ⟨k1, k2⟩ := C35_real{D} b hb wb _ fl hd' hf
  refine ⟨fun r h s hs => ?_, k2.trans ⟨fun h s hs h0 hc => ?_, fun h s hs h0 => ?_⟩⟩
  · rw [← key s hs]
    exact (k1 r h).2.2 s hs
  · have := h s hs h0
    rw [(key s hs).2 hc] at this
    cases this
  · rw [Bool.eq_false_iff]
    exact fun hc => h s hs h0 ((key s hs).1 hc)

'''
for D,M in ((2,'Matrix3x3'),(3,'Matrix4x4')):
    c=['x','y','z'][:D]
    sc=['(.of 2)','(.of 4)','(.of 8)'][:D]
    fs='⟨'+', '.join(['⟨trivial, by norm_num⟩']*D)+'⟩'
    fr='⟨'+', '.join(['trivial']*D)+'⟩'
    one='⟨'+', '.join(['.of 1']*D)+'⟩'
    fin=', '.join(['Ideal.finite_recip (s := .of '+str(k)+') trivial (by norm_num)' for k in (2,4,8)[:D]])
    rr=', '.join(['Ideal.real_recip (s := .of '+str(k)+') trivial (by norm_num)' for k in (2,4,8)[:D]])
    rs=' '.join('(recip (Ideal.of '+str(k)+'))' for k in (2,4,8)[:D])
    out+=f'''/-- a scaling that is not uniform, and a ray that is parallel to no face -/
example := C93_real{D} (Transform{D}.scale {' '.join(sc)})
  (Transform{D}.allFinite.2 ⟨{M}.fin_scale {fr}, {M}.fin_scale ⟨{', '.join(['Ideal.finite_recip (s := .of '+str(k)+') trivial (by norm_num)' for k in (2,4,8)[:D]])}⟩⟩)
  (C49_real{D} ⟨{', '.join(['.of 0']*D)}⟩ (by rw [Vector{D}.allFinite]; exact {fr}) {' '.join(sc)} (.of 1) {fs} ⟨trivial, by norm_num⟩).2.2.1
  ({M}.scale_affine {' '.join(['_']*D)}) exB{D} exB{D}_fin exB{D}_wf ⟨{one}, {one}⟩
  (by rw [Ray{D}.allFinite, Point{D}.allFinite, Vector{D}.allFinite]; exact ⟨{fr}, {fr}⟩)
  (by intro h; have := congrFun h 0; simp [Vector{D}.toReal] at this)
  (by
    intro i hi
    exfalso
    have e : ({M}.scale {rs} * ({one} : Vector{D} Ideal)).toReal i = 0 := hi
    rw [{M}.toReal_mulv' ({M}.fin_scale ⟨{fin}⟩) (by rw [Vector{D}.allFinite]; exact {fr}), {M}.linear_scale, Matrix.mulVec_diagonal] at e
    fin_cases i <;> simp [Vector{D}.toReal, {rr}] at e)
'''
out+='''
end VecMath
'''
open('/verif/lean/Verif/Props/RealInstance.lean','w').write(out)
