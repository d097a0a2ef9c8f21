D={2:dict(V='Vector2',P='Point2',T='Transform2',M='Matrix3x3'),3:dict(V='Vector3',P='Point3',T='Transform3',M='Matrix4x4')}
out='''import Verif.Spec.Pivot
import Verif.Props.RealTransform
import Verif.Props.RealRotation
/-!
# Transforms about a pivot, in exact arithmetic (layer R): C111

(Generated by tools/gen.)
-/

namespace VecMath
open Scalar IEEE

'''
for n in (2,3):
    d=D[n]; V,P,T,M=d['V'],d['P'],d['T'],d['M']; w=f'{n}D'
    out+=f'''/-! ## Dimension {n} -/
section
variable {{t : {T} Ideal}} {{c p : {P} Ideal}} {{v : {V} Ideal}}
theorem {V}.fin_fromPoint (hc : AllFinite c) : AllFinite ({V}.fromPoint c) := by
  rw [{V}.allFinite]; rw [{P}.allFinite] at hc; exact hc
theorem {V}.toReal_fromPoint (c : {P} Ideal) : ({V}.fromPoint c).toReal = c.toReal := rfl
theorem {P}.fin_fromVector (hv : AllFinite v) : AllFinite ({P}.fromVector v) := by
  rw [{P}.allFinite]; rw [{V}.allFinite] at hv; exact hv
theorem {P}.toReal_fromVector (v : {V} Ideal) : ({P}.fromVector v).toReal = v.toReal := rfl
theorem {M}.pivot (m : {M} Ideal) (x y : {V} Ideal) (hm : AllFinite m) (ha : m.Affine) (hx : AllFinite x) (hy : AllFinite y) :
    (AllFinite ({M}.translate x * (m * {M}.translate y)) ∧ ({M}.translate x * (m * {M}.translate y)).Affine ∧
      ({M}.translate x * (m * {M}.translate y)).linear = m.linear ∧ ({M}.translate x * (m * {M}.translate y)).offset = m.linear.mulVec y.toReal + m.offset + x.toReal) ∧
    (AllFinite (({M}.translate x * m) * {M}.translate y) ∧ (({M}.translate x * m) * {M}.translate y).Affine ∧
      (({M}.translate x * m) * {M}.translate y).linear = m.linear ∧ (({M}.translate x * m) * {M}.translate y).offset = m.linear.mulVec y.toReal + m.offset + x.toReal) := by
  have fx := {M}.fin_translate hx
  have fy := {M}.fin_translate hy
  have ax := {M}.translate_affine x
  have ay := {M}.translate_affine y
  have f1 := {M}.fin_mul hm fy
  have a1 := ha.mul ay hm fy
  have f2 := {M}.fin_mul fx hm
  have a2 := ax.mul ha fx hm
  refine ⟨⟨{M}.fin_mul fx f1, ax.mul a1 fx f1, ?_, ?_⟩, {M}.fin_mul f2 fy, a2.mul ay f2 fy, ?_, ?_⟩
  · rw [a1.linear_mul fx f1, ay.linear_mul hm fy, {M}.linear_translate, {M}.linear_translate, one_mul, mul_one]
  · rw [a1.offset_mul fx f1, ay.offset_mul hm fy, {M}.linear_translate, {M}.offset_translate, {M}.offset_translate, Matrix.one_mulVec]
  · rw [ay.linear_mul f2 fy, ha.linear_mul fx hm, {M}.linear_translate, {M}.linear_translate, one_mul, mul_one]
  · rw [ay.offset_mul f2 fy, ha.linear_mul fx hm, ha.offset_mul fx hm, {M}.linear_translate, {M}.offset_translate, {M}.offset_translate, Matrix.one_mulVec, one_mul, add_assoc]
theorem {T}.about_forward (hf : AllFinite t.forward) (ha : t.forward.Affine) (hc : AllFinite c) :
    AllFinite (t.about c).forward ∧ (t.about c).forward.Affine ∧ (t.about c).forward.linear = t.forward.linear ∧
      (t.about c).forward.offset = t.forward.linear.mulVec (-c.toReal) + t.forward.offset + c.toReal := by
  have := ({M}.pivot t.forward ({V}.fromPoint c) (-({V}.fromPoint c)) hf ha ({V}.fin_fromPoint hc) ({V}.fin_neg ({V}.fin_fromPoint hc))).1
  rw [{V}.toReal_neg ({V}.fin_fromPoint hc)] at this
  exact this
theorem {T}.about_inverse (hf : AllFinite t.inverse) (ha : t.inverse.Affine) (hc : AllFinite c) :
    AllFinite (t.about c).inverse ∧ (t.about c).inverse.Affine ∧ (t.about c).inverse.linear = t.inverse.linear ∧
      (t.about c).inverse.offset = t.inverse.linear.mulVec (-c.toReal) + t.inverse.offset + c.toReal := by
  have := ({M}.pivot t.inverse (-(-({V}.fromPoint c))) (-({V}.fromPoint c)) hf ha ({V}.fin_neg ({V}.fin_neg ({V}.fin_fromPoint hc))) ({V}.fin_neg ({V}.fin_fromPoint hc))).2
  rw [{V}.toReal_neg ({V}.fin_neg ({V}.fin_fromPoint hc)), {V}.toReal_neg ({V}.fin_fromPoint hc), neg_neg] at this
  exact this
/-- **C111** ({w}): about a pivot, points move as their offsets from the pivot do and vectors move as before. -/
theorem C111_real_about{n} (t : {T} Ideal) (hf : AllFinite t.forward) (ha : t.forward.Affine) (c p : {P} Ideal) (hc : AllFinite c) (hp : AllFinite p) (v : {V} Ideal) (hv : AllFinite v) :
    (Transform.transform (t.about c) p == (Transform.transform t ({P}.fromVector (p - c)) : {P} Ideal) + {V}.fromPoint c) = true ∧
    (Transform.transform (t.about c) v == (Transform.transform t v : {V} Ideal)) = true := by
  obtain ⟨f, a, l, o⟩ := {T}.about_forward hf ha hc
  have fd := {P}.fin_fromVector ({V}.fin_subp hp hc)
  refine ⟨({P}.beq_toReal (a.fin_mulp f hp) ({P}.fin_addv (ha.fin_mulp hf fd) ({V}.fin_fromPoint hc))).2 ?_, ({V}.beq_toReal ({M}.fin_mulv f hv) ({M}.fin_mulv hf hv)).2 ?_⟩
  · rw [{P}.toReal_addv (ha.fin_mulp hf fd) ({V}.fin_fromPoint hc), {V}.toReal_fromPoint]
    show ((t.about c).forward * p).toReal = (t.forward * {P}.fromVector (p - c)).toReal + _
    rw [a.toReal_mulp f hp, ha.toReal_mulp hf fd, l, o, {P}.toReal_fromVector, {V}.toReal_subp hp hc, Matrix.mulVec_neg, Matrix.mulVec_sub]
    abel
  · show ((t.about c).forward * v).toReal = (t.forward * v).toReal
    rw [{M}.toReal_mulv' f hv, {M}.toReal_mulv' hf hv, l]
/-- **C111** ({w}): a transform that fixes the origin fixes the pivot when done about it. -/
theorem C111_real_fixed{n} (t : {T} Ideal) (hf : AllFinite t.forward) (ha : t.forward.Affine) (h0 : (Transform.transform t ({P}.origin : {P} Ideal) == ({P}.origin : {P} Ideal)) = true) (c : {P} Ideal) (hc : AllFinite c) :
    (Transform.transform (t.about c) c == c) = true := by
  obtain ⟨f, a, l, o⟩ := {T}.about_forward hf ha hc
  have fo : AllFinite ({P}.origin : {P} Ideal) := by rw [{P}.allFinite]; {'exact ⟨finite_zero, finite_zero⟩' if n==2 else 'exact ⟨finite_zero, finite_zero, finite_zero⟩'}
  have h0' : (t.forward * ({P}.origin : {P} Ideal)).toReal = _ := ({P}.beq_toReal (ha.fin_mulp hf fo) fo).1 h0
  have z : ({P}.origin : {P} Ideal).toReal = 0 := by
    funext i; fin_cases i <;> exact real_zero (S := Ideal)
  rw [ha.toReal_mulp hf fo, z, Matrix.mulVec_zero, zero_add] at h0'
  refine ({P}.beq_toReal (a.fin_mulp f hc) hc).2 ?_
  show ((t.about c).forward * c).toReal = _
  rw [a.toReal_mulp f hc, l, o, h0', Matrix.mulVec_neg]
  abel
/-- **C111** ({w}): a rigid motion is one about any pivot too, and one that fixes the origin keeps every point at its distance from the pivot. -/
theorem C111_real_rigid{n} (t : {T} Ideal) (h : Motion{n} t) (c : {P} Ideal) (hc : AllFinite c) :
    (t.about c).Rigid ∧ (t.about c).inv.Rigid ∧
    ((Transform.transform t ({P}.origin : {P} Ideal) == ({P}.origin : {P} Ideal)) = true → ∀ p : {P} Ideal, AllFinite p →
      (Api.distance c (Transform.transform (t.about c) p : {P} Ideal) == Api.distance c p) = true) := by
  have m : Motion{n} (t.about c) := .andThen _ _ (.andThen _ _ (.translate _ ({V}.fin_neg ({V}.fin_fromPoint hc))) h) (.translate _ ({V}.fin_fromPoint hc))
  have r := C52_rigid{n} _ m
  refine ⟨r.1, r.2, fun h0 p hp => ?_⟩
  have b := (motion_inv{n} t h).1
  have hf := (built_inv{n} (fun m hm => hm.1) t b).1
  have ha := (built_affine{n} t b).1
  obtain ⟨f, a, -, -⟩ := {T}.about_forward hf ha hc
  have fp : AllFinite (Transform.transform (t.about c) p : {P} Ideal) := a.fin_mulp f hp
  have fc : AllFinite (Transform.transform (t.about c) c : {P} Ideal) := a.fin_mulp f hc
  have e := r.1.distance c p hc hp
  have e2 := ({P}.beq_toReal fc hc).1 (C111_real_fixed{n} t hf ha h0 c hc)
  rw [Ideal.beq_real ({P}.fin_distance fc fp) ({P}.fin_distance hc hp), {P}.distance_def, {V}.real_length' ({V}.fin_subp fp fc), {V}.toReal_subp fp fc, e2] at e
  rw [Ideal.beq_real ({P}.fin_distance hc fp) ({P}.fin_distance hc hp), ← e, {P}.distance_def, {V}.real_length' ({V}.fin_subp fp hc), {V}.toReal_subp fp hc]
/-- **C111** ({w}): about a fixed pivot, the identity is the identity, composing is composing, inverting is inverting, and inverse pairs stay inverse pairs. -/
theorem C111_real_laws{n} (a b : {T} Ideal) (ha : AllFinite a) (hb : AllFinite b) (fa : a.forward.Affine) (ga : a.inverse.Affine) (fb : b.forward.Affine) (gb : b.inverse.Affine)
    (c : {P} Ideal) (hc : AllFinite c) :
    ({T}.identity.about c == {T}.identity) = true ∧
    ((a.about c).andThen (b.about c) == (a.andThen b).about c) = true ∧
    ((a.about c).inv == a.inv.about c) = true ∧
    (a.Paired → (a.about c).Paired) := by
  rw [{T}.allFinite] at ha hb
  obtain ⟨af, aa, al, ao⟩ := {T}.about_forward ha.1 fa hc
  obtain ⟨ag, ab, ak, ap⟩ := {T}.about_inverse ha.2 ga hc
  obtain ⟨bf, ba, bl, bo⟩ := {T}.about_forward hb.1 fb hc
  obtain ⟨bg, bb, bk, bp⟩ := {T}.about_inverse hb.2 gb hc
  obtain ⟨i1, i2, i3, i4⟩ := {T}.about_forward (t := {T}.identity) (c := c) {M}.fin_identity {M}.identity_affine hc
  obtain ⟨j1, j2, j3, j4⟩ := {T}.about_inverse (t := {T}.identity) (c := c) {M}.fin_identity {M}.identity_affine hc
  obtain ⟨k1, k2, k3, k4⟩ := {T}.about_forward (t := a.andThen b) (c := c) ({M}.fin_mul hb.1 ha.1) (fb.mul fa hb.1 ha.1) hc
  obtain ⟨l1, l2, l3, l4⟩ := {T}.about_inverse (t := a.andThen b) (c := c) ({M}.fin_mul ha.2 hb.2) (ga.mul gb ha.2 hb.2) hc
  obtain ⟨m1, m2, m3, m4⟩ := {T}.about_forward (t := a.inv) (c := c) ha.2 ga hc
  obtain ⟨n1, n2, n3, n4⟩ := {T}.about_inverse (t := a.inv) (c := c) ha.1 fa hc
  have z1 : ({T}.identity : {T} Ideal).forward.linear = 1 := {M}.linear_identity
  have z2 : ({T}.identity : {T} Ideal).forward.offset = 0 := {M}.offset_identity
  have z3 : ({T}.identity : {T} Ideal).inverse.linear = 1 := {M}.linear_identity
  have z4 : ({T}.identity : {T} Ideal).inverse.offset = 0 := {M}.offset_identity
  refine ⟨{T}.beq_iff.2 ⟨({M}.beq_toReal i1 {M}.fin_identity).2 (i2.ext {M}.identity_affine ?_ ?_), ({M}.beq_toReal j1 {M}.fin_identity).2 (j2.ext {M}.identity_affine ?_ ?_)⟩,
    {T}.beq_iff.2 ⟨({M}.beq_toReal ({M}.fin_mul bf af) k1).2 ((ba.mul aa bf af).ext k2 ?_ ?_), ({M}.beq_toReal ({M}.fin_mul ag bg) l1).2 ((ab.mul bb ag bg).ext l2 ?_ ?_)⟩,
    {T}.beq_iff.2 ⟨({M}.beq_toReal ag m1).2 (ab.ext m2 ?_ ?_), ({M}.beq_toReal af n1).2 (aa.ext n2 ?_ ?_)⟩, fun hp => ?_⟩
  · rw [i3, z1, {M}.linear_identity]
  · rw [i4, z1, z2, {M}.offset_identity, Matrix.one_mulVec]; abel
  · rw [j3, z3, {M}.linear_identity]
  · rw [j4, z3, z4, {M}.offset_identity, Matrix.one_mulVec]; abel
  · rw [aa.linear_mul bf af, al, bl, k3]; exact (fa.linear_mul hb.1 ha.1).symm
  · rw [aa.offset_mul bf af, ao, bl, bo, k4]
    have e1 : (a.andThen b).forward.linear = _ := fa.linear_mul hb.1 ha.1
    have e2 : (a.andThen b).forward.offset = _ := fa.offset_mul hb.1 ha.1
    rw [e1, e2]
    simp only [Matrix.mulVec_add, Matrix.mulVec_neg, Matrix.mulVec_mulVec]
    abel
  · rw [bb.linear_mul ag bg, ak, bk, l3]; exact (gb.linear_mul ha.2 hb.2).symm
  · rw [bb.offset_mul ag bg, ap, ak, bp, l4]
    have e1 : (a.andThen b).inverse.linear = _ := gb.linear_mul ha.2 hb.2
    have e2 : (a.andThen b).inverse.offset = _ := gb.offset_mul ha.2 hb.2
    rw [e1, e2]
    simp only [Matrix.mulVec_add, Matrix.mulVec_neg, Matrix.mulVec_mulVec]
    abel
  · rw [ak, m3]; rfl
  · rw [ap, m4]; rfl
  · rw [al, n3]; rfl
  · rw [ao, n4]; rfl
  · have e := ({T}.paired_iff ha.1 ha.2).1 hp
    have e1 : a.forward.linear * a.inverse.linear = 1 := by
      rw [← ga.linear_mul ha.1 ha.2, ← {M}.linear_identity]
      unfold {M}.linear
      rw [{M}.toReal_mul ha.1 ha.2, e, {M}.toReal_identity]
    have e2 : a.forward.linear.mulVec a.inverse.offset + a.forward.offset = 0 := by
      rw [← ga.offset_mul ha.1 ha.2, ← {M}.offset_identity]
      unfold {M}.offset
      rw [{M}.toReal_mul ha.1 ha.2, e, {M}.toReal_identity]
    refine {T}.paired_of_affine af ag aa ab (by rw [al, ak, e1]) ?_
    rw [al, ap, ao]
    simp only [Matrix.mulVec_add, Matrix.mulVec_neg, Matrix.mulVec_mulVec, e1, Matrix.one_mulVec]
    rw [show ∀ x y z w : Fin {n} → ℝ, -x + y + z + (-z + w + x) = y + w by intros; abel]
    exact e2
end

'''
out+='''/-! ## Concrete cases -/
/-- A quarter turn about the point `(3, 4)`: the pivot stays, and distances from it are kept. -/
theorem about_pivot_ex (q : Ideal) (hq : IsFinite q) (c p : Point2 Ideal) (hc : AllFinite c) (hp : AllFinite p) :
    (Transform.transform ((Transform2.rotate q).about c) c == c) = true ∧
    (Api.distance c (Transform.transform ((Transform2.rotate q).about c) p : Point2 Ideal) == Api.distance c p) = true := by
  have m : Motion2 (Transform2.rotate q) := .rotate q hq
  have b := (motion_inv2 _ m).1
  have h0 : (Transform.transform (Transform2.rotate q) (Point2.origin : Point2 Ideal) == (Point2.origin : Point2 Ideal)) = true := by
    have fo : AllFinite (Point2.origin : Point2 Ideal) := by rw [Point2.allFinite]; exact ⟨finite_zero, finite_zero⟩
    have hf := (built_inv2 (fun m hm => hm.1) _ b).1
    have ha := (built_affine2 _ b).1
    refine (Point2.beq_toReal (ha.fin_mulp hf fo) fo).2 ?_
    show ((Transform2.rotate q).forward * (Point2.origin : Point2 Ideal)).toReal = _
    rw [ha.toReal_mulp hf fo]
    have z : (Point2.origin : Point2 Ideal).toReal = 0 := by funext i; fin_cases i <;> exact real_zero (S := Ideal)
    rw [z, Matrix.mulVec_zero, zero_add]
    exact Matrix3x3.offset_rotate hq
  exact ⟨C111_real_fixed2 _ (built_inv2 (fun m hm => hm.1) _ b).1 (built_affine2 _ b).1 h0 c hc, (C111_real_rigid2 _ m c hc).2.2 h0 p hp⟩

end VecMath
'''
open('/tmp/d/RealPivot.lean','w').write(out)
