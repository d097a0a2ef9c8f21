exec(open('/tmp/w/genrt.py').read().split("tm=open('/tmp/w/rt_tmpl")[0])
def sub4(n):
    d=sub3(n); D=n-1; cs='xyz'[:D]; M=d['M']
    d['SNZ']=" ∧ ".join(f"(IsFinite s{c} ∧ real s{c} ≠ 0)" for c in cs)
    acc=['hs.1','hs.2'] if D==2 else ['hs.1','hs.2.1','hs.2.2']
    d['SFP']="⟨"+", ".join(a+".1" for a in acc)+"⟩"
    d['SRF']="⟨"+", ".join(f"Ideal.finite_recip {a}.1 {a}.2" for a in acc)+"⟩"
    d['SRX']=" ".join(f"(recip s{c})" for c in cs)
    d['SRR']=", ".join(f"Ideal.real_recip {a}.1 {a}.2" for a in acc)
    d['SUU']="⟨"+", ".join("hsu" for c in cs)+"⟩"
    d['SUF']="⟨"+", ".join("hs.1" for c in cs)+"⟩"
    d['SUR']="⟨"+", ".join("Ideal.finite_recip hs.1 hs.2" for c in cs)+"⟩"
    d['SRU']=" ".join("(recip s)" for c in cs)
    d['ONES']=" ".join("one" for c in cs)
    d['ONEP']="⟨"+", ".join("⟨finite_one, by rw [real_one]; norm_num⟩" for c in cs)+"⟩"
    d['SUF2']="2" if D==2 else ""
    d['MEQ']=f"C58_matrix{n}x{n}"
    if D==2:
        d['BUILD']="  | rotate (a : Ideal) : IsFinite a → Built2 P (Transform2.rotate a)\n"
        d['BCASES']="  | rotate a ha =>\n    exact ⟨Matrix3x3.fin_rotate ha, Matrix3x3.fin_transpose (Matrix3x3.fin_rotate ha), C49_real_rotate2 a ha⟩\n"
        d['ACASES']="  | rotate a ha => exact key2 (Matrix3x3.rotate_affine ha)\n"
        d['LOOKTXT']=""
        d['ROT']='''theorem C49_real_rotate2 (a : Ideal) (ha : IsFinite a) : (Transform2.rotate a).Paired :=
  Transform2.paired_transpose (Matrix3x3.fin_rotate ha) (Matrix3x3.rotate_affine ha) (Matrix3x3.offset_rotate ha)
    (by rw [Matrix3x3.linear_rotate ha, rot2_orth])
'''
    else:
        d['BUILD']="".join(f"  | rotate{c} (a : Ideal) : IsFinite a → Built3 P (Transform3.rotate{c} a)\n" for c in 'XYZ')+\
         "  | rotateAxis (k : Vector3 Ideal) (a : Ideal) : AllFinite k → k.toReal ≠ 0 → IsFinite a →\n      Built3 P (Transform3.rotateAxis k a)\n"+\
         "  | lookAt (o t : Point3 Ideal) (up : Vector3 Ideal) (f : Transform3 Ideal) : AllFinite o → AllFinite t → AllFinite up →\n      crossProduct up.toReal (t.toReal - o.toReal) ≠ 0 → Transform3.lookAt o t up = .ok f → Built3 P f\n"
        d['BCASES']="".join(f"  | rotate{c} a ha =>\n    exact ⟨(isRot_rotate{c} ha).fin, (isRot_rotate{c} ha).transpose.fin, (isRot_rotate{c} ha).paired axis_unit_{c.lower()}⟩\n" for c in 'XYZ')+\
         '''  | rotateAxis k a hk h0 ha =>
    exact ⟨(isRot_rotateAxis hk h0 ha).fin, (isRot_rotateAxis hk h0 ha).transpose.fin,
      (isRot_rotateAxis hk h0 ha).paired (unit_normalize hk h0)⟩
  | lookAt o t up f ho ht hu h e =>
    obtain ⟨r, d, m, -, -, -, -, -, -, fM, aM, e', ff, af, hm, -⟩ := lookAt_ok ho ht hu h
    rw [e'] at e; cases e
    exact ⟨ff, fM, (Transform3.paired_iff ff fM).2 hm⟩
'''
        d['ACASES']="".join(f"  | rotate{c} a ha => exact key2 (isRot_rotate{c} ha).affine\n" for c in 'XYZ')+\
        '''  | rotateAxis k a hk h0 ha => exact key2 (isRot_rotateAxis hk h0 ha).affine
  | lookAt o t up f ho ht hu h e =>
    obtain ⟨r, d, m, -, -, -, -, -, -, fM, aM, e', ff, af, hm, -⟩ := lookAt_ok ho ht hu h
    rw [e'] at e; cases e
    exact ⟨af, aM⟩
'''
        d['LOOKTXT']=" `look_at`,"
        d['ROT']="".join(f'''theorem C49_real_rotate{c.lower()} (a : Ideal) (ha : IsFinite a) : (Transform3.rotate{c} a).Paired :=
  (isRot_rotate{c} ha).paired axis_unit_{c.lower()}
''' for c in 'XYZ')+'''theorem C49_real_rotate_axis (k : Vector3 Ideal) (a : Ideal) (hk : AllFinite k) (h0 : k.toReal ≠ 0) (ha : IsFinite a) :
    (Transform3.rotateAxis k a).Paired :=
  (isRot_rotateAxis hk h0 ha).paired (unit_normalize hk h0)
theorem C49_real_look_at (o t : Point3 Ideal) (up : Vector3 Ideal) (f : Transform3 Ideal) (ho : AllFinite o) (ht : AllFinite t)
    (hu : AllFinite up) (h : crossProduct up.toReal (t.toReal - o.toReal) ≠ 0) (e : Transform3.lookAt o t up = .ok f) :
    f.Paired := by
  obtain ⟨r, d, m, -, -, -, -, -, -, fM, aM, e', ff, af, hm, -⟩ := lookAt_ok ho ht hu h
  rw [e'] at e; cases e
  exact (Transform3.paired_iff ff fM).2 hm
'''
    import re
    d['MBUILD']=d['BUILD'].replace(f'Built{D} P',f'Motion{D}')
    if D==2:
        d['MCASES']='''  | rotate a ha =>
    refine ⟨.rotate a ha, ?_, ?_⟩
    · show (Matrix3x3.rotate a).linear.transpose * (Matrix3x3.rotate a).linear = 1
      rw [Matrix3x3.linear_rotate ha, rot2_orth]
    · show (Matrix3x3.rotate a).linear.det = 1
      rw [Matrix3x3.linear_rotate ha, rot2_det]
'''
    else:
        d['MCASES']="".join(f'''  | rotate{c} a ha =>
    refine ⟨.rotate{c} a ha, ?_, ?_⟩
    · show (Matrix4x4.rotate{c} a).linear.transpose * (Matrix4x4.rotate{c} a).linear = 1
      rw [(isRot_rotate{c} ha).linear, rod_orth axis_unit_{c.lower()}]
    · show (Matrix4x4.rotate{c} a).linear.det = 1
      rw [(isRot_rotate{c} ha).linear, rod_det axis_unit_{c.lower()}]
''' for c in 'XYZ')+'''  | rotateAxis k a hk h0 ha =>
    refine ⟨.rotateAxis k a hk h0 ha, ?_, ?_⟩
    · show (Matrix4x4.rotateAxis k a).linear.transpose * (Matrix4x4.rotateAxis k a).linear = 1
      rw [(isRot_rotateAxis hk h0 ha).linear, rod_orth (unit_normalize hk h0)]
    · show (Matrix4x4.rotateAxis k a).linear.det = 1
      rw [(isRot_rotateAxis hk h0 ha).linear, rod_det (unit_normalize hk h0)]
  | lookAt o t up f ho ht hu h e =>
    refine ⟨.lookAt o t up f ho ht hu h e, ?_⟩
    obtain ⟨r, d, m, hd, hr, hrd, -, -, -, fM, aM, e', ff, af, hm, hl, -⟩ := lookAt_ok ho ht hu h
    rw [e'] at e; cases e
    show m.linear.transpose * m.linear = 1 ∧ m.linear.det = 1
    rw [hl, Matrix.transpose_transpose, Matrix.det_transpose, cols_det hd hr hrd]
    exact ⟨mul_eq_one_comm.1 (cols_orth hd hr hrd), rfl⟩
'''
    return d
hd='''import Verif.Props.RealMatrix
import Verif.Props.RealRotation
import Verif.Lemmas.LookAt
import Verif.Props.FloatMatrix
import Verif.Props.FloatEq
/-!
# Transforms in exact real arithmetic (layer R): C49-C52, C55

`Paired` (in `Verif.Spec.Real`): the two matrices of the transform are inverse to each other.
(Generated by tools/gen/gentx.py.)
-/

set_option linter.unusedSimpArgs false
set_option linter.unusedVariables false

namespace VecMath
open Scalar IEEE
open scoped Matrix

theorem Transform2.allFinite {t : Transform2 Ideal} : AllFinite t ↔ AllFinite t.forward ∧ AllFinite t.inverse := by
  unfold AllFinite
  show (∀ x ∈ Comps.comps t.forward ++ Comps.comps t.inverse, _) ↔ _
  simp only [List.mem_append, or_imp, forall_and]
theorem Transform3.allFinite {t : Transform3 Ideal} : AllFinite t ↔ AllFinite t.forward ∧ AllFinite t.inverse := by
  unfold AllFinite
  show (∀ x ∈ Comps.comps t.forward ++ Comps.comps t.inverse, _) ↔ _
  simp only [List.mem_append, or_imp, forall_and]

'''
tm=open('/tmp/w/tx_tmpl.lean').read()
import os
tail=open('/tmp/w/tx_tail.lean').read() if os.path.exists('/tmp/w/tx_tail.lean') else ''
open('/verif/lean/Verif/Props/RealTransform.lean','w').write(hd+T(tm).substitute(sub4(3))+T(tm).substitute(sub4(4))+tail+"end VecMath\n")
