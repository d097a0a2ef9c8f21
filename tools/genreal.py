import string
class T(string.Template): delimiter='$'
head='''import Verif.Lemmas.Mat
import Mathlib.Analysis.InnerProductSpace.PiL2
import Mathlib.LinearAlgebra.CrossProduct
/-!
# From exact scalars to real vectors

On finite values of `Ideal` the crate's vector operations are the real vector operations; `==` is equality.
(Generated by tools/genreal.py.)
-/

namespace VecMath
open Scalar IEEE

/-- `simp` set: finiteness and real value of an `Ideal` expression. -/
macro "ideal_simp" "[" hs:Lean.Parser.Tactic.simpLemma,* "]" : tactic =>
  `(tactic| simp (maxDischargeDepth := 20) [Ideal.finite_add, Ideal.real_add, Ideal.finite_sub, Ideal.real_sub, Ideal.finite_mul,
    Ideal.real_mul, finite_neg, IEEE.real_neg, $hs,*])
'''
tm='''
/-! ## Dimension $D -/

/-- The vector as an element of Euclidean space. -/
noncomputable def Vector$D.toE (v : Vector$D Ideal) : EuclideanSpace ℝ (Fin $D) := WithLp.toLp 2 v.toReal
/-- The point as an element of Euclidean space. -/
noncomputable def Point$D.toE (v : Point$D Ideal) : EuclideanSpace ℝ (Fin $D) := WithLp.toLp 2 v.toReal

section
variable {u v : Vector$D Ideal} {p q : Point$D Ideal} {s : Ideal}

theorem Vector$D.beq_toReal (hu : AllFinite u) (hv : AllFinite v) :
    (u == v) = true ↔ u.toReal = v.toReal := by
  rw [Vector$D.allFinite] at hu hv
  obtain ⟨$HA⟩ := hu
  obtain ⟨$HB⟩ := hv
  rw [Vector$D.beq_iff]
  simp [Ideal.beq_real, Vector$D.toReal, *]
theorem Point$D.beq_toReal (hu : AllFinite p) (hv : AllFinite q) :
    (p == q) = true ↔ p.toReal = q.toReal := by
  rw [Point$D.allFinite] at hu hv
  obtain ⟨$HA⟩ := hu
  obtain ⟨$HB⟩ := hv
  rw [Point$D.beq_iff]
  simp [Ideal.beq_real, Point$D.toReal, *]
'''
def bin(name,op,ta,tb,tc,rhs):
    return f'''
theorem {tc}$D.fin_{name} {{a : {ta}$D Ideal}} {{b : {tb}$D Ideal}} (ha : AllFinite a) (hb : AllFinite b) :
    AllFinite (a {op} b) := by
  rw [{ta}$D.allFinite] at ha
  rw [{tb}$D.allFinite] at hb
  rw [{tc}$D.allFinite]
  obtain ⟨$HA⟩ := ha
  obtain ⟨$HB⟩ := hb
  exact ⟨$FIN⟩
theorem {tc}$D.toReal_{name} {{a : {ta}$D Ideal}} {{b : {tb}$D Ideal}} (ha : AllFinite a) (hb : AllFinite b) :
    (a {op} b).toReal = a.toReal {op} b.toReal := by
  rw [{ta}$D.allFinite] at ha
  rw [{tb}$D.allFinite] at hb
  obtain ⟨$HA⟩ := ha
  obtain ⟨$HB⟩ := hb
  simp only [{ta}$D.toReal, {tb}$D.toReal, {tc}$D.toReal]
  ext i; fin_cases i
  $CASES
'''.replace('$FIN',", ".join(f"Ideal.finite_{'add' if op=='+' else 'sub'} ha{{}} hb{{}}".replace("{}",c) for c in "XYZ")).replace('$CASES',"\n  ".join(f"· exact Ideal.real_{'add' if op=='+' else 'sub'} ha{c} hb{c}" for c in "XYZ"))
def un(name,ty,args,hyp,lhs,rhs,fin,real):
    return f'''
theorem {ty}$D.fin_{name} {{a : {ty}$D Ideal}} {args}(ha : AllFinite a){hyp} : AllFinite ({lhs}) := by
  rw [{ty}$D.allFinite] at ha ⊢
  obtain ⟨$HA⟩ := ha
  exact ⟨{", ".join(fin.replace("{}",c) for c in "XYZ")}⟩
theorem {ty}$D.toReal_{name} {{a : {ty}$D Ideal}} {args}(ha : AllFinite a){hyp} :
    ({lhs}).toReal = {rhs} := by
  rw [{ty}$D.allFinite] at ha
  obtain ⟨$HA⟩ := ha
  simp only [{ty}$D.toReal]
  ext i; fin_cases i
  ''' + "\n  ".join(f"· {real}".replace("{}",c) for c in "XYZ")+"\n"
parts=[tm,
 bin('add','+','Vector','Vector','Vector',''),
 bin('sub','-','Vector','Vector','Vector',''),
 bin('addv','+','Point','Vector','Point',''),
 bin('subv','-','Point','Vector','Point',''),
 bin('subp','-','Point','Point','Vector','')]
for ty in ('Vector','Point'):
    parts.append(un('neg',ty,'','','-a','-a.toReal','finite_neg.2 ha{}','exact IEEE.real_neg _'))
    parts.append(un('mul',ty,'',' (hs : IsFinite s)','a * s','real s • a.toReal','Ideal.finite_mul ha{} hs','exact (Ideal.real_mul ha{} hs).trans (mul_comm _ _)'))
    parts.append(un('div',ty,'',' (hs : IsFinite s) (h0 : real s ≠ 0)','a / s','(real s)⁻¹ • a.toReal','Ideal.finite_div ha{} hs h0','exact (Ideal.real_div ha{} hs h0).trans (div_eq_inv_mul _ _)'))
parts.append('''
theorem Vector$D.fin_dot (hu : AllFinite u) (hv : AllFinite v) : IsFinite (Api.dot u v) := by
  rw [Vector$D.allFinite] at hu hv
  rw [Vector$D.dot_def]
  simp (maxDischargeDepth := 20) only [Ideal.finite_add, Ideal.finite_mul, hu, hv]
theorem Vector$D.real_dot (hu : AllFinite u) (hv : AllFinite v) :
    real (Api.dot u v) = u.toReal ⬝ᵥ v.toReal := by
  rw [Vector$D.allFinite] at hu hv
  rw [Vector$D.dot_def]
  simp (maxDischargeDepth := 20) only [Ideal.real_add, Ideal.finite_add, Ideal.real_mul, Ideal.finite_mul, hu, hv]
  simp [Vector$D.toReal, dotProduct, Fin.sum_univ_succ$ASSOC]
theorem Vector$D.real_dot_self_nonneg (hu : AllFinite u) : 0 ≤ real (Api.dot u u) := by
  rw [Vector$D.real_dot hu hu]
  exact Finset.sum_nonneg fun i _ => mul_self_nonneg _
theorem Vector$D.fin_length (hu : AllFinite u) : IsFinite (Api.length u) :=
  Ideal.finite_sqrt (Vector$D.fin_dot hu hu) (Vector$D.real_dot_self_nonneg hu)
theorem Vector$D.real_length (hu : AllFinite u) : real (Api.length u) = ‖u.toE‖ := by
  rw [Vector$D.length_def, Ideal.real_sqrt (Vector$D.fin_dot hu hu) (Vector$D.real_dot_self_nonneg hu),
    Vector$D.real_dot hu hu, EuclideanSpace.norm_eq]
  congr 1
  simp [Vector$D.toE, dotProduct, sq]
theorem Vector$D.real_length_sq (hu : AllFinite u) :
    real (Api.length u) * real (Api.length u) = u.toReal ⬝ᵥ u.toReal := by
  rw [Vector$D.length_def, Ideal.real_sqrt (Vector$D.fin_dot hu hu) (Vector$D.real_dot_self_nonneg hu),
    ← Vector$D.real_dot hu hu]
  exact Real.mul_self_sqrt (Vector$D.real_dot_self_nonneg hu)
theorem Point$D.fin_distance (hp : AllFinite p) (hq : AllFinite q) : IsFinite (Api.distance p q) :=
  Vector$D.fin_length (Vector$D.fin_subp hq hp)
theorem Point$D.real_distance (hp : AllFinite p) (hq : AllFinite q) :
    real (Api.distance p q) = dist p.toE q.toE := by
  rw [Point$D.distance_def, Vector$D.real_length (Vector$D.fin_subp hq hp), dist_comm, dist_eq_norm]
  congr 1
  unfold Vector$D.toE Point$D.toE
  rw [Vector$D.toReal_subp hq hp]; rfl
theorem Vector$D.real_length_eq_zero (hu : AllFinite u) : real (Api.length u) = 0 ↔ u.toReal = 0 := by
  rw [Vector$D.real_length hu, norm_eq_zero]
  unfold Vector$D.toE
  simp
theorem Vector$D.fin_normalize (hu : AllFinite u) (h : u.toReal ≠ 0) : AllFinite u.normalize :=
  Vector$D.fin_div hu (Vector$D.fin_length hu) (mt (Vector$D.real_length_eq_zero hu).1 h)
theorem Vector$D.toReal_normalize (hu : AllFinite u) (h : u.toReal ≠ 0) :
    u.normalize.toReal = ‖u.toE‖⁻¹ • u.toReal := by
  rw [← Vector$D.real_length hu]
  exact Vector$D.toReal_div hu (Vector$D.fin_length hu) (mt (Vector$D.real_length_eq_zero hu).1 h)
theorem Vector$D.fin_zero : AllFinite (Vector$D.zero : Vector$D Ideal) := by
  rw [Vector$D.allFinite]; exact ⟨$TRIV⟩
theorem Vector$D.toReal_zero : (Vector$D.zero : Vector$D Ideal).toReal = 0 := by
  unfold Vector$D.toReal; ext i; fin_cases i <;> exact real_zero (S := Ideal)
end
''')
tail='''
section
variable {u v : Vector3 Ideal}
theorem Vector3.fin_cross (hu : AllFinite u) (hv : AllFinite v) : AllFinite (Api.cross u v) := by
  rw [Vector3.allFinite] at hu hv ⊢
  simp only [Vector3.cross_x, Vector3.cross_y, Vector3.cross_z, Ideal.finite_sub, Ideal.finite_mul, hu, hv,
    and_self]
theorem Vector3.toReal_cross (hu : AllFinite u) (hv : AllFinite v) :
    (Api.cross u v).toReal = crossProduct u.toReal v.toReal := by
  rw [Vector3.allFinite] at hu hv
  rw [cross_apply]
  simp only [Vector3.toReal, Vector3.cross_x, Vector3.cross_y, Vector3.cross_z, Ideal.real_sub,
    Ideal.finite_mul, Ideal.real_mul, hu, hv]
  rfl
end

/-- Turn `==` between finite exact vectors and points into equations of real vectors. -/
macro "rv_simp" "[" hs:Lean.Parser.Tactic.simpLemma,* "]" : tactic =>
  `(tactic| set_option linter.unusedSimpArgs false in simp (maxDischargeDepth := 40) only [
$LEMS
    $hs,*])

end VecMath
'''
def inst(D):
    s="".join(parts)
    cs="XYZ"[:D]
    d=dict(D=str(D),HA=", ".join("ha"+c for c in cs),HB=", ".join("hb"+c for c in cs),TRIV=", ".join(["trivial"]*D),ASSOC=", add_assoc" if D==3 else "")
    if D==2:
        import re
        s=re.sub(r", [^,⟨⟩]*haZ[^,⟨⟩]*(?=⟩)","",s)
        s=re.sub(r", finite_neg.2 haZ","",s)
        s="\n".join(l for l in s.split("\n") if not re.match(r"\s+· .*haZ",l))
        # neg has 3 identical lines
        s=s.replace("  · exact IEEE.real_neg _\n  · exact IEEE.real_neg _\n  · exact IEEE.real_neg _\n","  · exact IEEE.real_neg _\n  · exact IEEE.real_neg _\n")
    return T(s).substitute(d)
names=[]
for D in (2,3):
    for t,l in (('Vector','beq_toReal add sub subp neg mul div dot real_dot length real_length_sq zero'),('Point','beq_toReal addv subv neg mul div distance')):
        for n in l.split():
            if n.startswith('real') or n.startswith('beq'): names.append(f'{t}{D}.{n}')
            else:
                names.append(f'{t}{D}.fin_{n}')
                if n not in('dot','length','distance'): names.append(f'{t}{D}.toReal_{n}')
names+=['Vector3.fin_cross','Vector3.toReal_cross','Ideal.finite_add','Ideal.finite_sub','Ideal.finite_mul','Ideal.real_add','Ideal.real_sub','Ideal.real_mul','finite_zero','finite_one','real_zero','real_one','finite_two','real_two','finite_half','real_half','finite_neg','IEEE.real_neg']
import textwrap
tail=tail.replace('$LEMS',"\n".join(textwrap.wrap(", ".join(names)+",",100,initial_indent="    ",subsequent_indent="    ")))
open('/verif/lean/Verif/Lemmas/Real.lean','w').write(head+inst(2)+inst(3)+tail)
