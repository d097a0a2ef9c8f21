exec(open('/tmp/w/genrt.py').read().split("tm=open('/tmp/w/rt_tmpl")[0])
def conj(l): return " ∧ ".join(l)
def sub5(n):
    d=sub3(n); D=n-1; cs='xyz'[:D]; d['B']=f"BoundingBox{D}"
    d['OFS']=", ".join(f".of (f {i})" for i in range(D)); d['TRIVS']=", ".join("trivial" for _ in cs)
    ex=[f"(b.max.toReal {i} - b.min.toReal {i})" for i in range(D)]
    nm=['width','height','depth'][:D]
    exm=[f"real b.{nm[i]} = b.max.toReal {i} - b.min.toReal {i}" for i in range(D)]
    if D==2:
        ms=['area']; mf=[f"real b.area = {ex[0]} * {ex[1]}"]
    else:
        ms=['surfaceArea','volume']
        mf=[f"real b.surfaceArea = 2 * ({ex[0]} * {ex[1]} + {ex[0]} * {ex[2]} + {ex[1]} * {ex[2]})", f"real b.volume = {ex[0]} * {ex[1]} * {ex[2]}"]
    d['MEAS']=conj(exm+mf)
    d['MUNF']=", ".join(f"BoundingBox{D}.{x}" for x in ms+nm+['size']+['diagonal_'+c for c in cs])
    d['MLE']=conj([f"(a.{m} ≤? b.{m}) = true" for m in ms])
    d['EAS']=", ".join([f"ea{i}" for i in range(D)]+[f"ma{i}" for i in range(len(ms))])
    d['EBS']=", ".join([f"eb{i}" for i in range(D)]+[f"mb{i}" for i in range(len(ms))])
    d['FMEAS']=conj([f"IsFinite b.{m}" for m in ms])
    d['FHOLES']=", ".join("?_" for m in ms)
    d['K01']="\n".join(f"  obtain ⟨k{i}, l{i}⟩ := key {i}" for i in range(D))
    d['EXTLE']="".join(f"    · show real a.{nm[i]} ≤ real b.{nm[i]}; rw [ea{i}, eb{i}]; exact l{i}\n" for i in range(D))
    acc=lambda k,i: ("%s.2"%k if len(ms)==1 else ["%s.2.1"%k,"%s.2.2"%k][i])
    MG=['exact mul_le_mul l0 l1 k1 (k0.trans l0)'] if D==2 else ['have := mul_le_mul l0 l1 k1 (k0.trans l0); have := mul_le_mul l0 l2 k2 (k0.trans l0); have := mul_le_mul l1 l2 k2 (k1.trans l1); linarith','exact mul_le_mul (mul_le_mul l0 l1 k1 (k0.trans l0)) l2 k2 (mul_nonneg (k0.trans l0) (k1.trans l1))']
    d['MEASLE']="".join(f"  · rw [Ideal.le_real {acc('fa',i)} {acc('fb',i)}, ma{i}, mb{i}]; "+MG[i]+"\n" for i in range(len(ms)))
    d['NC']=str(2**D)
    d['XX']='x'
    d['CHOLES']=", ".join("?_" for _ in cs)
    def good(c): return f"Slab.Good b.min.{c} b.max.{c} ray.origin.{c} ray.direction.{c}"
    def ins(c,t): return f"(real b.min.{c} ≤ real ray.origin.{c} + real ray.direction.{c} * {t} ∧ real ray.origin.{c} + real ray.direction.{c} * {t} ≤ real b.max.{c})"
    d['RINS']=conj([ins(c,'real s') for c in cs]); d['RINST']=conj([ins(c,'t') for c in cs])
    d['GOODS']=conj([good(c) for c in cs])
    pr=['h.1','h.2'] if D==2 else ['h.1','h.2.1','h.2.2']
    d['KMP']=", ".join(f"(key _ _ _ _).1 {p}" for p in pr); d['KMPR']=", ".join(f"(key _ _ _ _).2 {p}" for p in pr)
    d['DNZ']=" ∨ ".join(f"real ray.direction.{c} ≠ 0" for c in cs)
    P=lambda b: [b+'.1',b+'.2'] if D==2 else [b+'.1',b+'.2.1',b+'.2.2']
    lo=P('hb.1');hi=P('hb.2');o=P('hr.1');dd=P('hr.2');w=P('wb')
    d['WBS']="".join(f"  have w{i+1} := (Ideal.le_real {lo[i]} {hi[i]}).1 {w[i]}\n" for i in range(D))
    sets=""
    for i,c in enumerate(cs):
        s0='zero' if i==0 else f's{i}'; e0='infinity' if i==0 else f'e{i}'
        a=f"b.min.{c} b.max.{c} ray.origin.{c} ray.direction.{c}"
        sets+=f"  set s{i+1} : Ideal := fmax {s0} (Slab.near {a}) with hs{i+1}\n  set e{i+1} : Ideal := fmin {e0} (Slab.far {a}) with he{i+1}\n"
    d['SETS']=sets.rstrip("\n")
    ite=f"if s{D} ≤? e{D} then some ⟨s{D}, e{D}⟩ else none"
    for i in range(D-1,0,-1): ite=f"if s{i} >? e{i} then none else {ite}"
    d['ITE']=ite
    hg=P('hg')
    steps=""
    for i in range(D):
        ns='z0' if i==0 else f'g{i}.1.1'; ne='i0' if i==0 else f'g{i}.1.2.1'
        steps+=f"    have g{i+1} := Slab.step_good {lo[i]} {hi[i]} {o[i]} {dd[i]} w{i+1} {hg[i]} {ns} {ne}\n"
        steps+=f"    rw [← hs{i+1}, ← he{i+1}] at g{i+1}\n"
    d['STEPS']=steps; d['LASTN']=f"g{D}"
    ch=lambda f: (f"({f(1)}.trans {f(2)})" if D==2 else f"(({f(1)}.trans {f(2)}).trans {f(3)})")
    d['ZCHAIN']=ch(lambda i: f"g{i}.1.2.2.1")
    tc="rcases hd0 with "+" | ".join("h" for _ in cs)+"\n"
    for i in range(D):
        t=f"(g{i+1}.2.1 h)"
        tail="".join(f"(g{k}.1.2.2.2)|" for k in range(i+2,D+1)).strip('|').split('|') if i+2<=D else []
        expr=t
        for k in range(i+2,D+1): expr=f"(lt_of_le_of_lt g{k}.1.2.2.2 {expr})"
        tc+=f"      · exact {expr}\n"
    d['TOPCASES']=tc.rstrip("\n").lstrip()
    co=""
    co="split_ifs with "+" ".join(f"h{i}" for i in range(1,D))+" <;> first | rfl | skip\n"
    # after: goals where early exit taken but s_D<=e_D
    co=""
    for i in range(1,D):
        co+=f"have c{i} : (s{i} >? e{i}) = true → ¬ (s{D} ≤? e{D}) = true := by\n"
        s=f"g{i+1}.1.2.2.1"; e=f"g{i+1}.1.2.2.2"
        for k in range(i+2,D+1): s=f"({s}.trans g{k}.1.2.2.1)"; e=f"(g{k}.1.2.2.2.trans {e})"
        co+=f"        intro h h'\n        have h := (lt_of_not_nan g{i}.1.2.1 g{i}.1.1).1 h\n        have h' := (le_of_not_nan g{D}.1.1 g{D}.1.2.1).1 h'\n        exact absurd (h.trans_le ({s}.trans (h'.trans {e}))) (lt_irrefl _)\n      "
    co+="split_ifs with "+" ".join(f"h{i}" for i in range(1,D+1))+" <;> first | rfl | (exfalso; first | exact c1 ‹_› ‹_›"+(" | exact c2 ‹_› ‹_›" if D==3 else "")+")"
    d['COLLAPSE']=co
    d['RWS']=", ".join(f"g{i}.2.2 u" for i in range(D,0,-1))
    fs=""
    for i in range(D):
        ns='z0' if i==0 else f'f{i}.1'; ne='i0' if i==0 else f'f{i}.2.1'
        c=cs[i]
        fs+=f"    have f{i+1} : ¬ IsNaN s{i+1} ∧ ¬ IsNaN e{i+1} ∧ val {'(zero : Ideal)' if i==0 else f's{i}'} ≤ val s{i+1} ∧ val e{i+1} ≤ val {'(infinity : Ideal)' if i==0 else f'e{i}'} := by\n"
        fs+=f"      by_cases h : {good(c)}\n      · exact (Slab.step_good {lo[i]} {hi[i]} {o[i]} {dd[i]} w{i+1} h {ns} {ne}).1\n      · exact (Slab.step_face {lo[i]} {hi[i]} {o[i]} {dd[i]} h {ns} {ne}).1\n"
    d['FSTEPS']=fs; d['LASTF']=f"f{D}"
    inf="      rw ["+", ".join("not_and_or" for _ in range(D-1))+"] at hg\n      rcases hg with "+" | ".join("h" for _ in cs)+"\n"
    for i in range(D):
        ns='z0' if i==0 else f'f{i}.1'; ne='i0' if i==0 else f'f{i}.2.1'
        S=f"top_le_iff.1 (h.symm.le"; 
        s="".join(f".trans (f{k}.2.2.1" for k in range(i+2,D+1))+")"*(D-i-1)
        e="le_bot_iff.1 ("+ "".join(f"f{k}.2.2.2.trans (" for k in range(D,i+1,-1))+"h.le"+")"*(D-i-1)+")"
        inf+=f"      · rcases (Slab.step_face {lo[i]} {hi[i]} {o[i]} {dd[i]} h {ns} {ne}).2 with h | h\n        · rw [← hs{i+1}] at h; left; exact top_le_iff.1 (h.symm.le{s})\n        · rw [← he{i+1}] at h; right; exact {e}\n"
    d['INFS']=inf
    # top: some d_i nonzero => Good in that dim
    tf="      rcases hd0 with "+" | ".join("h" for _ in cs)+"\n"
    for i in range(D):
        ns='z0' if i==0 else f'f{i}.1'; ne='i0' if i==0 else f'f{i}.2.1'
        expr=f"((Slab.step_good {lo[i]} {hi[i]} {o[i]} {dd[i]} w{i+1} (.inl h) {ns} {ne}).2.1 h)"
        for k in range(i+2,D+1): expr=f"(lt_of_le_of_lt f{k}.2.2.2 {expr})"
        tf+=f"      · exact {expr}\n"
    d['TOPF']=tf
    d['ZCHAINF']=ch(lambda i: f"f{i}.2.2.1")
    d['CIDX']="["+", ".join(str(i) for i in range(1,2**D))+"]"
    bits=lambda k: "["+", ".join("true" if (i>>k)&1 else "false" for i in range(1,2**D))+"]"
    comp=lambda f: ", ".join(f"{f} (chainMin o.{c} (o.{c} + d.{c}) {bits(k)}) (chainMax o.{c} (o.{c} + d.{c}) {bits(k)})" for k,c in enumerate(cs))
    corn=f"  have hF : (fun (mm : Point{D} Ideal × Point{D} Ideal) => BoundingBox{D}.new mm.1 mm.2) ({d['CIDX']}.foldl (Transform{D}.boxStep o d) (o, o)) =\n      ⟨⟨{comp('fmin')}⟩,\n       ⟨{comp('fmax')}⟩⟩ := rfl\n  rw [hF]\n"
    for k,c in enumerate(cs):
        corn+=f"  have c{k} := chain_spec {P('fo')[k]} (Ideal.finite_add {P('fo')[k]} {P('fv')[k]}) (l := {bits(k)}) (by simp)\n  rw [Ideal.real_add {P('fo')[k]} {P('fv')[k]}] at c{k}\n"
    ch=", ".join
    corn+=f"  refine ⟨?_, fun i => ?_, fun i => ?_⟩\n  · rw [BoundingBox{D}.allFinite, Point{D}.allFinite, Point{D}.allFinite]\n    exact ⟨⟨{ch(f'c{k}.1' for k in range(D))}⟩, ⟨{ch(f'c{k}.2.1' for k in range(D))}⟩⟩\n"
    corn+=f"  · fin_cases i\n"+"".join(f"    · exact c{k}.2.2.1\n" for k in range(D))
    corn+=f"  · fin_cases i\n"+"".join(f"    · exact c{k}.2.2.2\n" for k in range(D))
    d['CORN']=corn
    return d
hd='''import Verif.Lemmas.Slab
import Verif.Props.FloatBoxMeasure
import Verif.Props.RealTransform
/-!
# Bounding boxes in exact real arithmetic (layer R): C31, C32, C35, C37, C56

(Generated by tools/gen/genrb.py.)
-/

set_option linter.unusedSimpArgs false
set_option linter.unusedVariables false

namespace VecMath
open Scalar IEEE
open scoped Matrix

/-- `min` of `o` and then, for each flag, of `e` or `o`. -/
noncomputable def chainMin (o e : Ideal) (l : List Bool) : Ideal := l.foldl (fun a b => fmin a (if b then e else o)) o
/-- see `chainMin` -/
noncomputable def chainMax (o e : Ideal) (l : List Bool) : Ideal := l.foldl (fun a b => fmax a (if b then e else o)) o
theorem chain_spec {o e : Ideal} (ho : IsFinite o) (he : IsFinite e) {l : List Bool} (hl : true ∈ l) :
    IsFinite (fmin (chainMin o e l) (chainMax o e l)) ∧ IsFinite (fmax (chainMin o e l) (chainMax o e l)) ∧
    real (fmin (chainMin o e l) (chainMax o e l)) = min (real o) (real e) ∧
    real (fmax (chainMin o e l) (chainMax o e l)) = max (real o) (real e) := by
  have k1 : ∀ (l : List Bool) (a : Ideal), IsFinite a → min (real o) (real e) ≤ real a → real a ≤ real o →
      IsFinite (l.foldl (fun a b => fmin a (if b then e else o)) a) ∧
      min (real o) (real e) ≤ real (l.foldl (fun a b => fmin a (if b then e else o)) a) ∧
      real (l.foldl (fun a b => fmin a (if b then e else o)) a) ≤ real a ∧
      (true ∈ l → real (l.foldl (fun a b => fmin a (if b then e else o)) a) ≤ real e) := by
    intro l
    induction l with
    | nil => intro a ha h1 h2; simp [ha, h1]
    | cons b l ih =>
      intro a ha h1 h2
      have fx : IsFinite (if b then e else o) := by split_ifs <;> assumption
      have rx : real (fmin a (if b then e else o)) = min (real a) (real (if b then e else o)) := Ideal.real_min ha fx
      have := ih (fmin a (if b then e else o)) (Ideal.finite_min ha fx)
        (by rw [rx]; exact le_min h1 (by split_ifs <;> simp)) (by rw [rx]; exact (min_le_left _ _).trans h2)
      rw [List.foldl_cons]
      refine ⟨this.1, this.2.1, this.2.2.1.trans (by rw [rx]; exact min_le_left _ _), fun hm => ?_⟩
      rcases List.mem_cons.1 hm with h | h
      · subst h; exact this.2.2.1.trans (by rw [rx]; exact min_le_right _ _)
      · exact this.2.2.2 h
  have k2 : ∀ (l : List Bool) (a : Ideal), IsFinite a → real a ≤ max (real o) (real e) → real o ≤ real a →
      IsFinite (l.foldl (fun a b => fmax a (if b then e else o)) a) ∧
      real (l.foldl (fun a b => fmax a (if b then e else o)) a) ≤ max (real o) (real e) ∧
      real a ≤ real (l.foldl (fun a b => fmax a (if b then e else o)) a) ∧
      (true ∈ l → real e ≤ real (l.foldl (fun a b => fmax a (if b then e else o)) a)) := by
    intro l
    induction l with
    | nil => intro a ha h1 h2; simpa [ha] using h1
    | cons b l ih =>
      intro a ha h1 h2
      have fx : IsFinite (if b then e else o) := by split_ifs <;> assumption
      have rx : real (fmax a (if b then e else o)) = max (real a) (real (if b then e else o)) := Ideal.real_max ha fx
      have := ih (fmax a (if b then e else o)) (Ideal.finite_max ha fx)
        (by rw [rx]; exact max_le h1 (by split_ifs <;> simp)) (by rw [rx]; exact h2.trans (le_max_left _ _))
      rw [List.foldl_cons]
      refine ⟨this.1, this.2.1, le_trans (by rw [rx]; exact le_max_left _ _) this.2.2.1, fun hm => ?_⟩
      rcases List.mem_cons.1 hm with h | h
      · subst h; exact le_trans (by rw [rx]; exact le_max_right _ _) this.2.2.1
      · exact this.2.2.2 h
  have ⟨f1, l1, u1, m1⟩ := k1 l o ho (min_le_left _ _) le_rfl
  obtain ⟨f2, l2, u2, m2⟩ := k2 l o ho (le_max_left _ _) le_rfl
  have e1 : real (chainMin o e l) = min (real o) (real e) := le_antisymm (le_min u1 (m1 hl)) l1
  have e2 : real (chainMax o e l) = max (real o) (real e) := le_antisymm l2 (max_le u2 (m2 hl))
  change IsFinite (chainMin o e l) at f1
  change IsFinite (chainMax o e l) at f2
  have hle : min (real o) (real e) ≤ max (real o) (real e) := min_le_max
  refine ⟨Ideal.finite_min f1 f2, Ideal.finite_max f1 f2, ?_, ?_⟩
  · rw [Ideal.real_min f1 f2]
    show min (real (chainMin o e l)) (real (chainMax o e l)) = _
    rw [e1, e2, min_eq_left hle]
  · rw [Ideal.real_max f1 f2]
    show max (real (chainMin o e l)) (real (chainMax o e l)) = _
    rw [e1, e2, max_eq_right hle]

'''
if __name__=='__main__':
    import os
    tm=open('/tmp/w/rb_tmpl.lean').read()
    tail=open('/tmp/w/rb_tail.lean').read() if os.path.exists('/tmp/w/rb_tail.lean') else ''
    open('/verif/lean/Verif/Props/RealBox.lean','w').write(hd+T(tm).substitute(sub5(3))+T(tm).substitute(sub5(4))+tail+"end VecMath\n")
