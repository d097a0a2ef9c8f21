out=['''import Verif.Lemmas.Num
/-!
# Entries of matrices

Each lemma unfolds one entry of a model expression; all hold by definition.
(Generated by tools/genmat.py.)
-/

set_option linter.unusedSectionVars false

namespace VecMath
open Scalar
variable {S : Type} [Scalar S]
''']
names=[]
def blk(n,M,P,V):
    cs='xyz'[:n-1]
    N=n*n
    out.append(f"namespace {M}")
    def L(name,args,lhs,rhs,pf="rfl"):
        out.append(f"@[simp] theorem {name} {args} : {lhs} = {rhs} := {pf}")
    for nm,op in (("muls","*"),("divs","/")):
        out.append(f"theorem {nm} (a : {M} S) (s : S) (i : Nat) (h : i < {N}) : (a {op} s).m[i] = a.m[i] {op} s := by")
        out.append(f"  show (Vector.ofFn fun i => a.m[i] {op} s)[i] = _")
        out.append(f"  rw [Vector.getElem_ofFn]; rfl")
    for i in range(n):
        for j in range(n):
            k=i*n+j
            L(f"mm_{k}",f"(a b : {M} S)",f"(a * b).m[{k}]"," + ".join(f"a.m[{i*n+l}] * b.m[{l*n+j}]" for l in range(n)))
            L(f"transpose_{k}",f"(a : {M} S)",f"a.transpose.m[{k}]",f"a.m[{j*n+i}]")
            L(f"identity_{k}",f"",f"({M}.identity : {M} S).m[{k}]","one" if i==j else "zero")
            L(f"translate_{k}",f"(v : {V} S)",f"({M}.translate v).m[{k}]","one" if i==j else (f"v.{cs[i]}" if j==n-1 else "zero"))
            args=' '.join('s'+c for c in cs)
            L(f"scale_{k}",f"({args} : S)",f"({M}.scale {args}).m[{k}]",("one" if i==n-1 else f"s{cs[i]}") if i==j else "zero")
            L(f"scaleUniform_{k}",f"(s : S)",f"({M}.scaleUniform s).m[{k}]",("one" if i==n-1 else f"s") if i==j else "zero")
            L(f"muls_{k}",f"(a : {M} S) (s : S)",f"(a * s).m[{k}]",f"a.m[{k}] * s",f"muls a s {k} (by omega)")
            L(f"divs_{k}",f"(a : {M} S) (s : S)",f"(a / s).m[{k}]",f"a.m[{k}] / s",f"divs a s {k} (by omega)")
            L(f"new_{k}",f"(a : Vector S {N})",f"({M}.new a).m[{k}]",f"a[{k}]")
    def row(i,p,t): 
        s=" + ".join(f"m.m[{i*n+l}] * {p}.{cs[l]}" for l in range(n-1))
        return s+(f" + m.m[{i*n+n-1}]" if t else "")
    def col(i,p,t): 
        s=" + ".join(f"{p}.{cs[l]} * m.m[{l*n+i}]" for l in range(n-1))
        return s+(f" + m.m[{(n-1)*n+i}]" if t else "")
    for i,c in enumerate(cs):
        L(f"mulp_{c}",f"(m : {M} S) (p : {P} S)",f"(m * p).{c}",f"({row(i,'p',1)}) / ({row(n-1,'p',1)})")
        L(f"mulv_{c}",f"(m : {M} S) (p : {V} S)",f"(m * p).{c}",f"{row(i,'p',0)}")
        L(f"pmul_{c}",f"(m : {M} S) (p : {P} S)",f"(p * m).{c}",f"({col(i,'p',1)}) / ({col(n-1,'p',1)})")
        L(f"vmul_{c}",f"(m : {M} S) (p : {V} S)",f"(p * m).{c}",f"{col(i,'p',0)}")
    names.extend([f"{M}.{t}_{k}" for t in ("mm","transpose","identity","translate","scale","scaleUniform","muls","divs","new") for k in range(N)])
    names.extend([f"{M}.{t}_{c}" for t in ("mulp","mulv","pmul","vmul") for c in cs])
    out.append(f"end {M}\n")
blk(3,'Matrix3x3','Point2','Vector2')
blk(4,'Matrix4x4','Point3','Vector3')
for n,M in ((9,'Matrix3x3'),(16,'Matrix4x4')):
    out.append(f'''theorem {M}.sameAll [IEEE S] {{a b : {M} S}} :
    SameAll a b ↔ ∀ (i : ℕ) (h : i < {n}), IEEE.Same a.m[i] b.m[i] := by
  obtain ⟨⟨⟨a⟩, ha⟩⟩ := a
  obtain ⟨⟨⟨b⟩, hb⟩⟩ := b
  simp only [SameAll, Comps.comps]
  rw [List.forall₂_iff_get]
  simp at ha hb
  simp [ha, hb]
theorem {M}.noNaN [IEEE S] {{m : {M} S}} :
    NoNaN m ↔ ∀ (i : ℕ) (h : i < {n}), ¬ IEEE.IsNaN m.m[i] := by
  simp only [NoNaN, Comps.comps, Vector.mem_toList_iff]
  constructor
  · intro h i hi; exact h _ (Vector.getElem_mem hi)
  · rintro h s hs
    obtain ⟨i, hi, rfl⟩ := Vector.getElem_of_mem hs
    exact h i hi
''')
import textwrap
out.append("set_option maxRecDepth 10000 in\n/-- Unfold entries of matrices. -/\nmacro \"mat_simp\" \"[\" hs:Lean.Parser.Tactic.simpLemma,* \"]\" : tactic =>\n  `(tactic| set_option linter.unusedSimpArgs false in simp only [\n"+"\n".join(textwrap.wrap(", ".join(names),100,initial_indent="    ",subsequent_indent="    "))+",\n    $hs,*])\n")
out.append("end VecMath")
open('/verif/lean/Verif/Lemmas/Mat.lean','w').write("\n".join(out)+"\n")
