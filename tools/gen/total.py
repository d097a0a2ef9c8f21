#!/usr/bin/env python3
"""Generate lean/Verif/Props/SourceTotal*.lean: no function of the source text panics (except five) or runs forever (C82)."""
import re,glob
dump=open('/tmp/w/dump.txt').read().split("\n")
# ---- theorems available
def binders(b):
    r={}
    order=[]
    for m in re.finditer(r"\(([^():]+) : ([^()]+)\)",b):
        for v in m.group(1).split():
            r[v]=m.group(2).strip(); order.append(v)
    return r,order
def short(t): return t[:-2] if t.endswith(" S") and not t.startswith("Vector S") else t
T={}
for f in sorted(glob.glob('/verif/lean/Verif/Props/Source[123T]*.lean')):
    if 'Total' in f or 'Text' in f: continue
    s=open(f).read()
    for m in re.finditer(r"theorem C81_(\S+) (.*?) :\n(.*?):= by",s,re.S):
        nm,b,st=m.groups()
        bt,order=binders(b)
        c=re.search(r'Src\.(method|assoc|free) S (\S+) b (.*?) =\n?',st,re.S) or re.search(r'Src\.(method|assoc|free) S (\S+) b (.*?) = ',st,re.S)
        kind,prim,rest=c.groups()
        ids=re.findall(r'\(i!"([^"]+)"\)',rest)
        lst=rest[rest.rindex("["):]
        al=[x.strip() for x in lst.strip()[1:-1].split(",") if x.strip()]
        if kind=="method":
            recv=re.search(r'\(i!"[^"]+"\) \((.*?)\) \[',rest).group(1)
            al=[recv]+al; name=ids[0]
        elif kind=="assoc": name=ids[0]+"::"+ids[1]
        else: name=ids[0]
        vs=[x.split()[-1] for x in al]
        tys=[short(bt[v]) for v in vs]
        ex=[v for v in order if v not in ("p","b")]
        assert ex==vs,(nm,ex,vs)
        outof="outOf" in st
        exi=st.strip().startswith("∃ place"); orr="∨" in st
        T[(kind,name,tuple(tys))]=(nm,prim,outof,exi,orr)
used=set()
# ---- types
def tyof(t):
    """source type -> (lean Ty, inversion lemma, fuel offset, model type short, prim)"""
    m=re.match(r"\[S;(\d+)\]$",t)
    if m: return f'(.arr (.path (i!"S") []) {m.group(1)})',f"is_arr{m.group(1)}",6,f"Vector S {m.group(1)}",None
    base=t.split("<")[0]
    lean=f'(.path (i!"{base}") {"[.path (i!"+chr(34)+"S"+chr(34)+") []]" if "<S>" in t else "[]"})'
    prim=None; mod=base
    m=re.match(r"(Vector2|Vector3|Point2|Point3|Matrix3x3|Matrix4x4)([fd])$",base)
    if m: prim={"f":"f32","d":"f64"}[m.group(2)]; mod=m.group(1); off=3
    elif base in("f32","f64"): prim=base; mod="S"; off=8
    elif base=="S" or base=="u32": off=8; mod={"S":"S","u32":"UInt32"}[base]
    elif base.startswith("Dimension"): off=7
    elif base[:3] in("Ray","Bou","Tra"): off=3
    else: off=4
    return lean,f"is_{base}",off,mod,prim
def head(t): return {"f32":"S","f64":"S"}.get(t.split("<")[0],t.split("<")[0])
def rp(mod,v): return f".sc {v}" if mod=="S" else f"rep {v}"
HEAD="""import Verif.Rust.Inhabit
import Verif.Rust.Total
import Verif.Props.Source1
import Verif.Props.Source2
import Verif.Props.Source3
import Verif.Props.SourceT2
import Verif.Props.SourceT3
/-! # No function of the source text panics or runs forever, part {0}

Generated by `tools/gen/total.py`. -/

namespace VecMath.Rust
open VecMath
variable {{S : Type}} [Scalar S]

"""
def argsexp(tys):
    """expansion of ArgsAre"""
    if not tys: return "args = []"
    e=""; cur="args"
    for k,t in enumerate(tys):
        e+=f"∃ v{k} r{k}, {cur} = v{k} :: r{k} ∧ Val.Is Src.crate p.id 9 {tyof(t)[0]} v{k} ∧ "; cur=f"r{k}"
    return e+f"{cur} = []"
def pat(tys):
    return "rfl" if not tys else "⟨"+"".join(f"_, _, rfl, h{k}, " for k in range(len(tys)))+"rfl⟩"
def invert(tys):
    o=""; prim=None
    for k,t in enumerate(tys):
        _,lem,off,mod,pr=tyof(t)
        P="p" if not prim else "."+prim
        l="" if lem.startswith("is_arr") else "_ "
        if pr and not prim:
            o+=f"  obtain ⟨rfl, a{k}, rfl⟩ := {lem} p {l}{off} _ h{k}\n"; prim=pr
        elif pr: o+=f"  obtain ⟨-, a{k}, rfl⟩ := {lem} {P} {l}{off} _ h{k}\n"
        else: o+=f"  obtain ⟨a{k}, rfl⟩ := {lem} {P} {l}{off} _ h{k}\n"
    return o,prim
impls={}
for l in dump:
    if l.startswith("L "):
        _,k,n=l.split(); impls[int(k)]=[]
missing=[]
def gen(l):
    _,k,j,trait,target,name,*ps=l.split(" ")
    ps=[p for p in ps if p]
    names=[p.split(":")[0] for p in ps]; tys=[p.split(":",1)[1] for p in ps]
    tys=[target if t=="Self" else t for t in tys]
    isself=bool(names) and names[0]=="self"
    mods=[tyof(t)[3] for t in tys]
    key=("method",name,tuple(mods)) if isself else ("assoc",head(target)+"::"+name,tuple(mods))
    inv,prim=invert(tys)
    P="."+prim if prim else "p"
    reps=[rp(m,f"a{i}") for i,m in enumerate(mods)]
    o=f"theorem total_{k}_{j} (p : Prim) (b : Build) : FnTotal S p b (Src.impl {k}) (Src.fn {k} {j}) := by\n  intro args h\n"
    o+=f"  have e : ArgsAre Src.crate p.id [((i!\"Self\"), (Src.impl {k}).target)] (Src.fn {k} {j}).params args =\n      ({argsexp(tys)}) := by kernel_rfl\n  rw [e] at h\n  obtain {pat(tys)} := h\n"+inv
    run=f"Src.run S {P} b (headTy Src.crate (Prim.id {P}) (Src.impl {k}).target) (Src.fn {k} {j}) [{', '.join(reps)}]"
    cs="" if prim else "cases p <;> "
    doc=f"/-- `{'' if trait=='-' else trait+' for '}{target}`: `{name}` -/\n"
    if key not in T:
        # direct
        direct={("S","min"):".sc (Scalar.fmin a0 a1)",("S","max"):".sc (Scalar.fmax a0 a1)"}
        kk=(head(target),name)
        if kk in direct:
            o+=f"  exact .inl ⟨{direct[kk]}, .sc a0, by {cs}kernel_rfl⟩\n"
            impls[int(k)].append(j); return doc+o
        missing.append((l,key)); impls[int(k)].append(j); return ""
    nm,tp,outof,exi,orr=T[key]; used.add(nm)
    call=f'Src.method S {P} b (i!"{name}") ({reps[0]}) [{", ".join(reps[1:])}]' if isself else f'Src.assoc S {P} b (i!"{head(target)}") (i!"{name}") [{", ".join(reps)}]'
    thm=f"C81_{nm} {P+' ' if not tp.startswith('.') else ''}b {' '.join(f'a{i}' for i in range(len(tys)))}".strip()
    if name in("half","two"): thm=f"C81_{nm} p b"
    o+=f"  have r : {run} =\n      {call} := by {cs}kernel_rfl\n"
    if orr: o+=f"  rcases {thm} with ⟨e, h, -⟩ | ⟨pl, h, -⟩\n  · exact .inr ⟨name_mem {k} {j} (i!\"{name}\") (by kernel_rfl) (by decide), e, r.trans h⟩\n  · exact .inl ⟨_, _, r.trans h⟩\n"
    elif outof: o+=f"  exact total_outOf _ _ _ (r.trans ({thm})) (fun _ => name_mem {k} {j} (i!\"{name}\") (by kernel_rfl) (by decide))\n"
    elif exi: o+=f"  obtain ⟨pl, h, -⟩ := {thm}\n  exact .inl ⟨_, _, r.trans h⟩\n"
    else: o+=f"  exact .inl ⟨_, _, r.trans ({thm})⟩\n"
    impls[int(k)].append(j)
    return doc+o
parts=[[],[],[],[]]
body=[]
for l in dump:
    if l.startswith("I "): body.append((int(l.split()[1]),gen(l)))
# split by impl index
K=sorted(impls); n=len(body)
chunks=[[] for _ in range(4)]
def which(k):
    tgt=[l for l in dump if l.startswith(f"I {k} ")]
    t=tgt[0].split(" ")[4] if tgt else "S"
    tr=tgt[0].split(" ")[3] if tgt else "-"
    if "4x4" in t or "Transform3" in t or "4x4" in tr: return 3
    if "3x3" in t or "Transform2" in t or "3x3" in tr: return 2
    if "3" in t or "3" in tr: return 1
    return 0
for k,o in body: chunks[which(k)].append(o)
for c,o in enumerate(chunks):
    open(f"/verif/lean/Verif/Props/SourceTotal{c+1}.lean","w").write(HEAD.format(c+1)+"\n".join(o)+"\nend VecMath.Rust\n")
# ---- free functions
traits={}
for l in dump:
    if l.startswith("I "):
        _,k,j,trait,target,*_=l.split(" ")
        traits.setdefault(int(k),(trait,target))
free=[]
nfree=0
for l in dump:
    if not l.startswith("F "): continue
    h,t=l[2:].split(" | "); j,*bounds=h.split(); bounds=[b for b in bounds if b]
    name,*ps=t.split(" "); ps=[p for p in ps if p]
    tys=[p.split(":",1)[1] for p in ps]
    nfree=int(j)+1
    def one(nmj,tv,tys,pre):
        inv,prim=invert(tys); P="."+prim if prim else "p"
        mods=[tyof(t)[3] for t in tys]; reps=[rp(m,f"a{i}") for i,m in enumerate(mods)]
        key=("free",name,tuple(mods))
        if key not in T: missing.append((l,key)); return ""
        nm,tp,_,_,_=T[key]; used.add(nm)
        thm=f"C81_{nm} {P+' ' if not tp.startswith('.') else ''}b {' '.join(f'a{i}' for i in range(len(tys)))}"
        return f"""theorem {nmj} (p : Prim) (b : Build) (args : List (Val S))
    (h : ArgsAre Src.crate p.id [{tv}] (Src.freeFn {j}).params args) :
    ∃ v, Src.free S p b (Src.freeFn {j}).name args = .ok v .unit := by
  have e : ArgsAre Src.crate p.id [{tv}] (Src.freeFn {j}).params args =
      ({argsexp(tys)}) := by kernel_rfl
  rw [e] at h
  obtain {pat(tys)} := h
{inv}  have n : (Src.freeFn {j}).name = (i!"{name}") := by kernel_rfl
  rw [n]
  exact ⟨_, {thm}⟩

"""
    if not bounds or bounds[0]=="Scalar":
        free.append(one(f"free_{j}_0","",tys,""))
        free.append(f"""theorem free_{j} (p : Prim) (b : Build) : FreeTotal S p b (Src.freeFn {j}) := by
  intro tv htv args h
  have e : TyArgs (Src.freeFn {j}) tv = (tv = []) := by kernel_rfl
  rw [e] at htv; subst htv
  exact free_{j}_0 p b args h

""")
    else:
        b0=bounds[0]; cases=[]
        for k in sorted(traits):
            tr,tg=traits[k]
            base=tr.split("<")[0]
            if base!=b0: continue
            U=tr[len(base)+1:-1] if "<" in tr else None
            tv=f'((i!"T"), {tyof(tg)[0]})'+(f', ((i!"U"), {tyof(U)[0]})' if U else "")
            ts=[tg if t=="T" else U if t=="U" else t for t in tys]
            free.append(one(f"free_{j}_{k}",tv,ts,""))
            cases.append((k,tv))
        cl=" ∨ ".join(f"tv = [{tv}]" for _,tv in cases)
        free.append(f"""theorem free_{j} (p : Prim) (b : Build) : FreeTotal S p b (Src.freeFn {j}) := by
  intro tv htv args h
  have e : TyArgs (Src.freeFn {j}) tv = (∃ i ∈ Src.crate.impls, ∃ l, i.trait = some ((i!"{b0}"), l) ∧
      tv = ((i!"T"), i.target) :: l.map fun u => ((i!"U"), u)) := by kernel_rfl
  rw [e] at htv
  have c := tyArgs_cases (i!"{b0}") _ tv htv
  have d : List.filterMap (tyArgsOf (i!"{b0}")) Src.crate.impls = [{", ".join(f"[{tv}]" for _,tv in cases)}] := by kernel_rfl
  rw [d] at c
  simp only [List.mem_cons, List.not_mem_nil, or_false] at c
  rcases c with {" | ".join("rfl" for _ in cases)}
{chr(10).join(f"  · exact free_{j}_{k} p b args h" for k,_ in cases)}

""")
qs=""
for k in sorted(impls):
    fns=impls[k]
    t="True.intro"
    for j in reversed(fns): t=f"And.intro (total_{k}_{j} (S := S) p b) ({t})"
    qs+=f"theorem total_{k} (p : Prim) (b : Build) : AllFns S p b (Src.impl {k}) (Src.impl {k}).fns := by\n  kernel_exact ({t})\n"
t="True.intro"
for k in reversed(sorted(impls)): t=f"And.intro (total_{k} (S := S) p b) ({t})"
ft="True.intro"
for k in reversed(range(nfree)): ft=f"And.intro (free_{k} (S := S) p b) ({ft})"
imps="".join(f"import Verif.Props.SourceTotal{c+1}\n" for c in range(4))
open("/verif/lean/Verif/Props/SourceTotal.lean","w").write(imps+"""/-! # No function of the source text panics or runs forever

Generated by `tools/gen/total.py`. -/

namespace VecMath.Rust
open VecMath
variable {S : Type} [Scalar S]

/-! ## Free functions -/

"""+"".join(free)+"""/-! ## All functions -/

"""+qs+f"""
set_option maxRecDepth 100000 in
theorem total_all (p : Prim) (b : Build) : AllImpls S p b Src.crate.impls := by
  kernel_exact ({t})

set_option maxRecDepth 100000 in
theorem free_all (p : Prim) (b : Build) : AllFree S p b Src.crate.fns := by
  kernel_exact ({ft})

/-- Every function of every `impl` block in the source text, called with any arguments of the types of its parameters,
returns a value: it does not panic (unless it is one of the five that may), overflow an integer or run forever. -/
theorem C82_methods (p : Prim) (b : Build) : ∀ i ∈ Src.crate.impls, ∀ f ∈ i.fns, FnTotal S p b i f :=
  allImpls_mem (total_all p b)

/-- The same for every free function (none of which may panic). -/
theorem C82_free (p : Prim) (b : Build) : ∀ f ∈ Src.crate.fns, FreeTotal S p b f :=
  allFree_mem (free_all p b)

end VecMath.Rust
""")
print("missing",len(missing))
for m in missing[:20]: print(m)
print("unused",[v[0] for v in T.values() if v[0] not in used])
