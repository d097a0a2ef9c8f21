#!/usr/bin/env python3
"""Generate lean/Verif/Props/Source*.lean: every function of the source text computes what the model says (C81)."""
import re
out=[]; names=[]
def camel(s):
    a=s.split('_'); return a[0]+''.join(x.capitalize() for x in a[1:])
def I(s): return f'(i!"{s}")'
def thm(name, binders, lhs, rhs, pre="", prim=None, slow=False):
    """straight-line: the kernel evaluates both sides"""
    b="" if prim else "(p : Prim) "
    lhs=lhs.replace("PRIM", "."+prim if prim else "p")
    cs=" <;> ".join((["cases p"] if not prim else [])+([f"cases {x}" for x in pre.split()]))
    tac=(cs+" <;> kernel_rfl") if cs else "kernel_rfl"
    out.append(f"theorem C81_{name} {b}(b : Build) {binders} :\n    {lhs} =\n      {rhs} := by\n  {tac}\n")
    names.append(name)
def branch(name, binders, lhs, residual, conds, rhs, pre="", build=False):
    """residual: text with {0},{1}.. the conditions; rhs: the claim; conds: list of Bool terms"""
    lhs=lhs.replace("PRIM","p")
    cs=" <;> ".join(["cases p"]+[f"cases {x}" for x in pre.split()])
    vs=["c%d"%i for i in range(len(conds))]
    h=residual.format(*["("+c+")" for c in conds])
    out.append(f"theorem C81_{name} (p : Prim) (b : Build) {binders} :\n    {lhs} =\n      {rhs} := by\n"
      f"  have h : {lhs} =\n      {h} := by\n    {cs} <;> kernel_rfl\n"
      f"  refine h.trans ?_\n"
      + "".join(f"  cases h{i} : ({c}) <;>\n" for i,c in enumerate(conds)) + "  SIMP\n")
    names.append(name)
def M(name,recv,args): return f'Src.method S PRIM b {I(name)} ({recv}) [{", ".join(args)}]'
def A(ty,name,args): return f'Src.assoc S PRIM b {I(ty)} {I(name)} [{", ".join(args)}]'
def F(name,args): return f'Src.free S PRIM b {I(name)} [{", ".join(args)}]'
def ok(v,s=".unit"): return f".ok ({v}) ({s})"
def br(name,binders,lhs,res,conds,model,selfv,pre="",wrap="rep"):
    """residual tree and model tree are given as python lambdas over variable names.
    res(vs): list of conds -> cond-tree text with leaves '<leaf>' ; model(vs): the model's body"""
    lhs=lhs.replace("PRIM","p")
    cs=" <;> ".join(["cases p"]+[f"cases {x}" for x in pre.split()])
    vs=["c%d"%i for i in range(len(conds))]
    R=res(vs); rhs=model[0]; body=model[1](vs)
    args=" ".join("("+c+")" for c in conds)
    C=res(["("+c+")" for c in conds])
    T="Val S"
    out.append(f"theorem C81_{name} (p : Prim) (b : Build) {binders} :\n    {lhs} =\n      {ok(rhs,selfv)} := by\n"
      f"  have h : {lhs} =\n      ({C} : Out S) := by\n    {cs} <;> kernel_rfl\n"
      f"  have k : ∀ {' '.join(vs)} : Bool, ({R} : Out S) =\n      ({ok(body,selfv)} : Out S) := by\n    intro {' '.join(vs)}\n    {' <;> '.join('cases '+v for v in vs)} <;> rfl\n"
      f"  exact h.trans (k {args})\n")
    names.append(name)
def cond(c,a,b): return f"bif {c} then {a} else {b}"
def par(x): return "("+x+")"
def andtree(cs,last,false):
    """(((c0 && c1) && ..) && cn): branch on all but the last"""
    r=last
    for c in reversed(cs): r=par(cond(c,r,false))
    return r
FL=["x","y","z"]; DIM=["X","Y","Z"]
def section(n):
    V,P,B,Ray,D=f"Vector{n}",f"Point{n}",f"BoundingBox{n}",f"Ray{n}",f"Dimension{n}"
    fs=FL[:n]
    bs="("+" ".join(fs)+" : S)"; scs=[f".sc {f}" for f in fs]
    # ---------- vectors and points
    for T,low in ((V,f"vector{n}"),(P,f"point{n}")):
        vec=T==V
        t=f"{T} S"
        thm(f"{T}_new",bs,A(T,"new",scs),ok(f"rep ({T}.new {' '.join(fs)})"))
        thm(f"{low}",bs,F(low,scs),ok(f"rep ({low} {' '.join(fs)})"))
        thm(f"{low}f",bs,F(low+"f",scs),ok(f"rep ({low} {' '.join(fs)})"),prim="f32")
        thm(f"{low}d",bs,F(low+"d",scs),ok(f"rep ({low} {' '.join(fs)})"),prim="f64")
        if vec:
            for nm in ["zero"]+[f+"_axis" for f in fs]:
                thm(f"{T}_{nm}","",A(T,nm,[]),f".ok (rep ({T}.{camel(nm)} : {t})) .unit")
            thm(f"{T}_axis",f"(dim : {D})",A(T,"axis",["rep dim"]),f".ok (rep ({T}.axis dim : {t})) .unit",pre="dim")
            thm(f"{T}_normalize",f"(self : {t})",M("normalize","rep self",[]),ok("rep self.normalize","rep self"))
        else:
            thm(f"{T}_origin","",A(T,"origin",[]),f".ok (rep ({T}.origin : {t})) .unit")
        for nm in ["floor","ceil","round","trunc","fract","abs"]:
            thm(f"{T}_{nm}",f"(self : {t})",M(nm,"rep self",[]),ok(f"rep self.{nm}","rep self"))
        dims(T,t,n,"self.abs")
        ds=[f"dim_{f}" for f in fs]; dl=[camel(d) for d in ds]
        thm(f"{T}_permute",f"(self : {t}) ({' '.join(dl)} : {D})",M("permute","rep self",[f"rep {d}" for d in dl]),ok(f"rep (self.permute {' '.join(dl)})","rep self"),pre=" ".join(dl))
        thm(f"{T}_index",f"(self : {t}) (dim : {D})",M("index","rep self",["rep dim"]),ok(f".sc (self.index dim)","rep self"),pre="dim")
        out.append(f"""/-- The place returned by `index_mut` is such that updating it with any `f` is `indexMut`. -/
theorem C81_{T}_index_mut (p : Prim) (b : Build) (self : {t}) (dim : {D}) :
    ∃ place, {M("index_mut","rep self",["rep dim"]).replace("PRIM","p")} =
      .ok (.place (i!"self") place) (rep self) ∧
    ∀ f : S → S, (rep self : Val S).modify (scalarUpdate f) place = some (rep (self.indexMut dim f)) := by
  refine ⟨[.field (match dim with {' '.join(f'| .{DIM[i]} => i!"{FL[i]}"' for i in range(n))})], ?_, ?_⟩
  · cases p <;> cases dim <;> kernel_rfl
  · intro f; cases dim <;> rfl
"""); names.append(f"{T}_index_mut")
        for nm in ["min","max"]:
            thm(f"{T}_{nm}",f"(self v : {t})",M(nm,"rep self",["rep v"]),ok(f"rep (MinMax.{nm} self v)","rep self"))
            thm(f"{nm}_{T}",f"(value other : {t})",F(nm,["rep value","rep other"]),ok(f"rep (Api.{nm} value other)"))
        if vec:
            thm(f"{T}_length",f"(self : {t})",M("length","rep self",[]),ok(".sc (Length.length self)","rep self"))
            thm(f"length_{T}",f"(value : {t})",F("length",["rep value"]),ok(".sc (Api.length value)"))
            thm(f"{T}_dot",f"(self v : {t})",M("dot","rep self",["rep v"]),ok(".sc (DotProduct.dot self v)","rep self"))
            thm(f"dot_{T}",f"(value other : {t})",F("dot",["rep value","rep other"]),ok(".sc (Api.dot value other)"))
            if n==3:
                thm(f"{T}_cross",f"(self v : {t})",M("cross","rep self",["rep v"]),ok("rep (CrossProduct.cross self v)","rep self"))
                thm(f"cross_{T}",f"(value other : {t})",F("cross",["rep value","rep other"]),ok("rep (Api.cross value other)"))
            for nm in ["is_shorter_than","is_longer_than"]:
                thm(f"{T}_{nm}",f"(self v : {t})",M(nm,"rep self",["rep v"]),ok(f".bool (RelativeLength.{camel(nm)} self v)","rep self"))
            for nm,op in (("shortest","<?"),("longest",">?")):
                c=f"Api.dot {{0}} {{0}} {op} Api.dot {{1}} {{1}}"
                br(f"{T}_{nm}",f"(self v : {t})",M(nm,"rep self",["rep v"]),lambda vs:cond(vs[0],par(ok("rep self","rep self")),par(ok("rep v","rep self"))),[c.format("self","v")],(f"rep (RelativeLength.{nm} self v)",lambda vs:f"rep (if {vs[0]} then self else v)"),"rep self")
                br(f"{nm}_{T}",f"(value other : {t})",F(nm,["rep value","rep other"]),lambda vs:cond(vs[0],par(ok("rep value")),par(ok("rep other"))),[c.format("value","other")],(f"rep (Api.{nm} value other)",lambda vs:f"rep (if {vs[0]} then value else other)"),".unit")
            ops=[("add",V,"+",V),("sub",V,"-",V)]
        else:
            thm(f"{T}_distance",f"(self p : {t})".replace("p :","q :"),M("distance","rep self",["rep q"]),ok(".sc (Distance.distance self q)","rep self"))
            thm(f"distance_{T}",f"(value other : {t})",F("distance",["rep value","rep other"]),ok(".sc (Api.distance value other)"))
            for nm in ["is_closer_to","is_farther_from"]:
                thm(f"{T}_{nm}",f"(self p1 p2 : {t})",M(nm,"rep self",["rep p1","rep p2"]),ok(f".bool (RelativeDistance.{camel(nm)} self p1 p2)","rep self"))
            for nm,m in (("closest","isCloserTo"),("farthest","isFartherFrom")):
                br(f"{T}_{nm}",f"(self p1 p2 : {t})",M(nm,"rep self",["rep p1","rep p2"]),lambda vs:cond(vs[0],par(ok("rep p1","rep self")),par(ok("rep p2","rep self"))),[f"self.{m} p1 p2"],(f"rep (RelativeDistance.{nm} self p1 p2)",lambda vs:f"rep (if {vs[0]} then p1 else p2)"),"rep self")
                br(f"{nm}_{T}",f"(value p1 p2 : {t})",F(nm,["rep value","rep p1","rep p2"]),lambda vs:cond(vs[0],par(ok("rep p1")),par(ok("rep p2"))),[f"value.{m} p1 p2"],(f"rep (Api.{nm} value p1 p2)",lambda vs:f"rep (if {vs[0]} then p1 else p2)"),".unit")
            ops=[("add",V,"+",P),("sub",V,"-",P),("sub",P,"-",V)]
        for nm,arg,op,res in ops:
            sfx="" if (vec or arg==V) else "_point"
            thm(f"{T}_{nm}{sfx}",f"(self : {t}) (v : {arg} S)",M(nm,"rep self",["rep v"]),ok(f"rep (self {op} v)","rep self"))
            if arg==V: thm(f"{T}_{nm}_assign",f"(self : {t}) (v : {arg} S)",M(nm+"_assign","rep self",["rep v"]),ok(".unit",f"rep (self.{nm}Assign v)"))
        thm(f"{T}_neg",f"(self : {t})",M("neg","rep self",[]),ok("rep (-self)","rep self"))
        for nm,op in (("mul","*"),("div","/")):
            thm(f"{T}_{nm}",f"(self : {t}) (s : S)",M(nm,"rep self",[".sc s"]),ok(f"rep (self {op} s)","rep self"))
            thm(f"{T}_{nm}_assign",f"(self : {t}) (s : S)",M(nm+"_assign","rep self",[".sc s"]),ok(".unit",f"rep (self.{nm}Assign s)"))
        thm(f"scalar_mul_{T}",f"(self : S) (v : {t})",M("mul",".sc self",["rep v"]),ok("rep (self * v)",".sc self"))
        if vec: thm(f"{T}_from",f"(q : {P} S)",A(T,"from",["rep q"]),ok(f"rep ({V}.fromPoint q)"))
        else: thm(f"{T}_from",f"(v : {V} S)",A(T,"from",["rep v"]),ok(f"rep ({P}.fromVector v)"))
    # ---------- rays
    ro=f"(origin : {P} S) (direction : {V} S)"
    thm(f"{Ray}_new",ro,A(Ray,"new",["rep origin","rep direction"]),ok(f"rep ({Ray}.new origin direction)"))
    thm(f"ray{n}",ro,F(f"ray{n}",["rep origin","rep direction"]),ok(f"rep (ray{n} origin direction)"))
    thm(f"ray{n}f",ro,F(f"ray{n}f",["rep origin","rep direction"]),ok(f"rep (ray{n} origin direction)"),prim="f32")
    thm(f"ray{n}d",ro,F(f"ray{n}d",["rep origin","rep direction"]),ok(f"rep (ray{n} origin direction)"),prim="f64")
    thm(f"{Ray}_at",f"(self : {Ray} S) (distance : S)",M("at","rep self",[".sc distance"]),ok("rep (self.at distance)","rep self"))
    # ---------- boxes
    b=f"{B} S"
    thm(f"{B}_new",f"(p1 p2 : {P} S)",A(B,"new",["rep p1","rep p2"]),ok(f"rep ({B}.new p1 p2)"))
    for nm in ["empty","infinite"]: thm(f"{B}_{nm}","",A(B,nm,[]),f".ok (rep ({B}.{nm} : {b})) .unit")
    for nm in ["width","height","depth"][:n]+(["area"] if n==2 else ["surface_area","volume"]):
        thm(f"{B}_{nm}",f"(self : {b})",M(nm,"rep self",[]),ok(f".sc self.{camel(nm)}","rep self"))
    thm(f"{B}_size",f"(self : {b})",M("size","rep self",[]),ok(".tup ["+", ".join(f".sc self.size.{x}" for x in (["1","2"] if n==2 else ["1","2.1","2.2"]))+"]","rep self"))
    thm(f"{B}_extent",f"(self : {b}) (dim : {D})",M("extent","rep self",["rep dim"]),ok(".sc (self.extent dim)","rep self"),pre="dim")
    for nm in ["center","diagonal"]: thm(f"{B}_{nm}",f"(self : {b})",M(nm,"rep self",[]),ok(f"rep self.{nm}","rep self"))
    dims(B,b,n,"self.diagonal")
    ov=[c for f in fs for c in (f"self.max.{f} ≥? bb.min.{f}",f"self.min.{f} ≤? bb.max.{f}")]
    ins=[c for f in fs for c in (f"q.{f} ≥? self.min.{f}",f"q.{f} ≤? self.max.{f}")]
    for nm,arg,cs,a in (("overlaps",b,ov,"bb"),("is_inside",f"{P} S",ins,"q")):
        br(f"{B}_{nm}",f"(self : {b}) ({a} : {arg})",M(nm,"rep self",[f"rep {a}"]),
           lambda vs:andtree(vs[:-1],par(ok(f".bool {vs[-1]}","rep self")),par(ok(".bool false","rep self"))),cs,
           (f".bool (self.{camel(nm)} {a})",lambda vs:".bool ("+" && ".join(vs)+")"),"rep self")
    thm(f"{B}_union",f"(self bb : {b})",M("union","rep self",["rep bb"]),ok("rep (BoxUnion.union self bb)","rep self"))
    thm(f"union_{B}",f"(value other : {b})",F("union",["rep value","rep other"]),ok("rep (Api.union value other)"))
    thm(f"{B}_union_point",f"(self : {b}) (q : {P} S)",M("union","rep self",["rep q"]),ok("rep (BoxUnion.union self q)","rep self"))
    thm(f"union_{B}_point",f"(value : {b}) (q : {P} S)",F("union",["rep value","rep q"]),ok("rep (Api.union value q)"))
    bx=lambda s,o: f"{B}.new (Api.max {s}.min {o}.min) (Api.min {s}.max {o}.max)"
    for pref,call,s,o,sv,fun in ((f"{B}_intersect","m","self","bb","rep self","BoxIntersection.intersect"),(f"intersect_{B}","f","value","other",".unit","Api.intersect")):
        cs=[c.replace("self.",s+".").replace("bb.",o+".") for c in ov]
        none=par(ok("rep (none : Option ("+b+"))",sv)); some=par(ok(f"rep (some ({bx(s,o)}))",sv))
        br(pref,f"({s} {o} : {b})",M("intersect","rep "+s,["rep "+o]) if call=="m" else F("intersect",["rep "+s,"rep "+o]),
           lambda vs:andtree(vs[:-1],par(cond(vs[-1],some,none)),none),cs,
           (f"rep ({fun} {s} {o} : Option ({b}))",lambda vs:f"rep (if {' && '.join(vs)} then some ({bx(s,o)}) else none)"),sv)
    # ray
    for pref,call,s,sv,fun in ((f"{B}_intersect_ray","m","self","rep self","BoxIntersection.intersect"),(f"intersect_ray_{B}","f","value",".unit","Api.intersect")):
        st,en="Scalar.zero","Scalar.infinity"; cs=[]; 
        for i,f in enumerate(fs):
            d1=f"(({s}.min.{f} - ray.origin.{f}) / ray.direction.{f})"; d2=f"(({s}.max.{f} - ray.origin.{f}) / ray.direction.{f})"
            st=f"(Api.max {st} (Api.min {d1} {d2}))"; en=f"(Api.min {en} (Api.max {d1} {d2}))"
            cs.append(f"{st} >? {en}" if i<n-1 else f"{st} ≤? {en}")
        none=par(ok("rep (none : Option (Range S))",sv)); some=par(ok(f"rep (some (⟨{st}, {en}⟩ : Range S))",sv))
        def res(vs):
            r=par(cond(vs[-1],some,none))
            for v in reversed(vs[:-1]): r=par(cond(v,none,r))
            return r
        def mod(vs):
            r=f"(if {vs[-1]} then some (⟨{st}, {en}⟩ : Range S) else none)"
            for v in reversed(vs[:-1]): r=f"(if {v} then none else {r})"
            return "rep "+r
        br(pref,f"({s} : {b}) (ray : {Ray} S)",M("intersect","rep "+s,["rep ray"]) if call=="m" else F("intersect",["rep "+s,"rep ray"]),res,cs,(f"rep ({fun} {s} ray : Option (Range S))",mod),sv)
    # corner
    cv=[f"(index.toNat &&& {1<<i}) == 0" for i in range(n)]
    out.append(f"""/-- `corner`, in debug builds with its `debug_assert!`. -/
theorem C81_{B}_corner (p : Prim) (b : Build) (self : {b}) (index : UInt32) :
    {M("corner","rep self",["rep index"]).replace("PRIM","p")} =
      outOf (self.corner b index) rep (fun _ => rep self) := by
  have h : {M("corner","rep self",["rep index"]).replace("PRIM","p")} =
      (match b with
      | .debug => bif index.toNat.blt {1<<n} then {cornertree(n)} else .panic .debugAssert
      | .release => {cornertree(n)}) := by
    cases p <;> cases b <;> kernel_rfl
  rw [h]
  have e : index.toNat.blt {1<<n} = decide (index < {1<<n}) := by
    rw [Bool.eq_iff_iff]; simp [Nat.blt, UInt32.lt_iff_toNat_lt]; omega
{chr(10).join(f"  have e{i} : (index &&& {1<<i} == 0) = ((index.toNat &&& {1<<i}) == 0) := and_eq_zero index {1<<i}" for i in range(n))}
  unfold {B}.corner outOf
  simp only [{', '.join(f'e{i}' for i in range(n))}, e]
  cases b <;> cases hd : decide (index < {1<<n}) <;>
{chr(10).join(f"  cases ((index.toNat &&& {1<<i}) == 0) <;>" for i in range(n))}
  simp_all
"""); names.append(f"{B}_corner")
def cornertree(n):
    def go(i,sel):
        if i==n: return "(.ok (rep (Point%d.new %s)) (rep self))"%(n," ".join(f"self.{s}.{FL[j]}" for j,s in enumerate(sel)))
        return f"(bif ((index.toNat &&& {1<<i}) == 0) then {go(i+1,sel+['min'])} else {go(i+1,sel+['max'])})"
    return go(0,[])
def dims(T,t,n,v):
    D=f"Dimension{n}"
    for nm,op in (("min_dimension","≤?"),("max_dimension",">?")):
        lhs=M(nm,"rep self",[])
        X,Y,Z=[par(ok(f"rep ({D}.{d})","rep self")) for d in ("X","Y","Z")] if n==3 else [par(ok(f"rep ({D}.{d})","rep self")) for d in ("X","Y","Y")]
        if n==2:
            br(f"{T}_{nm}",f"(self : {t})",lhs,lambda vs:cond(vs[0],X,Y),[f"{v}.x {op} {v}.y"],(f"rep self.{camel(nm)}",lambda vs:f"rep (if {vs[0]} then {D}.X else .Y)"),"rep self")
        else:
            br(f"{T}_{nm}",f"(self : {t})",lhs,lambda vs:cond(vs[0],par(cond(vs[1],X,par(cond(vs[2],Y,Z)))),par(cond(vs[2],Y,Z))),[f"{v}.x {op} {v}.y",f"{v}.x {op} {v}.z",f"{v}.y {op} {v}.z"],
               (f"rep self.{camel(nm)}",lambda vs:f"rep (if {vs[0]} && {vs[1]} then {D}.X else if {vs[2]} then .Y else .Z)"),"rep self")
def scalars():
    for nm in ["half","two"]: thm(f"S_{nm}","",A("S",nm,[]),f".ok (.sc (Scalar.{nm} : S)) .unit")
    for nm in ["min","max"]: thm(f"{nm}_S","(value other : S)",F(nm,[".sc value",".sc other"]),ok(f".sc (Api.{nm} value other)"))
    thm("S_length","(self : S)",M("length",".sc self",[]),ok(".sc (Length.length self)",".sc self"))
    thm("length_S","(value : S)",F("length",[".sc value"]),ok(".sc (Api.length value)"))
    thm("S_distance","(self s : S)",M("distance",".sc self",[".sc s"]),ok(".sc (Distance.distance self s)",".sc self"))
    thm("distance_S","(value other : S)",F("distance",[".sc value",".sc other"]),ok(".sc (Api.distance value other)"))
    for nm in ["is_shorter_than","is_longer_than"]:
        thm(f"S_{nm}","(self s : S)",M(nm,".sc self",[".sc s"]),ok(f".bool (RelativeLength.{camel(nm)} self s)",".sc self"))
    for nm in ["is_closer_to","is_farther_from"]:
        thm(f"S_{nm}","(self s1 s2 : S)",M(nm,".sc self",[".sc s1",".sc s2"]),ok(f".bool (RelativeDistance.{camel(nm)} self s1 s2)",".sc self"))
    for nm,op in (("shortest","<?"),("longest",">?")):
        br(f"S_{nm}","(self s : S)",M(nm,".sc self",[".sc s"]),lambda vs:cond(vs[0],par(ok(".sc self",".sc self")),par(ok(".sc s",".sc self"))),[f"Length.length self {op} Length.length s"],(f".sc (RelativeLength.{nm} self s)",lambda vs:f".sc (if {vs[0]} then self else s)"),".sc self")
        br(f"{nm}_S","(value other : S)",F(nm,[".sc value",".sc other"]),lambda vs:cond(vs[0],par(ok(".sc value")),par(ok(".sc other"))),[f"Length.length value {op} Length.length other"],(f".sc (Api.{nm} value other)",lambda vs:f".sc (if {vs[0]} then value else other)"),".unit")
    for nm,op in (("closest","<?"),("farthest",">?")):
        br(f"S_{nm}","(self s1 s2 : S)",M(nm,".sc self",[".sc s1",".sc s2"]),lambda vs:cond(vs[0],par(ok(".sc s1",".sc self")),par(ok(".sc s2",".sc self"))),[f"Distance.distance self s1 {op} Distance.distance self s2"],(f".sc (RelativeDistance.{nm} self s1 s2)",lambda vs:f".sc (if {vs[0]} then s1 else s2)"),".sc self")
        br(f"{nm}_S","(value s1 s2 : S)",F(nm,[".sc value",".sc s1",".sc s2"]),lambda vs:cond(vs[0],par(ok(".sc s1")),par(ok(".sc s2"))),[f"Distance.distance value s1 {op} Distance.distance value s2"],(f".sc (Api.{nm} value s1 s2)",lambda vs:f".sc (if {vs[0]} then s1 else s2)"),".unit")
def transforms(n):
    Mx,N,T=("Matrix3x3",9,"Transform2") if n==2 else ("Matrix4x4",16,"Transform3")
    V,P,B,Ray=f"Vector{n}",f"Point{n}",f"BoundingBox{n}",f"Ray{n}"
    k=n+1; m=f"{Mx} S"; t=f"{T} S"
    thm(f"{Mx}_new",f"(m : Vector S {N})",A(Mx,"new",["rep m"]),ok(f"rep ({Mx}.new m)"))
    scal="sx sy" if n==2 else "sx sy sz"
    cons=[("identity","",[]),("translate",f"(v : {V} S)",["rep v"]),("scale",f"({scal} : S)",[f".sc {x}" for x in scal.split()]),("scale_uniform","(s : S)",[".sc s"])]
    cons+= [("rotate","(angle : S)",[".sc angle"])] if n==2 else [(f"rotate_{a}","(angle : S)",[".sc angle"]) for a in "xyz"]+[("rotate_axis","(axis : Vector3 S) (angle : S)",["rep axis",".sc angle"])]
    for T_,ty in ((Mx,m),(T,t)):
        for nm,bs,args in cons:
            a=" ".join(x.replace(".sc ","").replace("rep ","") for x in args)
            thm(f"{T_}_{nm}",bs,A(T_,nm,args),ok(f"rep ({T_}.{camel(nm)} {a} : {ty})"))
    if n==3: thm(f"{Mx}_inverse_look_at","(origin target : Point3 S) (up : Vector3 S)",A(Mx,"inverse_look_at",["rep origin","rep target","rep up"]),ok(f"rep ({Mx}.inverseLookAt origin target up)"))
    thm(f"{Mx}_transpose",f"(self : {m})",M("transpose","rep self",[]),ok("rep self.transpose","rep self"))
    for nm,op in (("mul","*"),("div","/")):
        thm(f"{Mx}_{nm}",f"(self : {m}) (s : S)",M(nm,"rep self",[".sc s"]),ok(f"rep (self {op} s)","rep self"))
        lhs=M(nm+"_assign","rep self",[".sc s"]).replace("PRIM","p")
        els=", ".join(f".sc (self.m[{i}] {op} s)" for i in range(N))
        out.append(f"""theorem C81_{Mx}_{nm}_assign (p : Prim) (b : Build) (self : {m}) (s : S) :
    {lhs} =
      .ok .unit (rep (self.{nm}Assign s)) := by
  have h : {lhs} =
      .ok .unit (.obj (i!"{Mx}") [(i!"m", .arr [{els}])]) := by
    cases p <;> kernel_rfl
  rw [h]
  simp only [rep, {Mx}.{nm}Assign, Vector.getElem_map]
"""); names.append(f"{Mx}_{nm}_assign")
    thm(f"scalar_mul_{Mx}",f"(self : S) (m : {m})",M("mul",".sc self",["rep m"]),ok("rep (self * m)",".sc self"))
    for X in (P,V):
        thm(f"{Mx}_mul_{X}",f"(self : {m}) (q : {X} S)",M("mul","rep self",["rep q"]),ok("rep (self * q)","rep self"))
        thm(f"{X}_mul_{Mx}",f"(self : {X} S) (m : {m})",M("mul","rep self",["rep m"]),ok("rep (self * m)","rep self"))
    thm(f"{Mx}_mul_{Mx}",f"(self m : {m})",M("mul","rep self",["rep m"]),ok("rep (self * m)","rep self"))
    # inverse
    det="self.det" if n==2 else "self.detOf self.adjugate"
    out.append(f"""theorem C81_{Mx}_inverse (p : Prim) (b : Build) (self : {m}) :
    {M("inverse","rep self",[]).replace("PRIM","p")} =
      .ok (rep self.inverse) (rep self) := by
  have h : {M("inverse","rep self",[]).replace("PRIM","p")} =
      bif {det} != Scalar.zero then .ok (rep (.ok ({invbody(n)}) : Except NonInvertibleMatrixError ({m}))) (rep self)
      else .ok (rep (.error .mk : Except NonInvertibleMatrixError ({m}))) (rep self) := by
    cases p <;> cases b <;> kernel_rfl
  have k : ∀ c : Bool, (bif c then .ok (rep (.ok ({invbody(n)}) : Except NonInvertibleMatrixError ({m}))) (rep self)
      else .ok (rep (.error .mk : Except NonInvertibleMatrixError ({m}))) (rep self)) =
      (.ok (rep (if c then .ok ({invbody(n)}) else .error .mk : Except NonInvertibleMatrixError ({m}))) (rep self) : Out S) := by
    intro c; cases c <;> rfl
  exact h.trans (k _)
"""); names.append(f"{Mx}_inverse")
    # transform
    thm(f"{T}_new",f"(forward inverse : {m})",A(T,"new",["rep forward","rep inverse"]),ok(f"rep ({T}.new forward inverse)"))
    thm(f"{T}_and_then",f"(self next : {t})",M("and_then","rep self",["rep next"]),ok("rep (self.andThen next)","rep self"))
    thm(f"{T}_inverse",f"(self : {t})",M("inverse","rep self",[]),ok("rep self.inv","rep self"))
    for X in (P,V,Ray,B): thm(f"{T}_transform_{X}",f"(self : {t}) (value : {X} S)",M("transform","rep self",["rep value"]),ok("rep (Transform.transform self value)","rep self"))
    def exc(name,bs,lhs,rhs,det,mat,okv):
        E=f"Except NonInvertibleMatrixError ({t})"
        body=f"bif C != Scalar.zero then .ok (rep (.ok ({okv}) : {E})) .unit\n      else .ok (rep (.error .mk : {E})) .unit"
        out.append(f"""theorem C81_{name} (p : Prim) (b : Build) {bs} :
    {lhs.replace("PRIM","p")} =
      .ok (rep ({rhs})) .unit := by
  have h : {lhs.replace("PRIM","p")} =
      {body.replace("C != ",det+" != ")} := by
    cases p <;> cases b <;> kernel_rfl
  rw [h]
  unfold {rhs.split(" ")[0]} {Mx}.inverse
  cases hc : ({det} != Scalar.zero) <;> simp only [hc, cond_true, cond_false, ↓reduceIte, Bool.false_eq_true] <;> rfl
"""); names.append(name)
    fw="forward"
    def inv(x): return invbody(n).replace("self",x)
    exc(f"{T}_try_from",f"(forward : {m})",A(T,"try_from",["rep forward"]),f"{T}.tryFrom forward",det.replace("self","forward"),"forward",f"{T}.new forward ({inv('forward')})")
    if n==3:
        L="(Matrix4x4.inverseLookAt origin target up)"
        exc("Transform3_look_at","(origin target : Point3 S) (up : Vector3 S)",A(T,"look_at",["rep origin","rep target","rep up"]),"Transform3.lookAt origin target up",det.replace("self",L),L,f"{T}.new ({inv(L)}) {L}")
    # element access
    L="["+", ".join(f".sc self.m[{i}]" for i in range(N))+"]"
    acc(Mx,N,k,m)
def invbody(n):
    if n==3: return "self.adjugate / self.detOf self.adjugate"
    src=open('/verif/lean/Verif/Model/Transform2.lean').read()
    i=src.index("def inverse (self : Matrix3x3 S)"); j=src.index("#v[",i); e=src.index("]",src.index("self.m[1] * self.m[3]",j)+len("self.m[1] * self.m[3]"))
    txt=src[j:]
    # find matching bracket
    d=0
    for q,ch in enumerate(txt):
        if ch=='[': d+=1
        if ch==']':
            d-=1
            if d==0: break
    txt=re.sub(r"\s+"," ",txt[:q+1])
    return "Matrix3x3.new "+txt.replace("/ det","/ self.det")
def acc(Mx,N,k,m):
    out.append(f"""/-- `linear_index`. -/
theorem C81_{Mx}_linear_index (p : Prim) (b : Build) (row col : UInt32) :
    {A(Mx,"linear_index",["rep row","rep col"]).replace("PRIM","p")} =
      outOf ({Mx}.linearIndex b row col) .int (fun _ => .unit) := by
  have h : {A(Mx,"linear_index",["rep row","rep col"]).replace("PRIM","p")} =
      linearOut b {k} row.toNat col.toNat (fun n => .ok (.int n) .unit) := by
    cases p <;> cases b <;> kernel_rfl
  refine h.trans ((linearOut_eq b {k} row col (by decide) _).trans ?_)
  unfold {Mx}.linearIndex outOf
  by_cases h1 : b = .debug ∧ ¬ row < {k}
  · rw [if_pos h1, if_pos h1]
  by_cases h2 : b = .debug ∧ ¬ col < {k}
  · rw [if_neg h1, if_neg h1, if_pos h2, if_pos h2]
  · rw [if_neg h1, if_neg h1, if_neg h2, if_neg h2]
""")
    def ac(nm,extra,args,okv,model,v1,v2,doc=""):
        lhs=M(nm,"rep self",["rep row","rep col"]+args).replace("PRIM","p")
        out.append(f"""{doc}theorem C81_{Mx}_{nm} (p : Prim) (b : Build) (self : {m}) (row col : UInt32){extra} :
    {lhs} =
      outOf ({model}) {v1} {v2} := by
  have h : {lhs} =
      linearOut b {k} row.toNat col.toNat (fun n => match (rep self.m : Val S).list[n]? with
        | some v => {okv}
        | none => .panic .indexOutOfBounds) := by
    cases p <;> cases b <;> kernel_rfl
  refine h.trans ((linearOut_eq b {k} row col (by decide) _).trans ?_)
  rw [elems_get self.m _ (list{N} self.m)]
  unfold {Mx}.{camel(nm)} {Mx}.linearIndex outOf
  by_cases h1 : b = .debug ∧ ¬ row < {k}
  · rw [if_pos h1, if_pos h1]; rfl
  by_cases h2 : b = .debug ∧ ¬ col < {k}
  · rw [if_neg h1, if_neg h1, if_pos h2, if_pos h2]; rfl
  by_cases h3 : (row * {k} + col).toNat < {N}
  · simp only [h1, h2, h3, ↓reduceIte, ↓reduceDIte, bind, Except.bind]CLOSE
  · simp only [h1, h2, h3, ↓reduceIte, ↓reduceDIte, bind, Except.bind]
""".replace("CLOSE","" if nm=="get" else "; rw [list"+str(N)+", set_list self.m _ value h3, ← rep"+str(N)+"]; rfl")); names.append(f"{Mx}_{nm}")
    ac("get","",[],".ok v (rep self)","self.get b row col",".sc","(fun _ => rep self)")
    lhs=M("set","rep self",["rep row","rep col",".sc value"]).replace("PRIM","p")
    out.append(f"""theorem C81_{Mx}_set (p : Prim) (b : Build) (self : {m}) (row col : UInt32) (value : S) :
    {lhs} =
      outOf (self.set b row col value) (fun _ => .unit) rep := by
  have h : {lhs} =
      linearOut b {k} row.toNat col.toNat (fun n => match (rep self : Val S).read [.field (i!"m"), .elem n] with
        | some _ => match (rep self : Val S).modify (fun _ => some (.sc value)) [.field (i!"m"), .elem n] with
          | some w => .ok .unit w
          | none => .stuck
        | none => .panic .indexOutOfBounds) := by
    cases p <;> cases b <;> kernel_rfl
  refine h.trans ((linearOut_eq b {k} row col (by decide) _).trans ?_)
  have e : (rep self : Val S) = .obj (i!"{Mx}") [(i!"m", .arr (self.m.toList.map .sc))] := by rw [← rep{N}]; rfl
  rw [e, read_elem, modify_elem _ _ _ (fun _ => value) _ (fun _ => rfl)]
  unfold {Mx}.set {Mx}.linearIndex outOf
  by_cases h1 : b = .debug ∧ ¬ row < {k}
  · rw [if_pos h1, if_pos h1]; rfl
  by_cases h2 : b = .debug ∧ ¬ col < {k}
  · rw [if_neg h1, if_neg h1, if_pos h2, if_pos h2]; rfl
  by_cases h3 : (row * {k} + col).toNat < {N}
  · simp only [h1, h2, h3, ↓reduceIte, ↓reduceDIte, bind, Except.bind]; rw [← rep{N}]; rfl
  · simp only [h1, h2, h3, ↓reduceIte, ↓reduceDIte, bind, Except.bind]
"""); names.append(f"{Mx}_set")
    lhs=M("get_mut","rep self",["rep row","rep col"]).replace("PRIM","p")
    out.append(f"""/-- `get_mut` panics when `getMut` does; otherwise it returns a place such that updating it with any `f` is
`getMut`. -/
theorem C81_{Mx}_get_mut (p : Prim) (b : Build) (self : {m}) (row col : UInt32) :
    (∃ e, {lhs} = .panic e ∧ ∀ f : S → S, self.getMut b row col f = .error e) ∨
    ∃ place, {lhs} = .ok (.place (i!"self") place) (rep self) ∧
      ∀ f : S → S, ∃ m, self.getMut b row col f = .ok m ∧
        (rep self : Val S).modify (scalarUpdate f) place = some (rep m) := by
  have h : {lhs} =
      linearOut b {k} row.toNat col.toNat (fun n => match (rep self : Val S).read [.field (i!"m"), .elem n] with
        | some _ => .ok (.place (i!"self") [.field (i!"m"), .elem n]) (rep self)
        | none => .panic .indexOutOfBounds) := by
    cases p <;> cases b <;> kernel_rfl
  have h := h.trans (linearOut_eq b {k} row col (by decide) _)
  have e : (rep self : Val S) = .obj (i!"{Mx}") [(i!"m", .arr (self.m.toList.map .sc))] := by rw [← rep{N}]; rfl
  have rd := read_elem (i!"{Mx}") self.m (row * {k} + col).toNat
  rw [← e] at rd
  rw [rd] at h
  rw [h]
  unfold {Mx}.getMut {Mx}.linearIndex
  by_cases h1 : b = .debug ∧ ¬ row < {k}
  · left; refine ⟨.debugAssert, by rw [if_pos h1], fun f => by rw [if_pos h1]; rfl⟩
  by_cases h2 : b = .debug ∧ ¬ col < {k}
  · left; refine ⟨.debugAssert, by rw [if_neg h1, if_pos h2], fun f => by rw [if_neg h1, if_pos h2]; rfl⟩
  by_cases h3 : (row * {k} + col).toNat < {N}
  · right
    refine ⟨[.field (i!"m"), .elem (row * {k} + col).toNat], by rw [if_neg h1, if_neg h2, dif_pos h3], fun f => ?_⟩
    refine ⟨⟨self.m.set _ (f self.m[(row * {k} + col).toNat]) h3⟩,
      by rw [if_neg h1, if_neg h2]; simp only [bind, Except.bind, h3, ↓reduceDIte], ?_⟩
    rw [e, modify_elem _ _ _ f _ (fun _ => rfl), dif_pos h3]
    rw [← rep{N}]; rfl
  · left
    refine ⟨.indexOutOfBounds, by rw [if_neg h1, if_neg h2, dif_neg h3], fun f => ?_⟩
    rw [if_neg h1, if_neg h2]; simp only [bind, Except.bind, h3, ↓reduceDIte]
"""); names.extend([f"{Mx}_linear_index",f"{Mx}_get_mut"])
HEAD="""import Verif.Rust.Access
/-! # The source text computes what the model says: {0}

Generated by `tools/gen/refine.py`. `Src.method S p b name self args` is the outcome of evaluating the call
`self.name(args)` on the syntax tree of the source text (`Rust/Source.lean`), with `p` the primitive type and `b` the
build profile; `rep` is the representation of a value of the model. An outcome `.ok v s` means that the call returns
`v` and leaves its receiver as `s`: it neither panics nor runs forever. -/

namespace VecMath.Rust
open VecMath Scalar
variable {{S : Type}} [Scalar S]

"""
def emit(fname,title,fn):
    global out
    out=[]; fn()
    open(f"/verif/lean/Verif/Props/{fname}.lean","w").write(HEAD.format(title)+"\n".join(out)+"\nend VecMath.Rust\n")
if __name__=="__main__":
    emit("Source1","scalars",scalars)
    emit("Source2","two dimensions",lambda:section(2))
    emit("Source3","three dimensions",lambda:section(3))
    emit("SourceT2","2D transforms",lambda:transforms(2))
    emit("SourceT3","3D transforms",lambda:transforms(3))
    print(len(names))
