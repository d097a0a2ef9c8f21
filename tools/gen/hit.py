def gen(n):
    ax="xyz"[:n]; B=f"BoundingBox{n}"; R=f"Ray{n}"
    near=lambda a:f"fmin ((b.min.{a} - ray.origin.{a}) / ray.direction.{a}) ((b.max.{a} - ray.origin.{a}) / ray.direction.{a})"
    far=lambda a:f"fmax ((b.min.{a} - ray.origin.{a}) / ray.direction.{a}) ((b.max.{a} - ray.origin.{a}) / ray.direction.{a})"
    out=[]
    w=out.append
    w(f"/-! ### {n}D -/\n")
    w(f"/-- The reported range is bounded by the crossing parameters of every slab, and each end is one of them (or `0`, `∞`). -/")
    w(f"theorem hit_slabs{n} (b : {B} S) (ray : {R} S) (i : Range S) (h : Api.intersect b ray = some i) :")
    parts=[]
    for a in ax:
        parts.append(f"(¬ IsNaN ({near(a)}) →\n      val ({near(a)}) ≤ val i.start)")
        parts.append(f"(¬ IsNaN ({far(a)}) →\n      val i.stop ≤ val ({far(a)}))")
    parts.append("(val i.start = 0"+"".join(f" ∨\n      (¬ IsNaN ({near(a)}) ∧\n        val i.start = val ({near(a)}))" for a in ax)+")")
    parts.append("(val i.stop = ⊤"+"".join(f" ∨\n      (¬ IsNaN ({far(a)}) ∧\n        val i.stop = val ({far(a)}))" for a in ax)+")")
    w("    "+" ∧\n    ".join(parts)+" := by")
    w(f"  change b.intersectRay ray = some i at h")
    w(f"  simp only [{B}.intersectRay] at h")
    w(f"  split_ifs at h")
    w(f"  obtain rfl := Option.some.inj h")
    ps,pe="(Scalar.zero : S)","(infinity : S)"
    for k,a in enumerate(ax,1):
        w(f"  set s{k} : S := fmax {ps} ({near(a)}) with hs{k}")
        w(f"  set e{k} : S := fmin {pe} ({far(a)}) with he{k}")
        ps,pe=f"s{k}",f"e{k}"
    ps,pe="(Scalar.zero : S)","(infinity : S)"
    ns,ne="not_nan_zero","not_nan_infinity"
    for k,a in enumerate(ax,1):
        w(f"  obtain ⟨as{k}, bs{k}, cs{k}, -⟩ := fmax_step (s := {ps}) (n := {near(a)}) {ns}")
        w(f"  obtain ⟨ae{k}, be{k}, ce{k}, -⟩ := fmin_step (s := {pe}) (n := {far(a)}) {ne}")
        w(f"  have gs{k} := fmax_cases (s := {ps}) (n := {near(a)}) {ns}")
        w(f"  have ge{k} := fmin_cases (s := {pe}) (n := {far(a)}) {ne}")
        w(f"  rw [← hs{k}] at as{k} bs{k} cs{k} gs{k}")
        w(f"  rw [← he{k}] at ae{k} be{k} ce{k} ge{k}")
        ps,pe,ns,ne=f"s{k}",f"e{k}",f"as{k}",f"ae{k}"
    comps=[]
    for k,a in enumerate(ax,1):
        t=f"(cs{k} hn)"; 
        for j in range(k+1,n+1): t=f"({t}.trans bs{j})"
        comps.append(f"fun hn => {t}")
        e=f"(ce{k} hn)"
        for j in range(k+1,n+1): e=f"(be{j}.trans {e})"
        comps.append(f"fun hn => {e}")
    w("  refine ⟨"+", ".join(comps)+", ?_, ?_⟩")
    # start
    for c,base in (("s","val_zero"),("e","val_infinity")):
        w(f"  · rcases g{c}{n} with h{n} | ⟨q, h{n}⟩")
        ind="    "
        inj=lambda k: "(.inr "*(k)+("(.inl ⟨q, EQ⟩)" if k<n else "⟨q, EQ⟩")+")"*k
        def rec(k,ind,chain):
            if k==0:
                return
        # iterate from n down
        cur="    "; chain=f"h{n}"
        for k in range(n,0,-1):
            # first bullet: val = val prev ; second: axis k
            w(f"{cur}· "+ (f"rcases g{c}{k-1} with h{k-1} | ⟨q, h{k-1}⟩" if k>1 else f"exact .inl ({chain}.trans {base})"))
            if k>1:
                nxt=f"({chain}.trans h{k-1})"
                saved=(cur,chain,k)
                stack.append(saved) if False else None
                tails.append((cur,k,chain))
                cur+="  "; chain=nxt
            else:
                tails.append((cur,k,chain))
        for (cu,k,ch) in reversed(tails):
            i=inj(k).replace("EQ",ch)
            w(f"{cu}· exact {i}")
        tails.clear()
    w("")
    # theorems
    pt=lambda a,t: f"(real ray.origin.{a} + real ray.direction.{a} * {t})"
    slabargs=lambda a:f"b.min.{a} b.max.{a} ray.origin.{a} ray.direction.{a}"
    hyp=f"(b : {B} S) (ray : {R} S) (hf : RayFinite{n} b ray) (hb : LeAll b.min b.max)\n    (i : Range S) (h : Api.intersect b ray = some i)"
    def pre():
        w("  obtain ⟨"+", ".join("hf"+a for a in ax)+"⟩ := hf")
        w(f"  rw [Point{n}.leAll] at hb")
        for k,a in enumerate(ax):
            sel="hb"+ (".1" if k==0 else (".2" if n==2 else (".2.1" if k==1 else ".2.2")))
            w(f"  have l{a} : real b.min.{a} ≤ real b.max.{a} := real_le_of hf{a}.1 hf{a}.2.1 {sel}")
        w("  obtain ⟨"+", ".join(f"n{a}, f{a}" for a in ax)+f", cs, ce⟩ := hit_slabs{n} b ray i h")
    def bysub(name,e,tt):
        return " ∧\n    ".join(f"NearSlab {slabargs(a)} {tt(a)} {e(a)}" for a in ax)
    w(f"/-- **C83** ({n}D): at every parameter of the reported range the exact point of the ray is inside the box, up to the\nrounding of the two operations that locate a face. -/")
    w(f"theorem C83_inside{n} {hyp} (t : S)\n    (ht : IsFinite t) (h1 : (i.start ≤? t) = true) (h2 : (t ≤? i.stop) = true) :\n    "+bysub("",lambda a:"0",lambda a:pt(a,"real t"))+" := by")
    pre()
    w("  have v1 := (le_iff.1 h1).2.2\n  have v2 := (le_iff.1 h2).2.2\n  rw [ht.val] at v1 v2")
    w("  exact ⟨"+",\n    ".join(f"slab_near hf{a} l{a} (fun hn => (n{a} hn).trans v1) (fun hn => v2.trans (f{a} hn))" for a in ax)+"⟩\n")
    for nm,fld,Near,base in (("entry","start","NearEntry","n"),("exit","stop","NearExit","f")):
        zero = "real i.start = 0 ∨ " if nm=="entry" else ""
        doc = {"entry":"the start of the reported range is `0` (the ray starts inside the box), or there the exact point of the\nray is on the face through which the ray enters one of the slabs, up to rounding","exit":"at a finite end of the reported range the exact point of the ray is on the face through which the ray leaves\none of the slabs, up to rounding"}[nm]
        w(f"/-- **C83** ({n}D): {doc}. -/")
        w(f"theorem C83_{nm}{n} {hyp}\n    (hs : IsFinite i.{fld}) :\n    {zero}"+" ∨\n    ".join(f"{Near} {slabargs(a)} {pt(a,'real i.'+fld)} 0" for a in ax)+" := by")
        pre()
        v="cs" if nm=="entry" else "ce"
        w(f"  rw [hs.val] at {v}")
        w(f"  rcases {v} with h0 | "+" | ".join("⟨hn, h0⟩" for a in ax))
        if nm=="entry":
            w("  · exact .inl (by exact_mod_cast h0)")
        else:
            w("  · exact absurd h0 (EReal.coe_ne_top _)")
        for k,a in enumerate(ax):
            kk=k+(1 if nm=="entry" else 0)
            tot=n+(1 if nm=="entry" else 0)
            s="(.inr "*kk+("(.inl " if kk<tot-1 else "(")+f"(slab_{nm} hf{a} l{a} hn h0.symm))"+")"*kk
            w(f"  · exact {s}")
        w("")
    # computed
    er=lambda a,t:f"(atErr ray.origin.{a} ray.direction.{a} {t})"
    w(f"/-- **C83** ({n}D): the computed points `ray.at(t)` for `t` in the reported range are inside the box, up to rounding. -/")
    w(f"theorem C83_computed_inside{n} {hyp} (t : S)\n    (ht : AllFinite (ray.at t)) (h1 : (i.start ≤? t) = true) (h2 : (t ≤? i.stop) = true) :\n    "+bysub("",lambda a:er(a,"t"),lambda a:f"(real (ray.at t).{a})")+" := by")
    w(f"  have hat := C64_at{n} ray t ht")
    w(f"  rw [Point{n}.allFinite] at ht")
    w(f"  have tf : IsFinite t := (finite_of_mul (finite_of_add ht.1).2).2")
    w(f"  have hin := C83_inside{n} b ray hf hb i h t tf h1 h2")
    sel=lambda k:(".1" if k==0 else (".2" if n==2 else (".2.1" if k==1 else ".2.2")))
    w("  exact ⟨"+", ".join(f"hin{sel(k)}.computed hat{sel(k)}" for k in range(n))+"⟩\n")
    for nm,fld,Near in (("entry","start","NearEntry"),("exit","stop","NearExit")):
        zero = "real i.start = 0 ∨ " if nm=="entry" else ""
        w(f"/-- **C83** ({n}D): the computed {nm} point `ray.at(i.{fld})` is on a face of the box, up to rounding"+(" (or the ray starts\ninside the box)" if nm=="entry" else "")+". -/")
        w(f"theorem C83_computed_{nm}{n} {hyp}\n    (ht : AllFinite (ray.at i.{fld})) :\n    {zero}"+" ∨\n    ".join(f"{Near} {slabargs(a)} (real (ray.at i.{fld}).{a}) {er(a,'i.'+fld)}" for a in ax)+" := by")
        w(f"  have hat := C64_at{n} ray i.{fld} ht")
        w(f"  rw [Point{n}.allFinite] at ht")
        w(f"  have tf : IsFinite i.{fld} := (finite_of_mul (finite_of_add ht.1).2).2")
        pats=(["h0"] if nm=="entry" else [])+["h0"]*n
        w(f"  rcases C83_{nm}{n} b ray hf hb i h tf with "+" | ".join(pats))
        tot=len(pats)
        for k in range(tot):
            isz = nm=="entry" and k==0
            body="h0" if isz else f"(h0.computed hat{sel(k-(1 if nm=='entry' else 0))})"
            w(f"  · exact "+"(.inr "*k+("(.inl " if k<tot-1 else "(")+body+")"+")"*k)
        w("")
    return "\n".join(out)
tails=[]; stack=[]
head='''import Verif.Lemmas.Hit
import Verif.Props.FloatRayAcc
import Verif.Props.FloatErrorMat
import Verif.Props.FloatExamples2
/-!
# Layer F: where the hit points are

The points of a ray at the parameters `intersect` reports lie in the box, and the end points on its faces, up to an
explicit rounding error: two roundings of the distance to the face, and for the computed `ray.at(t)` those of C64.
-/


namespace VecMath
open Scalar IEEE

section
variable {S : Type} [Scalar S] [IEEE S] [Binary S]

theorem NearSlab.computed {lo hi o d t : S} {x y : ℝ} (h : NearSlab lo hi o d x 0) (hy : |y - x| ≤ atErr o d t) :
    NearSlab lo hi o d y (atErr o d t) := by
  obtain ⟨h1, h2⟩ := h
  obtain ⟨h3, h4⟩ := abs_le.1 hy
  constructor <;> linarith
theorem near_computed {c x y e f : ℝ} (h : |x - c| ≤ e + 0) (hy : |y - x| ≤ f) : |y - c| ≤ e + f := by
  have : y - c = (x - c) + (y - x) := by ring
  rw [this]; exact (abs_add_le _ _).trans (by linarith)
theorem NearEntry.computed {lo hi o d t : S} {x y : ℝ} (h : NearEntry lo hi o d x 0) (hy : |y - x| ≤ atErr o d t) :
    NearEntry lo hi o d y (atErr o d t) := by
  rcases h with ⟨h1, h2⟩ | ⟨h1, h2⟩
  · exact .inl ⟨h1, near_computed h2 hy⟩
  · exact .inr ⟨h1, near_computed h2 hy⟩
theorem NearExit.computed {lo hi o d t : S} {x y : ℝ} (h : NearExit lo hi o d x 0) (hy : |y - x| ≤ atErr o d t) :
    NearExit lo hi o d y (atErr o d t) := by
  rcases h with ⟨h1, h2⟩ | ⟨h1, h2⟩
  · exact .inl ⟨h1, near_computed h2 hy⟩
  · exact .inr ⟨h1, near_computed h2 hy⟩

'''
open('/verif/lean/Verif/Props/FloatHit.lean','w').write(head+gen(2)+"\n"+gen(3)+"end\n"+open("/tmp/w/hit_tail.txt").read()+"end VecMath\n")
