#!/usr/bin/env python3
"""Generate lean/Verif/Rust/Inhabit.lean: the values of the crate's types are those the model represents."""
vals=[]
out="""import Verif.Rust.Typing
/-! # The values of the crate's types are those of the model

Generated by `tools/gen/typing.py`. -/

namespace VecMath.Rust
open VecMath
variable {S : Type}

"""
def I(s): return f'(i!"{s}")'
def emit(ty, name, exp, pat, wit, model, haspat, prim=None):
    global out
    args = "(l : List Ty) " if ty is None else ""
    t = f'(.path {I(name)} l)' if ty is None else ty
    if prim is None:
        out+=f"""theorem is_{name} (p : Prim) {args}(n : Nat) (v : Val S)
    (h : Val.Is Src.crate p.id (n + 5) {t} v) : ∃ a : {model}, v = rep a := by
  have e : Val.Is Src.crate p.id (n + 5) {t} v = ({exp}) := by cases p <;> kernel_rfl
  rw [e] at h
  obtain {pat} := h
  exact ⟨{wit}, rfl⟩

theorem has_{name} (p : Prim) {args}(n : Nat) (a : {model}) : Val.Is Src.crate p.id (n + 5) {t} (rep a : Val S) := by
  have e : ∀ v : Val S, Val.Is Src.crate p.id (n + 5) {t} v = ({exp}) := by intro v; cases p <;> kernel_rfl
  rw [e]
  exact {haspat}

"""
def fields(fs, leaf, suffix=""):
    # fs names; leaf(f,var)->exp
    r="R = []"
    return fs
def scs(fs,base,v,pfx):
    """expansion that v is obj base with scalar fields"""
    s=""; cur=f"fs{pfx}"
    body=""
    names=[]
    k=0
    close=0
    e=f"∃ fs{pfx}, {v} = .obj {I(base)} fs{pfx} ∧ "
    for f in fs:
        e+=f"(∃ w{pfx}{k} r{pfx}{k}, {cur} = ({I(f)}, w{pfx}{k}) :: r{pfx}{k} ∧ (∃ s : S, w{pfx}{k} = .sc s) ∧ "
        cur=f"r{pfx}{k}"; k+=1; close+=1
    e+=f"{cur} = []"+")"*close
    return e
def scspat(n,pfx):
    p="⟨_, rfl, "
    for k in range(n): p+=f"⟨_, _, rfl, ⟨s{pfx}{k}, rfl⟩, "
    return p+"rfl"+"⟩"*n+"⟩"
XY=["x","y"];XYZ=["x","y","z"]
for n,fs in ((2,XY),(3,XYZ)):
    for B in ("Vector","Point"):
        T=f"{B}{n}"
        emit(None,T,scs(fs,T,"v",""),scspat(n,""),"⟨"+", ".join(f"s{k}" for k in range(n))+"⟩",f"{T} S","⟨_, rfl, "+"⟨_, _, rfl, ⟨_, rfl⟩, "*n+"rfl"+"⟩"*n+"⟩")
def two(T,f1,t1,f2,t2):
    e=f"∃ fs, v = .obj {I(T)} fs ∧ (∃ w0 r0, fs = ({I(f1)}, w0) :: r0 ∧ Val.Is Src.crate p.id (n + 4) {t1} w0 ∧ (∃ w1 r1, r0 = ({I(f2)}, w1) :: r1 ∧ Val.Is Src.crate p.id (n + 4) {t2} w1 ∧ r1 = []))"
    return e
SS='[.path (i!"S") []]'
def emit2(T,f1,T1,f2,T2):
    global out
    tt=lambda X:f'(.path {I(X)} {SS})'
    out+=f"""theorem is_{T} (p : Prim) (l : List Ty) (n : Nat) (v : Val S)
    (h : Val.Is Src.crate p.id (n + 6) (.path {I(T)} l) v) : ∃ a : {T} S, v = rep a := by
  have e : Val.Is Src.crate p.id (n + 6) (.path {I(T)} l) v =
      (∃ fs, v = .obj {I(T)} fs ∧ (∃ w0 r0, fs = ({I(f1)}, w0) :: r0 ∧ Val.Is Src.crate p.id (n + 5) {tt(T1)} w0 ∧
        (∃ w1 r1, r0 = ({I(f2)}, w1) :: r1 ∧ Val.Is Src.crate p.id (n + 5) {tt(T2)} w1 ∧ r1 = []))) := by
    cases p <;> kernel_rfl
  rw [e] at h
  obtain ⟨_, rfl, _, _, rfl, h0, _, _, rfl, h1, rfl⟩ := h
  obtain ⟨a, rfl⟩ := is_{T1} p _ n _ h0
  obtain ⟨b, rfl⟩ := is_{T2} p _ n _ h1
  exact ⟨⟨a, b⟩, rfl⟩

theorem has_{T} (p : Prim) (l : List Ty) (n : Nat) (a : {T} S) :
    Val.Is Src.crate p.id (n + 6) (.path {I(T)} l) (rep a : Val S) := by
  have e : ∀ v : Val S, Val.Is Src.crate p.id (n + 6) (.path {I(T)} l) v =
      (∃ fs, v = .obj {I(T)} fs ∧ (∃ w0 r0, fs = ({I(f1)}, w0) :: r0 ∧ Val.Is Src.crate p.id (n + 5) {tt(T1)} w0 ∧
        (∃ w1 r1, r0 = ({I(f2)}, w1) :: r1 ∧ Val.Is Src.crate p.id (n + 5) {tt(T2)} w1 ∧ r1 = []))) := by
    intro v; cases p <;> kernel_rfl
  rw [e]
  exact ⟨_, rfl, _, _, rfl, has_{T1} p _ n _, _, _, rfl, has_{T2} p _ n _, rfl⟩

"""
for n in (2,3):
    emit2(f"Ray{n}","origin",f"Point{n}","direction",f"Vector{n}")
    emit2(f"BoundingBox{n}","min",f"Point{n}","max",f"Point{n}")
for M,T,N in (("Matrix3x3","Transform2",9),("Matrix4x4","Transform3",16)):
    ty=f'(.arr (.path (i!"S") []) {N})'
    e="∃ l, v = .arr l ∧ "; cur="l"
    for k in range(N):
        e+=f"(∃ w{k} r{k}, {cur} = w{k} :: r{k} ∧ (∃ s : S, w{k} = .sc s) ∧ "; cur=f"r{k}"
    e+=f"{cur} = []"+")"*N
    pat="⟨_, rfl, "+"".join(f"⟨_, _, rfl, ⟨s{k}, rfl⟩, " for k in range(N))+"rfl"+"⟩"*N+"⟩"
    out+=f"""theorem is_arr{N} (p : Prim) (n : Nat) (v : Val S)
    (h : Val.Is Src.crate p.id (n + 3) {ty} v) : ∃ a : Vector S {N}, v = rep a := by
  have e : Val.Is Src.crate p.id (n + 3) {ty} v = ({e}) := by cases p <;> kernel_rfl
  rw [e] at h
  obtain {pat} := h
  exact ⟨#v[{", ".join(f"s{k}" for k in range(N))}], rfl⟩

theorem has_arr{N} (p : Prim) (n : Nat) (a : Vector S {N}) : Val.Is Src.crate p.id (n + 3) {ty} (rep a : Val S) := by
  have e : ∀ v : Val S, Val.Is Src.crate p.id (n + 3) {ty} v = ({e}) := by intro v; cases p <;> kernel_rfl
  rw [e]
  exact {"⟨_, rfl, "+"⟨_, _, rfl, ⟨_, rfl⟩, "*N+"rfl"+"⟩"*N+"⟩"}

theorem is_{M} (p : Prim) (l : List Ty) (n : Nat) (v : Val S)
    (h : Val.Is Src.crate p.id (n + 5) (.path {I(M)} l) v) : ∃ a : {M} S, v = rep a := by
  have e : Val.Is Src.crate p.id (n + 5) (.path {I(M)} l) v = (∃ fs, v = .obj {I(M)} fs ∧
      ∃ w r, fs = ((i!"m"), w) :: r ∧ Val.Is Src.crate p.id (n + 4) {ty} w ∧ r = []) := by cases p <;> kernel_rfl
  rw [e] at h
  obtain ⟨_, rfl, _, _, rfl, h0, rfl⟩ := h
  obtain ⟨a, rfl⟩ := is_arr{N} p (n + 1) _ h0
  exact ⟨⟨a⟩, rfl⟩

theorem has_{M} (p : Prim) (l : List Ty) (n : Nat) (a : {M} S) :
    Val.Is Src.crate p.id (n + 5) (.path {I(M)} l) (rep a : Val S) := by
  have e : ∀ v : Val S, Val.Is Src.crate p.id (n + 5) (.path {I(M)} l) v = (∃ fs, v = .obj {I(M)} fs ∧
      ∃ w r, fs = ((i!"m"), w) :: r ∧ Val.Is Src.crate p.id (n + 4) {ty} w ∧ r = []) := by intro v; cases p <;> kernel_rfl
  rw [e]
  exact ⟨_, rfl, _, _, rfl, has_arr{N} p (n + 1) _, rfl⟩

"""
    emit2(T,"forward",M,"inverse",M)
for n,vs in ((2,"XY"),(3,"XYZ")):
    T=f"Dimension{n}"
    out+=f"""theorem is_{T} (p : Prim) (l : List Ty) (n : Nat) (v : Val S)
    (h : Val.Is Src.crate p.id (n + 2) (.path {I(T)} l) v) : ∃ a : {T}, v = rep a := by
  have e : Val.Is Src.crate p.id (n + 2) (.path {I(T)} l) v =
      (∃ y, y ∈ [{", ".join(f'(i!"{x}" : Ident)' for x in vs)}] ∧ v = .enm {I(T)} y) := by cases p <;> kernel_rfl
  rw [e] at h
  obtain ⟨y, hy, rfl⟩ := h
  simp only [List.mem_cons, List.not_mem_nil, or_false] at hy
  rcases hy with {" | ".join("rfl" for _ in vs)}
{chr(10).join(f"  · exact ⟨.{x}, rfl⟩" for x in vs)}

theorem has_{T} (p : Prim) (l : List Ty) (n : Nat) (a : {T}) : Val.Is Src.crate p.id (n + 2) (.path {I(T)} l) (rep a : Val S) := by
  have e : ∀ v : Val S, Val.Is Src.crate p.id (n + 2) (.path {I(T)} l) v =
      (∃ y, y ∈ [{", ".join(f'(i!"{x}" : Ident)' for x in vs)}] ∧ v = .enm {I(T)} y) := by intro v; cases p <;> kernel_rfl
  rw [e]
  cases a <;> exact ⟨_, by decide, rfl⟩

"""
out+="""theorem is_S (p : Prim) (l : List Ty) (n : Nat) (v : Val S)
    (h : Val.Is Src.crate p.id (n + 1) (.path (i!"S") l) v) : ∃ s : S, v = .sc s := by
  have e : Val.Is Src.crate p.id (n + 1) (.path (i!"S") l) v = (∃ s : S, v = .sc s) := by cases p <;> kernel_rfl
  exact e ▸ h

theorem is_u32 (p : Prim) (l : List Ty) (n : Nat) (v : Val S)
    (h : Val.Is Src.crate p.id (n + 1) (.path (i!"u32") l) v) : ∃ k : UInt32, v = rep k := by
  have e : Val.Is Src.crate p.id (n + 1) (.path (i!"u32") l) v = (∃ k : Nat, k < 2 ^ 32 ∧ v = .int k) := by
    cases p <;> kernel_rfl
  rw [e] at h
  obtain ⟨k, hk, rfl⟩ := h
  exact ⟨UInt32.ofNatLT k hk, rfl⟩

theorem has_u32 (p : Prim) (l : List Ty) (n : Nat) (a : UInt32) :
    Val.Is Src.crate p.id (n + 1) (.path (i!"u32") l) (rep a : Val S) := by
  have e : ∀ v : Val S, Val.Is Src.crate p.id (n + 1) (.path (i!"u32") l) v = (∃ k : Nat, k < 2 ^ 32 ∧ v = .int k) := by
    intro v; cases p <;> kernel_rfl
  rw [e]
  exact ⟨_, a.toNat_lt, rfl⟩

theorem has_S (p : Prim) (l : List Ty) (n : Nat) (s : S) : Val.Is Src.crate p.id (n + 1) (.path (i!"S") l) (.sc s) := by
  have e : ∀ v : Val S, Val.Is Src.crate p.id (n + 1) (.path (i!"S") l) v = (∃ s : S, v = .sc s) := by
    intro v; cases p <;> kernel_rfl
  rw [e]
  exact ⟨_, rfl⟩

"""
for pr in ("f32","f64"):
    other={"f32":"f64","f64":"f32"}[pr]
    out+=f"""theorem is_{pr} (p : Prim) (l : List Ty) (n : Nat) (v : Val S)
    (h : Val.Is Src.crate p.id (n + 1) (.path (i!"{pr}") l) v) : p = .{pr} ∧ ∃ s : S, v = .sc s := by
  cases p with
  | {pr} =>
    have e : Val.Is Src.crate Prim.{pr}.id (n + 1) (.path (i!"{pr}") l) v = (∃ s : S, v = .sc s) := by kernel_rfl
    exact ⟨rfl, e ▸ h⟩
  | {other} =>
    have e : Val.Is Src.crate Prim.{other}.id (n + 1) (.path (i!"{pr}") l) v = False := by kernel_rfl
    exact (e ▸ h).elim

"""
    for T in ("Vector2","Vector3","Point2","Point3","Matrix3x3","Matrix4x4"):
        A=T+pr.replace("f32","f").replace("f64","d")
        out+=f"""theorem is_{A} (p : Prim) (l : List Ty) (n : Nat) (v : Val S)
    (h : Val.Is Src.crate p.id (n + 6) (.path {I(A)} l) v) : p = .{pr} ∧ ∃ a : {T} S, v = rep a := by
  cases p with
  | {pr} =>
    have e : Val.Is Src.crate Prim.{pr}.id (n + 6) (.path {I(A)} l) v =
        Val.Is Src.crate Prim.{pr}.id (n + 5) (.path {I(T)} []) v := by kernel_rfl
    exact ⟨rfl, is_{T} .{pr} _ n v (e ▸ h)⟩
  | {other} =>
    have e : Val.Is Src.crate Prim.{other}.id (n + 6) (.path {I(A)} l) v = False := by kernel_rfl
    exact (e ▸ h).elim

"""
for T,off in (("Vector2",4),("Vector3",4),("Point2",4),("Point3",4),("Ray2",3),("Ray3",3),("BoundingBox2",3),("BoundingBox3",3),("Matrix3x3",4),("Matrix4x4",4),("Transform2",3),("Transform3",3),("Dimension2",7),("Dimension3",7)):
    M=T if T[0]=="D" else T+" S"
    vals.append(f"""/-- The values of the type `{T}` of the source text are the values of the model. -/
theorem C82_values_{T} (p : Prim) (l : List Ty) (v : Val S) :
    Val.Is Src.crate p.id 9 (.path {I(T)} l) v ↔ ∃ a : {M}, v = rep a :=
  ⟨is_{T} p l {off} v, fun ⟨a, h⟩ => h ▸ has_{T} p l {off} a⟩

""")
vals.append("""/-- The values of the type `u32`. -/
theorem C82_values_u32 (p : Prim) (l : List Ty) (v : Val S) :
    Val.Is Src.crate p.id 9 (.path (i!"u32") l) v ↔ ∃ a : UInt32, v = rep a :=
  ⟨is_u32 p l 8 v, fun ⟨a, h⟩ => h ▸ has_u32 p l 8 a⟩

/-- The values of the scalar type. -/
theorem C82_values_S (p : Prim) (l : List Ty) (v : Val S) :
    Val.Is Src.crate p.id 9 (.path (i!"S") l) v ↔ ∃ s : S, v = .sc s :=
  ⟨is_S p l 8 v, fun ⟨s, h⟩ => h ▸ has_S p l 8 s⟩

""")
open('/verif/lean/Verif/Props/SourceValues.lean','w').write("""import Verif.Rust.Inhabit
/-! # The values of the types declared in the source text are the values of the model

Generated by `tools/gen/typing.py`. -/

namespace VecMath.Rust
open VecMath
variable {S : Type}

"""+"".join(vals)+"end VecMath.Rust\n")
out+="end VecMath.Rust\n"
open('/verif/lean/Verif/Rust/Inhabit.lean','w').write(out)
