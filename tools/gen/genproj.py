out=["import Verif.Spec.Basic","/-! # Component lemmas (all by `rfl`): what each operation of the model does to each field. -/","",
"set_option linter.unusedSectionVars false","","namespace VecMath","open Scalar","variable {S : Type} [Scalar S]",""]
for n,cs in ((2,"xy"),(3,"xyz")):
    V=f"Vector{n}";P=f"Point{n}"
    args=" ".join(cs)
    for c in cs:
        for T,U in ((V,V),(P,V)):
            for op,nm in (("+","add"),("-","sub")):
                out.append(f"@[simp] theorem {T}.{nm}_{c} (a : {T} S) (b : {U} S) : (a {op} b).{c} = a.{c} {op} b.{c} := rfl")
        out.append(f"@[simp] theorem {P}.psub_{c} (a b : {P} S) : (a - b).{c} = a.{c} - b.{c} := rfl")
        for T in (V,P):
            out.append(f"@[simp] theorem {T}.neg_{c} (a : {T} S) : (-a).{c} = -a.{c} := rfl")
            out.append(f"@[simp] theorem {T}.mul_{c} (a : {T} S) (s : S) : (a * s).{c} = a.{c} * s := rfl")
            out.append(f"@[simp] theorem {T}.smul_{c} (s : S) (a : {T} S) : (s * a).{c} = a.{c} * s := rfl")
            out.append(f"@[simp] theorem {T}.div_{c} (a : {T} S) (s : S) : (a / s).{c} = a.{c} / s := rfl")
            out.append(f"@[simp] theorem {T}.min_{c} (a b : {T} S) : (Api.min a b).{c} = fmin a.{c} b.{c} := rfl")
            out.append(f"@[simp] theorem {T}.max_{c} (a b : {T} S) : (Api.max a b).{c} = fmax a.{c} b.{c} := rfl")
            out.append(f"@[simp] theorem {T}.new_{c} ({args} : S) : ({T}.new {args}).{c} = {c} := rfl")
            out.append(f"@[simp] theorem {T}.abs_{c} (a : {T} S) : a.abs.{c} = Scalar.abs a.{c} := rfl")
            for f in ("floor","ceil","round","trunc","fract"):
                out.append(f"@[simp] theorem {T}.{f}_{c} (a : {T} S) : a.{f}.{c} = Scalar.{f} a.{c} := rfl")
        out.append(f"@[simp] theorem {V}.zero_{c} : ({V}.zero : {V} S).{c} = Scalar.zero := rfl")
        out.append(f"@[simp] theorem {P}.origin_{c} : ({P}.origin : {P} S).{c} = Scalar.zero := rfl")
        out.append(f"@[simp] theorem {V}.fromPoint_{c} (p : {P} S) : ({V}.fromPoint p).{c} = p.{c} := rfl")
        out.append(f"@[simp] theorem {P}.fromVector_{c} (p : {V} S) : ({P}.fromVector p).{c} = p.{c} := rfl")
        out.append(f"@[simp] theorem {V}.normalize_{c} (v : {V} S) : v.normalize.{c} = v.{c} / Api.length v := rfl")
        out.append(f"@[simp] theorem Ray{n}.at_{c} (r : Ray{n} S) (t : S) : (r.at t).{c} = r.origin.{c} + r.direction.{c} * t := rfl")
        for a in cs:
            out.append(f"@[simp] theorem {V}.{a}Axis_{c} : ({V}.{a}Axis : {V} S).{c} = {'Scalar.one' if a==c else 'Scalar.zero'} := rfl")
        out.append(f"@[simp] theorem BoundingBox{n}.diagonal_{c} (b : BoundingBox{n} S) : b.diagonal.{c} = b.max.{c} - b.min.{c} := rfl")
    for mm in ("min","max"):
        out.append(f"@[simp] theorem BoundingBox{n}.new_{mm} (p q : {P} S) : (BoundingBox{n}.new p q).{mm} = Api.{mm} p q := rfl")
    dot=" + ".join(f"u.{c} * v.{c}" for c in cs)
    out.append(f"theorem {V}.dot_def (u v : {V} S) : Api.dot u v = {dot} := rfl")
    out.append(f"theorem {V}.length_def (u : {V} S) : Api.length u = sqrt (Api.dot u u) := rfl")
    out.append(f"theorem {P}.distance_def (p q : {P} S) : Api.distance p q = Api.length (q - p) := rfl")
for c,(a,b) in zip("xyz",("yz","zx","xy")):
    out.append(f"@[simp] theorem Vector3.cross_{c} (u v : Vector3 S) : (Api.cross u v).{c} = u.{a} * v.{b} - u.{b} * v.{a} := rfl")
out+=["","end VecMath",""]
open("/verif/lean/Verif/Lemmas/Proj.lean","w").write("\n".join(out))
