out="""import Verif.Rust.Derive
import Verif.Rust.Tactic
/-! # `==` of the crate's types

Generated by `tools/gen/deq.py`. `Src.eq S a b` is what the `#[derive(PartialEq)]` of the source text makes of
`a == b`. -/

namespace VecMath.Rust
open VecMath Scalar
variable {S : Type} [Scalar S]

"""
def leaf(fs,a=""): # fully right nested per level
    xs=[f"a{a}{f} == b{a}{f}" for f in fs]
    r=xs[-1]
    for x in reversed(xs[:-1]): r=f"{x} && ({r})"
    return r
def nest(outer,fs):
    xs=["("+leaf(fs,"."+o)+")" for o in outer]
    return " && ".join(xs)
xy=[".x",".y"]; xyz=xy+[".z"]
def m(n): return [f".m[{i}]" for i in range(n)]
T={"Vector2":leaf(xy),"Vector3":leaf(xyz),"Point2":leaf(xy),"Point3":leaf(xyz),
"Ray2":nest(["origin","direction"],xy),"Ray3":nest(["origin","direction"],xyz),
"BoundingBox2":nest(["min","max"],xy),"BoundingBox3":nest(["min","max"],xyz),
"Matrix3x3":leaf(m(9)),"Matrix4x4":leaf(m(16)),"Transform2":nest(["forward","inverse"],m(9)),"Transform3":nest(["forward","inverse"],m(16))}
for t,e in T.items():
    out+=f"""theorem C81_eq_{t} (a b : {t} S) : Src.eq S (rep a) (rep b) = some (a == b) := by
  have h : Src.eq S (rep a) (rep b) = some ({e}) := by kernel_rfl
  have k : (a == b) = ({e}) := by simp only [BEq.beq, Bool.and_assoc]
  rw [h, k]
"""
for d in (2,3):
    out+=f"""theorem C81_eq_Dimension{d} (a b : Dimension{d}) : Src.eq S (rep a) (rep b) = some (decide (a = b)) := by
  cases a <;> cases b <;> kernel_rfl
"""
out+="""theorem C81_eq_NonInvertibleMatrixError :
    Src.eq S (.obj (i!"NonInvertibleMatrixError") []) (.obj (i!"NonInvertibleMatrixError") []) = some true := by
  kernel_rfl

end VecMath.Rust
"""
open('/verif/lean/Verif/Props/SourceEq.lean','w').write(out)
