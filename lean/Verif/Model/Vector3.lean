import Verif.Model.Types
/-! # `src/vector3.rs` -/

namespace VecMath
open Scalar
variable {S : Type} [Scalar S]

namespace Vector3

/-- src/vector3.rs:53-55 -/
def new (x y z : S) : Vector3 S := ⟨x, y, z⟩
/-- src/vector3.rs:59-61 -/
def zero : Vector3 S := new Scalar.zero Scalar.zero Scalar.zero
/-- src/vector3.rs:65-67 -/
def xAxis : Vector3 S := new one Scalar.zero Scalar.zero
/-- src/vector3.rs:71-73 -/
def yAxis : Vector3 S := new Scalar.zero one Scalar.zero
/-- src/vector3.rs:77-79 -/
def zAxis : Vector3 S := new Scalar.zero Scalar.zero one
/-- src/vector3.rs:83-89 -/
def axis : Dimension3 → Vector3 S
  | .X => xAxis
  | .Y => yAxis
  | .Z => zAxis
/-- src/vector3.rs:113-115 -/
def floor (self : Vector3 S) : Vector3 S :=
  new (Scalar.floor self.x) (Scalar.floor self.y) (Scalar.floor self.z)
/-- src/vector3.rs:119-121 -/
def ceil (self : Vector3 S) : Vector3 S :=
  new (Scalar.ceil self.x) (Scalar.ceil self.y) (Scalar.ceil self.z)
/-- src/vector3.rs:125-127 -/
def round (self : Vector3 S) : Vector3 S :=
  new (Scalar.round self.x) (Scalar.round self.y) (Scalar.round self.z)
/-- src/vector3.rs:131-133 -/
def trunc (self : Vector3 S) : Vector3 S :=
  new (Scalar.trunc self.x) (Scalar.trunc self.y) (Scalar.trunc self.z)
/-- src/vector3.rs:137-139 -/
def fract (self : Vector3 S) : Vector3 S :=
  new (Scalar.fract self.x) (Scalar.fract self.y) (Scalar.fract self.z)
/-- src/vector3.rs:143-145 -/
def abs (self : Vector3 S) : Vector3 S :=
  new (Scalar.abs self.x) (Scalar.abs self.y) (Scalar.abs self.z)
/-- src/vector3.rs:99-102 -/
def minDimension (self : Vector3 S) : Dimension3 :=
  let v := self.abs
  if v.x ≤? v.y && v.x ≤? v.z then .X else if v.y ≤? v.z then .Y else .Z
/-- src/vector3.rs:106-109 -/
def maxDimension (self : Vector3 S) : Dimension3 :=
  let v := self.abs
  if v.x >? v.y && v.x >? v.z then .X else if v.y >? v.z then .Y else .Z
/-- `Index<Dimension3>` src/vector3.rs:154-165 -/
def index (self : Vector3 S) : Dimension3 → S
  | .X => self.x
  | .Y => self.y
  | .Z => self.z
/-- `IndexMut<Dimension3>` src/vector3.rs:167-176: the returned `&mut S` is modelled by the update
`f` the caller performs through it. -/
def indexMut (self : Vector3 S) (dim : Dimension3) (f : S → S) : Vector3 S :=
  match dim with
  | .X => { self with x := f self.x }
  | .Y => { self with y := f self.y }
  | .Z => { self with z := f self.z }
/-- src/vector3.rs:149-151 -/
def permute (self : Vector3 S) (dimX dimY dimZ : Dimension3) : Vector3 S :=
  new (self.index dimX) (self.index dimY) (self.index dimZ)

end Vector3

/-- src/vector3.rs:34-36 (and the monomorphic `vector3f`, `vector3d`, 39-46) -/
def vector3 (x y z : S) : Vector3 S := Vector3.new x y z

/-- `MinMax for Vector3` src/vector3.rs:178-190 -/
instance : MinMax (Vector3 S) where
  min self v := Vector3.new (Api.min self.x v.x) (Api.min self.y v.y) (Api.min self.z v.z)
  max self v := Vector3.new (Api.max self.x v.x) (Api.max self.y v.y) (Api.max self.z v.z)

/-- `DotProduct for Vector3` src/vector3.rs:240-248 -/
instance : DotProduct (Vector3 S) (Vector3 S) S where
  dot self v := self.x * v.x + self.y * v.y + self.z * v.z

/-- `CrossProduct for Vector3` src/vector3.rs:250-258 -/
instance : CrossProduct (Vector3 S) (Vector3 S) (Vector3 S) where
  cross self v := Vector3.new (self.y * v.z - self.z * v.y) (self.z * v.x - self.x * v.z)
    (self.x * v.y - self.y * v.x)

/-- `Length for Vector3` src/vector3.rs:192-200 -/
instance : Length (Vector3 S) S where
  length self := sqrt (Api.dot self self)

/-- `RelativeLength for Vector3` src/vector3.rs:202-238 -/
instance : RelativeLength (Vector3 S) where
  isShorterThan self v := Api.dot self self <? Api.dot v v
  isLongerThan self v := Api.dot self self >? Api.dot v v
  shortest self v := if Api.dot self self <? Api.dot v v then self else v
  longest self v := if Api.dot self self >? Api.dot v v then self else v

/-- `Add<Vector3> for Vector3` src/vector3.rs:260-267 -/
instance : Add (Vector3 S) where
  add self v := Vector3.new (self.x + v.x) (self.y + v.y) (self.z + v.z)
/-- `AddAssign` src/vector3.rs:269-276; three successive field updates. -/
def Vector3.addAssign (self v : Vector3 S) : Vector3 S :=
  let self := { self with x := self.x + v.x }
  let self := { self with y := self.y + v.y }
  { self with z := self.z + v.z }
/-- `Sub<Vector3> for Vector3` src/vector3.rs:278-285 -/
instance : Sub (Vector3 S) where
  sub self v := Vector3.new (self.x - v.x) (self.y - v.y) (self.z - v.z)
/-- `SubAssign` src/vector3.rs:287-294 -/
def Vector3.subAssign (self v : Vector3 S) : Vector3 S :=
  let self := { self with x := self.x - v.x }
  let self := { self with y := self.y - v.y }
  { self with z := self.z - v.z }
/-- `Neg` src/vector3.rs:296-303 -/
instance : Neg (Vector3 S) where
  neg self := Vector3.new (-self.x) (-self.y) (-self.z)
/-- `Mul<S> for Vector3` src/vector3.rs:305-312 -/
instance : HMul (Vector3 S) S (Vector3 S) where
  hMul self s := Vector3.new (self.x * s) (self.y * s) (self.z * s)
/-- `MulAssign<S>` src/vector3.rs:314-321 -/
def Vector3.mulAssign (self : Vector3 S) (s : S) : Vector3 S :=
  let self := { self with x := self.x * s }
  let self := { self with y := self.y * s }
  { self with z := self.z * s }
/-- `Mul<Vector3f> for f32`, `Mul<Vector3d> for f64` src/vector3.rs:323-339 (one generic instance
here; Rust's orphan rules force two identical copies). -/
instance : HMul S (Vector3 S) (Vector3 S) where
  hMul self v := v * self
/-- `Div<S> for Vector3` src/vector3.rs:341-348 -/
instance : HDiv (Vector3 S) S (Vector3 S) where
  hDiv self s := Vector3.new (self.x / s) (self.y / s) (self.z / s)
/-- `DivAssign<S>` src/vector3.rs:350-357 -/
def Vector3.divAssign (self : Vector3 S) (s : S) : Vector3 S :=
  let self := { self with x := self.x / s }
  let self := { self with y := self.y / s }
  { self with z := self.z / s }
/-- `From<Point3> for Vector3` src/vector3.rs:359-364 -/
def Vector3.fromPoint (p : Point3 S) : Vector3 S := Vector3.new p.x p.y p.z

/-- src/vector3.rs:93-95 -/
def Vector3.normalize (self : Vector3 S) : Vector3 S := self / Api.length self

end VecMath
