import Verif.Model.Vector3
/-! # `src/point3.rs` -/

namespace VecMath
open Scalar
variable {S : Type} [Scalar S]

namespace Point3

/-- src/point3.rs:53-55 -/
def new (x y z : S) : Point3 S := ⟨x, y, z⟩
/-- src/point3.rs:59-61 -/
def origin : Point3 S := new Scalar.zero Scalar.zero Scalar.zero
/-- src/point3.rs:79-81 -/
def floor (self : Point3 S) : Point3 S :=
  new (Scalar.floor self.x) (Scalar.floor self.y) (Scalar.floor self.z)
/-- src/point3.rs:85-87 -/
def ceil (self : Point3 S) : Point3 S :=
  new (Scalar.ceil self.x) (Scalar.ceil self.y) (Scalar.ceil self.z)
/-- src/point3.rs:91-93 -/
def round (self : Point3 S) : Point3 S :=
  new (Scalar.round self.x) (Scalar.round self.y) (Scalar.round self.z)
/-- src/point3.rs:97-99 -/
def trunc (self : Point3 S) : Point3 S :=
  new (Scalar.trunc self.x) (Scalar.trunc self.y) (Scalar.trunc self.z)
/-- src/point3.rs:103-105 -/
def fract (self : Point3 S) : Point3 S :=
  new (Scalar.fract self.x) (Scalar.fract self.y) (Scalar.fract self.z)
/-- src/point3.rs:109-111 -/
def abs (self : Point3 S) : Point3 S :=
  new (Scalar.abs self.x) (Scalar.abs self.y) (Scalar.abs self.z)
/-- src/point3.rs:65-68 -/
def minDimension (self : Point3 S) : Dimension3 :=
  let v := self.abs
  if v.x ≤? v.y && v.x ≤? v.z then .X else if v.y ≤? v.z then .Y else .Z
/-- src/point3.rs:72-75 -/
def maxDimension (self : Point3 S) : Dimension3 :=
  let v := self.abs
  if v.x >? v.y && v.x >? v.z then .X else if v.y >? v.z then .Y else .Z
/-- `Index<Dimension3>` src/point3.rs:120-131 -/
def index (self : Point3 S) : Dimension3 → S
  | .X => self.x
  | .Y => self.y
  | .Z => self.z
/-- `IndexMut<Dimension3>` src/point3.rs:133-142; `f` is the update made through the `&mut S`. -/
def indexMut (self : Point3 S) (dim : Dimension3) (f : S → S) : Point3 S :=
  match dim with
  | .X => { self with x := f self.x }
  | .Y => { self with y := f self.y }
  | .Z => { self with z := f self.z }
/-- src/point3.rs:115-117 -/
def permute (self : Point3 S) (dimX dimY dimZ : Dimension3) : Point3 S :=
  new (self.index dimX) (self.index dimY) (self.index dimZ)

end Point3

/-- src/point3.rs:34-36 (and the monomorphic `point3f`, `point3d`, 39-46) -/
def point3 (x y z : S) : Point3 S := Point3.new x y z

/-- `MinMax for Point3` src/point3.rs:144-156 -/
instance : MinMax (Point3 S) where
  min self p := Point3.new (Api.min self.x p.x) (Api.min self.y p.y) (Api.min self.z p.z)
  max self p := Point3.new (Api.max self.x p.x) (Api.max self.y p.y) (Api.max self.z p.z)

/-- `Add<Vector3> for Point3` src/point3.rs:208-215 -/
instance : HAdd (Point3 S) (Vector3 S) (Point3 S) where
  hAdd self v := Point3.new (self.x + v.x) (self.y + v.y) (self.z + v.z)
/-- `AddAssign<Vector3>` src/point3.rs:217-224 -/
def Point3.addAssign (self : Point3 S) (v : Vector3 S) : Point3 S :=
  let self := { self with x := self.x + v.x }
  let self := { self with y := self.y + v.y }
  { self with z := self.z + v.z }
/-- `Sub<Vector3> for Point3` src/point3.rs:226-233 -/
instance : HSub (Point3 S) (Vector3 S) (Point3 S) where
  hSub self v := Point3.new (self.x - v.x) (self.y - v.y) (self.z - v.z)
/-- `SubAssign<Vector3>` src/point3.rs:235-242 -/
def Point3.subAssign (self : Point3 S) (v : Vector3 S) : Point3 S :=
  let self := { self with x := self.x - v.x }
  let self := { self with y := self.y - v.y }
  { self with z := self.z - v.z }
/-- `Sub<Point3> for Point3` src/point3.rs:244-251 -/
instance : HSub (Point3 S) (Point3 S) (Vector3 S) where
  hSub self p := Vector3.new (self.x - p.x) (self.y - p.y) (self.z - p.z)
/-- `Neg` src/point3.rs:253-260 -/
instance : Neg (Point3 S) where
  neg self := Point3.new (-self.x) (-self.y) (-self.z)
/-- `Mul<S> for Point3` src/point3.rs:262-269 -/
instance : HMul (Point3 S) S (Point3 S) where
  hMul self s := Point3.new (self.x * s) (self.y * s) (self.z * s)
/-- `MulAssign<S>` src/point3.rs:271-278 -/
def Point3.mulAssign (self : Point3 S) (s : S) : Point3 S :=
  let self := { self with x := self.x * s }
  let self := { self with y := self.y * s }
  { self with z := self.z * s }
/-- `Mul<Point3f> for f32`, `Mul<Point3d> for f64` src/point3.rs:280-296 -/
instance : HMul S (Point3 S) (Point3 S) where
  hMul self p := p * self
/-- `Div<S> for Point3` src/point3.rs:298-305 -/
instance : HDiv (Point3 S) S (Point3 S) where
  hDiv self s := Point3.new (self.x / s) (self.y / s) (self.z / s)
/-- `DivAssign<S>` src/point3.rs:307-314 -/
def Point3.divAssign (self : Point3 S) (s : S) : Point3 S :=
  let self := { self with x := self.x / s }
  let self := { self with y := self.y / s }
  { self with z := self.z / s }
/-- `From<Vector3> for Point3` src/point3.rs:316-321 -/
def Point3.fromVector (v : Vector3 S) : Point3 S := Point3.new v.x v.y v.z

/-- `Distance for Point3` src/point3.rs:158-166 -/
instance : Distance (Point3 S) S where
  distance self p := Api.length (p - self)

/-- src/point3.rs:174-177 -/
def Point3.isCloserTo (self p1 p2 : Point3 S) : Bool :=
  let v1 := p1 - self
  let v2 := p2 - self
  Api.dot v1 v1 <? Api.dot v2 v2
/-- src/point3.rs:184-187 -/
def Point3.isFartherFrom (self p1 p2 : Point3 S) : Bool :=
  let v1 := p1 - self
  let v2 := p2 - self
  Api.dot v1 v1 >? Api.dot v2 v2

/-- `RelativeDistance for Point3` src/point3.rs:168-206 -/
instance : RelativeDistance (Point3 S) where
  isCloserTo := Point3.isCloserTo
  isFartherFrom := Point3.isFartherFrom
  closest self p1 p2 := if self.isCloserTo p1 p2 then p1 else p2
  farthest self p1 p2 := if self.isFartherFrom p1 p2 then p1 else p2

end VecMath
