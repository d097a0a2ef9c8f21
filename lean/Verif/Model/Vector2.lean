import Verif.Model.Types
/-! # `src/vector2.rs` -/

namespace VecMath
open Scalar
variable {S : Type} [Scalar S]

namespace Vector2

/-- src/vector2.rs:52-54 -/
def new (x y : S) : Vector2 S := ⟨x, y⟩
/-- src/vector2.rs:58-60 -/
def zero : Vector2 S := new Scalar.zero Scalar.zero
/-- src/vector2.rs:64-66 -/
def xAxis : Vector2 S := new one Scalar.zero
/-- src/vector2.rs:70-72 -/
def yAxis : Vector2 S := new Scalar.zero one
/-- src/vector2.rs:76-81 -/
def axis : Dimension2 → Vector2 S
  | .X => xAxis
  | .Y => yAxis
/-- src/vector2.rs:105-107 -/
def floor (self : Vector2 S) : Vector2 S := new (Scalar.floor self.x) (Scalar.floor self.y)
/-- src/vector2.rs:111-113 -/
def ceil (self : Vector2 S) : Vector2 S := new (Scalar.ceil self.x) (Scalar.ceil self.y)
/-- src/vector2.rs:117-119 -/
def round (self : Vector2 S) : Vector2 S := new (Scalar.round self.x) (Scalar.round self.y)
/-- src/vector2.rs:123-125 -/
def trunc (self : Vector2 S) : Vector2 S := new (Scalar.trunc self.x) (Scalar.trunc self.y)
/-- src/vector2.rs:129-131 -/
def fract (self : Vector2 S) : Vector2 S := new (Scalar.fract self.x) (Scalar.fract self.y)
/-- src/vector2.rs:135-137 -/
def abs (self : Vector2 S) : Vector2 S := new (Scalar.abs self.x) (Scalar.abs self.y)
/-- src/vector2.rs:91-94 -/
def minDimension (self : Vector2 S) : Dimension2 :=
  let v := self.abs
  if v.x ≤? v.y then .X else .Y
/-- src/vector2.rs:98-101 -/
def maxDimension (self : Vector2 S) : Dimension2 :=
  let v := self.abs
  if v.x >? v.y then .X else .Y
/-- `Index<Dimension2>` src/vector2.rs:146-156 -/
def index (self : Vector2 S) : Dimension2 → S
  | .X => self.x
  | .Y => self.y
/-- `IndexMut<Dimension2>` src/vector2.rs:158-166; `f` is the update made through the `&mut S`. -/
def indexMut (self : Vector2 S) (dim : Dimension2) (f : S → S) : Vector2 S :=
  match dim with
  | .X => { self with x := f self.x }
  | .Y => { self with y := f self.y }
/-- src/vector2.rs:141-143 -/
def permute (self : Vector2 S) (dimX dimY : Dimension2) : Vector2 S :=
  new (self.index dimX) (self.index dimY)

end Vector2

/-- src/vector2.rs:33-35 (and the monomorphic `vector2f`, `vector2d`, 38-45) -/
def vector2 (x y : S) : Vector2 S := Vector2.new x y

/-- `MinMax for Vector2` src/vector2.rs:168-180 -/
instance : MinMax (Vector2 S) where
  min self v := Vector2.new (Api.min self.x v.x) (Api.min self.y v.y)
  max self v := Vector2.new (Api.max self.x v.x) (Api.max self.y v.y)

/-- `DotProduct for Vector2` src/vector2.rs:230-238 -/
instance : DotProduct (Vector2 S) (Vector2 S) S where
  dot self v := self.x * v.x + self.y * v.y

/-- `Length for Vector2` src/vector2.rs:182-190 -/
instance : Length (Vector2 S) S where
  length self := sqrt (Api.dot self self)

/-- `RelativeLength for Vector2` src/vector2.rs:192-228 -/
instance : RelativeLength (Vector2 S) where
  isShorterThan self v := Api.dot self self <? Api.dot v v
  isLongerThan self v := Api.dot self self >? Api.dot v v
  shortest self v := if Api.dot self self <? Api.dot v v then self else v
  longest self v := if Api.dot self self >? Api.dot v v then self else v

/-- `Add<Vector2> for Vector2` src/vector2.rs:240-247 -/
instance : Add (Vector2 S) where
  add self v := Vector2.new (self.x + v.x) (self.y + v.y)
/-- `AddAssign` src/vector2.rs:249-255 -/
def Vector2.addAssign (self v : Vector2 S) : Vector2 S :=
  let self := { self with x := self.x + v.x }
  { self with y := self.y + v.y }
/-- `Sub<Vector2> for Vector2` src/vector2.rs:257-264 -/
instance : Sub (Vector2 S) where
  sub self v := Vector2.new (self.x - v.x) (self.y - v.y)
/-- `SubAssign` src/vector2.rs:266-272 -/
def Vector2.subAssign (self v : Vector2 S) : Vector2 S :=
  let self := { self with x := self.x - v.x }
  { self with y := self.y - v.y }
/-- `Neg` src/vector2.rs:274-281 -/
instance : Neg (Vector2 S) where
  neg self := Vector2.new (-self.x) (-self.y)
/-- `Mul<S> for Vector2` src/vector2.rs:283-290 -/
instance : HMul (Vector2 S) S (Vector2 S) where
  hMul self s := Vector2.new (self.x * s) (self.y * s)
/-- `MulAssign<S>` src/vector2.rs:292-298 -/
def Vector2.mulAssign (self : Vector2 S) (s : S) : Vector2 S :=
  let self := { self with x := self.x * s }
  { self with y := self.y * s }
/-- `Mul<Vector2f> for f32`, `Mul<Vector2d> for f64` src/vector2.rs:300-316 -/
instance : HMul S (Vector2 S) (Vector2 S) where
  hMul self v := v * self
/-- `Div<S> for Vector2` src/vector2.rs:318-325 -/
instance : HDiv (Vector2 S) S (Vector2 S) where
  hDiv self s := Vector2.new (self.x / s) (self.y / s)
/-- `DivAssign<S>` src/vector2.rs:327-333 -/
def Vector2.divAssign (self : Vector2 S) (s : S) : Vector2 S :=
  let self := { self with x := self.x / s }
  { self with y := self.y / s }
/-- `From<Point2> for Vector2` src/vector2.rs:335-340 -/
def Vector2.fromPoint (p : Point2 S) : Vector2 S := Vector2.new p.x p.y

/-- src/vector2.rs:85-87 -/
def Vector2.normalize (self : Vector2 S) : Vector2 S := self / Api.length self

end VecMath
