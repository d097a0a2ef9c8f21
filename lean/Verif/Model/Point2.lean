import Verif.Model.Vector2
/-! # `src/point2.rs` -/

namespace VecMath
open Scalar
variable {S : Type} [Scalar S]

namespace Point2

/-- src/point2.rs:52-54 -/
def new (x y : S) : Point2 S := ⟨x, y⟩
/-- src/point2.rs:58-60 -/
def origin : Point2 S := new Scalar.zero Scalar.zero
/-- src/point2.rs:78-80 -/
def floor (self : Point2 S) : Point2 S := new (Scalar.floor self.x) (Scalar.floor self.y)
/-- src/point2.rs:84-86 -/
def ceil (self : Point2 S) : Point2 S := new (Scalar.ceil self.x) (Scalar.ceil self.y)
/-- src/point2.rs:90-92 -/
def round (self : Point2 S) : Point2 S := new (Scalar.round self.x) (Scalar.round self.y)
/-- src/point2.rs:96-98 -/
def trunc (self : Point2 S) : Point2 S := new (Scalar.trunc self.x) (Scalar.trunc self.y)
/-- src/point2.rs:102-104 -/
def fract (self : Point2 S) : Point2 S := new (Scalar.fract self.x) (Scalar.fract self.y)
/-- src/point2.rs:108-110 -/
def abs (self : Point2 S) : Point2 S := new (Scalar.abs self.x) (Scalar.abs self.y)
/-- src/point2.rs:64-67 -/
def minDimension (self : Point2 S) : Dimension2 :=
  let v := self.abs
  if v.x ≤? v.y then .X else .Y
/-- src/point2.rs:71-74 -/
def maxDimension (self : Point2 S) : Dimension2 :=
  let v := self.abs
  if v.x >? v.y then .X else .Y
/-- `Index<Dimension2>` src/point2.rs:119-129 -/
def index (self : Point2 S) : Dimension2 → S
  | .X => self.x
  | .Y => self.y
/-- `IndexMut<Dimension2>` src/point2.rs:131-139; `f` is the update made through the `&mut S`. -/
def indexMut (self : Point2 S) (dim : Dimension2) (f : S → S) : Point2 S :=
  match dim with
  | .X => { self with x := f self.x }
  | .Y => { self with y := f self.y }
/-- src/point2.rs:114-116 -/
def permute (self : Point2 S) (dimX dimY : Dimension2) : Point2 S :=
  new (self.index dimX) (self.index dimY)

end Point2

/-- src/point2.rs:33-35 (and the monomorphic `point2f`, `point2d`, 38-45) -/
def point2 (x y : S) : Point2 S := Point2.new x y

/-- `MinMax for Point2` src/point2.rs:141-153 -/
instance : MinMax (Point2 S) where
  min self p := Point2.new (Api.min self.x p.x) (Api.min self.y p.y)
  max self p := Point2.new (Api.max self.x p.x) (Api.max self.y p.y)

/-- `Add<Vector2> for Point2` src/point2.rs:205-212 -/
instance : HAdd (Point2 S) (Vector2 S) (Point2 S) where
  hAdd self v := Point2.new (self.x + v.x) (self.y + v.y)
/-- `AddAssign<Vector2>` src/point2.rs:214-220 -/
def Point2.addAssign (self : Point2 S) (v : Vector2 S) : Point2 S :=
  let self := { self with x := self.x + v.x }
  { self with y := self.y + v.y }
/-- `Sub<Vector2> for Point2` src/point2.rs:222-229 -/
instance : HSub (Point2 S) (Vector2 S) (Point2 S) where
  hSub self v := Point2.new (self.x - v.x) (self.y - v.y)
/-- `SubAssign<Vector2>` src/point2.rs:231-237 -/
def Point2.subAssign (self : Point2 S) (v : Vector2 S) : Point2 S :=
  let self := { self with x := self.x - v.x }
  { self with y := self.y - v.y }
/-- `Sub<Point2> for Point2` src/point2.rs:239-246 -/
instance : HSub (Point2 S) (Point2 S) (Vector2 S) where
  hSub self p := Vector2.new (self.x - p.x) (self.y - p.y)
/-- `Neg` src/point2.rs:248-255 -/
instance : Neg (Point2 S) where
  neg self := Point2.new (-self.x) (-self.y)
/-- `Mul<S> for Point2` src/point2.rs:257-264 -/
instance : HMul (Point2 S) S (Point2 S) where
  hMul self s := Point2.new (self.x * s) (self.y * s)
/-- `MulAssign<S>` src/point2.rs:266-272 -/
def Point2.mulAssign (self : Point2 S) (s : S) : Point2 S :=
  let self := { self with x := self.x * s }
  { self with y := self.y * s }
/-- `Mul<Point2f> for f32`, `Mul<Point2d> for f64` src/point2.rs:274-290 -/
instance : HMul S (Point2 S) (Point2 S) where
  hMul self p := p * self
/-- `Div<S> for Point2` src/point2.rs:292-299 -/
instance : HDiv (Point2 S) S (Point2 S) where
  hDiv self s := Point2.new (self.x / s) (self.y / s)
/-- `DivAssign<S>` src/point2.rs:301-307 -/
def Point2.divAssign (self : Point2 S) (s : S) : Point2 S :=
  let self := { self with x := self.x / s }
  { self with y := self.y / s }
/-- `From<Vector2> for Point2` src/point2.rs:309-314 -/
def Point2.fromVector (v : Vector2 S) : Point2 S := Point2.new v.x v.y

/-- `Distance for Point2` src/point2.rs:155-163 -/
instance : Distance (Point2 S) S where
  distance self p := Api.length (p - self)

/-- src/point2.rs:171-174 -/
def Point2.isCloserTo (self p1 p2 : Point2 S) : Bool :=
  let v1 := p1 - self
  let v2 := p2 - self
  Api.dot v1 v1 <? Api.dot v2 v2
/-- src/point2.rs:181-184 -/
def Point2.isFartherFrom (self p1 p2 : Point2 S) : Bool :=
  let v1 := p1 - self
  let v2 := p2 - self
  Api.dot v1 v1 >? Api.dot v2 v2

/-- `RelativeDistance for Point2` src/point2.rs:165-203 -/
instance : RelativeDistance (Point2 S) where
  isCloserTo := Point2.isCloserTo
  isFartherFrom := Point2.isFartherFrom
  closest self p1 p2 := if self.isCloserTo p1 p2 then p1 else p2
  farthest self p1 p2 := if self.isFartherFrom p1 p2 then p1 else p2

end VecMath
