import Verif.Model.BoundingBox2
/-! # `src/transform2.rs` -/

namespace VecMath
open Scalar
variable {S : Type} [Scalar S]

namespace Matrix3x3

/-- src/transform2.rs:50-52 -/
def new (m : Vector S 9) : Matrix3x3 S := ⟨m⟩
/-- src/transform2.rs:56-64 -/
def identity : Matrix3x3 S :=
  let (o, i) := ((zero : S), (one : S))
  new #v[
    i, o, o,
    o, i, o,
    o, o, i]
/-- src/transform2.rs:68-76 -/
def translate (v : Vector2 S) : Matrix3x3 S :=
  let (o, i) := ((zero : S), (one : S))
  new #v[
    i, o, v.x,
    o, i, v.y,
    o, o, i]
/-- src/transform2.rs:80-89 -/
def rotate (angle : S) : Matrix3x3 S :=
  let (o, i) := ((zero : S), (one : S))
  let (sin, cos) := sinCos angle
  new #v[
    cos, -sin, o,
    sin, cos, o,
    o, o, i]
/-- src/transform2.rs:93-101 -/
def scale (sx sy : S) : Matrix3x3 S :=
  let (o, i) := ((zero : S), (one : S))
  new #v[
    sx, o, o,
    o, sy, o,
    o, o, i]
/-- src/transform2.rs:105-113 -/
def scaleUniform (s : S) : Matrix3x3 S :=
  let (o, i) := ((zero : S), (one : S))
  new #v[
    s, o, o,
    o, s, o,
    o, o, i]
/-- src/transform2.rs:134-138. `row * 3 + col` is `u32` arithmetic: in the debug profile the asserts
come first, so it cannot overflow there; in release it wraps. `as usize` is value preserving. -/
def linearIndex (b : Build) (row col : UInt32) : Except Panic Nat :=
  if b = .debug ∧ ¬ row < 3 then .error .debugAssert
  else if b = .debug ∧ ¬ col < 3 then .error .debugAssert
  else .ok (row * 3 + col).toNat
/-- src/transform2.rs:117-119; indexing `[S; 9]` panics when out of bounds. -/
def get (self : Matrix3x3 S) (b : Build) (row col : UInt32) : Except Panic S := do
  let k ← linearIndex b row col
  if h : k < 9 then .ok self.m[k] else .error .indexOutOfBounds
/-- src/transform2.rs:123-125; the `&mut S` is modelled by the update `f` made through it. -/
def getMut (self : Matrix3x3 S) (b : Build) (row col : UInt32) (f : S → S) :
    Except Panic (Matrix3x3 S) := do
  let k ← linearIndex b row col
  if h : k < 9 then .ok ⟨self.m.set k (f self.m[k])⟩ else .error .indexOutOfBounds
/-- src/transform2.rs:129-131 -/
def set (self : Matrix3x3 S) (b : Build) (row col : UInt32) (value : S) :
    Except Panic (Matrix3x3 S) := do
  let k ← linearIndex b row col
  if h : k < 9 then .ok ⟨self.m.set k value⟩ else .error .indexOutOfBounds
/-- src/transform2.rs:142-148 -/
def transpose (self : Matrix3x3 S) : Matrix3x3 S :=
  new #v[
    self.m[0], self.m[3], self.m[6],
    self.m[1], self.m[4], self.m[7],
    self.m[2], self.m[5], self.m[8]]
/-- The determinant expression at src/transform2.rs:154-155. -/
def det (self : Matrix3x3 S) : S :=
  self.m[0] * self.m[4] * self.m[8] + self.m[1] * self.m[5] * self.m[6]
    + self.m[2] * self.m[3] * self.m[7]
    - self.m[2] * self.m[4] * self.m[6] - self.m[1] * self.m[3] * self.m[8]
    - self.m[0] * self.m[5] * self.m[7]
/-- src/transform2.rs:153-172; `det != S::zero()` is the negation of `==`. -/
def inverse (self : Matrix3x3 S) : Except NonInvertibleMatrixError (Matrix3x3 S) :=
  let det := self.det
  if det != zero then
    .ok (new #v[
      (self.m[4] * self.m[8] - self.m[5] * self.m[7]) / det,
      (self.m[2] * self.m[7] - self.m[1] * self.m[8]) / det,
      (self.m[1] * self.m[5] - self.m[2] * self.m[4]) / det,
      (self.m[5] * self.m[6] - self.m[3] * self.m[8]) / det,
      (self.m[0] * self.m[8] - self.m[2] * self.m[6]) / det,
      (self.m[2] * self.m[3] - self.m[0] * self.m[5]) / det,
      (self.m[3] * self.m[7] - self.m[4] * self.m[6]) / det,
      (self.m[1] * self.m[6] - self.m[0] * self.m[7]) / det,
      (self.m[0] * self.m[4] - self.m[1] * self.m[3]) / det])
  else .error .mk

end Matrix3x3

/-- `Mul<S> for &Matrix3x3` src/transform2.rs:175-182; `array::from_fn`. -/
instance : HMul (Matrix3x3 S) S (Matrix3x3 S) where
  hMul self s := Matrix3x3.new (Vector.ofFn fun i => self.m[i] * s)
/-- `MulAssign<S> for &mut Matrix3x3` src/transform2.rs:184-189; the `for` loop over `&mut self.m`
updates each element once. -/
def Matrix3x3.mulAssign (self : Matrix3x3 S) (s : S) : Matrix3x3 S := ⟨self.m.map (· * s)⟩
/-- `Mul<&Matrix3x3f> for f32`, `Mul<&Matrix3x3d> for f64` src/transform2.rs:191-207 -/
instance : HMul S (Matrix3x3 S) (Matrix3x3 S) where
  hMul self m := m * self
/-- `Div<S> for &Matrix3x3` src/transform2.rs:209-216 -/
instance : HDiv (Matrix3x3 S) S (Matrix3x3 S) where
  hDiv self s := Matrix3x3.new (Vector.ofFn fun i => self.m[i] / s)
/-- `DivAssign<S> for &mut Matrix3x3` src/transform2.rs:218-223 -/
def Matrix3x3.divAssign (self : Matrix3x3 S) (s : S) : Matrix3x3 S := ⟨self.m.map (· / s)⟩
/-- `Mul<Point2> for &Matrix3x3` src/transform2.rs:225-235 -/
instance : HMul (Matrix3x3 S) (Point2 S) (Point2 S) where
  hMul self p :=
    let x := self.m[0] * p.x + self.m[1] * p.y + self.m[2]
    let y := self.m[3] * p.x + self.m[4] * p.y + self.m[5]
    let w := self.m[6] * p.x + self.m[7] * p.y + self.m[8]
    Point2.new (x / w) (y / w)
/-- `Mul<&Matrix3x3> for Point2` src/transform2.rs:237-247 -/
instance : HMul (Point2 S) (Matrix3x3 S) (Point2 S) where
  hMul self m :=
    let x := self.x * m.m[0] + self.y * m.m[3] + m.m[6]
    let y := self.x * m.m[1] + self.y * m.m[4] + m.m[7]
    let w := self.x * m.m[2] + self.y * m.m[5] + m.m[8]
    Point2.new (x / w) (y / w)
/-- `Mul<Vector2> for &Matrix3x3` src/transform2.rs:249-258 -/
instance : HMul (Matrix3x3 S) (Vector2 S) (Vector2 S) where
  hMul self v :=
    let x := self.m[0] * v.x + self.m[1] * v.y
    let y := self.m[3] * v.x + self.m[4] * v.y
    Vector2.new x y
/-- `Mul<&Matrix3x3> for Vector2` src/transform2.rs:260-269 -/
instance : HMul (Vector2 S) (Matrix3x3 S) (Vector2 S) where
  hMul self m :=
    let x := self.x * m.m[0] + self.y * m.m[3]
    let y := self.x * m.m[1] + self.y * m.m[4]
    Vector2.new x y
/-- `Mul<&Matrix3x3> for &Matrix3x3` src/transform2.rs:271-287 -/
instance : Mul (Matrix3x3 S) where
  mul self rhs := Matrix3x3.new #v[
    self.m[0] * rhs.m[0] + self.m[1] * rhs.m[3] + self.m[2] * rhs.m[6],
    self.m[0] * rhs.m[1] + self.m[1] * rhs.m[4] + self.m[2] * rhs.m[7],
    self.m[0] * rhs.m[2] + self.m[1] * rhs.m[5] + self.m[2] * rhs.m[8],
    self.m[3] * rhs.m[0] + self.m[4] * rhs.m[3] + self.m[5] * rhs.m[6],
    self.m[3] * rhs.m[1] + self.m[4] * rhs.m[4] + self.m[5] * rhs.m[7],
    self.m[3] * rhs.m[2] + self.m[4] * rhs.m[5] + self.m[5] * rhs.m[8],
    self.m[6] * rhs.m[0] + self.m[7] * rhs.m[3] + self.m[8] * rhs.m[6],
    self.m[6] * rhs.m[1] + self.m[7] * rhs.m[4] + self.m[8] * rhs.m[7],
    self.m[6] * rhs.m[2] + self.m[7] * rhs.m[5] + self.m[8] * rhs.m[8]]

namespace Transform2

/-- src/transform2.rs:294-296 -/
def new (forward inverse : Matrix3x3 S) : Transform2 S := ⟨forward, inverse⟩
/-- src/transform2.rs:300-304 -/
def identity : Transform2 S :=
  let forward := Matrix3x3.identity
  let inverse := forward
  new forward inverse
/-- src/transform2.rs:308-312 -/
def translate (v : Vector2 S) : Transform2 S :=
  let forward := Matrix3x3.translate v
  let inverse := Matrix3x3.translate (-v)
  new forward inverse
/-- src/transform2.rs:316-320 -/
def rotate (angle : S) : Transform2 S :=
  let forward := Matrix3x3.rotate angle
  let inverse := forward.transpose
  new forward inverse
/-- src/transform2.rs:324-328 -/
def scale (sx sy : S) : Transform2 S :=
  let forward := Matrix3x3.scale sx sy
  let inverse := Matrix3x3.scale (recip sx) (recip sy)
  new forward inverse
/-- src/transform2.rs:332-336 -/
def scaleUniform (s : S) : Transform2 S :=
  let forward := Matrix3x3.scaleUniform s
  let inverse := Matrix3x3.scaleUniform (recip s)
  new forward inverse
/-- src/transform2.rs:340-344 -/
def andThen (self next : Transform2 S) : Transform2 S :=
  let forward := next.forward * self.forward
  let inverse := self.inverse * next.inverse
  new forward inverse
/-- src/transform2.rs:348-352 (named `inv` because `inverse` is also the field). -/
def inv (self : Transform2 S) : Transform2 S :=
  let forward := self.inverse
  let inverse := self.forward
  new forward inverse
/-- `TryFrom<Matrix3x3>` src/transform2.rs:407-415 -/
def tryFrom (forward : Matrix3x3 S) : Except NonInvertibleMatrixError (Transform2 S) := do
  let inverse ← forward.inverse
  .ok (new forward inverse)

end Transform2

/-- `Transform<Point2>` src/transform2.rs:355-363 -/
instance : Transform (Transform2 S) (Point2 S) (Point2 S) where
  transform self p := self.forward * p
/-- `Transform<Vector2>` src/transform2.rs:365-373 -/
instance : Transform (Transform2 S) (Vector2 S) (Vector2 S) where
  transform self v := self.forward * v
/-- `Transform<&Ray2>` src/transform2.rs:375-383 -/
instance : Transform (Transform2 S) (Ray2 S) (Ray2 S) where
  transform self ray :=
    Ray2.new (Transform.transform self ray.origin) (Transform.transform self ray.direction)

/-- The body of the loop at src/transform2.rs:394-401, for one `i`. -/
def Transform2.boxStep (o : Point2 S) (d : Vector2 S) (acc : Point2 S × Point2 S) (i : Nat) :
    Point2 S × Point2 S :=
  let corner := o
  let corner := if i &&& 0b01 != 0 then { corner with x := corner.x + d.x } else corner
  let corner := if i &&& 0b10 != 0 then { corner with y := corner.y + d.y } else corner
  (Api.min acc.1 corner, Api.max acc.2 corner)

/-- `Transform<&BoundingBox2>` src/transform2.rs:385-405; the loop runs over `1..=3`. -/
instance : Transform (Transform2 S) (BoundingBox2 S) (BoundingBox2 S) where
  transform self bb :=
    let o : Point2 S := Transform.transform self bb.min
    let d : Vector2 S := Transform.transform self bb.diagonal
    let (minCorner, maxCorner) := [1, 2, 3].foldl (Transform2.boxStep o d) (o, o)
    BoundingBox2.new minCorner maxCorner

end VecMath
