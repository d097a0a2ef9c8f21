import Verif.Model.BoundingBox3
/-! # `src/transform3.rs` -/

namespace VecMath
open Scalar
variable {S : Type} [Scalar S]

namespace Matrix4x4

/-- src/transform3.rs:50-52 -/
def new (m : Vector S 16) : Matrix4x4 S := ⟨m⟩
/-- src/transform3.rs:56-65 -/
def identity : Matrix4x4 S :=
  let (o, i) := ((zero : S), (one : S))
  new #v[
    i, o, o, o,
    o, i, o, o,
    o, o, i, o,
    o, o, o, i]
/-- src/transform3.rs:69-78 -/
def translate (v : Vector3 S) : Matrix4x4 S :=
  let (o, i) := ((zero : S), (one : S))
  new #v[
    i, o, o, v.x,
    o, i, o, v.y,
    o, o, i, v.z,
    o, o, o, i]
/-- src/transform3.rs:82-92 -/
def rotateX (angle : S) : Matrix4x4 S :=
  let (o, i) := ((zero : S), (one : S))
  let (sin, cos) := sinCos angle
  new #v[
    i, o, o, o,
    o, cos, -sin, o,
    o, sin, cos, o,
    o, o, o, i]
/-- src/transform3.rs:96-106 -/
def rotateY (angle : S) : Matrix4x4 S :=
  let (o, i) := ((zero : S), (one : S))
  let (sin, cos) := sinCos angle
  new #v[
    cos, o, sin, o,
    o, i, o, o,
    -sin, o, cos, o,
    o, o, o, i]
/-- src/transform3.rs:110-120 -/
def rotateZ (angle : S) : Matrix4x4 S :=
  let (o, i) := ((zero : S), (one : S))
  let (sin, cos) := sinCos angle
  new #v[
    cos, -sin, o, o,
    sin, cos, o, o,
    o, o, i, o,
    o, o, o, i]
/-- src/transform3.rs:124-140 -/
def rotateAxis (axis : Vector3 S) (angle : S) : Matrix4x4 S :=
  let a := axis.normalize
  let (o, i) := ((zero : S), (one : S))
  let (s, c) := sinCos angle
  let cc := one - c
  let (t1, t2, t3) := (a.x * a.y * cc, a.x * a.z * cc, a.y * a.z * cc)
  let (u1, u2, u3) := (a.x * s, a.y * s, a.z * s)
  new #v[
    a.x * a.x * cc + c, t1 - u3, t2 + u2, o,
    t1 + u3, a.y * a.y * cc + c, t3 - u1, o,
    t2 - u2, t3 + u1, a.z * a.z * cc + c, o,
    o, o, o, i]
/-- src/transform3.rs:144-153 -/
def scale (sx sy sz : S) : Matrix4x4 S :=
  let (o, i) := ((zero : S), (one : S))
  new #v[
    sx, o, o, o,
    o, sy, o, o,
    o, o, sz, o,
    o, o, o, i]
/-- src/transform3.rs:157-166 -/
def scaleUniform (s : S) : Matrix4x4 S :=
  let (o, i) := ((zero : S), (one : S))
  new #v[
    s, o, o, o,
    o, s, o, o,
    o, o, s, o,
    o, o, o, i]
/-- src/transform3.rs:170-182 -/
def inverseLookAt (origin target : Point3 S) (up : Vector3 S) : Matrix4x4 S :=
  let (o, i) := ((zero : S), (one : S))
  let direction := (target - origin).normalize
  let right := (CrossProduct.cross up.normalize direction).normalize
  let newUp := CrossProduct.cross direction right
  new #v[
    right.x, newUp.x, direction.x, origin.x,
    right.y, newUp.y, direction.y, origin.y,
    right.z, newUp.z, direction.z, origin.z,
    o, o, o, i]
/-- src/transform3.rs:203-207. `row * 4 + col` is `u32` arithmetic: in the debug profile the asserts
come first, so it cannot overflow there; in release it wraps. `as usize` is value preserving. -/
def linearIndex (b : Build) (row col : UInt32) : Except Panic Nat :=
  if b = .debug ∧ ¬ row < 4 then .error .debugAssert
  else if b = .debug ∧ ¬ col < 4 then .error .debugAssert
  else .ok (row * 4 + col).toNat
/-- src/transform3.rs:186-188; indexing `[S; 16]` panics when out of bounds. -/
def get (self : Matrix4x4 S) (b : Build) (row col : UInt32) : Except Panic S := do
  let k ← linearIndex b row col
  if h : k < 16 then .ok self.m[k] else .error .indexOutOfBounds
/-- src/transform3.rs:192-194; the `&mut S` is modelled by the update `f` made through it. -/
def getMut (self : Matrix4x4 S) (b : Build) (row col : UInt32) (f : S → S) :
    Except Panic (Matrix4x4 S) := do
  let k ← linearIndex b row col
  if h : k < 16 then .ok ⟨self.m.set k (f self.m[k])⟩ else .error .indexOutOfBounds
/-- src/transform3.rs:198-200 -/
def set (self : Matrix4x4 S) (b : Build) (row col : UInt32) (value : S) :
    Except Panic (Matrix4x4 S) := do
  let k ← linearIndex b row col
  if h : k < 16 then .ok ⟨self.m.set k value⟩ else .error .indexOutOfBounds
/-- src/transform3.rs:211-218 -/
def transpose (self : Matrix4x4 S) : Matrix4x4 S :=
  new #v[
    self.m[0], self.m[4], self.m[8], self.m[12],
    self.m[1], self.m[5], self.m[9], self.m[13],
    self.m[2], self.m[6], self.m[10], self.m[14],
    self.m[3], self.m[7], self.m[11], self.m[15]]

/-- `self.get(row, col)` at indices known to be in range, as used by the closure at
src/transform3.rs:225 (indices `0..=3`, where `get` cannot panic in either profile:
`Matrix4x4.get_eq_elem`). -/
def elem (self : Matrix4x4 S) (row col : Fin 4) : S := self.m[row.val * 4 + col.val]
/-- The closure `sub` at src/transform3.rs:225. -/
def sub (self : Matrix4x4 S) (i j : Fin 4) (row col : Fin 3) : S :=
  self.elem (if row.castSucc < i then row.castSucc else row.succ)
    (if col.castSucc < j then col.castSucc else col.succ)
/-- The closure `cofactor` at src/transform3.rs:224-231. -/
def cofactor (self : Matrix4x4 S) (i j : Fin 4) : S :=
  let sub := self.sub i j
  let sign : S := if (i.val + j.val) % 2 == 0 then one else -one
  sign * (sub 0 0 * sub 1 1 * sub 2 2 + sub 0 1 * sub 1 2 * sub 2 0 + sub 0 2 * sub 1 0 * sub 2 1
    - sub 0 0 * sub 1 2 * sub 2 1 - sub 0 1 * sub 1 0 * sub 2 2 - sub 0 2 * sub 1 1 * sub 2 0)
/-- `adjugate` at src/transform3.rs:233-238. -/
def adjugate (self : Matrix4x4 S) : Matrix4x4 S :=
  let cofactor := self.cofactor
  new #v[
    cofactor 0 0, cofactor 1 0, cofactor 2 0, cofactor 3 0,
    cofactor 0 1, cofactor 1 1, cofactor 2 1, cofactor 3 1,
    cofactor 0 2, cofactor 1 2, cofactor 2 2, cofactor 3 2,
    cofactor 0 3, cofactor 1 3, cofactor 2 3, cofactor 3 3]
/-- `det` at src/transform3.rs:240, given the adjugate. -/
def detOf (self adjugate : Matrix4x4 S) : S :=
  self.m[0] * adjugate.m[0] + self.m[1] * adjugate.m[4] + self.m[2] * adjugate.m[8]
    + self.m[3] * adjugate.m[12]

end Matrix4x4

/-- `Mul<S> for &Matrix4x4` src/transform3.rs:250-257; `array::from_fn`. -/
instance : HMul (Matrix4x4 S) S (Matrix4x4 S) where
  hMul self s := Matrix4x4.new (Vector.ofFn fun i => self.m[i] * s)
/-- `MulAssign<S> for &mut Matrix4x4` src/transform3.rs:259-264; the `for` loop over `&mut self.m`
updates each element once. -/
def Matrix4x4.mulAssign (self : Matrix4x4 S) (s : S) : Matrix4x4 S := ⟨self.m.map (· * s)⟩
/-- `Mul<&Matrix4x4f> for f32`, `Mul<&Matrix4x4d> for f64` src/transform3.rs:266-282 -/
instance : HMul S (Matrix4x4 S) (Matrix4x4 S) where
  hMul self m := m * self
/-- `Div<S> for &Matrix4x4` src/transform3.rs:284-291 -/
instance : HDiv (Matrix4x4 S) S (Matrix4x4 S) where
  hDiv self s := Matrix4x4.new (Vector.ofFn fun i => self.m[i] / s)
/-- `DivAssign<S> for &mut Matrix4x4` src/transform3.rs:293-298 -/
def Matrix4x4.divAssign (self : Matrix4x4 S) (s : S) : Matrix4x4 S := ⟨self.m.map (· / s)⟩
/-- `Mul<Point3> for &Matrix4x4` src/transform3.rs:300-311 -/
instance : HMul (Matrix4x4 S) (Point3 S) (Point3 S) where
  hMul self p :=
    let x := self.m[0] * p.x + self.m[1] * p.y + self.m[2] * p.z + self.m[3]
    let y := self.m[4] * p.x + self.m[5] * p.y + self.m[6] * p.z + self.m[7]
    let z := self.m[8] * p.x + self.m[9] * p.y + self.m[10] * p.z + self.m[11]
    let w := self.m[12] * p.x + self.m[13] * p.y + self.m[14] * p.z + self.m[15]
    Point3.new (x / w) (y / w) (z / w)
/-- `Mul<&Matrix4x4> for Point3` src/transform3.rs:313-324 -/
instance : HMul (Point3 S) (Matrix4x4 S) (Point3 S) where
  hMul self m :=
    let x := self.x * m.m[0] + self.y * m.m[4] + self.z * m.m[8] + m.m[12]
    let y := self.x * m.m[1] + self.y * m.m[5] + self.z * m.m[9] + m.m[13]
    let z := self.x * m.m[2] + self.y * m.m[6] + self.z * m.m[10] + m.m[14]
    let w := self.x * m.m[3] + self.y * m.m[7] + self.z * m.m[11] + m.m[15]
    Point3.new (x / w) (y / w) (z / w)
/-- `Mul<Vector3> for &Matrix4x4` src/transform3.rs:326-336 -/
instance : HMul (Matrix4x4 S) (Vector3 S) (Vector3 S) where
  hMul self v :=
    let x := self.m[0] * v.x + self.m[1] * v.y + self.m[2] * v.z
    let y := self.m[4] * v.x + self.m[5] * v.y + self.m[6] * v.z
    let z := self.m[8] * v.x + self.m[9] * v.y + self.m[10] * v.z
    Vector3.new x y z
/-- `Mul<&Matrix4x4> for Vector3` src/transform3.rs:338-348 -/
instance : HMul (Vector3 S) (Matrix4x4 S) (Vector3 S) where
  hMul self m :=
    let x := self.x * m.m[0] + self.y * m.m[4] + self.z * m.m[8]
    let y := self.x * m.m[1] + self.y * m.m[5] + self.z * m.m[9]
    let z := self.x * m.m[2] + self.y * m.m[6] + self.z * m.m[10]
    Vector3.new x y z
/-- `Mul<&Matrix4x4> for &Matrix4x4` src/transform3.rs:350-374 -/
instance : Mul (Matrix4x4 S) where
  mul self m := Matrix4x4.new #v[
    self.m[0] * m.m[0] + self.m[1] * m.m[4] + self.m[2] * m.m[8] + self.m[3] * m.m[12],
    self.m[0] * m.m[1] + self.m[1] * m.m[5] + self.m[2] * m.m[9] + self.m[3] * m.m[13],
    self.m[0] * m.m[2] + self.m[1] * m.m[6] + self.m[2] * m.m[10] + self.m[3] * m.m[14],
    self.m[0] * m.m[3] + self.m[1] * m.m[7] + self.m[2] * m.m[11] + self.m[3] * m.m[15],
    self.m[4] * m.m[0] + self.m[5] * m.m[4] + self.m[6] * m.m[8] + self.m[7] * m.m[12],
    self.m[4] * m.m[1] + self.m[5] * m.m[5] + self.m[6] * m.m[9] + self.m[7] * m.m[13],
    self.m[4] * m.m[2] + self.m[5] * m.m[6] + self.m[6] * m.m[10] + self.m[7] * m.m[14],
    self.m[4] * m.m[3] + self.m[5] * m.m[7] + self.m[6] * m.m[11] + self.m[7] * m.m[15],
    self.m[8] * m.m[0] + self.m[9] * m.m[4] + self.m[10] * m.m[8] + self.m[11] * m.m[12],
    self.m[8] * m.m[1] + self.m[9] * m.m[5] + self.m[10] * m.m[9] + self.m[11] * m.m[13],
    self.m[8] * m.m[2] + self.m[9] * m.m[6] + self.m[10] * m.m[10] + self.m[11] * m.m[14],
    self.m[8] * m.m[3] + self.m[9] * m.m[7] + self.m[10] * m.m[11] + self.m[11] * m.m[15],
    self.m[12] * m.m[0] + self.m[13] * m.m[4] + self.m[14] * m.m[8] + self.m[15] * m.m[12],
    self.m[12] * m.m[1] + self.m[13] * m.m[5] + self.m[14] * m.m[9] + self.m[15] * m.m[13],
    self.m[12] * m.m[2] + self.m[13] * m.m[6] + self.m[14] * m.m[10] + self.m[15] * m.m[14],
    self.m[12] * m.m[3] + self.m[13] * m.m[7] + self.m[14] * m.m[11] + self.m[15] * m.m[15]]

/-- src/transform3.rs:223-247; `det != S::zero()` is the negation of `==`. -/
def Matrix4x4.inverse (self : Matrix4x4 S) : Except NonInvertibleMatrixError (Matrix4x4 S) :=
  let adjugate := self.adjugate
  let det := self.detOf adjugate
  if det != zero then .ok (adjugate / det) else .error .mk

namespace Transform3

/-- src/transform3.rs:381-383 -/
def new (forward inverse : Matrix4x4 S) : Transform3 S := ⟨forward, inverse⟩
/-- src/transform3.rs:387-391 -/
def identity : Transform3 S :=
  let forward := Matrix4x4.identity
  let inverse := forward
  new forward inverse
/-- src/transform3.rs:395-399 -/
def translate (v : Vector3 S) : Transform3 S :=
  let forward := Matrix4x4.translate v
  let inverse := Matrix4x4.translate (-v)
  new forward inverse
/-- src/transform3.rs:403-407 -/
def rotateX (angle : S) : Transform3 S :=
  let forward := Matrix4x4.rotateX angle
  let inverse := forward.transpose
  new forward inverse
/-- src/transform3.rs:411-415 -/
def rotateY (angle : S) : Transform3 S :=
  let forward := Matrix4x4.rotateY angle
  let inverse := forward.transpose
  new forward inverse
/-- src/transform3.rs:419-423 -/
def rotateZ (angle : S) : Transform3 S :=
  let forward := Matrix4x4.rotateZ angle
  let inverse := forward.transpose
  new forward inverse
/-- src/transform3.rs:427-431 -/
def rotateAxis (axis : Vector3 S) (angle : S) : Transform3 S :=
  let forward := Matrix4x4.rotateAxis axis angle
  let inverse := forward.transpose
  new forward inverse
/-- src/transform3.rs:435-439 -/
def scale (sx sy sz : S) : Transform3 S :=
  let forward := Matrix4x4.scale sx sy sz
  let inverse := Matrix4x4.scale (recip sx) (recip sy) (recip sz)
  new forward inverse
/-- src/transform3.rs:443-447 -/
def scaleUniform (s : S) : Transform3 S :=
  let forward := Matrix4x4.scaleUniform s
  let inverse := Matrix4x4.scaleUniform (recip s)
  new forward inverse
/-- src/transform3.rs:453-457 -/
def lookAt (origin target : Point3 S) (up : Vector3 S) :
    Except NonInvertibleMatrixError (Transform3 S) := do
  let inverse := Matrix4x4.inverseLookAt origin target up
  let forward ← inverse.inverse
  .ok (new forward inverse)
/-- src/transform3.rs:461-465 -/
def andThen (self next : Transform3 S) : Transform3 S :=
  let forward := next.forward * self.forward
  let inverse := self.inverse * next.inverse
  new forward inverse
/-- src/transform3.rs:469-473 (named `inv` because `inverse` is also the field). -/
def inv (self : Transform3 S) : Transform3 S :=
  let forward := self.inverse
  let inverse := self.forward
  new forward inverse
/-- `TryFrom<Matrix4x4>` src/transform3.rs:529-537 -/
def tryFrom (forward : Matrix4x4 S) : Except NonInvertibleMatrixError (Transform3 S) := do
  let inverse ← forward.inverse
  .ok (new forward inverse)

end Transform3

/-- `Transform<Point3>` src/transform3.rs:476-484 -/
instance : Transform (Transform3 S) (Point3 S) (Point3 S) where
  transform self p := self.forward * p
/-- `Transform<Vector3>` src/transform3.rs:486-494 -/
instance : Transform (Transform3 S) (Vector3 S) (Vector3 S) where
  transform self v := self.forward * v
/-- `Transform<&Ray3>` src/transform3.rs:496-504 -/
instance : Transform (Transform3 S) (Ray3 S) (Ray3 S) where
  transform self ray :=
    Ray3.new (Transform.transform self ray.origin) (Transform.transform self ray.direction)

/-- The body of the loop at src/transform3.rs:515-523, for one `i`. -/
def Transform3.boxStep (o : Point3 S) (d : Vector3 S) (acc : Point3 S × Point3 S) (i : Nat) :
    Point3 S × Point3 S :=
  let corner := o
  let corner := if i &&& 0b001 != 0 then { corner with x := corner.x + d.x } else corner
  let corner := if i &&& 0b010 != 0 then { corner with y := corner.y + d.y } else corner
  let corner := if i &&& 0b100 != 0 then { corner with z := corner.z + d.z } else corner
  (Api.min acc.1 corner, Api.max acc.2 corner)

/-- `Transform<&BoundingBox3>` src/transform3.rs:506-527; the loop runs over `1..=7`. -/
instance : Transform (Transform3 S) (BoundingBox3 S) (BoundingBox3 S) where
  transform self bb :=
    let o : Point3 S := Transform.transform self bb.min
    let d : Vector3 S := Transform.transform self bb.diagonal
    let (minCorner, maxCorner) := [1, 2, 3, 4, 5, 6, 7].foldl (Transform3.boxStep o d) (o, o)
    BoundingBox3.new minCorner maxCorner

end VecMath
