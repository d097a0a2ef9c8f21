import Verif.Model.Ray
/-! # `src/boundingbox3.rs` -/

namespace VecMath
open Scalar
variable {S : Type} [Scalar S]

namespace BoundingBox3

/-- src/boundingbox3.rs:37-42 -/
def new (p1 p2 : Point3 S) : BoundingBox3 S :=
  let min := Api.min p1 p2
  let max := Api.max p1 p2
  { min, max }
/-- src/boundingbox3.rs:46-51 -/
def empty : BoundingBox3 S where
  min := Point3.new infinity infinity infinity
  max := Point3.new negInfinity negInfinity negInfinity
/-- src/boundingbox3.rs:55-60 -/
def infinite : BoundingBox3 S where
  min := Point3.new negInfinity negInfinity negInfinity
  max := Point3.new infinity infinity infinity
/-- src/boundingbox3.rs:64-66 -/
def width (self : BoundingBox3 S) : S := self.max.x - self.min.x
/-- src/boundingbox3.rs:70-72 -/
def height (self : BoundingBox3 S) : S := self.max.y - self.min.y
/-- src/boundingbox3.rs:76-78 -/
def depth (self : BoundingBox3 S) : S := self.max.z - self.min.z
/-- src/boundingbox3.rs:82-84 -/
def size (self : BoundingBox3 S) : S × S × S := (self.width, self.height, self.depth)
/-- src/boundingbox3.rs:88-94 -/
def extent (self : BoundingBox3 S) : Dimension3 → S
  | .X => self.width
  | .Y => self.height
  | .Z => self.depth
/-- src/boundingbox3.rs:142-144 -/
def diagonal (self : BoundingBox3 S) : Vector3 S := self.max - self.min
/-- src/boundingbox3.rs:98-101 -/
def minDimension (self : BoundingBox3 S) : Dimension3 :=
  let d := self.diagonal
  if d.x ≤? d.y && d.x ≤? d.z then .X else if d.y ≤? d.z then .Y else .Z
/-- src/boundingbox3.rs:105-108 -/
def maxDimension (self : BoundingBox3 S) : Dimension3 :=
  let d := self.diagonal
  if d.x >? d.y && d.x >? d.z then .X else if d.y >? d.z then .Y else .Z
/-- src/boundingbox3.rs:112-115 -/
def surfaceArea (self : BoundingBox3 S) : S :=
  let d := self.diagonal
  two * (d.x * d.y + d.x * d.z + d.y * d.z)
/-- src/boundingbox3.rs:119-122 -/
def volume (self : BoundingBox3 S) : S :=
  let (width, height, depth) := self.size
  width * height * depth
/-- src/boundingbox3.rs:126-128 -/
def center (self : BoundingBox3 S) : Point3 S := self.min + self.diagonal * (half : S)
/-- src/boundingbox3.rs:132-138. `debug_assert!` is checked in the debug profile only. -/
def corner (self : BoundingBox3 S) (b : Build) (index : UInt32) : Except Panic (Point3 S) :=
  if b = .debug ∧ ¬ index < 8 then .error .debugAssert
  else
    let x := if index &&& 0b001 == 0 then self.min.x else self.max.x
    let y := if index &&& 0b010 == 0 then self.min.y else self.max.y
    let z := if index &&& 0b100 == 0 then self.min.z else self.max.z
    .ok (Point3.new x y z)
/-- src/boundingbox3.rs:148-154 -/
def overlaps (self bb : BoundingBox3 S) : Bool :=
  self.max.x ≥? bb.min.x && self.min.x ≤? bb.max.x &&
  self.max.y ≥? bb.min.y && self.min.y ≤? bb.max.y &&
  self.max.z ≥? bb.min.z && self.min.z ≤? bb.max.z
/-- src/boundingbox3.rs:158-164 -/
def isInside (self : BoundingBox3 S) (p : Point3 S) : Bool :=
  p.x ≥? self.min.x && p.x ≤? self.max.x &&
  p.y ≥? self.min.y && p.y ≤? self.max.y &&
  p.z ≥? self.min.z && p.z ≤? self.max.z

/-- `Intersection<&Ray3> for &BoundingBox3` src/boundingbox3.rs:215-249. The two early `return None`
are the outer `if` branches. -/
def intersectRay (self : BoundingBox3 S) (ray : Ray3 S) : Option (Range S) :=
  let (start, stop) := ((zero : S), (infinity : S))
  let d1 := (self.min.x - ray.origin.x) / ray.direction.x
  let d2 := (self.max.x - ray.origin.x) / ray.direction.x
  let start := Api.max start (Api.min d1 d2)
  let stop := Api.min stop (Api.max d1 d2)
  if start >? stop then none
  else
    let d1 := (self.min.y - ray.origin.y) / ray.direction.y
    let d2 := (self.max.y - ray.origin.y) / ray.direction.y
    let start := Api.max start (Api.min d1 d2)
    let stop := Api.min stop (Api.max d1 d2)
    if start >? stop then none
    else
      let d1 := (self.min.z - ray.origin.z) / ray.direction.z
      let d2 := (self.max.z - ray.origin.z) / ray.direction.z
      let start := Api.max start (Api.min d1 d2)
      let stop := Api.min stop (Api.max d1 d2)
      if start ≤? stop then some ⟨start, stop⟩ else none

end BoundingBox3

/-- `Union<&BoundingBox3> for &BoundingBox3` src/boundingbox3.rs:167-177 -/
instance : BoxUnion (BoundingBox3 S) (BoundingBox3 S) (BoundingBox3 S) where
  union self bb := BoundingBox3.new (Api.min self.min bb.min) (Api.max self.max bb.max)
/-- `Union<Point3> for &BoundingBox3` src/boundingbox3.rs:179-189 -/
instance : BoxUnion (BoundingBox3 S) (Point3 S) (BoundingBox3 S) where
  union self p := BoundingBox3.new (Api.min self.min p) (Api.max self.max p)
/-- `Intersection<&BoundingBox3> for &BoundingBox3` src/boundingbox3.rs:191-207 -/
instance : BoxIntersection (BoundingBox3 S) (BoundingBox3 S) (BoundingBox3 S) where
  intersect self bb :=
    if self.overlaps bb then
      some (BoundingBox3.new (Api.max self.min bb.min) (Api.min self.max bb.max))
    else none
/-- `Intersection<&Ray3> for &BoundingBox3` src/boundingbox3.rs:209-250 -/
instance : BoxIntersection (BoundingBox3 S) (Ray3 S) (Range S) where
  intersect self ray := self.intersectRay ray

end VecMath
