import Verif.Model.Ray
/-! # `src/boundingbox2.rs` -/

namespace VecMath
open Scalar
variable {S : Type} [Scalar S]

namespace BoundingBox2

/-- src/boundingbox2.rs:37-42 -/
def new (p1 p2 : Point2 S) : BoundingBox2 S :=
  let min := Api.min p1 p2
  let max := Api.max p1 p2
  { min, max }
/-- src/boundingbox2.rs:46-51 -/
def empty : BoundingBox2 S where
  min := Point2.new infinity infinity
  max := Point2.new negInfinity negInfinity
/-- src/boundingbox2.rs:55-60 -/
def infinite : BoundingBox2 S where
  min := Point2.new negInfinity negInfinity
  max := Point2.new infinity infinity
/-- src/boundingbox2.rs:64-66 -/
def width (self : BoundingBox2 S) : S := self.max.x - self.min.x
/-- src/boundingbox2.rs:70-72 -/
def height (self : BoundingBox2 S) : S := self.max.y - self.min.y
/-- src/boundingbox2.rs:76-78 -/
def size (self : BoundingBox2 S) : S × S := (self.width, self.height)
/-- src/boundingbox2.rs:82-87 -/
def extent (self : BoundingBox2 S) : Dimension2 → S
  | .X => self.width
  | .Y => self.height
/-- src/boundingbox2.rs:127-129 -/
def diagonal (self : BoundingBox2 S) : Vector2 S := self.max - self.min
/-- src/boundingbox2.rs:91-94 -/
def minDimension (self : BoundingBox2 S) : Dimension2 :=
  let d := self.diagonal
  if d.x ≤? d.y then .X else .Y
/-- src/boundingbox2.rs:98-101 -/
def maxDimension (self : BoundingBox2 S) : Dimension2 :=
  let d := self.diagonal
  if d.x >? d.y then .X else .Y
/-- src/boundingbox2.rs:105-108 -/
def area (self : BoundingBox2 S) : S :=
  let (width, height) := self.size
  width * height
/-- src/boundingbox2.rs:112-114 -/
def center (self : BoundingBox2 S) : Point2 S := self.min + self.diagonal * (half : S)
/-- src/boundingbox2.rs:118-123. `debug_assert!` is checked in the debug profile only. -/
def corner (self : BoundingBox2 S) (b : Build) (index : UInt32) : Except Panic (Point2 S) :=
  if b = .debug ∧ ¬ index < 4 then .error .debugAssert
  else
    let x := if index &&& 0b01 == 0 then self.min.x else self.max.x
    let y := if index &&& 0b10 == 0 then self.min.y else self.max.y
    .ok (Point2.new x y)
/-- src/boundingbox2.rs:133-138 -/
def overlaps (self bb : BoundingBox2 S) : Bool :=
  self.max.x ≥? bb.min.x && self.min.x ≤? bb.max.x &&
  self.max.y ≥? bb.min.y && self.min.y ≤? bb.max.y
/-- src/boundingbox2.rs:142-147 -/
def isInside (self : BoundingBox2 S) (p : Point2 S) : Bool :=
  p.x ≥? self.min.x && p.x ≤? self.max.x &&
  p.y ≥? self.min.y && p.y ≤? self.max.y

/-- `Intersection<&Ray2> for &BoundingBox2` src/boundingbox2.rs:198-222. The early `return None`
is the outer `if` branch. -/
def intersectRay (self : BoundingBox2 S) (ray : Ray2 S) : Option (Range S) :=
  let (start, stop) := ((zero : S), (infinity : S))
  let d1 := (self.min.x - ray.origin.x) / ray.direction.x
  let d2 := (self.max.x - ray.origin.x) / ray.direction.x
  let start := Api.max start (Api.min d1 d2)
  let stop := Api.min stop (Api.max d1 d2)
  if start >? stop then none
  else
    let d1 := (self.min.y - ray.origin.y) / ray.direction.y
    let d2 := (self.max.y - ray.origin.y) / ray.direction.y
    let start := Api.max start (Api.min d1 d2)
    let stop := Api.min stop (Api.max d1 d2)
    if start ≤? stop then some ⟨start, stop⟩ else none

end BoundingBox2

/-- `Union<&BoundingBox2> for &BoundingBox2` src/boundingbox2.rs:150-160 -/
instance : BoxUnion (BoundingBox2 S) (BoundingBox2 S) (BoundingBox2 S) where
  union self bb := BoundingBox2.new (Api.min self.min bb.min) (Api.max self.max bb.max)
/-- `Union<Point2> for &BoundingBox2` src/boundingbox2.rs:162-172 -/
instance : BoxUnion (BoundingBox2 S) (Point2 S) (BoundingBox2 S) where
  union self p := BoundingBox2.new (Api.min self.min p) (Api.max self.max p)
/-- `Intersection<&BoundingBox2> for &BoundingBox2` src/boundingbox2.rs:174-190 -/
instance : BoxIntersection (BoundingBox2 S) (BoundingBox2 S) (BoundingBox2 S) where
  intersect self bb :=
    if self.overlaps bb then
      some (BoundingBox2.new (Api.max self.min bb.min) (Api.min self.max bb.max))
    else none
/-- `Intersection<&Ray2> for &BoundingBox2` src/boundingbox2.rs:192-223 -/
instance : BoxIntersection (BoundingBox2 S) (Ray2 S) (Range S) where
  intersect self ray := self.intersectRay ray

end VecMath
