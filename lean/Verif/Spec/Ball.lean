import Verif.Model
import Verif.Spec.Basic
/-!
# Vocabulary for bounding balls

What a client of the library writes to bound objects by discs (2D) or balls (3D): a center and a radius, with the usual tests.
-/

namespace VecMath
open Scalar
variable {S : Type} [Scalar S]

/-- A disc: center and radius. -/
structure Ball2 (S : Type) where
  center : Point2 S
  radius : S
namespace Ball2
/-- `center.distance(p) <= radius` -/
def has (a : Ball2 S) (p : Point2 S) : Bool := Api.distance a.center p ≤? a.radius
/-- The discs overlap: `a.center.distance(b.center) <= a.radius + b.radius` -/
def meets (a b : Ball2 S) : Bool := Api.distance a.center b.center ≤? a.radius + b.radius
/-- The first disc is inside the second: `a.center.distance(b.center) + a.radius <= b.radius` -/
def within (a b : Ball2 S) : Bool := Api.distance a.center b.center + a.radius ≤? b.radius
/-- The disc around two discs: the larger one if it contains the other, otherwise the one that touches both from outside. -/
def join (a b : Ball2 S) : Ball2 S :=
  if a.within b then b else if b.within a then a else
    let d : S := Api.distance a.center b.center
    let r := (d + (a.radius + b.radius)) * half
    ⟨a.center + (b.center - a.center) * ((r - a.radius) / d), r⟩
/-- The disc around `c` through the farthest of some points. -/
def around (c : Point2 S) (ps : List (Point2 S)) : Ball2 S := ⟨c, ps.foldl (fun r p => fmax r (Api.distance c p)) zero⟩
end Ball2
/-- `(1..4).map(|k| b.corner(k)).fold(b.corner(0), |best, q| c.farthest(best, q))` -/
def BoundingBox2.farCorner (b : BoundingBox2 S) (build : Build) (c : Point2 S) : Except Panic (Point2 S) := do
  let first ← b.corner build 0
  let others ← ([1, 2, 3] : List UInt32).mapM (b.corner build)
  return others.foldl (Api.farthest c) first
/-- The disc around the center of a box whose radius is half the diagonal. -/
def BoundingBox2.ball (b : BoundingBox2 S) : Ball2 S := ⟨b.center, Api.length b.diagonal * half⟩

/-- A ball: center and radius. -/
structure Ball3 (S : Type) where
  center : Point3 S
  radius : S
namespace Ball3
/-- `center.distance(p) <= radius` -/
def has (a : Ball3 S) (p : Point3 S) : Bool := Api.distance a.center p ≤? a.radius
/-- The balls overlap: `a.center.distance(b.center) <= a.radius + b.radius` -/
def meets (a b : Ball3 S) : Bool := Api.distance a.center b.center ≤? a.radius + b.radius
/-- The first ball is inside the second: `a.center.distance(b.center) + a.radius <= b.radius` -/
def within (a b : Ball3 S) : Bool := Api.distance a.center b.center + a.radius ≤? b.radius
/-- The ball around two balls: the larger one if it contains the other, otherwise the one that touches both from outside. -/
def join (a b : Ball3 S) : Ball3 S :=
  if a.within b then b else if b.within a then a else
    let d : S := Api.distance a.center b.center
    let r := (d + (a.radius + b.radius)) * half
    ⟨a.center + (b.center - a.center) * ((r - a.radius) / d), r⟩
/-- The ball around `c` through the farthest of some points. -/
def around (c : Point3 S) (ps : List (Point3 S)) : Ball3 S := ⟨c, ps.foldl (fun r p => fmax r (Api.distance c p)) zero⟩
end Ball3
/-- `(1..8).map(|k| b.corner(k)).fold(b.corner(0), |best, q| c.farthest(best, q))` -/
def BoundingBox3.farCorner (b : BoundingBox3 S) (build : Build) (c : Point3 S) : Except Panic (Point3 S) := do
  let first ← b.corner build 0
  let others ← ([1, 2, 3, 4, 5, 6, 7] : List UInt32).mapM (b.corner build)
  return others.foldl (Api.farthest c) first
/-- The ball around the center of a box whose radius is half the diagonal. -/
def BoundingBox3.ball (b : BoundingBox3 S) : Ball3 S := ⟨b.center, Api.length b.diagonal * half⟩

end VecMath
