import Verif.Model
import Verif.Spec.Basic
import Verif.IEEE.Scalars
import Mathlib.Analysis.Convex.Hull
/-!
# Vocabulary for C125: separating axes

What a client of the library writes to find out that two sets of points can be told apart by an axis `n`: the least and the greatest
`n.dot(p)` of each set, and whether these two intervals have a gap between them.
-/

namespace VecMath
open Scalar

section
variable {S : Type} [Scalar S]
/-- `ds.fold(S::infinity(), S::min)` -/
def lowest (ds : List S) : S := ds.foldl fmin infinity
/-- `ds.fold(S::neg_infinity(), S::max)` -/
def highest (ds : List S) : S := ds.foldl fmax negInfinity
/-- `n.dot(Vector2::from(p))` -/
def Vector2.along (n : Vector2 S) (p : Point2 S) : S := Api.dot n (Vector2.fromPoint p)
/-- `n.dot(Vector3::from(p))` -/
def Vector3.along (n : Vector3 S) (p : Point3 S) : S := Api.dot n (Vector3.fromPoint p)
/-- `highest(ps) < lowest(qs) || highest(qs) < lowest(ps)` -/
def Vector2.separates (n : Vector2 S) (ps qs : List (Point2 S)) : Bool :=
  (highest (ps.map n.along) <? lowest (qs.map n.along)) || (highest (qs.map n.along) <? lowest (ps.map n.along))
/-- `highest(ps) < lowest(qs) || highest(qs) < lowest(ps)` -/
def Vector3.separates (n : Vector3 S) (ps qs : List (Point3 S)) : Bool :=
  (highest (ps.map n.along) <? lowest (qs.map n.along)) || (highest (qs.map n.along) <? lowest (ps.map n.along))
end

section
variable {S : Type} [Scalar S] [IEEE S]
/-- The convex hull of the points. -/
def Point2.hull (ps : List (Point2 S)) : Set (Fin 2 → ℝ) := convexHull ℝ {x | ∃ p ∈ ps, x = p.toReal}
/-- The convex hull of the points. -/
def Point3.hull (ps : List (Point3 S)) : Set (Fin 3 → ℝ) := convexHull ℝ {x | ∃ p ∈ ps, x = p.toReal}
end

end VecMath
