import Verif.Spec.Shadow
import Verif.Spec.Curve
/-!
# Vocabulary for C126: clipping by planes

What a client of the library writes to cut the convex hull of a set of points by the half-space `n.dot(p) >= d`: it keeps the points that are inside and adds,
for each point inside and each point outside, the point where the line between them crosses the plane. (For a triangle or a tetrahedron these lines are the edges.)
-/

namespace VecMath
open Scalar

section
variable {S : Type} [Scalar S]
/-- `p + (q - p) * ((d - n.dot(p)) / (n.dot(q) - n.dot(p)))` -/
def Point2.cut (n : Vector2 S) (d : S) (p q : Point2 S) : Point2 S := Point2.mix ((d - n.along p) / (n.along q - n.along p)) p q
/-- `p + (q - p) * ((d - n.dot(p)) / (n.dot(q) - n.dot(p)))` -/
def Point3.cut (n : Vector3 S) (d : S) (p q : Point3 S) : Point3 S := Point3.mix ((d - n.along p) / (n.along q - n.along p)) p q
/-- The points `p` with `n.dot(p) >= d`. -/
def Vector2.kept (n : Vector2 S) (d : S) (ps : List (Point2 S)) : List (Point2 S) := ps.filter fun p => d ≤? n.along p
/-- The points `p` with `n.dot(p) >= d`. -/
def Vector3.kept (n : Vector3 S) (d : S) (ps : List (Point3 S)) : List (Point3 S) := ps.filter fun p => d ≤? n.along p
/-- The other points. -/
def Vector2.dropped (n : Vector2 S) (d : S) (ps : List (Point2 S)) : List (Point2 S) := ps.filter fun p => !(d ≤? n.along p)
/-- The other points. -/
def Vector3.dropped (n : Vector3 S) (d : S) (ps : List (Point3 S)) : List (Point3 S) := ps.filter fun p => !(d ≤? n.along p)
/-- The points inside, and the crossings between a point inside and a point outside. -/
def Vector2.clip (n : Vector2 S) (d : S) (ps : List (Point2 S)) : List (Point2 S) :=
  n.kept d ps ++ (n.kept d ps).flatMap fun p => (n.dropped d ps).map fun q => Point2.cut n d p q
/-- The points inside, and the crossings between a point inside and a point outside. -/
def Vector3.clip (n : Vector3 S) (d : S) (ps : List (Point3 S)) : List (Point3 S) :=
  n.kept d ps ++ (n.kept d ps).flatMap fun p => (n.dropped d ps).map fun q => Point3.cut n d p q
/-- One plane after the other. -/
def Point2.clips (planes : List (Vector2 S × S)) (ps : List (Point2 S)) : List (Point2 S) := planes.foldl (fun ps h => h.1.clip h.2 ps) ps
/-- One plane after the other. -/
def Point3.clips (planes : List (Vector3 S × S)) (ps : List (Point3 S)) : List (Point3 S) := planes.foldl (fun ps h => h.1.clip h.2 ps) ps
end

end VecMath
