import Verif.Model
import Verif.Spec.Basic
import Verif.Spec.Frame
import Verif.Spec.Path
/-!
# Vocabulary for C124: areas of polygons

What a client of the library writes to measure a polygon given by its vertices: the sum of the (doubled) areas of the triangles that
a point `o` makes with the edges.
-/

namespace VecMath
open Scalar

section
variable {S : Type} [Scalar S]
/-- `ps.windows(2).map(|w| turned(w[0] - o).dot(w[1] - o)).fold(0.0, |t, d| t + d)` with `turned(v) = vector2(-v.y, v.x)`: twice the area
that the way through `ps` sweeps seen from `o`, counted positive where it turns left. -/
def Point2.areaFrom (o : Point2 S) (ps : List (Point2 S)) : S :=
  (legs (fun a b => Api.dot (Vector2.turned (a - o : Vector2 S)) (b - o : Vector2 S)) ps).foldl (· + ·) zero
/-- `for w in ps.windows(2) { sum += (w[0] - o).cross(w[1] - o) }`, from the zero vector: twice the area vector. -/
def Point3.areaFrom (o : Point3 S) (ps : List (Point3 S)) : Vector3 S :=
  (legs (fun a b => (Api.cross (a - o : Vector3 S) (b - o : Vector3 S) : Vector3 S)) ps).foldl Vector3.addAssign Vector3.zero
/-- Twice the signed area of the polygon with the vertices `o, ps`: the triangles of the fan around its first vertex. -/
def Point2.polygon (o : Point2 S) (ps : List (Point2 S)) : S := o.areaFrom ps
/-- Twice the area vector of the polygon with the vertices `o, ps`. -/
def Point3.polygon (o : Point3 S) (ps : List (Point3 S)) : Vector3 S := o.areaFrom ps
end

/-- Twice the signed area of the triangle with the edges `a` and `b` from its first corner. -/
def perp (a b : Fin 2 → ℝ) : ℝ := a 0 * b 1 - a 1 * b 0
/-- The exact sum of the areas of the triangles. -/
def exactArea2 (o : Fin 2 → ℝ) (ps : List (Fin 2 → ℝ)) : ℝ := (legs (fun a b => perp (a - o) (b - o)) ps).sum
/-- The exact sum of the area vectors of the triangles. -/
def exactArea3 (o : Fin 3 → ℝ) (ps : List (Fin 3 → ℝ)) : Fin 3 → ℝ := (legs (fun a b => crossProduct (a - o) (b - o)) ps).sum
/-- The magnitudes of all products in one triangle (component `i`, `j` of the edges). -/
def absTerm {n : ℕ} (i j : Fin n) (o a b : Fin n → ℝ) : ℝ := |a i - o i| * |b j - o j| + |a j - o j| * |b i - o i|
/-- The magnitudes of all products in all triangles. -/
def absArea {n : ℕ} (i j : Fin n) (o : Fin n → ℝ) (ps : List (Fin n → ℝ)) : ℝ := (legs (absTerm i j o) ps).sum

end VecMath
