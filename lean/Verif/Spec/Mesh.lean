import Verif.Model
import Verif.Spec.Basic
import Verif.Spec.Side
/-!
# Vocabulary for C128: volumes of triangle meshes

What a client of the library writes to measure a solid given by the triangles of its surface: the sum of the (six-fold) volumes of the
tetrahedra that a point `o` makes with the triangles.
-/

namespace VecMath
open Scalar IEEE

/-- A triangle: its corners, in order. -/
abbrev Face (P : Type) : Type := P × P × P
/-- `(f(a), f(b), f(c))`. -/
def Face.image {P Q : Type} (g : P → Q) (f : Face P) : Face Q := (g f.1, g f.2.1, g f.2.2)
/-- `(b, a, c)`: the triangle seen from the other side. -/
def Face.back {P : Type} (f : Face P) : Face P := (f.2.1, f.1, f.2.2)
/-- `(b, c, a)`: the same triangle, beginning with the next corner. -/
def Face.turn {P : Type} (f : Face P) : Face P := (f.2.1, f.2.2, f.1)
/-- The edges of the triangle, each from one corner to the next. -/
def Face.rim {P : Type} (f : Face P) : List (P × P) := [(f.1, f.2.1), (f.2.1, f.2.2), (f.2.2, f.1)]
/-- A closed surface: the edges of all triangles, each turned round, are the same edges in some order. So every edge of a triangle is, the other way
round, an edge of a neighbour, as often as it occurs. -/
def Closed {P : Type} (fs : List (Face P)) : Prop := List.Perm ((fs.flatMap Face.rim).map Prod.swap) (fs.flatMap Face.rim)

section
variable {S : Type} [Scalar S]
/-- `(a - o).cross(b - o).dot(c - o)`: six times the volume of the tetrahedron with the corners `o`, `a`, `b`, `c`. -/
def Point3.tetra (o : Point3 S) (f : Face (Point3 S)) : S :=
  Api.dot (Api.cross (f.1 - o : Vector3 S) (f.2.1 - o : Vector3 S) : Vector3 S) (f.2.2 - o : Vector3 S)
/-- `for f in mesh { sum += tetra(o, f) }`, from zero. -/
def Point3.volumeFrom (o : Point3 S) (fs : List (Face (Point3 S))) : S := fs.foldl (fun v f => v + o.tetra f) zero
/-- `(b - a).cross(c - a)`: twice the area vector of the triangle. -/
def Face.area (f : Face (Point3 S)) : Vector3 S := Api.cross (f.2.1 - f.1 : Vector3 S) (f.2.2 - f.1 : Vector3 S)
/-- `for f in mesh { sum += area(f) }`, from the zero vector. -/
def surface (fs : List (Face (Point3 S))) : Vector3 S := fs.foldl (fun v f => v.addAssign f.area) Vector3.zero
/-- The twelve triangles of the surface of a box, two for every side, turning left as seen from outside. The corner at `(i, j, k)` takes `max` on the axes
where the flag is set. -/
def BoundingBox3.mesh (b : BoundingBox3 S) : List (Face (Point3 S)) :=
  let c (i j k : Bool) : Point3 S := ⟨if i then b.max.x else b.min.x, if j then b.max.y else b.min.y, if k then b.max.z else b.min.z⟩
  let side (p q r s : Point3 S) : List (Face (Point3 S)) := [(p, q, r), (p, r, s)]
  side (c false false false) (c false false true) (c false true true) (c false true false) ++
  side (c true false false) (c true true false) (c true true true) (c true false true) ++
  side (c false false false) (c true false false) (c true false true) (c false false true) ++
  side (c false true false) (c false true true) (c true true true) (c true true false) ++
  side (c false false false) (c false true false) (c true true false) (c true false false) ++
  side (c false false true) (c true false true) (c true true true) (c false true true)
end

/-- All corners are finite. -/
def FiniteMesh {S : Type} [Scalar S] [IEEE S] (fs : List (Face (Point3 S))) : Prop := ∀ f ∈ fs, AllFinite f.1 ∧ AllFinite f.2.1 ∧ AllFinite f.2.2

/-- The exact sum of the volumes: the determinants of the edges from `o`. -/
def exactVolume (o : Fin 3 → ℝ) (fs : List (Face (Fin 3 → ℝ))) : ℝ := (fs.map fun f => (edges o f.1 f.2.1 f.2.2).det).sum

end VecMath
