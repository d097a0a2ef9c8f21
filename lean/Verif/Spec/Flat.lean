import Verif.Spec.Platform
/-!
# Vocabulary for C117: the plane inside space

A vector, point, ray or box of the plane and its copy in space: the same coordinates `x` and `y` up to `ρ`, and a zero (of either
sign) for `z`. The copy of a matrix acts on `x`, `y` and the weight like the matrix itself and leaves `z` alone.
-/

namespace VecMath
open Scalar IEEE

section
variable {S : Type} [Scalar S] [IEEE S] (ρ : S → S → Prop)

/-- A zero, of either sign. -/
def Vanishes (a : S) : Prop := SameNumber (zero : S) a
/-- The vector `(x, y)` as `(x, y, 0)`. -/
abbrev FlatV (u : Vector2 S) (v : Vector3 S) : Prop := ρ u.x v.x ∧ ρ u.y v.y ∧ Vanishes v.z
/-- The point `(x, y)` as `(x, y, 0)`. -/
abbrev FlatP (p : Point2 S) (q : Point3 S) : Prop := ρ p.x q.x ∧ ρ p.y q.y ∧ Vanishes q.z
/-- A ray in the plane `z = 0`. -/
abbrev FlatR (r : Ray2 S) (s : Ray3 S) : Prop := FlatP ρ r.origin s.origin ∧ FlatV ρ r.direction s.direction
/-- A box as a flat box in the plane `z = 0`. -/
abbrev FlatB (a : BoundingBox2 S) (b : BoundingBox3 S) : Prop := FlatP ρ a.min b.min ∧ FlatP ρ a.max b.max
/-- A box as the section of a box in space by the plane `z = 0`, which meets it. -/
def SectionB (a : BoundingBox2 S) (b : BoundingBox3 S) : Prop :=
  (ρ a.min.x b.min.x ∧ ρ a.min.y b.min.y ∧ (b.min.z ≤? (zero : S)) = true) ∧ ρ a.max.x b.max.x ∧ ρ a.max.y b.max.y ∧ ((zero : S) ≤? b.max.z) = true
/-- What a matrix does to the plane: the nine entries for `x`, `y` and the weight. -/
def PlaneM (a : Matrix3x3 S) (b : Matrix4x4 S) : Prop :=
  (ρ a.m[0] b.m[0] ∧ ρ a.m[1] b.m[1] ∧ ρ a.m[2] b.m[3]) ∧ (ρ a.m[3] b.m[4] ∧ ρ a.m[4] b.m[5] ∧ ρ a.m[5] b.m[7]) ∧
    ρ a.m[6] b.m[12] ∧ ρ a.m[7] b.m[13] ∧ ρ a.m[8] b.m[15]
/-- The other entries: `z` is left alone. -/
def KeepsZ (b : Matrix4x4 S) : Prop :=
  (Vanishes b.m[2] ∧ Vanishes b.m[6] ∧ Vanishes b.m[14]) ∧ (Vanishes b.m[8] ∧ Vanishes b.m[9] ∧ Vanishes b.m[11]) ∧ SameNumber (one : S) b.m[10]
/-- The copy of a matrix. -/
def FlatM (a : Matrix3x3 S) (b : Matrix4x4 S) : Prop := PlaneM ρ a b ∧ KeepsZ b
/-- The copy of a transform. -/
def FlatT (s : Transform2 S) (t : Transform3 S) : Prop := FlatM ρ s.forward t.forward ∧ FlatM ρ s.inverse t.inverse
end

end VecMath
