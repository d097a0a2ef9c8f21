import Verif.Model
import Verif.Spec.Basic
import Verif.Spec.Round
import Mathlib.LinearAlgebra.CrossProduct
/-!
# Vocabulary for C113: rays and triangles

What a client writes with the API to intersect a ray with a triangle (the method of Möller and Trumbore), in two
versions: dividing the three numerators by the determinant, and comparing the numerators with the determinant.
-/

namespace VecMath
open Scalar IEEE

/-- A triangle, given by its corners. -/
structure Triangle (S : Type) where
  a : Point3 S
  b : Point3 S
  c : Point3 S

section
variable {S : Type} [Scalar S]
/-- `(b - a).dot(d.cross(c - a))` -/
def Ray3.triDet (r : Ray3 S) (k : Triangle S) : S :=
  Api.dot (k.b - k.a : Vector3 S) (Api.cross r.direction (k.c - k.a : Vector3 S) : Vector3 S)
/-- `(o - a).dot(d.cross(c - a))` -/
def Ray3.triU (r : Ray3 S) (k : Triangle S) : S :=
  Api.dot (r.origin - k.a : Vector3 S) (Api.cross r.direction (k.c - k.a : Vector3 S) : Vector3 S)
/-- `d.dot((o - a).cross(b - a))` -/
def Ray3.triV (r : Ray3 S) (k : Triangle S) : S :=
  Api.dot r.direction (Api.cross (r.origin - k.a : Vector3 S) (k.b - k.a : Vector3 S) : Vector3 S)
/-- `(c - a).dot((o - a).cross(b - a))` -/
def Ray3.triT (r : Ray3 S) (k : Triangle S) : S :=
  Api.dot (k.c - k.a : Vector3 S) (Api.cross (r.origin - k.a : Vector3 S) (k.b - k.a : Vector3 S) : Vector3 S)

/-- Where the ray hits the triangle: the distance `t` along the ray and the weights `u`, `v` of `b` and `c`. Division first:
`if 0 <= u && 0 <= v && u + v <= 1 && 0 <= t { Some((t, u, v)) } else { None }`. -/
def Ray3.hitTriangle (r : Ray3 S) (k : Triangle S) : Option (S × S × S) :=
  let u := r.triU k / r.triDet k
  let v := r.triV k / r.triDet k
  let t := r.triT k / r.triDet k
  if (Scalar.zero ≤? u) && (Scalar.zero ≤? v) && (u + v ≤? Scalar.one) && (Scalar.zero ≤? t) then some (t, u, v) else none
/-- Whether the ray hits the triangle, without division. -/
def Ray3.hitsTriangle (r : Ray3 S) (k : Triangle S) : Bool :=
  ((Scalar.zero <? r.triDet k) && (Scalar.zero ≤? r.triU k) && (Scalar.zero ≤? r.triV k) && (r.triU k + r.triV k ≤? r.triDet k) && (Scalar.zero ≤? r.triT k)) ||
  ((r.triDet k <? Scalar.zero) && (r.triU k ≤? Scalar.zero) && (r.triV k ≤? Scalar.zero) && (r.triDet k ≤? r.triU k + r.triV k) && (r.triT k ≤? Scalar.zero))
end

/-- The point at distance `t ≥ 0` of the ray is the point of the triangle with the weights `1 - u - v`, `u`, `v` of the corners. -/
def MeetsAt (o d a b c : Fin 3 → ℝ) (t u v : ℝ) : Prop :=
  0 ≤ t ∧ 0 ≤ u ∧ 0 ≤ v ∧ u + v ≤ 1 ∧ o + t • d = (1 - u - v) • a + u • b + v • c
/-- The ray and the triangle have a point in common. -/
def Meets (o d a b c : Fin 3 → ℝ) : Prop := ∃ t u v, MeetsAt o d a b c t u v
/-- The sum of the absolute values of the six terms of `p · (q × r)`. -/
def triPerm (p q r : Fin 3 → ℝ) : ℝ :=
  |p 0| * (|q 1| * |r 2| + |q 2| * |r 1|) + |p 1| * (|q 2| * |r 0| + |q 0| * |r 2|) + |p 2| * (|q 0| * |r 1| + |q 1| * |r 0|)
/-- The ray is parallel to the plane of the triangle, or the triangle or the direction is degenerate. -/
def Parallel3 (d a b c : Fin 3 → ℝ) : Prop := ∃ x y z : ℝ, (x ≠ 0 ∨ y ≠ 0 ∨ z ≠ 0) ∧ x • d + y • (b - a) + z • (c - a) = 0

section
variable {S : Type} [Scalar S] [IEEE S]
/-- All corners are finite. -/
def Triangle.Finite (k : Triangle S) : Prop := AllFinite k.a ∧ AllFinite k.b ∧ AllFinite k.c
/-- None of the four numbers computed for the test, and neither the sum of two of them, overflows. -/
def Ray3.TriFinite (r : Ray3 S) (k : Triangle S) : Prop :=
  IsFinite (r.triDet k) ∧ IsFinite (r.triT k) ∧ IsFinite (r.triU k + r.triV k)
/-- The error bound for `p · (q × r)`: eight roundings relative to the terms, and the underflow of numbers up to `M` times the smallest. -/
noncomputable def triErr (S : Type) [Scalar S] [IEEE S] [Binary S] (M : ℝ) (p q r : Fin 3 → ℝ) : ℝ :=
  ((1 + uro S) ^ 8 - 1) * triPerm p q r + 3 * (1 + uro S) ^ 5 * (2 * M + 1) * tiny S
end
end VecMath
