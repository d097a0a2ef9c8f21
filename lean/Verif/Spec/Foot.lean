import Verif.Model
import Verif.Spec.Basic
import Verif.Spec.Round
/-!
# Vocabulary for C112: the point of a line, a half-line or a segment nearest to a given point

What a client writes with the API: `t = d.dot(p - o) / d.dot(d)` is the parameter of the point of the line
`ray.at(t)` nearest to `p`; `t.max(0.0)` that of the half-line, `t.max(0.0).min(1.0)` that of the segment from
`ray.at(0.0)` to `ray.at(1.0)`.
-/

namespace VecMath
open Scalar IEEE

/-- `d.dot(p - o) / d.dot(d)` -/
def Ray2.footParam {S : Type} [Scalar S] (r : Ray2 S) (p : Point2 S) : S :=
  Api.dot r.direction (p - r.origin : Vector2 S) / Api.dot r.direction r.direction
/-- The same for the half-line: `t.max(0.0)` -/
def Ray2.halfParam {S : Type} [Scalar S] (r : Ray2 S) (p : Point2 S) : S := fmax (r.footParam p) Scalar.zero
/-- The same for the segment: `t.max(0.0).min(1.0)` -/
def Ray2.segParam {S : Type} [Scalar S] (r : Ray2 S) (p : Point2 S) : S := fmin (fmax (r.footParam p) Scalar.zero) Scalar.one

/-- `d.dot(p - o) / d.dot(d)` -/
def Ray3.footParam {S : Type} [Scalar S] (r : Ray3 S) (p : Point3 S) : S :=
  Api.dot r.direction (p - r.origin : Vector3 S) / Api.dot r.direction r.direction
/-- The same for the half-line: `t.max(0.0)` -/
def Ray3.halfParam {S : Type} [Scalar S] (r : Ray3 S) (p : Point3 S) : S := fmax (r.footParam p) Scalar.zero
/-- The same for the segment: `t.max(0.0).min(1.0)` -/
def Ray3.segParam {S : Type} [Scalar S] (r : Ray3 S) (p : Point3 S) : S := fmin (fmax (r.footParam p) Scalar.zero) Scalar.one

/-- Relative error bound of the computed parameter in `n` dimensions: `n + 2` roundings up, `n` of them in the divisor. -/
noncomputable def footErr (S : Type) [Scalar S] [IEEE S] [Binary S] (n : ℕ) : ℝ := (1 + uro S) ^ (n + 2) / (1 - uro S) ^ n - 1
/-- The exact parameter of the nearest point of the line, for a finite ray and point. -/
noncomputable def Ray2.exactParam {S : Type} [Scalar S] [IEEE S] (r : Ray2 S) (p : Point2 S) : ℝ :=
  (real r.direction.x * (real p.x - real r.origin.x) + real r.direction.y * (real p.y - real r.origin.y)) / (real r.direction.x ^ 2 + real r.direction.y ^ 2)
/-- The same quotient with the magnitudes of the terms: at least the magnitude of the parameter, equal in one dimension. -/
noncomputable def Ray2.absParam {S : Type} [Scalar S] [IEEE S] (r : Ray2 S) (p : Point2 S) : ℝ :=
  (|real r.direction.x| * |real p.x - real r.origin.x| + |real r.direction.y| * |real p.y - real r.origin.y|) / (real r.direction.x ^ 2 + real r.direction.y ^ 2)
/-- Nothing overflows or underflows on the way to the parameter. -/
def Ray2.FootNormal {S : Type} [Scalar S] [IEEE S] [Binary S] (r : Ray2 S) (p : Point2 S) : Prop :=
  IsFinite (Api.dot r.direction (p - r.origin : Vector2 S) : S) ∧ IsFinite (Api.dot r.direction r.direction : S) ∧ IsFinite (r.footParam p) ∧
  (Normal S (real r.direction.x * real (p.x - r.origin.x)) ∧ Normal S (real r.direction.y * real (p.y - r.origin.y))) ∧
  (Normal S (real r.direction.x ^ 2) ∧ Normal S (real r.direction.y ^ 2)) ∧
  Normal S (real (Api.dot r.direction (p - r.origin : Vector2 S) : S) / real (Api.dot r.direction r.direction : S))
/-- The exact parameter of the nearest point of the line, for a finite ray and point. -/
noncomputable def Ray3.exactParam {S : Type} [Scalar S] [IEEE S] (r : Ray3 S) (p : Point3 S) : ℝ :=
  (real r.direction.x * (real p.x - real r.origin.x) + real r.direction.y * (real p.y - real r.origin.y) + real r.direction.z * (real p.z - real r.origin.z)) / (real r.direction.x ^ 2 + real r.direction.y ^ 2 + real r.direction.z ^ 2)
/-- The same quotient with the magnitudes of the terms: at least the magnitude of the parameter, equal in one dimension. -/
noncomputable def Ray3.absParam {S : Type} [Scalar S] [IEEE S] (r : Ray3 S) (p : Point3 S) : ℝ :=
  (|real r.direction.x| * |real p.x - real r.origin.x| + |real r.direction.y| * |real p.y - real r.origin.y| + |real r.direction.z| * |real p.z - real r.origin.z|) / (real r.direction.x ^ 2 + real r.direction.y ^ 2 + real r.direction.z ^ 2)
/-- Nothing overflows or underflows on the way to the parameter. -/
def Ray3.FootNormal {S : Type} [Scalar S] [IEEE S] [Binary S] (r : Ray3 S) (p : Point3 S) : Prop :=
  IsFinite (Api.dot r.direction (p - r.origin : Vector3 S) : S) ∧ IsFinite (Api.dot r.direction r.direction : S) ∧ IsFinite (r.footParam p) ∧
  (Normal S (real r.direction.x * real (p.x - r.origin.x)) ∧ Normal S (real r.direction.y * real (p.y - r.origin.y)) ∧ Normal S (real r.direction.z * real (p.z - r.origin.z))) ∧
  (Normal S (real r.direction.x ^ 2) ∧ Normal S (real r.direction.y ^ 2) ∧ Normal S (real r.direction.z ^ 2)) ∧
  Normal S (real (Api.dot r.direction (p - r.origin : Vector3 S) : S) / real (Api.dot r.direction r.direction : S))
end VecMath
