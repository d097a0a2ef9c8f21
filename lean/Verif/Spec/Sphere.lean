import Verif.Spec.Basic
import Verif.Spec.Grid
import Verif.Spec.Round
import Mathlib.Algebra.BigOperators.Fin
/-!
# Vocabulary for C119: rays and balls

The usual test of a ray against a disc (2D) or a ball (3D), built from the modelled operations: the parameters are the roots of a
quadratic equation.
-/

namespace VecMath
open Scalar IEEE

section
variable {S : Type} [Scalar S]
/-- The range between the roots of `a t² + 2 h t + k`, if they are real. -/
def rootRange (a h k : S) : Option (Range S) :=
  let d := h * h - a * k
  if zero ≤? d then some ⟨(-h - sqrt d) / a, (-h + sqrt d) / a⟩ else none
/-- Where the line of the ray is in the disc around `c` with radius `ρ`. -/
def Ray2.ball (r : Ray2 S) (c : Point2 S) (ρ : S) : Option (Range S) :=
  let o : Vector2 S := r.origin - c
  rootRange (Api.dot r.direction r.direction) (Api.dot r.direction o) (Api.dot o o - ρ * ρ)
/-- Where the line of the ray is in the ball around `c` with radius `ρ`. -/
def Ray3.ball (r : Ray3 S) (c : Point3 S) (ρ : S) : Option (Range S) :=
  let o : Vector3 S := r.origin - c
  rootRange (Api.dot r.direction r.direction) (Api.dot r.direction o) (Api.dot o o - ρ * ρ)
/-- The box around the disc. -/
def Point2.boxAround (c : Point2 S) (ρ : S) : BoundingBox2 S := BoundingBox2.new (c - Vector2.new ρ ρ) (c + Vector2.new ρ ρ)
/-- The box around the ball. -/
def Point3.boxAround (c : Point3 S) (ρ : S) : BoundingBox3 S := BoundingBox3.new (c - Vector3.new ρ ρ ρ) (c + Vector3.new ρ ρ ρ)
/-- The ray with the opposite direction. -/
def Ray2.back (r : Ray2 S) : Ray2 S := Ray2.new r.origin (-r.direction)
/-- The ray with the opposite direction. -/
def Ray3.back (r : Ray3 S) : Ray3 S := Ray3.new r.origin (-r.direction)
end

/-- The point of the real line through `o` in direction `d` with parameter `t` is within `ρ` of `c`. -/
def InBall {n : ℕ} (d o c : Fin n → ℝ) (ρ t : ℝ) : Prop := ∑ i, (o i + t * d i - c i) ^ 2 ≤ ρ ^ 2

/-- Error bound of the discriminant, for the squared length `D` of the direction, the squared distance `O` between the origin and the
center and the squared radius `P`: twelve roundings, and the underflows. -/
noncomputable def ballErr (S : Type) [Scalar S] [IEEE S] [Binary S] (D O P : ℝ) : ℝ :=
  12 * uro S * (D * (2 * O + P)) + 12 * tiny S * (D + O + P + 1)

end VecMath
