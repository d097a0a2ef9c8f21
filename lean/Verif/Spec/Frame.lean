import Verif.Model
import Verif.Spec.Basic
import Verif.Spec.Round
import Verif.Spec.LookAt
import Mathlib.LinearAlgebra.CrossProduct
/-!
# Vocabulary for C114: a frame around a direction

What a client writes with the API to complete a direction to an orthonormal frame (for a tangent space, a camera without a
preferred `up`, or an arrow): cross the direction with the axis along which it is smallest.
-/

namespace VecMath
open Scalar IEEE

section
variable {S : Type} [Scalar S]
/-- `v.cross(Vector3::axis(v.min_dimension()))` -/
def Vector3.sideways (v : Vector3 S) : Vector3 S := Api.cross v (Vector3.axis v.minDimension : Vector3 S)
/-- Three vectors. -/
structure Frame (S : Type) where
  dir : Vector3 S
  side : Vector3 S
  up : Vector3 S
/-- `let d = v.normalize(); let s = v.cross(Vector3::axis(v.min_dimension())).normalize(); (d, s, d.cross(s))` -/
def Vector3.frame (v : Vector3 S) : Frame S :=
  ⟨v.normalize, v.sideways.normalize, Api.cross v.normalize v.sideways.normalize⟩
/-- In the plane: `vector2(-v.y, v.x)` -/
def Vector2.turned (v : Vector2 S) : Vector2 S := vector2 (-v.y) v.x
end

/-- The three vectors are orthonormal and right-handed, up to `ε`. -/
def IsFrameUpTo (ε : ℝ) (a b c : Fin 3 → ℝ) : Prop :=
  (|a ⬝ᵥ a - 1| ≤ ε ∧ |b ⬝ᵥ b - 1| ≤ ε ∧ |c ⬝ᵥ c - 1| ≤ ε) ∧
  (|a ⬝ᵥ b| ≤ ε ∧ |a ⬝ᵥ c| ≤ ε ∧ |b ⬝ᵥ c| ≤ ε) ∧ norm2 (crossProduct a b - c) ≤ ε

end VecMath
