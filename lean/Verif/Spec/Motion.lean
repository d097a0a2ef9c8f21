import Verif.Model
import Verif.Spec.Symmetry
import Verif.Spec.Frame
/-!
# Vocabulary for C129: simulating motion step by step

What the loop of a game or of a simulation does with the vectors and points of the library: a body has a position and a velocity, and in each step of length
`dt` the velocity is changed by the acceleration and the position by the velocity.
-/

namespace VecMath
open Scalar IEEE

/-- A step, `n` times. -/
def stepped {B : Type} (step : B → B) (n : ℕ) (b : B) : B := step^[n] b
/-- The energy that the simulated spring keeps. `x` is the position seen from the fixed end. -/
def springEnergy {m : ℕ} (k h : ℝ) (x v : Fin m → ℝ) : ℝ := v ⬝ᵥ v + k * (x ⬝ᵥ x) - k * h * (x ⬝ᵥ v)

/-- A moving body in the plane. -/
structure Body2 (S : Type) where
  position : Point2 S
  velocity : Vector2 S
/-- Its components are finite. -/
def Body2.Finite {S : Type} [Scalar S] [IEEE S] (b : Body2 S) : Prop := AllFinite b.position ∧ AllFinite b.velocity
/-- The same position and velocity. -/
def Body2.Same {S : Type} [Scalar S] [IEEE S] (a b : Body2 S) : Prop := a.position.toReal = b.position.toReal ∧ a.velocity.toReal = b.velocity.toReal
section
variable {S : Type} [Scalar S]
/-- `v += g * dt; p += v * dt`: one step of free fall. -/
def Body2.fall (g : Vector2 S) (dt : S) (b : Body2 S) : Body2 S :=
  let v := b.velocity.addAssign (g * dt)
  ⟨b.position.addAssign (v * dt), v⟩
/-- `p -= v * dt; v -= g * dt`: the step taken back. -/
def Body2.rise (g : Vector2 S) (dt : S) (b : Body2 S) : Body2 S :=
  ⟨b.position.subAssign (b.velocity * dt), b.velocity.subAssign (g * dt)⟩
/-- `v -= (p - c) * k * dt; p += v * dt`: one step of a body on a spring of stiffness `k` that is fixed at `c`. -/
def Body2.swing (c : Point2 S) (k dt : S) (b : Body2 S) : Body2 S :=
  let v := b.velocity.subAssign ((b.position - c : Vector2 S) * k * dt)
  ⟨b.position.addAssign (v * dt), v⟩
/-- `p -= v * dt; v += (p - c) * k * dt`: the step taken back. -/
def Body2.swingBack (c : Point2 S) (k dt : S) (b : Body2 S) : Body2 S :=
  let p := b.position.subAssign (b.velocity * dt)
  ⟨p, b.velocity.addAssign ((p - c : Vector2 S) * k * dt)⟩
/-- The same with the old velocity: `p' = p + v * dt; v -= (p - c) * k * dt; p = p'`. -/
def Body2.swingOld (c : Point2 S) (k dt : S) (b : Body2 S) : Body2 S :=
  ⟨b.position.addAssign (b.velocity * dt), b.velocity.subAssign ((b.position - c : Vector2 S) * k * dt)⟩
/-- The body at the opposite place with the opposite velocity. -/
def Body2.mirror (b : Body2 S) : Body2 S := ⟨-b.position, -b.velocity⟩
end

/-- A moving body in space. -/
structure Body3 (S : Type) where
  position : Point3 S
  velocity : Vector3 S
/-- Its components are finite. -/
def Body3.Finite {S : Type} [Scalar S] [IEEE S] (b : Body3 S) : Prop := AllFinite b.position ∧ AllFinite b.velocity
/-- The same position and velocity. -/
def Body3.Same {S : Type} [Scalar S] [IEEE S] (a b : Body3 S) : Prop := a.position.toReal = b.position.toReal ∧ a.velocity.toReal = b.velocity.toReal
section
variable {S : Type} [Scalar S]
/-- `v += g * dt; p += v * dt`: one step of free fall. -/
def Body3.fall (g : Vector3 S) (dt : S) (b : Body3 S) : Body3 S :=
  let v := b.velocity.addAssign (g * dt)
  ⟨b.position.addAssign (v * dt), v⟩
/-- `p -= v * dt; v -= g * dt`: the step taken back. -/
def Body3.rise (g : Vector3 S) (dt : S) (b : Body3 S) : Body3 S :=
  ⟨b.position.subAssign (b.velocity * dt), b.velocity.subAssign (g * dt)⟩
/-- `v -= (p - c) * k * dt; p += v * dt`: one step of a body on a spring of stiffness `k` that is fixed at `c`. -/
def Body3.swing (c : Point3 S) (k dt : S) (b : Body3 S) : Body3 S :=
  let v := b.velocity.subAssign ((b.position - c : Vector3 S) * k * dt)
  ⟨b.position.addAssign (v * dt), v⟩
/-- `p -= v * dt; v += (p - c) * k * dt`: the step taken back. -/
def Body3.swingBack (c : Point3 S) (k dt : S) (b : Body3 S) : Body3 S :=
  let p := b.position.subAssign (b.velocity * dt)
  ⟨p, b.velocity.addAssign ((p - c : Vector3 S) * k * dt)⟩
/-- The same with the old velocity: `p' = p + v * dt; v -= (p - c) * k * dt; p = p'`. -/
def Body3.swingOld (c : Point3 S) (k dt : S) (b : Body3 S) : Body3 S :=
  ⟨b.position.addAssign (b.velocity * dt), b.velocity.subAssign ((b.position - c : Vector3 S) * k * dt)⟩
/-- The body at the opposite place with the opposite velocity. -/
def Body3.mirror (b : Body3 S) : Body3 S := ⟨-b.position, -b.velocity⟩
end

end VecMath
