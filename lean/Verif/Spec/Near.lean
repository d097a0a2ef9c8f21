import Verif.Spec.Basic
import Verif.Spec.Round
/-!
# Vocabulary for numbers that are close to each other
-/

namespace VecMath
open Scalar IEEE

section
variable {S T : Type} [Scalar S] [IEEE S] [Comps T S]
/-- Two finite numbers of the same sign (or both zero), neither more than twice the other. -/
def Nearby (a b : S) : Prop := IsFinite a ∧ IsFinite b ∧
  ((real a ≤ 2 * real b ∧ real b ≤ 2 * real a) ∨ (2 * real b ≤ real a ∧ 2 * real a ≤ real b))
/-- Every component of `s` is near the same component of `t`. -/
def NearbyAll (s t : T) : Prop := List.Forall₂ (fun x y : S => Nearby x y) (Comps.comps s) (Comps.comps t)
end
variable {S : Type} [Scalar S] [IEEE S]
theorem Vector2.nearbyAll {s t : Vector2 S} : NearbyAll s t ↔ Nearby s.x t.x ∧ Nearby s.y t.y := by
  simp [NearbyAll, Comps.comps]
theorem Vector3.nearbyAll {s t : Vector3 S} : NearbyAll s t ↔ Nearby s.x t.x ∧ Nearby s.y t.y ∧ Nearby s.z t.z := by
  simp [NearbyAll, Comps.comps]
theorem Point2.nearbyAll {s t : Point2 S} : NearbyAll s t ↔ Nearby s.x t.x ∧ Nearby s.y t.y := by
  simp [NearbyAll, Comps.comps]
theorem Point3.nearbyAll {s t : Point3 S} : NearbyAll s t ↔ Nearby s.x t.x ∧ Nearby s.y t.y ∧ Nearby s.z t.z := by
  simp [NearbyAll, Comps.comps]
end VecMath

namespace VecMath
open Scalar
/-- From `a` to `b` a coordinate does not move against the sign of `d` (Rust comparisons). -/
def MovesAlong {S : Type} [Scalar S] (d a b : S) : Prop :=
  ((zero ≤? d) = true → (a ≤? b) = true) ∧ ((d ≤? zero) = true → (b ≤? a) = true)
end VecMath
