import Verif.Spec.Ray
/-!
# Vocabulary for the points at which a ray meets a box
-/

namespace VecMath
open Scalar IEEE

section
variable {S : Type} [Scalar S] [IEEE S] [Binary S]

/-- Two roundings relative to the distance of a face at `c` from the origin `o` of the ray (in one dimension), plus
one underflow scaled by the direction `d`. -/
noncomputable def faceErr (c o d : S) : ℝ := ((1 + uro S) ^ 2 - 1) * |real c - real o| + tiny S * |real d|
/-- The rounding error of one coordinate of `ray.at(t)` (C64). -/
noncomputable def atErr (o d t : S) : ℝ :=
  uro S * |real o| + ((1 + uro S) ^ 2 - 1) * |real d * real t| + (1 + uro S) * tiny S

/-- The coordinate `x` is between `lo` and `hi`, up to the error of the faces and `e`. -/
def NearSlab (lo hi o d : S) (x e : ℝ) : Prop :=
  real lo - faceErr lo o d - e ≤ x ∧ x ≤ real hi + faceErr hi o d + e
/-- The coordinate `x` is at the face through which a ray with direction `d` enters the slab, up to rounding. -/
def NearEntry (lo hi o d : S) (x e : ℝ) : Prop :=
  (0 < real d ∧ |x - real lo| ≤ faceErr lo o d + e) ∨ (real d < 0 ∧ |x - real hi| ≤ faceErr hi o d + e)
/-- The coordinate `x` is at the face through which a ray with direction `d` leaves the slab, up to rounding. -/
def NearExit (lo hi o d : S) (x e : ℝ) : Prop :=
  (0 < real d ∧ |x - real hi| ≤ faceErr hi o d + e) ∨ (real d < 0 ∧ |x - real lo| ≤ faceErr lo o d + e)
end
end VecMath
