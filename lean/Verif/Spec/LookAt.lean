import Verif.Spec.Trig
import Mathlib.LinearAlgebra.CrossProduct
/-!
# Specification: the exact view frame (C76)

Over the real numbers. Nothing here comes from the crate.
-/

namespace VecMath
open Scalar IEEE

/-- The unit vector in the direction of `v`. -/
noncomputable def unit {n : ℕ} (v : Fin n → ℝ) : Fin n → ℝ := fun i => v i / norm2 v

/-- The viewing direction. -/
noncomputable def aim (o t : Fin 3 → ℝ) : Fin 3 → ℝ := unit (t - o)
/-- The horizontal axis: the unit normal to the `up` vector and the viewing direction. -/
noncomputable def side (o t up : Fin 3 → ℝ) : Fin 3 → ℝ := unit (crossProduct up (t - o))
/-- The vertical axis. -/
noncomputable def top (o t up : Fin 3 → ℝ) : Fin 3 → ℝ := crossProduct (aim o t) (side o t up)
/-- The matrix that takes camera coordinates to world coordinates: the three axes are the columns, and the position of
the camera is the last column. -/
noncomputable def cameraToWorld (o t up : Fin 3 → ℝ) : Matrix (Fin 4) (Fin 4) ℝ :=
  !![side o t up 0, top o t up 0, aim o t 0, o 0;
    side o t up 1, top o t up 1, aim o t 1, o 1;
    side o t up 2, top o t up 2, aim o t 2, o 2;
    0, 0, 0, 1]
/-- The matrix that takes world coordinates to camera coordinates. -/
noncomputable def worldToCamera (o t up : Fin 3 → ℝ) : Matrix (Fin 4) (Fin 4) ℝ :=
  !![side o t up 0, side o t up 1, side o t up 2, -(side o t up ⬝ᵥ o);
    top o t up 0, top o t up 1, top o t up 2, -(top o t up ⬝ᵥ o);
    aim o t 0, aim o t 1, aim o t 2, -(aim o t ⬝ᵥ o);
    0, 0, 0, 1]
/-- The sine of the angle between two vectors. -/
noncomputable def sinAngle (a b : Fin 3 → ℝ) : ℝ := norm2 (crossProduct a b) / (norm2 a * norm2 b)

/-- The format has at least 10 bits of precision, reaches at least to 64, and the square of its precision is a normal
number. True of `f32` and `f64`. -/
structure Standard (S : Type) [Scalar S] [IEEE S] [Binary S] : Prop where
  uro : uro S ≤ 1 / 1024
  overflow : 64 ≤ overflowAt S
  normal : minNormal S ≤ VecMath.uro S ^ 2

end VecMath
