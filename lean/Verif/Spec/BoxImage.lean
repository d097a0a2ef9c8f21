import Verif.Spec.Round
import Mathlib.LinearAlgebra.Matrix.Notation
/-!
# Specification: the image of a box under an affine map (C77)

Over the real numbers. Nothing here comes from the crate.
-/

namespace VecMath

variable {n : ℕ}

/-- Coordinate `i` of the image of the point `x` under the affine map with matrix `A` (last row `0 … 0 1`). -/
noncomputable def image (A : Matrix (Fin (n + 1)) (Fin (n + 1)) ℝ) (x : Fin n → ℝ) (i : Fin n) : ℝ :=
  ∑ j : Fin n, A i.castSucc j.castSucc * x j + A i.castSucc (Fin.last n)
/-- The size of the numbers that occur while coordinate `i` of the image of the box `[lo, hi]` is computed. -/
noncomputable def boxScale (A : Matrix (Fin (n + 1)) (Fin (n + 1)) ℝ) (lo hi : Fin n → ℝ) (i : Fin n) : ℝ :=
  ∑ j : Fin n, |A i.castSucc j.castSucc| * (|lo j| + (hi j - lo j)) + |A i.castSucc (Fin.last n)|
/-- No row of the linear part of `A` has entries of opposite signs. -/
def OneSigned (A : Matrix (Fin (n + 1)) (Fin (n + 1)) ℝ) : Prop :=
  ∀ i : Fin n, (∀ j : Fin n, 0 ≤ A i.castSucc j.castSucc) ∨ (∀ j : Fin n, A i.castSucc j.castSucc ≤ 0)
/-- `x` is a point of the box `[lo, hi]`. -/
def InBox (lo hi x : Fin n → ℝ) : Prop := ∀ j, lo j ≤ x j ∧ x j ≤ hi j

variable (S : Type) [Scalar S] [IEEE S] [Binary S]
/-- Allowance for coordinate `i` of a transformed box, 2D: four roundings, and underflow. -/
noncomputable def boxSlack2 (A : Matrix (Fin 3) (Fin 3) ℝ) (lo hi : Fin 2 → ℝ) (i : Fin 2) : ℝ :=
  ((1 + uro S) ^ 4 - 1) * boxScale A lo hi i + 4 * (1 + uro S) ^ 3 * tiny S
/-- Allowance for coordinate `i` of a transformed box, 3D: five roundings, and underflow. -/
noncomputable def boxSlack3 (A : Matrix (Fin 4) (Fin 4) ℝ) (lo hi : Fin 3 → ℝ) (i : Fin 3) : ℝ :=
  ((1 + uro S) ^ 5 - 1) * boxScale A lo hi i + 6 * (1 + uro S) ^ 4 * tiny S

end VecMath
