import Verif.Model.Transform2
import Verif.Model.Transform3
/-!
# Specification for C101: rows and columns by axis, and affine matrices
-/

namespace VecMath
open Scalar

/-- The row or column number of an axis in a matrix. -/
def Dimension2.number : Dimension2 → UInt32
  | .X => 0
  | .Y => 1
def Dimension3.number : Dimension3 → UInt32
  | .X => 0
  | .Y => 1
  | .Z => 2

variable {S : Type} [Scalar S]
/-- Reading the last row of the matrix gives `0 0 1`: the matrix of an affine map. -/
def Matrix3x3.HasAffineRow (m : Matrix3x3 S) (b : Build) : Prop :=
  ∃ a0 a1 a2, m.get b 2 0 = .ok a0 ∧ m.get b 2 1 = .ok a1 ∧ m.get b 2 2 = .ok a2 ∧
    (a0 == zero) = true ∧ (a1 == zero) = true ∧ (a2 == one) = true
/-- Reading the last row of the matrix gives `0 0 0 1`: the matrix of an affine map. -/
def Matrix4x4.HasAffineRow (m : Matrix4x4 S) (b : Build) : Prop :=
  ∃ a0 a1 a2 a3, m.get b 3 0 = .ok a0 ∧ m.get b 3 1 = .ok a1 ∧ m.get b 3 2 = .ok a2 ∧ m.get b 3 3 = .ok a3 ∧
    (a0 == zero) = true ∧ (a1 == zero) = true ∧ (a2 == zero) = true ∧ (a3 == one) = true

end VecMath
