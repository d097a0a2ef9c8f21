import Verif.Spec.Basic
import Verif.Spec.Det
import Verif.Spec.RoundTrip
/-!
# Vocabulary for C108: inverting affine matrices

An affine matrix has the last row `0 … 0 1`; its linear part is what is left without the last row and column.
-/

namespace VecMath
open Scalar IEEE
variable {S : Type} [Scalar S]

/-- `ad - bc` of the linear part. -/
def Matrix3x3.linDet (m : Matrix3x3 S) : S := m.m[0] * m.m[4] - m.m[1] * m.m[3]
/-- The determinant of the linear part, expanded along the first row. -/
def Matrix4x4.linDet (m : Matrix4x4 S) : S :=
  m.m[0] * (m.m[5] * m.m[10] - m.m[6] * m.m[9]) + m.m[1] * -(m.m[4] * m.m[10] - m.m[6] * m.m[8])
    + m.m[2] * (m.m[4] * m.m[9] - m.m[5] * m.m[8])
/-- The determinant of the linear part, by the rule of Sarrus. -/
def Matrix4x4.linSarrus (m : Matrix4x4 S) : S :=
  m.m[0] * m.m[5] * m.m[10] + m.m[1] * m.m[6] * m.m[8] + m.m[2] * m.m[4] * m.m[9]
    - m.m[0] * m.m[6] * m.m[9] - m.m[1] * m.m[4] * m.m[10] - m.m[2] * m.m[5] * m.m[8]
/-- The product of any two entries that are not both in the last column is finite. -/
def Matrix3x3.Moderate [IEEE S] (m : Matrix3x3 S) : Prop := ∀ (i j : ℕ) (hi : i < 9) (hj : j < 9), i % 3 ≠ 2 ∨ j % 3 ≠ 2 → IsFinite (m.m[i] * m.m[j])
/-- The product of any two entries that are not both in the last column is finite. -/
def Matrix4x4.Moderate [IEEE S] (m : Matrix4x4 S) : Prop := ∀ (i j : ℕ) (hi : i < 16) (hj : j < 16), i % 4 ≠ 3 ∨ j % 4 ≠ 3 → IsFinite (m.m[i] * m.m[j])
/-- The same linear part (Rust `==`). -/
def Matrix3x3.SameLinear [BEq S] (a b : Matrix3x3 S) : Prop := ∀ (i j : ℕ) (hi : i < 2) (hj : j < 2), (a.m[3 * i + j] == b.m[3 * i + j]) = true
/-- The same linear part (Rust `==`). -/
def Matrix4x4.SameLinear [BEq S] (a b : Matrix4x4 S) : Prop := ∀ (i j : ℕ) (hi : i < 3) (hj : j < 3), (a.m[4 * i + j] == b.m[4 * i + j]) = true

section
variable (S : Type) [Scalar S] [IEEE S] [Binary S]
/-- How far apart the two computed determinants of the linear part (a 3x3 matrix with entries up to `M`) can be: five and
seven roundings of each term, and the underflows. -/
noncomputable def twoDets (l : Matrix (Fin 3) (Fin 3) ℝ) (M : ℝ) : ℝ :=
  (gam S 7 + gam S 5) * absDet l + (6 * (1 + uro S) ^ 6 * (1 + M) + 3 * (1 + uro S) ^ 2 * (1 + 2 * (1 + uro S) ^ 2 * M)) * tiny S
end

end VecMath
