import Verif.Spec.Round
import Mathlib.LinearAlgebra.Matrix.Permanent
import Mathlib.LinearAlgebra.Matrix.Adjugate
/-!
# Vocabulary for the accuracy of `inverse()`

The rounding error of a determinant is measured against the sum of the absolute values of its terms, i.e. the
permanent of the matrix of absolute values.
-/

namespace VecMath

/-- Sum over all permutations of the absolute values of the terms of the determinant. -/
noncomputable def absDet {n : ℕ} (m : Matrix (Fin n) (Fin n) ℝ) : ℝ := (m.map fun x => |x|).permanent
/-- The same for entry `(i, j)` of the adjugate: delete row `j` and column `i`. -/
noncomputable def absAdj {n : ℕ} (m : Matrix (Fin (n + 1)) (Fin (n + 1)) ℝ) (i j : Fin (n + 1)) : ℝ :=
  absDet (m.submatrix j.succAbove i.succAbove)

variable (S : Type) [Scalar S] [IEEE S] [Binary S]

/-- Relative error after `k` roundings. -/
noncomputable def gam (k : ℕ) : ℝ := (1 + uro S) ^ k - 1

/-- Error bound for the 3x3 determinant: seven roundings of each term, and the underflows of the twelve
multiplications, entries being at most `M`. -/
noncomputable def detErr3 (m : Matrix (Fin 3) (Fin 3) ℝ) (M : ℝ) : ℝ :=
  gam S 7 * absDet m + 6 * (1 + uro S) ^ 6 * (1 + M) * tiny S
/-- Error bound for the 4x4 determinant: eleven roundings of each term, and the underflows. -/
noncomputable def detErr4 (m : Matrix (Fin 4) (Fin 4) ℝ) (M : ℝ) : ℝ :=
  gam S 11 * absDet m + 24 * (1 + uro S) ^ 10 * (1 + M + M ^ 2) * tiny S
/-- Error bound for entry `(i, j)` of a computed 3x3 inverse `r`, times the determinant: three roundings of the
adjugate entry, the error of the determinant, and underflows. -/
noncomputable def invErr3 (m r : Matrix (Fin 3) (Fin 3) ℝ) (M : ℝ) (i j : Fin 3) : ℝ :=
  gam S 3 * absAdj m i j + 2 * (1 + uro S) ^ 2 * tiny S + (|r i j| + tiny S) * detErr3 S m M + tiny S * |m.det|
/-- The same for 4x4: eight roundings of the adjugate entry. -/
noncomputable def invErr4 (m r : Matrix (Fin 4) (Fin 4) ℝ) (M : ℝ) (i j : Fin 4) : ℝ :=
  gam S 8 * absAdj m i j + 6 * (1 + uro S) ^ 7 * (1 + M) * tiny S + (|r i j| + tiny S) * detErr4 S m M
    + tiny S * |m.det|

end VecMath
