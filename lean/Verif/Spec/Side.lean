import Verif.Spec.Det
import Verif.Spec.Near
/-!
# Vocabulary for C107: on which side of a plane

A plane is a point `o` and a normal `n`; the side of `p` is the sign of `dot(n, p - o)`. Exact quantities are real
numbers computed from the coordinates.
-/

namespace VecMath
open Scalar IEEE

/-- The computed number never has the wrong sign: if it is positive so is the exact value, if it is negative so is the
exact value. (A computed zero says nothing.) -/
def SignSafe {S : Type} [Scalar S] [IEEE S] (c : S) (x : ℝ) : Prop :=
  ((c >? zero) = true → 0 < x) ∧ ((c <? zero) = true → x < 0)

/-- The exact value of `dot(n, p - o)`. -/
noncomputable def planeSide {k : ℕ} (n o p : Fin k → ℝ) : ℝ := ∑ i, n i * (p i - o i)
/-- The sum of the magnitudes of its terms. -/
noncomputable def planeAbs {k : ℕ} (n o p : Fin k → ℝ) : ℝ := ∑ i, |n i| * |p i - o i|
/-- The vectors `b - a`, `c - a`, `d - a` as the rows of a matrix: its determinant is six times the signed volume of the
tetrahedron `a b c d`. -/
def edges (a b c d : Fin 3 → ℝ) : Matrix (Fin 3) (Fin 3) ℝ := ![b - a, c - a, d - a]

variable (S : Type) [Scalar S] [IEEE S] [Binary S]
/-- Error bound of `dot(n, p - o)` in `k` dimensions: `k + 1` roundings of each term, and `k` underflows. -/
noncomputable def planeErr (k : ℕ) (M : ℝ) : ℝ := gam S (k + 1) * M + k * (1 + uro S) ^ (k - 1) * tiny S
/-- Error bound of the signed volume `dot(cross(b - a, c - a), d - a)`: eight roundings of each term, and the underflows,
the coordinates of `d - a` being at most `M`. -/
noncomputable def volumeErr (m : Matrix (Fin 3) (Fin 3) ℝ) (M : ℝ) : ℝ :=
  gam S 8 * absDet m + 3 * (1 + uro S) ^ 2 * (1 + 2 * (1 + uro S) ^ 3 * M) * tiny S

end VecMath
