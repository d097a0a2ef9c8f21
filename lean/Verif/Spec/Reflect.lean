import Verif.Spec.Det
/-!
# Vocabulary for C109: rejection and reflection

What a client writes with the API: `v - n * v.dot(n)` and `v - n * (v.dot(n) + v.dot(n))`.
-/

namespace VecMath
open Scalar IEEE
variable {S : Type} [Scalar S]

/-- The part of `v` perpendicular to `n`: `v - n * v.dot(n)`. -/
def Vector2.reject (v n : Vector2 S) : Vector2 S := v - n * (Api.dot v n : S)
/-- The mirror image of `v`, the mirror being perpendicular to `n`: `v - n * (v.dot(n) + v.dot(n))`. -/
def Vector2.reflect (v n : Vector2 S) : Vector2 S := v - n * (Api.dot v n + Api.dot v n : S)
/-- The part of `v` perpendicular to `n`: `v - n * v.dot(n)`. -/
def Vector3.reject (v n : Vector3 S) : Vector3 S := v - n * (Api.dot v n : S)
/-- The mirror image of `v`, the mirror being perpendicular to `n`: `v - n * (v.dot(n) + v.dot(n))`. -/
def Vector3.reflect (v n : Vector3 S) : Vector3 S := v - n * (Api.dot v n + Api.dot v n : S)

/-- The exact value of component `i` of `v - n * (c v.n)`. -/
noncomputable def mirrored {k : ℕ} (c : ℝ) (v n : Fin k → ℝ) (i : Fin k) : ℝ := v i - c * (∑ j, v j * n j) * n i
/-- The sum of the magnitudes of its terms. -/
noncomputable def mirroredAbs {k : ℕ} (c : ℝ) (v n : Fin k → ℝ) (i : Fin k) : ℝ := |v i| + c * (∑ j, |v j| * |n j|) * |n i|

variable (S) [IEEE S] [Binary S] in
/-- Error bound for one component of a computed reflection in `k` dimensions: `k + 3` roundings of each term, and the
underflows of the `k + 1` multiplications. -/
noncomputable def reflectErr {k : ℕ} (v n : Fin k → ℝ) (i : Fin k) : ℝ :=
  gam S (k + 3) * mirroredAbs 2 v n i + (2 * k * (1 + uro S) ^ (k + 2) * |n i| + (1 + uro S)) * tiny S
variable (S) [IEEE S] [Binary S] in
/-- The same for a computed rejection. -/
noncomputable def rejectErr {k : ℕ} (v n : Fin k → ℝ) (i : Fin k) : ℝ :=
  gam S (k + 2) * mirroredAbs 1 v n i + (k * (1 + uro S) ^ (k + 1) * |n i| + (1 + uro S)) * tiny S
end VecMath
