import Verif.Spec.Basic
import Verif.Spec.Round
/-!
# Vocabulary for the image of a point on a ray

`A` is a row of the linear part of the matrix of an affine transform and `a` its offset; `o` and `d` are the coordinates
of the origin and direction of a ray, and `s` is the parameter.
-/

namespace VecMath
open Scalar IEEE

/-- The exact coordinate of the image of the exact point of the ray. -/
noncomputable def imageAt {n : ℕ} (A : Fin n → ℝ) (a : ℝ) (o d : Fin n → ℝ) (s : ℝ) : ℝ :=
  ∑ j, A j * (o j + d j * s) + a
/-- The sum of the absolute values of the terms in that coordinate. -/
noncomputable def imageSize {n : ℕ} (A : Fin n → ℝ) (a : ℝ) (o d : Fin n → ℝ) (s : ℝ) : ℝ :=
  ∑ j, |A j| * (|o j| + |d j * s|) + |a|
/-- What underflow can add when the point is computed first. -/
noncomputable def flushPoint (S : Type) [Scalar S] [IEEE S] [Binary S] {n : ℕ} (A : Fin n → ℝ) : ℝ :=
  (1 + uro S) ^ (n + 2) * tiny S * ∑ j, |A j| + (1 + uro S) ^ n * (n * tiny S)
/-- What underflow can add when the ray is transformed first. -/
noncomputable def flushRay (S : Type) [Scalar S] [IEEE S] [Binary S] (n : ℕ) (s : ℝ) : ℝ :=
  (1 + uro S) ^ (n + 1) * (n * tiny S) * (1 + |s|) + (1 + uro S) * tiny S
end VecMath
