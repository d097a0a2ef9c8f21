import Verif.Model
import Verif.Spec.Basic
import Mathlib.Algebra.BigOperators.Fin
import Mathlib.Analysis.Real.Sqrt
/-!
# Vocabulary for polylines

What a client of the library writes to measure a path given by its vertices.
-/

namespace VecMath
open Scalar

/-- `ps.windows(2).map(|w| d(w[0], w[1]))`: a function of each vertex and the next one. -/
def legs {P T : Type} (d : P → P → T) (ps : List P) : List T := List.zipWith d ps ps.tail

section
variable {S : Type} [Scalar S]
/-- `ps.windows(2).map(|w| w[0].distance(w[1])).fold(0.0, |t, d| t + d)` -/
def Point2.pathLength (ps : List (Point2 S)) : S := (legs Api.distance ps).foldl (· + ·) zero
/-- `ps.windows(2).map(|w| w[0].distance(w[1])).fold(0.0, |t, d| t + d)` -/
def Point3.pathLength (ps : List (Point3 S)) : S := (legs Api.distance ps).foldl (· + ·) zero
end

/-- The Euclidean distance of the real points. -/
noncomputable def euclid {n : ℕ} (p q : Fin n → ℝ) : ℝ := √(∑ i, (q i - p i) ^ 2)

end VecMath
