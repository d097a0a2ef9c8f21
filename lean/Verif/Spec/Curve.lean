import Verif.Spec.Basic
import Verif.Spec.Near
/-!
# Vocabulary for C118: interpolation and Bézier curves

Interpolating between points with `p + (q - p) * t`, and curves by repeated interpolation (de Casteljau's algorithm).
The specification is the Bernstein form of a Bézier curve over the reals.
-/

namespace VecMath
open Scalar IEEE Finset

section
variable {S : Type} [Scalar S]
/-- On the way from `p` to `q`: `p + (q - p) * t`. -/
def Point2.mix (t : S) (p q : Point2 S) : Point2 S := p + (q - p) * t
/-- On the way from `p` to `q`: `p + (q - p) * t`. -/
def Point3.mix (t : S) (p q : Point3 S) : Point3 S := p + (q - p) * t
/-- De Casteljau's scheme: row `0` holds the control points, and each row interpolates between the neighbours in the row before. -/
def casteljau {P : Type} (mix : P → P → P) (c : ℕ → P) : ℕ → ℕ → P
  | 0, i => c i
  | k + 1, i => mix (casteljau mix c k i) (casteljau mix c k (i + 1))
/-- The point at `t` of the Bézier curve of degree `n` with the control points `c 0`, …, `c n`. -/
def Point2.curve (c : ℕ → Point2 S) (n : ℕ) (t : S) : Point2 S := casteljau (Point2.mix t) c n 0
/-- The point at `t` of the Bézier curve of degree `n` with the control points `c 0`, …, `c n`. -/
def Point3.curve (c : ℕ → Point3 S) (n : ℕ) (t : S) : Point3 S := casteljau (Point3.mix t) c n 0
/-- The control points of the part of the curve up to `t`: the left edge of the scheme. -/
def Point2.upTo (c : ℕ → Point2 S) (t : S) (k : ℕ) : Point2 S := casteljau (Point2.mix t) c k 0
/-- The control points of the part of the curve up to `t`: the left edge of the scheme. -/
def Point3.upTo (c : ℕ → Point3 S) (t : S) (k : ℕ) : Point3 S := casteljau (Point3.mix t) c k 0
/-- The control points of the part of the curve (of degree `n`) after `t`: the right edge of the scheme. -/
def Point2.after (c : ℕ → Point2 S) (n : ℕ) (t : S) (k : ℕ) : Point2 S := casteljau (Point2.mix t) c (n - k) k
/-- The control points of the part of the curve (of degree `n`) after `t`: the right edge of the scheme. -/
def Point3.after (c : ℕ → Point3 S) (n : ℕ) (t : S) (k : ℕ) : Point3 S := casteljau (Point3.mix t) c (n - k) k
end

/-- One coordinate of a Bézier curve, in Bernstein form. -/
noncomputable def bezier (c : ℕ → ℝ) (n : ℕ) (x : ℝ) : ℝ := ∑ j ∈ range (n + 1), (n.choose j : ℝ) * ((1 - x) ^ (n - j) * x ^ j) * c j

section
variable (S : Type) [Scalar S] [IEEE S] [Binary S]
/-- The relative error of one interpolation. -/
noncomputable def mixErr : ℝ := 5 * uro S + 6 * uro S ^ 2 + 2 * uro S ^ 3
/-- The error of a curve of degree `n` with control points of size up to `M`. -/
noncomputable def curveErr (n : ℕ) (M : ℝ) : ℝ := (1 + mixErr S) ^ n * (M + n * ((1 + uro S) * tiny S)) - M
end

end VecMath
