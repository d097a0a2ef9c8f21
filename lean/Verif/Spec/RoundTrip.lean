import Verif.Spec.Basic
import Verif.Spec.Round
/-!
# Vocabulary for transforming there and back

`A` is the matrix applied first, `B` the one applied second, `x` the coordinates.
-/

namespace VecMath
open Scalar IEEE

section
variable {S : Type} [Scalar S] [IEEE S]

/-- The homogeneous coordinates of a point: the last one is `1`. -/
noncomputable def Point2.homog (p : Point2 S) : Fin 3 → ℝ := ![real p.x, real p.y, 1]
/-- The homogeneous coordinates of a point: the last one is `1`. -/
noncomputable def Point3.homog (p : Point3 S) : Fin 4 → ℝ := ![real p.x, real p.y, real p.z, 1]
/-- The linear part of the matrix of a transform. -/
noncomputable def Matrix3x3.linPart (m : Matrix3x3 S) : Matrix (Fin 2) (Fin 2) ℝ :=
  Matrix.of fun i j => m.toReal i.castSucc j.castSucc
/-- The linear part of the matrix of a transform. -/
noncomputable def Matrix4x4.linPart (m : Matrix4x4 S) : Matrix (Fin 3) (Fin 3) ℝ :=
  Matrix.of fun i j => m.toReal i.castSucc j.castSucc
end

/-- What is lost because `B` is not the exact inverse of `A`: the entries of `B A - 1` times the coordinates. -/
noncomputable def lost {n : ℕ} (B A : Matrix (Fin n) (Fin n) ℝ) (x : Fin n → ℝ) (i : Fin n) : ℝ :=
  ∑ k, |(B * A - 1) i k| * |x k|
/-- The sum of the absolute values of all the terms added up in coordinate `i` of `B (A x)`. -/
noncomputable def spread {n : ℕ} (B A : Matrix (Fin n) (Fin n) ℝ) (x : Fin n → ℝ) (i : Fin n) : ℝ :=
  ∑ j, |B i j| * ∑ k, |A j k * x k|
/-- The largest error of coordinate `i` after two matrix-vector products with `m` roundings each and at most `s` lost to
underflow in each coordinate of each. -/
noncomputable def tripErr (S : Type) [Scalar S] [IEEE S] [Binary S] {n : ℕ} (B A : Matrix (Fin n) (Fin n) ℝ) (x : Fin n → ℝ)
    (m : ℕ) (s : ℝ) (i : Fin n) : ℝ :=
  lost B A x i + ((1 + uro S) ^ (2 * m) - 1) * spread B A x i + s * (1 + (1 + uro S) ^ m * ∑ j, |B i j|)
end VecMath
