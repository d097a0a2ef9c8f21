import Verif.Spec.Round
import Verif.Spec.Basic
import Mathlib.LinearAlgebra.Matrix.Notation
import Mathlib.Analysis.SpecialFunctions.Trigonometric.Basic
/-!
# Specification: rotations in rounded arithmetic (C72)

The platform's `sin` and `cos` are not specified by IEEE 754; theorems about rotations assume they are within an
absolute `δ` of the mathematical functions at the angle in question.
-/

namespace VecMath
open Scalar IEEE

variable {S : Type} [Scalar S] [IEEE S]

/-- At the angle `a` the platform's `sin` and `cos` yield numbers within `δ` of the mathematical values. -/
structure TrigWithin (δ : ℝ) (a : S) : Prop where
  finite_sin : IsFinite (Scalar.sin a)
  finite_cos : IsFinite (Scalar.cos a)
  sin : |real (Scalar.sin a) - Real.sin (real a)| ≤ δ
  cos : |real (Scalar.cos a) - Real.cos (real a)| ≤ δ

/-- The format has at least 5 bits of precision and reaches at least to 64. True of `f32` and `f64`. -/
structure Ample (S : Type) [Scalar S] [IEEE S] [Binary S] : Prop where
  uro : uro S ≤ 1 / 32
  overflow : 64 ≤ overflowAt S

/-- The size of a matrix: the square root of the sum of the squares of its entries. -/
noncomputable def size {n : ℕ} (A : Matrix (Fin n) (Fin n) ℝ) : ℝ := √(∑ i, ∑ j, A i j ^ 2)

/-- The Euclidean length. -/
noncomputable def norm2 {n : ℕ} (v : Fin n → ℝ) : ℝ := √(∑ i, v i ^ 2)

/-- A distance-preserving linear map. -/
def Orthogonal {n : ℕ} (Q : Matrix (Fin n) (Fin n) ℝ) : Prop := Q.transpose * Q = 1 ∧ Q * Q.transpose = 1

/-- The plane rotation by `θ`, in homogeneous coordinates. -/
noncomputable def turn (θ : ℝ) : Matrix (Fin 3) (Fin 3) ℝ :=
  !![Real.cos θ, -Real.sin θ, 0; Real.sin θ, Real.cos θ, 0; 0, 0, 1]

/-- The rotation by `θ` about the unit vector `k` in space, by the right-hand rule (Rodrigues' formula
`cos θ 1 + sin θ [k]ₓ + (1 - cos θ) k kᵀ`), in homogeneous coordinates. -/
noncomputable def turnAbout (k : Fin 3 → ℝ) (θ : ℝ) : Matrix (Fin 4) (Fin 4) ℝ :=
  !![Real.cos θ + (1 - Real.cos θ) * (k 0 * k 0), -(Real.sin θ * k 2) + (1 - Real.cos θ) * (k 0 * k 1),
      Real.sin θ * k 1 + (1 - Real.cos θ) * (k 0 * k 2), 0;
    Real.sin θ * k 2 + (1 - Real.cos θ) * (k 1 * k 0), Real.cos θ + (1 - Real.cos θ) * (k 1 * k 1),
      -(Real.sin θ * k 0) + (1 - Real.cos θ) * (k 1 * k 2), 0;
    -(Real.sin θ * k 1) + (1 - Real.cos θ) * (k 2 * k 0), Real.sin θ * k 0 + (1 - Real.cos θ) * (k 2 * k 1),
      Real.cos θ + (1 - Real.cos θ) * (k 2 * k 2), 0;
    0, 0, 0, 1]

/-- The finite matrix `m` differs from `Q` by at most `ε` in size. -/
def Matrix3x3.Near (m : Matrix3x3 S) (Q : Matrix (Fin 3) (Fin 3) ℝ) (ε : ℝ) : Prop :=
  AllFinite m ∧ size (m.toReal - Q) ≤ ε
/-- The finite matrix `m` differs from `Q` by at most `ε` in size. -/
def Matrix4x4.Near (m : Matrix4x4 S) (Q : Matrix (Fin 4) (Fin 4) ℝ) (ε : ℝ) : Prop :=
  AllFinite m ∧ size (m.toReal - Q) ≤ ε

end VecMath
