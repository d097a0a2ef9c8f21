import Verif.Model
import Verif.IEEE.Val
/-!
# What it means for a scalar type to be an IEEE-754 format

`IEEE S` says that every operation of the trait `Scalar` on `S` denotes, through `den`, the IEEE
operation of `Verif.IEEE.Val` for one rounding. `sin` and `cos` are unconstrained. This is the
assumption made about Rust's `f32` and `f64` by every theorem of layer F; it is proved (not assumed) for
the binary formats with round-to-nearest-even (`Fl F`) in `Verif.IEEE.Fl` and for `Ideal` in `Verif.IEEE.Ideal`.
-/

namespace VecMath
open Scalar

/-- See the module header. -/
class IEEE (S : Type) [Scalar S] where
  A : Rounding
  den : S → Val
  /-- every finite datum is a number of the format -/
  rep : ∀ {s : S} {x : ℝ}, den s = .fin x → A.Rep x
  den_zero : den (zero : S) = .fin 0
  den_one : den (one : S) = .fin 1
  den_half : den (half : S) = .fin (1 / 2)
  den_two : den (two : S) = .fin 2
  den_infinity : den (infinity : S) = .inf false
  den_negInfinity : den (negInfinity : S) = .inf true
  den_add : ∀ a b : S, den (a + b) = A.add (den a) (den b)
  den_sub : ∀ a b : S, den (a - b) = A.sub (den a) (den b)
  den_mul : ∀ a b : S, den (a * b) = A.mul (den a) (den b)
  den_div : ∀ a b : S, den (a / b) = A.div (den a) (den b)
  den_neg : ∀ a : S, den (-a) = (den a).neg
  den_abs : ∀ a : S, den (Scalar.abs a) = (den a).abs
  den_sqrt : ∀ a : S, den (Scalar.sqrt a) = A.sqrt (den a)
  den_floor : ∀ a : S, den (Scalar.floor a) = (den a).toInt Int.floor
  den_ceil : ∀ a : S, den (Scalar.ceil a) = (den a).toInt Int.ceil
  den_round : ∀ a : S, den (Scalar.round a) = (den a).toInt Val.roundR
  den_trunc : ∀ a : S, den (Scalar.trunc a) = (den a).toInt Val.truncR
  den_fmin : ∀ a b : S, Val.IsMin (den (fmin a b)) (den a) (den b)
  den_fmax : ∀ a b : S, Val.IsMax (den (fmax a b)) (den a) (den b)
  den_lt : ∀ a b : S, (a <? b) = true ↔ Val.Lt (den a) (den b)
  den_le : ∀ a b : S, (a ≤? b) = true ↔ Val.Le (den a) (den b)
  den_beq : ∀ a b : S, (a == b) = true ↔ Val.Eq (den a) (den b)

namespace IEEE
variable {S : Type} [Scalar S] [IEEE S]

/-- The scalar is a NaN. -/
def IsNaN (s : S) : Prop := den s = .nan
/-- The scalar is neither NaN nor infinite. -/
def IsFinite (s : S) : Prop := (den s).IsFin
/-- The extended real that a non-NaN scalar stands for. -/
noncomputable def val (s : S) : EReal := (den s).ereal
/-- The real that a finite scalar stands for. -/
noncomputable def real (s : S) : ℝ := (den s).real
/-- Same floating-point datum: equal numbers with the same sign (so `+0` and `-0` differ), or both NaN.
Stronger than Rust's `==` on non-NaN values. -/
def Same (a b : S) : Prop := den a = den b

end IEEE

end VecMath
