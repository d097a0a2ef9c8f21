import Verif.Spec.Round
/-!
# Specification: numbers on a fixed-point grid

Vocabulary for C68. Game and pixel coordinates are often integers or multiples of a fixed power of two; such
numbers have an exponent `e` (0 for integers) and a bound `N` on how many grid steps they are from zero.
-/

namespace VecMath
open Scalar IEEE

/-- `x` is `n · 2^e` for an integer `n` of magnitude at most `N`. With `e = 0`: an integer of magnitude at
most `N`. -/
def OnGrid (e : ℤ) (N : ℕ) (x : ℝ) : Prop := ∃ n : ℤ, |n| ≤ N ∧ x = n * 2 ^ e

/-- The format has room for every `n · 2^e` with `|n| ≤ N`. For `f32` and `e = 0`: `N ≤ 2^24`. -/
def Fits (S : Type) [Scalar S] [IEEE S] [Binary S] (e : ℤ) (N : ℕ) : Prop :=
  (Binary.F S).emin ≤ e ∧ N ≤ 2 ^ (Binary.F S).p ∧ e + (Binary.F S).p < (Binary.F S).emax

/-- `c` is the number `x`, without any error. -/
def Exactly {S : Type} [Scalar S] [IEEE S] (c : S) (x : ℝ) : Prop := IsFinite c ∧ real c = x

end VecMath
