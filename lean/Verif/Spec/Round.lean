import Verif.IEEE.Fl
/-!
# Vocabulary for rounding errors

`Binary S`: the scalar type `S` computes in the binary format `Binary.F S` with round-to-nearest-even.
-/

namespace VecMath
open Scalar IEEE

/-- `S` computes in a binary format. -/
class Binary (S : Type) [Scalar S] [IEEE S] where
  F : Fmt
  eq : IEEE.A S = F.rounding

noncomputable instance {F : Fmt} : Binary (Fl F) := ⟨F, rfl⟩

variable (S : Type) [Scalar S] [IEEE S] [Binary S]

/-- Unit roundoff: `2^-24` for `f32`, `2^-53` for `f64`. -/
noncomputable def uro : ℝ := 2 ^ (-((Binary.F S).p : ℤ))
/-- Half the smallest positive number: `2^-150` for `f32`, `2^-1075` for `f64`. -/
noncomputable def tiny : ℝ := 2 ^ ((Binary.F S).emin - 1)
/-- Smallest positive normal number: `2^-126` for `f32`, `2^-1022` for `f64`. -/
noncomputable def minNormal : ℝ := 2 ^ ((Binary.F S).emin + (Binary.F S).p - 1)
/-- Overflow threshold: `2^128 - 2^103` for `f32`, `2^1024 - 2^970` for `f64`. -/
noncomputable def overflowAt : ℝ := 2 ^ (Binary.F S).emax - 2 ^ ((Binary.F S).emax - (Binary.F S).p - 1)
/-- `y` is a number of the format: an integer of at most `p` bits times a power of two, in range. -/
def InFormat (y : ℝ) : Prop :=
  (∃ m e : ℤ, (Binary.F S).emin ≤ e ∧ |m| ≤ 2 ^ (Binary.F S).p ∧ y = m * 2 ^ e) ∧ |y| < 2 ^ (Binary.F S).emax

/-- A real that does not underflow: zero, or at least the smallest normal number. -/
def Normal (x : ℝ) : Prop := x = 0 ∨ minNormal S ≤ |x|

variable {S}

/-- `c` is the correctly rounded value of the exact result `x`: finite precisely when `x` is below the
overflow threshold, and then a number of the format to which no other number of the format is closer. -/
def Correct (c : S) (x : ℝ) : Prop :=
  (IsFinite c ↔ |x| < overflowAt S) ∧
  (IsFinite c → InFormat S (real c) ∧ ∀ y, InFormat S y → |real c - x| ≤ |y - x|)

variable (S) in
/-- `y` agrees with `x ≥ 0` up to `k` roundings: a factor between `(1-u)^k` and `(1+u)^k`. -/
def Within (k : ℕ) (y x : ℝ) : Prop := (1 - uro S) ^ k * x ≤ y ∧ y ≤ (1 + uro S) ^ k * x

end VecMath
