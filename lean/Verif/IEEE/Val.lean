import Mathlib.Data.EReal.Basic
import Mathlib.Analysis.SpecialFunctions.Sqrt
import Mathlib.Algebra.Order.Floor.Ring
import Mathlib.Algebra.Order.Round
/-!
# Floating-point values and IEEE-754 operations, as a specification

`Val` is the set of floating-point data of IEEE-754 (§3.3): NaN (payloads not distinguished), signed
infinities, signed zeros, and non-zero reals. `Rounding` is a rounding-direction/format pair, and
`Rounding.add`, `.mul`, `.div`, `.sqrt` are the IEEE operations: the exact real result, rounded once
(§4.3, §5.4.1, §6.1-6.3). This file is a specification: nothing in it comes from the crate.
-/

open Classical

namespace VecMath

/-- A floating-point datum. `fin 0` is `+0`, `nzero` is `-0`. -/
inductive Val
  | nan
  | inf (neg : Bool)
  | nzero
  | fin (x : ℝ)

namespace Val

/-- Neither NaN nor infinite. -/
def IsFin : Val → Prop
  | nan => False
  | inf _ => False
  | nzero => True
  | fin _ => True

/-- Sign bit (of a non-NaN datum). -/
noncomputable def neg? : Val → Bool
  | nan => false
  | inf s => s
  | nzero => true
  | fin x => decide (x < 0)

/-- The real number a finite datum stands for. -/
def real : Val → ℝ
  | nan => 0
  | inf _ => 0
  | nzero => 0
  | fin x => x

/-- The extended real a non-NaN datum stands for. -/
noncomputable def ereal : Val → EReal
  | nan => 0
  | inf true => ⊥
  | inf false => ⊤
  | nzero => 0
  | fin x => (x : EReal)

/-- Zero with the given sign (`true` is negative). -/
def mkZero (s : Bool) : Val := if s then nzero else fin 0

/-- The datum of a real, `s` giving the sign of a zero. -/
noncomputable def mk (s : Bool) (x : ℝ) : Val := if x = 0 then mkZero s else fin x

/-- Negation flips the sign (§5.5.1). -/
noncomputable def neg : Val → Val
  | nan => nan
  | inf s => inf (!s)
  | nzero => fin 0
  | fin x => if x = 0 then nzero else fin (-x)

/-- `abs` clears the sign (§5.5.1). -/
noncomputable def abs : Val → Val
  | nan => nan
  | inf _ => inf false
  | nzero => fin 0
  | fin x => fin |x|

/-- `a < b` (§5.11): false when an operand is NaN; zeros of either sign are equal. -/
def Lt (a b : Val) : Prop := a ≠ nan ∧ b ≠ nan ∧ a.ereal < b.ereal
/-- `a ≤ b` (§5.11). -/
def Le (a b : Val) : Prop := a ≠ nan ∧ b ≠ nan ∧ a.ereal ≤ b.ereal
/-- `a == b` (§5.11). -/
def Eq (a b : Val) : Prop := a ≠ nan ∧ b ≠ nan ∧ a.ereal = b.ereal

/-- `r` is an admissible `min(a, b)` (IEEE-754-2008 minNum, Rust `f32::min`): a NaN operand is
ignored, otherwise a smaller operand; which zero `min(+0, -0)` returns is left open. -/
def IsMin (r a b : Val) : Prop :=
  (a = nan → r = b) ∧ (b = nan → r = a) ∧
    (a ≠ nan → b ≠ nan → (r = a ∧ a.ereal ≤ b.ereal) ∨ (r = b ∧ b.ereal ≤ a.ereal))
/-- `r` is an admissible `max(a, b)`. -/
def IsMax (r a b : Val) : Prop :=
  (a = nan → r = b) ∧ (b = nan → r = a) ∧
    (a ≠ nan → b ≠ nan → (r = a ∧ b.ereal ≤ a.ereal) ∨ (r = b ∧ a.ereal ≤ b.ereal))

/-- Rounding a real to an integer toward zero. -/
noncomputable def truncR (x : ℝ) : ℤ := if 0 ≤ x then ⌊x⌋ else ⌈x⌉
/-- Rounding a real to the nearest integer, ties away from zero. -/
noncomputable def roundR (x : ℝ) : ℤ := if 0 ≤ x then ⌊x + 1 / 2⌋ else ⌈x - 1 / 2⌉

/-- Apply an integer rounding to a datum (§5.3.1, §5.9): NaN, infinities and zeros are unchanged, a
zero result keeps the operand's sign. -/
noncomputable def toInt (f : ℝ → ℤ) : Val → Val
  | nan => nan
  | inf s => inf s
  | nzero => nzero
  | fin x => mk (decide (x < 0)) (f x)

end Val

/-- A floating-point format with its rounding: `rnd` rounds a real, ignoring overflow; `fits y` says
that the rounded value `y` is in range (otherwise the operation overflows to infinity). The laws hold
of round-to-nearest-even in binary32 and binary64 (proved in `Verif.IEEE.Binary`) and of exact real
arithmetic. -/
structure Rounding where
  rnd : ℝ → ℝ
  fits : ℝ → Prop
  rnd_mono : ∀ {x y}, x ≤ y → rnd x ≤ rnd y
  rnd_neg : ∀ x, rnd (-x) = -rnd x
  rnd_idem : ∀ x, rnd (rnd x) = rnd x
  fits_mono : ∀ {x y}, |x| ≤ |y| → fits y → fits x
  rnd_one : rnd 1 = 1
  rnd_two : rnd 2 = 2
  rnd_half : rnd (1 / 2) = 1 / 2
  fits_two : fits 2
  /-- gradual underflow: the difference of two distinct numbers does not round to zero -/
  rnd_sub : ∀ {x y}, rnd x = x → rnd y = y → x ≠ y → rnd (x - y) ≠ 0
  /-- the two integers next to a representable number are representable -/
  rnd_floor : ∀ {x}, rnd x = x → rnd (⌊x⌋ : ℝ) = ⌊x⌋
  fits_floor : ∀ {x}, rnd x = x → fits x → fits (⌊x⌋ : ℝ)
  /-- the fractional part of a non-negative representable number is representable -/
  rnd_fract : ∀ {x}, 0 ≤ x → rnd x = x → rnd (x - ⌊x⌋) = x - ⌊x⌋
  /-- half of a (rounded) gap does not round up past the gap -/
  rnd_half_gap : ∀ {x y}, rnd x = x → rnd y = y → x ≤ y →
    rnd (rnd (y - x) * (1 / 2)) ≤ y - x

namespace Rounding
variable (A : Rounding)

/-- `x` is a finite number of the format. -/
def Rep (x : ℝ) : Prop := A.rnd x = x ∧ A.fits x

/-- Deliver the exact result `x` in the format: round, overflow to infinity, keep the sign on
underflow; an exactly zero result gets sign `s`. -/
noncomputable def finish (s : Bool) (x : ℝ) : Val :=
  if x = 0 then .mkZero s
  else if A.rnd x = 0 then .mkZero (decide (x < 0))
  else if A.fits (A.rnd x) then .fin (A.rnd x)
  else .inf (decide (x < 0))

/-- Addition. -/
noncomputable def add : Val → Val → Val
  | .nan, _ => .nan
  | _, .nan => .nan
  | .inf s, .inf t => if s = t then .inf s else .nan
  | .inf s, _ => .inf s
  | _, .inf t => .inf t
  | a, b => A.finish (a.neg? && b.neg?) (a.real + b.real)

/-- Subtraction. -/
noncomputable def sub (a b : Val) : Val := A.add a b.neg

/-- Multiplication. -/
noncomputable def mul : Val → Val → Val
  | .nan, _ => .nan
  | _, .nan => .nan
  | .inf s, .inf t => .inf (s ^^ t)
  | .inf s, b => if b.real = 0 then .nan else .inf (s ^^ b.neg?)
  | a, .inf t => if a.real = 0 then .nan else .inf (a.neg? ^^ t)
  | a, b => A.finish (a.neg? ^^ b.neg?) (a.real * b.real)

/-- Division. -/
noncomputable def div : Val → Val → Val
  | .nan, _ => .nan
  | _, .nan => .nan
  | .inf _, .inf _ => .nan
  | .inf s, b => .inf (s ^^ b.neg?)
  | a, .inf t => .mkZero (a.neg? ^^ t)
  | a, b =>
    if b.real = 0 then
      if a.real = 0 then .nan else .inf (a.neg? ^^ b.neg?)
    else A.finish (a.neg? ^^ b.neg?) (a.real / b.real)

/-- Square root. -/
noncomputable def sqrt : Val → Val
  | .nan => .nan
  | .inf s => if s then .nan else .inf false
  | .nzero => .nzero
  | .fin x => if x < 0 then .nan else A.finish false (√x)

end Rounding

end VecMath
