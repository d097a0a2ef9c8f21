import Verif.IEEE.Scalars
import Mathlib.Analysis.SpecialFunctions.Trigonometric.Basic
/-!
# Exact ("real") arithmetic as an IEEE scalar type

`Ideal` has the data of IEEE-754 (reals, signed zeros, infinities, NaN) and never rounds or overflows.
Its `sin`/`cos` are the real functions. Division by zero, `∞ - ∞` and so on behave exactly as in floating
point, so a theorem about `Ideal` says what the crate's code computes once rounding is ignored.
-/

open Classical

namespace VecMath
open Scalar

/-- The rounding that does nothing. -/
noncomputable def Rounding.exact : Rounding where
  rnd x := x
  fits _ := True
  rnd_mono h := h
  rnd_neg _ := rfl
  rnd_idem _ := rfl
  fits_mono _ _ := trivial
  rnd_one := rfl
  rnd_two := rfl
  rnd_half := rfl
  fits_two := trivial
  rnd_sub _ _ h := sub_ne_zero.2 h
  rnd_floor _ := rfl
  fits_floor _ _ := trivial
  rnd_fract _ _ := rfl
  rnd_half_gap _ _ h := by linarith

/-- Exact arithmetic. -/
structure Ideal where
  toVal : Val

namespace Ideal

/-- real `sin` on data -/
noncomputable def sin : Val → Val
  | .nan => .nan
  | .inf _ => .nan
  | .nzero => .nzero
  | .fin x => .fin (Real.sin x)
/-- real `cos` on data -/
noncomputable def cos : Val → Val
  | .nan => .nan
  | .inf _ => .nan
  | .nzero => .fin 1
  | .fin x => .fin (Real.cos x)

/-- `minNum` (the first operand on a tie). -/
noncomputable def minV (a b : Val) : Val :=
  if a = .nan then b else if b = .nan then a else if a.ereal ≤ b.ereal then a else b
/-- `maxNum` (the first operand on a tie). -/
noncomputable def maxV (a b : Val) : Val :=
  if a = .nan then b else if b = .nan then a else if b.ereal ≤ a.ereal then a else b

theorem isMin_minV (a b : Val) : Val.IsMin (minV a b) a b := by
  refine ⟨fun h => by simp [h, minV], fun h => by simp [h, minV]; exact Eq.symm, fun h h' => ?_⟩
  simp only [minV, h, h', if_false]
  by_cases hab : a.ereal ≤ b.ereal
  · simp [hab]
  · simp [hab, (not_le.1 hab).le]
theorem isMax_maxV (a b : Val) : Val.IsMax (maxV a b) a b := by
  refine ⟨fun h => by simp [h, maxV], fun h => by simp [h, maxV]; exact Eq.symm, fun h h' => ?_⟩
  simp only [maxV, h, h', if_false]
  by_cases hab : b.ereal ≤ a.ereal
  · simp [hab]
  · simp [hab, (not_le.1 hab).le]

noncomputable instance : Scalar Ideal where
  add a b := ⟨Rounding.exact.add a.toVal b.toVal⟩
  sub a b := ⟨Rounding.exact.sub a.toVal b.toVal⟩
  mul a b := ⟨Rounding.exact.mul a.toVal b.toVal⟩
  div a b := ⟨Rounding.exact.div a.toVal b.toVal⟩
  neg a := ⟨a.toVal.neg⟩
  beq a b := decide (Val.Eq a.toVal b.toVal)
  zero := ⟨.fin 0⟩
  one := ⟨.fin 1⟩
  half := ⟨.fin (1 / 2)⟩
  two := ⟨.fin 2⟩
  infinity := ⟨.inf false⟩
  negInfinity := ⟨.inf true⟩
  abs a := ⟨a.toVal.abs⟩
  sqrt a := ⟨Rounding.exact.sqrt a.toVal⟩
  floor a := ⟨a.toVal.toInt Int.floor⟩
  ceil a := ⟨a.toVal.toInt Int.ceil⟩
  round a := ⟨a.toVal.toInt Val.roundR⟩
  trunc a := ⟨a.toVal.toInt Val.truncR⟩
  sin a := ⟨sin a.toVal⟩
  cos a := ⟨cos a.toVal⟩
  fmin a b := ⟨minV a.toVal b.toVal⟩
  fmax a b := ⟨maxV a.toVal b.toVal⟩
  lt a b := decide (Val.Lt a.toVal b.toVal)
  le a b := decide (Val.Le a.toVal b.toVal)

noncomputable instance : IEEE Ideal where
  A := Rounding.exact
  den := toVal
  rep _ := ⟨rfl, trivial⟩
  den_zero := rfl
  den_one := rfl
  den_half := rfl
  den_two := rfl
  den_infinity := rfl
  den_negInfinity := rfl
  den_add _ _ := rfl
  den_sub _ _ := rfl
  den_mul _ _ := rfl
  den_div _ _ := rfl
  den_neg _ := rfl
  den_abs _ := rfl
  den_sqrt _ := rfl
  den_floor _ := rfl
  den_ceil _ := rfl
  den_round _ := rfl
  den_trunc _ := rfl
  den_fmin a b := isMin_minV a.toVal b.toVal
  den_fmax a b := isMax_maxV a.toVal b.toVal
  den_lt _ _ := decide_eq_true_iff
  den_le _ _ := decide_eq_true_iff
  den_beq _ _ := decide_eq_true_iff

/-- The scalar for a real number. -/
noncomputable def of (x : ℝ) : Ideal := ⟨.fin x⟩

open IEEE

@[simp] theorem finite_of (x : ℝ) : IsFinite (of x) := trivial
@[simp] theorem real_of (x : ℝ) : real (of x) = x := rfl

theorem exact_finish (s : Bool) (x : ℝ) : Rounding.exact.finish s x = Val.mk s x :=
  Rounding.finish_rep _ ⟨rfl, trivial⟩

variable {a b : Ideal}

@[simp] theorem finite_add (ha : IsFinite a) (hb : IsFinite b) : IsFinite (a + b) := by
  unfold IsFinite; rw [add_finite ha hb]; exact (exact_finish _ _).symm ▸ Val.isFin_mk _ _
@[simp] theorem real_add (ha : IsFinite a) (hb : IsFinite b) : real (a + b) = real a + real b := by
  unfold real; rw [add_finite ha hb]; exact (exact_finish _ _).symm ▸ Val.real_mk _ _
@[simp] theorem finite_sub (ha : IsFinite a) (hb : IsFinite b) : IsFinite (a - b) := by
  unfold IsFinite; rw [sub_finite ha hb]; exact (exact_finish _ _).symm ▸ Val.isFin_mk _ _
@[simp] theorem real_sub (ha : IsFinite a) (hb : IsFinite b) : real (a - b) = real a - real b := by
  unfold real; rw [sub_finite ha hb]; exact (exact_finish _ _).symm ▸ Val.real_mk _ _
@[simp] theorem finite_mul (ha : IsFinite a) (hb : IsFinite b) : IsFinite (a * b) := by
  unfold IsFinite; rw [mul_finite ha hb]; exact (exact_finish _ _).symm ▸ Val.isFin_mk _ _
@[simp] theorem real_mul (ha : IsFinite a) (hb : IsFinite b) : real (a * b) = real a * real b := by
  unfold real; rw [mul_finite ha hb]; exact (exact_finish _ _).symm ▸ Val.real_mk _ _

theorem den_div_of_ne (ha : IsFinite a) (hb : IsFinite b) (h : real b ≠ 0) :
    den (a / b) = Val.mk ((den a).neg? ^^ (den b).neg?) (real a / real b) := by
  rw [den_div]
  refine (Rounding.div_fin _ ha hb).trans ?_
  rw [if_neg (show (den b).real ≠ 0 from h)]; exact exact_finish _ _
@[simp] theorem finite_div (ha : IsFinite a) (hb : IsFinite b) (h : real b ≠ 0) : IsFinite (a / b) := by
  unfold IsFinite; rw [den_div_of_ne ha hb h]; exact Val.isFin_mk _ _
@[simp] theorem real_div (ha : IsFinite a) (hb : IsFinite b) (h : real b ≠ 0) :
    real (a / b) = real a / real b := by
  conv_lhs => unfold real
  rw [den_div_of_ne ha hb h]; exact Val.real_mk _ _

theorem sqrt_cases (ha : IsFinite a) (h : 0 ≤ real a) :
    IsFinite (Scalar.sqrt a) ∧ real (Scalar.sqrt a) = √(real a) := by
  unfold IsFinite at *; unfold real at *
  rw [den_sqrt]
  generalize den a = v at *
  revert h
  refine Val.IsFin.cases (P := fun v => 0 ≤ v.real → ((IEEE.A Ideal).sqrt v).IsFin ∧
    ((IEEE.A Ideal).sqrt v).real = √v.real) ha ?_ ?_
  · intro _; exact ⟨trivial, by simp [Rounding.sqrt]⟩
  · intro x hx
    have : (IEEE.A Ideal).sqrt (.fin x) = .mk false √x := by
      simp only [Rounding.sqrt, not_lt.2 (show 0 ≤ x from hx), if_false]
      exact exact_finish _ _
    rw [this]; simp
@[simp] theorem finite_sqrt (ha : IsFinite a) (h : 0 ≤ real a) : IsFinite (Scalar.sqrt a) :=
  (sqrt_cases ha h).1
@[simp] theorem real_sqrt (ha : IsFinite a) (h : 0 ≤ real a) : real (Scalar.sqrt a) = √(real a) :=
  (sqrt_cases ha h).2

@[simp] theorem finite_sin (ha : IsFinite a) : IsFinite (Scalar.sin a) := by
  refine Val.IsFin.cases (P := fun v => (sin v).IsFin) ha trivial fun x => trivial
@[simp] theorem real_sin (ha : IsFinite a) : real (Scalar.sin a) = Real.sin (real a) := by
  refine Val.IsFin.cases (P := fun v => (sin v).real = Real.sin v.real) ha ?_ fun x => rfl
  simp [sin]
@[simp] theorem finite_cos (ha : IsFinite a) : IsFinite (Scalar.cos a) := by
  refine Val.IsFin.cases (P := fun v => (cos v).IsFin) ha trivial fun x => trivial
@[simp] theorem real_cos (ha : IsFinite a) : real (Scalar.cos a) = Real.cos (real a) := by
  refine Val.IsFin.cases (P := fun v => (cos v).real = Real.cos v.real) ha ?_ fun x => rfl
  simp [cos]

theorem beq_real (ha : IsFinite a) (hb : IsFinite b) : (a == b) = true ↔ real a = real b := by
  rw [beq_of_not_nan ha.not_nan hb.not_nan, ha.val, hb.val, EReal.coe_eq_coe_iff]
theorem lt_real (ha : IsFinite a) (hb : IsFinite b) : (a <? b) = true ↔ real a < real b := by
  rw [lt_of_not_nan ha.not_nan hb.not_nan, ha.val, hb.val, EReal.coe_lt_coe_iff]
theorem le_real (ha : IsFinite a) (hb : IsFinite b) : (a ≤? b) = true ↔ real a ≤ real b := by
  rw [le_of_not_nan ha.not_nan hb.not_nan, ha.val, hb.val, EReal.coe_le_coe_iff]
@[simp] theorem finite_min (ha : IsFinite a) (hb : IsFinite b) : IsFinite (fmin a b) := by
  rcases min_same (a := a) (b := b) with h | h <;> (unfold IsFinite; rw [show den _ = _ from h]; assumption)
@[simp] theorem finite_max (ha : IsFinite a) (hb : IsFinite b) : IsFinite (fmax a b) := by
  rcases max_same (a := a) (b := b) with h | h <;> (unfold IsFinite; rw [show den _ = _ from h]; assumption)
@[simp] theorem real_min (ha : IsFinite a) (hb : IsFinite b) : real (fmin a b) = min (real a) (real b) := by
  have := val_min ha.not_nan hb.not_nan
  rw [(finite_min ha hb).val, ha.val, hb.val, ← EReal.coe_strictMono.monotone.map_min] at this
  exact_mod_cast this
@[simp] theorem real_max (ha : IsFinite a) (hb : IsFinite b) : real (fmax a b) = max (real a) (real b) := by
  have := val_max ha.not_nan hb.not_nan
  rw [(finite_max ha hb).val, ha.val, hb.val, ← EReal.coe_strictMono.monotone.map_max] at this
  exact_mod_cast this

end Ideal

end VecMath
