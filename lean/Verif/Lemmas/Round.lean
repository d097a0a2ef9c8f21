import Verif.Spec.Round
import Verif.Lemmas.Float
/-! # Rounding errors of the scalar operations -/

open Classical

namespace VecMath
open Scalar IEEE

namespace IEEE
variable {S : Type} [Scalar S] [IEEE S]

/-! ### Finite results come from finite operands -/

theorem finite_of_add {a b : S} (h : IsFinite (a + b)) : IsFinite a ∧ IsFinite b := by
  unfold IsFinite at *; rw [den_add] at h
  revert h
  induction den a using Val.cases_inf_fin with
  | hn => simp
  | hi s => induction den b using Val.cases_inf_fin with
    | hn => simp
    | hi t => simp; split_ifs <;> simp
    | hf y hy => rw [Rounding.add_inf_fin _ _ hy]; simp
  | hf x hx => induction den b using Val.cases_inf_fin with
    | hn => simp
    | hi t => rw [Rounding.add_fin_inf _ hx]; simp
    | hf y hy => simp [hx, hy]
theorem finite_of_sub {a b : S} (h : IsFinite (a - b)) : IsFinite a ∧ IsFinite b := by
  have h' : IsFinite (a + -b) := by
    unfold IsFinite at *; rwa [← show den (a - b) = _ from same_sub a b]
  have := finite_of_add h'
  rwa [finite_neg] at this
theorem finite_of_mul {a b : S} (h : IsFinite (a * b)) : IsFinite a ∧ IsFinite b := by
  unfold IsFinite at *; rw [den_mul] at h
  revert h
  induction den a using Val.cases_inf_fin with
  | hn => simp
  | hi s => induction den b using Val.cases_inf_fin with
    | hn => simp
    | hi t => simp
    | hf y hy => rw [Rounding.mul_inf_fin _ _ hy]; split_ifs <;> simp
  | hf x hx => induction den b using Val.cases_inf_fin with
    | hn => simp
    | hi t => rw [Rounding.mul_fin_inf _ hx]; split_ifs <;> simp
    | hf y hy => simp [hx, hy]
theorem finite_of_sqrt {a : S} (h : IsFinite (Scalar.sqrt a)) : IsFinite a ∧ 0 ≤ real a := by
  unfold IsFinite real at *; rw [den_sqrt] at h
  revert h
  cases den a with
  | nan => simp [Rounding.sqrt]
  | inf s => cases s <;> simp [Rounding.sqrt]
  | nzero => simp [Rounding.sqrt]
  | fin x =>
    simp only [Rounding.sqrt]; split_ifs with h
    · simp
    · intro _; exact ⟨trivial, not_lt.1 h⟩

/-! ### A delivered result is the rounded exact result -/

theorem real_finish {s : Bool} {x : ℝ} (h : ((IEEE.A S).finish s x).IsFin) :
    ((IEEE.A S).finish s x).real = (IEEE.A S).rnd x := by
  rw [Rounding.finish_isFin] at h
  have h' := Rounding.finish_ereal_of_fits (IEEE.A S) (s := s) h
  rw [Val.IsFin.ereal ((Rounding.finish_isFin _).2 h)] at h'
  exact_mod_cast h'

theorem real_add {a b : S} (h : IsFinite (a + b)) : real (a + b) = (IEEE.A S).rnd (real a + real b) := by
  obtain ⟨ha, hb⟩ := finite_of_add h
  unfold IsFinite at h; unfold real
  rw [add_finite ha hb] at h ⊢; exact real_finish h
theorem real_sub {a b : S} (h : IsFinite (a - b)) : real (a - b) = (IEEE.A S).rnd (real a - real b) := by
  obtain ⟨ha, hb⟩ := finite_of_sub h
  unfold IsFinite at h; unfold real
  rw [sub_finite ha hb] at h ⊢; exact real_finish h
theorem real_mul {a b : S} (h : IsFinite (a * b)) : real (a * b) = (IEEE.A S).rnd (real a * real b) := by
  obtain ⟨ha, hb⟩ := finite_of_mul h
  unfold IsFinite at h; unfold real
  rw [mul_finite ha hb] at h ⊢; exact real_finish h
theorem den_div_fin {a b : S} (ha : IsFinite a) (hb : IsFinite b) (h0 : real b ≠ 0) :
    den (a / b) = (IEEE.A S).finish ((den a).neg? ^^ (den b).neg?) (real a / real b) := by
  rw [den_div]
  refine (Rounding.div_fin _ ha hb).trans ?_
  rw [if_neg (show (den b).real ≠ 0 from h0)]; rfl
theorem real_div {a b : S} (ha : IsFinite a) (hb : IsFinite b) (h0 : real b ≠ 0) (h : IsFinite (a / b)) :
    real (a / b) = (IEEE.A S).rnd (real a / real b) := by
  unfold IsFinite at h
  rw [den_div_fin ha hb h0] at h
  conv_lhs => unfold real
  rw [den_div_fin ha hb h0]; exact real_finish h
theorem real_sqrt {a : S} (h : IsFinite (Scalar.sqrt a)) : real (Scalar.sqrt a) = (IEEE.A S).rnd √(real a) := by
  obtain ⟨ha, h0⟩ := finite_of_sqrt h
  unfold IsFinite real at *; rw [den_sqrt] at *
  revert h h0 ha
  cases den a with
  | nan => simp
  | inf s => simp
  | nzero => simp [Rounding.sqrt]
  | fin x =>
    intro h _ h0
    simp only [Rounding.sqrt, not_lt.2 (show 0 ≤ x from h0), if_false] at h ⊢
    exact real_finish h

/-! ### In a binary format -/

variable [B : Binary S]

theorem uro_pos : 0 < uro S := by unfold uro; positivity
theorem uro_le : uro S ≤ 1 / 4 := by
  unfold uro
  have := Fmt.z_le (show -((Binary.F S).p : ℤ) ≤ -2 by have := (Binary.F S).hp; omega)
  norm_num at this ⊢; linarith
theorem tiny_pos : 0 < tiny S := by unfold tiny; positivity

theorem isFinite_has {a : S} (h : IsFinite a) : (Binary.F S).Has (real a) := by
  have := h.rep.1; rw [B.eq] at this; exact (Binary.F S).rnd_eq_iff.1 this

theorem inFormat {a : S} (h : IsFinite a) : InFormat S (real a) := by
  refine ⟨isFinite_has h, ?_⟩
  have := h.rep.2; rw [B.eq] at this; exact this

theorem correct_finish {c : S} {s : Bool} {x : ℝ} (h : den c = (IEEE.A S).finish s x) : Correct c x := by
  have hf : IsFinite c ↔ |x| < overflowAt S := by
    unfold IsFinite; rw [h, Rounding.finish_isFin, B.eq]
    exact (Binary.F S).fits_rnd_iff x
  refine ⟨hf, fun hc => ⟨inFormat hc, fun y hy => ?_⟩⟩
  have : real c = (Binary.F S).rnd x := by
    unfold IsFinite at hc; unfold real; rw [h] at hc ⊢
    rw [real_finish hc, B.eq]; rfl
  rw [this]; exact (Binary.F S).rnd_nearest x hy.1

theorem correct_add {a b : S} (ha : IsFinite a) (hb : IsFinite b) : Correct (a + b) (real a + real b) :=
  correct_finish (add_finite ha hb)
theorem correct_sub {a b : S} (ha : IsFinite a) (hb : IsFinite b) : Correct (a - b) (real a - real b) :=
  correct_finish (sub_finite ha hb)
theorem correct_mul {a b : S} (ha : IsFinite a) (hb : IsFinite b) : Correct (a * b) (real a * real b) :=
  correct_finish (mul_finite ha hb)
theorem correct_div {a b : S} (ha : IsFinite a) (hb : IsFinite b) (h0 : real b ≠ 0) :
    Correct (a / b) (real a / real b) :=
  correct_finish (den_div_fin ha hb h0)

theorem rnd_eq (x : ℝ) : (IEEE.A S).rnd x = (Binary.F S).rnd x := by rw [B.eq]; rfl

/-- addition: purely relative error -/
theorem err_add {a b : S} (h : IsFinite (a + b)) :
    |real (a + b) - (real a + real b)| ≤ uro S * |real a + real b| := by
  obtain ⟨ha, hb⟩ := finite_of_add h
  rw [real_add h, rnd_eq]
  refine (Binary.F S).rnd_err_quantum ?_
  have := (Binary.F S).sub_quantum (isFinite_has ha) (isFinite_has hb).neg
  simpa using this
theorem err_sub {a b : S} (h : IsFinite (a - b)) :
    |real (a - b) - (real a - real b)| ≤ uro S * |real a - real b| := by
  obtain ⟨ha, hb⟩ := finite_of_sub h
  rw [real_sub h, rnd_eq]
  exact (Binary.F S).rnd_err_quantum ((Binary.F S).sub_quantum (isFinite_has ha) (isFinite_has hb))
theorem err_rnd_normal {x : ℝ} (h : Normal S x) : |(IEEE.A S).rnd x - x| ≤ uro S * |x| := by
  rw [rnd_eq]
  rcases h with rfl | h
  · rw [(Binary.F S).rnd_zero]; simp
  · exact (Binary.F S).rnd_err_normal h
theorem err_rnd (x : ℝ) : |(IEEE.A S).rnd x - x| ≤ uro S * |x| + tiny S := by
  rw [rnd_eq]; exact (Binary.F S).rnd_err_le x
theorem err_mul {a b : S} (h : IsFinite (a * b)) :
    |real (a * b) - real a * real b| ≤ uro S * |real a * real b| + tiny S := by
  rw [real_mul h]; exact err_rnd _
theorem err_mul_normal {a b : S} (h : IsFinite (a * b)) (hn : Normal S (real a * real b)) :
    |real (a * b) - real a * real b| ≤ uro S * |real a * real b| := by
  rw [real_mul h]; exact err_rnd_normal hn
theorem err_div {a b : S} (ha : IsFinite a) (hb : IsFinite b) (h0 : real b ≠ 0) (h : IsFinite (a / b)) :
    |real (a / b) - real a / real b| ≤ uro S * |real a / real b| + tiny S := by
  rw [real_div ha hb h0 h]; exact err_rnd _
theorem err_div_normal {a b : S} (ha : IsFinite a) (hb : IsFinite b) (h0 : real b ≠ 0)
    (h : IsFinite (a / b)) (hn : Normal S (real a / real b)) :
    |real (a / b) - real a / real b| ≤ uro S * |real a / real b| := by
  rw [real_div ha hb h0 h]; exact err_rnd_normal hn

/-- the square root never underflows -/
theorem normal_sqrt {a : S} (ha : IsFinite a) (h0 : 0 ≤ real a) : Normal S √(real a) := by
  rcases h0.eq_or_lt with h | h
  · left; rw [← h]; simp
  right
  have hq := (Binary.F S).quantum_le (isFinite_has ha).quantum h.ne'
  rw [abs_of_pos h] at hq
  rw [abs_of_nonneg (Real.sqrt_nonneg _)]
  apply Real.le_sqrt_of_sq_le
  refine le_trans ?_ hq
  unfold minNormal
  rw [← zpow_natCast, ← zpow_mul]
  refine Fmt.z_le ?_
  have := (Binary.F S).hmin
  push_cast; linarith
theorem err_sqrt {a : S} (h : IsFinite (Scalar.sqrt a)) :
    |real (Scalar.sqrt a) - √(real a)| ≤ uro S * √(real a) := by
  obtain ⟨ha, h0⟩ := finite_of_sqrt h
  have := err_rnd_normal (normal_sqrt ha h0)
  rw [abs_of_nonneg (Real.sqrt_nonneg _)] at this
  rw [real_sqrt h]; exact this

/-! ### Propagation -/

/-- Error of a rounded sum of approximations. -/
theorem err_add_of {a b : S} {x y e f : ℝ} (h : IsFinite (a + b)) (ha : |real a - x| ≤ e)
    (hb : |real b - y| ≤ f) : |real (a + b) - (x + y)| ≤ (1 + uro S) * (e + f) + uro S * |x + y| := by
  have h1 := err_add h
  have hu := uro_pos (S := S)
  have h2 : |real a + real b - (x + y)| ≤ e + f := by
    have := abs_add_le (real a - x) (real b - y)
    rw [show real a - x + (real b - y) = real a + real b - (x + y) by ring] at this; linarith
  have h3 : |real a + real b| ≤ |x + y| + (e + f) := by
    have := abs_add_le (real a + real b - (x + y)) (x + y)
    rw [sub_add_cancel] at this; linarith
  have h4 := abs_add_le (real (a + b) - (real a + real b)) (real a + real b - (x + y))
  rw [sub_add_sub_cancel] at h4
  nlinarith [mul_le_mul_of_nonneg_left h3 hu.le]
theorem err_sub_of {a b : S} {x y e f : ℝ} (h : IsFinite (a - b)) (ha : |real a - x| ≤ e)
    (hb : |real b - y| ≤ f) : |real (a - b) - (x - y)| ≤ (1 + uro S) * (e + f) + uro S * |x - y| := by
  have h1 := err_sub h
  have hu := uro_pos (S := S)
  have h2 : |real a - real b - (x - y)| ≤ e + f := by
    have := abs_add_le (real a - x) (-(real b - y))
    rw [abs_neg, show real a - x + -(real b - y) = real a - real b - (x - y) by ring] at this; linarith
  have h3 : |real a - real b| ≤ |x - y| + (e + f) := by
    have := abs_add_le (real a - real b - (x - y)) (x - y)
    rw [sub_add_cancel] at this; linarith
  have h4 := abs_add_le (real (a - b) - (real a - real b)) (real a - real b - (x - y))
  rw [sub_add_sub_cancel] at h4
  nlinarith [mul_le_mul_of_nonneg_left h3 hu.le]

/-! ### Relative errors of non-negative quantities -/

end IEEE
variable {S : Type} [Scalar S] [IEEE S] [B : Binary S]

theorem Within.refl (x : ℝ) : Within S 0 x x := by simp [Within]
theorem Within.of_err {y x : ℝ} (hx : 0 ≤ x) (h : |y - x| ≤ uro S * |x|) : Within S 1 y x := by
  rw [abs_of_nonneg hx, abs_le] at h
  constructor <;> simp <;> linarith
theorem Within.mono {k l : ℕ} {y x : ℝ} (h : Within S k y x) (hx : 0 ≤ x) (hl : k ≤ l) : Within S l y x := by
  have h0 := uro_pos (S := S)
  have h1 := uro_le (S := S)
  refine ⟨le_trans ?_ h.1, h.2.trans ?_⟩
  · exact mul_le_mul_of_nonneg_right (pow_le_pow_of_le_one (by linarith) (by linarith) hl) hx
  · exact mul_le_mul_of_nonneg_right (pow_le_pow_right₀ (by linarith) hl) hx
theorem Within.trans {k l : ℕ} {z y x : ℝ} (h : Within S k z y) (h' : Within S l y x) :
    Within S (k + l) z x := by
  have h0 := uro_pos (S := S)
  have h1 := uro_le (S := S)
  constructor
  · rw [pow_add, mul_assoc]
    exact (mul_le_mul_of_nonneg_left h'.1 (pow_nonneg (by linarith) k)).trans h.1
  · rw [pow_add, mul_assoc]
    exact h.2.trans (mul_le_mul_of_nonneg_left h'.2 (pow_nonneg (by linarith) k))
theorem Within.nonneg {k : ℕ} {y x : ℝ} (h : Within S k y x) (hx : 0 ≤ x) : 0 ≤ y := by
  have h1 := uro_le (S := S)
  exact (mul_nonneg (pow_nonneg (by linarith) k) hx).trans h.1
theorem Within.plus {k : ℕ} {y x z w : ℝ} (h : Within S k y x) (h' : Within S k z w) :
    Within S k (y + z) (x + w) := by
  obtain ⟨a, b⟩ := h
  obtain ⟨c, d⟩ := h'
  constructor <;> rw [mul_add] <;> linarith
theorem Within.sq {k : ℕ} {y x : ℝ} (h : Within S k y x) (hx : 0 ≤ x) : Within S (2 * k) (y ^ 2) (x ^ 2) := by
  have h1 := uro_le (S := S)
  have hy := h.nonneg hx
  constructor
  · rw [mul_comm 2 k, pow_mul, ← mul_pow]
    exact pow_le_pow_left₀ (mul_nonneg (pow_nonneg (by linarith) k) hx) h.1 2
  · rw [mul_comm 2 k, pow_mul, ← mul_pow]
    exact pow_le_pow_left₀ hy h.2 2
/-- squares of a relative approximation, either sign -/
theorem Within.sq_of_err {y x : ℝ} (h : |y - x| ≤ uro S * |x|) : Within S 2 (y ^ 2) (x ^ 2) := by
  have : Within S 1 |y| |x| := by
    have h1 := abs_abs_sub_abs_le_abs_sub y x
    refine Within.of_err (abs_nonneg x) ?_
    rw [abs_abs]; exact h1.trans h
  simpa using this.sq (abs_nonneg x)
theorem Within.add {k : ℕ} {a b : S} {x y : ℝ} (h : IsFinite (a + b)) (ha : Within S k (real a) x)
    (hb : Within S k (real b) y) (hx : 0 ≤ x) (hy : 0 ≤ y) : Within S (1 + k) (real (a + b)) (x + y) :=
  (Within.of_err (add_nonneg (ha.nonneg hx) (hb.nonneg hy)) (err_add h)).trans (ha.plus hb)
theorem Within.sqrt {k : ℕ} {a : S} {x : ℝ} (h : IsFinite (Scalar.sqrt a)) (ha : Within S k (real a) x) :
    Within S (2 + k) (real (Scalar.sqrt a) ^ 2) x := by
  obtain ⟨-, h0⟩ := finite_of_sqrt h
  have h1 := err_sqrt h
  have h2 : Within S 1 (real (Scalar.sqrt a)) √(real a) :=
    Within.of_err (Real.sqrt_nonneg _) (by rwa [abs_of_nonneg (Real.sqrt_nonneg _)])
  have h3 := h2.sq (Real.sqrt_nonneg _)
  rw [Real.sq_sqrt h0] at h3
  exact h3.trans ha
theorem Within.mul_self {a : S} (h : IsFinite (a * a)) (hn : Normal S (real a ^ 2)) :
    Within S 1 (real (a * a)) (real a ^ 2) := by
  rw [pow_two] at *
  exact Within.of_err (mul_self_nonneg _) (err_mul_normal h hn)
theorem IEEE.nonneg_real_sqrt {a : S} (h : IsFinite (Scalar.sqrt a)) : 0 ≤ real (Scalar.sqrt a) := by
  rw [real_sqrt h, rnd_eq]; exact (Binary.F S).rnd_nonneg (Real.sqrt_nonneg _)

end VecMath
