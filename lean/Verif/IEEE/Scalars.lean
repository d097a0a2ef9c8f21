import Verif.IEEE.Lemmas
/-! # IEEE scalars: consequences of `IEEE S` at the level of the scalar type -/

open Classical

namespace VecMath
open Scalar

namespace IEEE
variable {S : Type} [Scalar S] [IEEE S]

@[refl] theorem Same.refl (a : S) : Same a a := rfl
theorem Same.symm {a b : S} (h : Same a b) : Same b a := Eq.symm h
theorem Same.trans {a b c : S} (h : Same a b) (h' : Same b c) : Same a c := Eq.trans h h'

theorem lt_iff {a b : S} : (a <? b) = true ↔ ¬ IsNaN a ∧ ¬ IsNaN b ∧ val a < val b := den_lt a b
theorem le_iff {a b : S} : (a ≤? b) = true ↔ ¬ IsNaN a ∧ ¬ IsNaN b ∧ val a ≤ val b := den_le a b
theorem beq_iff {a b : S} : (a == b) = true ↔ ¬ IsNaN a ∧ ¬ IsNaN b ∧ val a = val b := den_beq a b

theorem Same.beq {a b : S} (h : Same a b) (ha : ¬ IsNaN a) : (a == b) = true :=
  beq_iff.2 ⟨ha, fun h' => ha (Eq.trans h h'), congrArg Val.ereal h⟩
theorem Same.isNaN {a b : S} (h : Same a b) : IsNaN a ↔ IsNaN b := by
  unfold IsNaN; rw [show den a = den b from h]
theorem Same.val {a b : S} (h : Same a b) : val a = val b := congrArg Val.ereal h

theorem lt_of_not_nan {a b : S} (ha : ¬ IsNaN a) (hb : ¬ IsNaN b) :
    (a <? b) = true ↔ val a < val b := by rw [lt_iff]; tauto
theorem le_of_not_nan {a b : S} (ha : ¬ IsNaN a) (hb : ¬ IsNaN b) :
    (a ≤? b) = true ↔ val a ≤ val b := by rw [le_iff]; tauto
theorem beq_of_not_nan {a b : S} (ha : ¬ IsNaN a) (hb : ¬ IsNaN b) :
    (a == b) = true ↔ val a = val b := by rw [beq_iff]; tauto

theorem IsFinite.not_nan {a : S} (h : IsFinite a) : ¬ IsNaN a := Val.IsFin.ne_nan h
theorem IsFinite.val {a : S} (h : IsFinite a) : val a = (real a : EReal) := Val.IsFin.ereal h
theorem finite_iff {a : S} : IsFinite a ↔ ¬ IsNaN a ∧ val a ≠ ⊤ ∧ val a ≠ ⊥ := Val.isFin_iff

theorem IsFinite.rep {a : S} (h : IsFinite a) : (IEEE.A S).Rep (real a) := by
  unfold IsFinite at h; unfold real
  have := @IEEE.rep S _ _ a
  generalize den a = v at h this
  rcases v with _ | s | _ | x
  · exact h.elim
  · exact h.elim
  · exact Rounding.rep_zero _
  · exact this rfl

/-! ### min and max -/

theorem min_nan_left {a b : S} (h : IsNaN a) : Same (fmin a b) b := (den_fmin a b).1 h
theorem min_nan_right {a b : S} (h : IsNaN b) : Same (fmin a b) a := (den_fmin a b).2.1 h
theorem max_nan_left {a b : S} (h : IsNaN a) : Same (fmax a b) b := (den_fmax a b).1 h
theorem max_nan_right {a b : S} (h : IsNaN b) : Same (fmax a b) a := (den_fmax a b).2.1 h

theorem isNaN_min {a b : S} : IsNaN (fmin a b) ↔ IsNaN a ∧ IsNaN b := by
  by_cases ha : IsNaN a
  · rw [(min_nan_left (b := b) ha).isNaN]; simp [ha]
  · by_cases hb : IsNaN b
    · rw [(min_nan_right (a := a) hb).isNaN]; simp [ha]
    · rcases (den_fmin a b).2.2 ha hb with h | h
      · simp [IsNaN, h.1]; intro h'; exact absurd h' ha
      · simp [IsNaN, h.1]; intro h'; exact absurd h' hb
theorem isNaN_max {a b : S} : IsNaN (fmax a b) ↔ IsNaN a ∧ IsNaN b := by
  by_cases ha : IsNaN a
  · rw [(max_nan_left (b := b) ha).isNaN]; simp [ha]
  · by_cases hb : IsNaN b
    · rw [(max_nan_right (a := a) hb).isNaN]; simp [ha]
    · rcases (den_fmax a b).2.2 ha hb with h | h
      · simp [IsNaN, h.1]; intro h'; exact absurd h' ha
      · simp [IsNaN, h.1]; intro h'; exact absurd h' hb

theorem val_min {a b : S} (ha : ¬ IsNaN a) (hb : ¬ IsNaN b) : val (fmin a b) = min (val a) (val b) := by
  rcases (den_fmin a b).2.2 ha hb with h | h
  · unfold val; rw [h.1, min_eq_left h.2]
  · unfold val; rw [h.1, min_eq_right h.2]
theorem val_max {a b : S} (ha : ¬ IsNaN a) (hb : ¬ IsNaN b) : val (fmax a b) = max (val a) (val b) := by
  rcases (den_fmax a b).2.2 ha hb with h | h
  · unfold val; rw [h.1, max_eq_left h.2]
  · unfold val; rw [h.1, max_eq_right h.2]

theorem min_same {a b : S} : Same (fmin a b) a ∨ Same (fmin a b) b := by
  by_cases ha : IsNaN a
  · exact .inr (min_nan_left ha)
  · by_cases hb : IsNaN b
    · exact .inl (min_nan_right hb)
    · exact ((den_fmin a b).2.2 ha hb).imp And.left And.left
theorem max_same {a b : S} : Same (fmax a b) a ∨ Same (fmax a b) b := by
  by_cases ha : IsNaN a
  · exact .inr (max_nan_left ha)
  · by_cases hb : IsNaN b
    · exact .inl (max_nan_right hb)
    · exact ((den_fmax a b).2.2 ha hb).imp And.left And.left

/-! ### constants -/

@[simp] theorem val_zero : val (zero : S) = 0 := by simp [val, den_zero]
@[simp] theorem val_one : val (one : S) = 1 := by simp [val, den_one]
@[simp] theorem val_infinity : val (infinity : S) = ⊤ := by simp [val, den_infinity]
@[simp] theorem val_negInfinity : val (negInfinity : S) = ⊥ := by simp [val, den_negInfinity]
@[simp] theorem not_nan_zero : ¬ IsNaN (zero : S) := by simp [IsNaN, den_zero]
@[simp] theorem not_nan_one : ¬ IsNaN (one : S) := by simp [IsNaN, den_one]
@[simp] theorem not_nan_infinity : ¬ IsNaN (infinity : S) := by simp [IsNaN, den_infinity]
@[simp] theorem not_nan_negInfinity : ¬ IsNaN (negInfinity : S) := by simp [IsNaN, den_negInfinity]
@[simp] theorem finite_zero : IsFinite (zero : S) := by simp [IsFinite, den_zero]
@[simp] theorem finite_one : IsFinite (one : S) := by simp [IsFinite, den_one]
@[simp] theorem finite_half : IsFinite (half : S) := by simp [IsFinite, den_half]
@[simp] theorem finite_two : IsFinite (two : S) := by simp [IsFinite, den_two]
@[simp] theorem real_zero : real (zero : S) = 0 := by simp [real, den_zero]
@[simp] theorem real_one : real (one : S) = 1 := by simp [real, den_one]
@[simp] theorem real_half : real (half : S) = 1 / 2 := by simp [real, den_half]
@[simp] theorem real_two : real (two : S) = 2 := by simp [real, den_two]

/-! ### arithmetic -/

theorem same_add_comm (a b : S) : Same (a + b) (b + a) := by
  simp [Same, den_add, Rounding.add_comm]
theorem same_mul_comm (a b : S) : Same (a * b) (b * a) := by
  simp [Same, den_mul, Rounding.mul_comm]
theorem Same.add {a b c d : S} (h : Same a b) (h' : Same c d) : Same (a + c) (b + d) := by
  simp_all [Same, den_add]
theorem Same.sub {a b c d : S} (h : Same a b) (h' : Same c d) : Same (a - c) (b - d) := by
  simp_all [Same, den_sub]
theorem Same.mul {a b c d : S} (h : Same a b) (h' : Same c d) : Same (a * c) (b * d) := by
  simp_all [Same, den_mul]
theorem Same.div {a b c d : S} (h : Same a b) (h' : Same c d) : Same (a / c) (b / d) := by
  simp_all [Same, den_div]
theorem Same.neg {a b : S} (h : Same a b) : Same (-a) (-b) := by simp_all [Same, den_neg]
theorem Same.sqrt {a b : S} (h : Same a b) : Same (Scalar.sqrt a) (Scalar.sqrt b) := by
  simp_all [Same, den_sqrt]
theorem Same.abs {a b : S} (h : Same a b) : Same (Scalar.abs a) (Scalar.abs b) := by
  simp_all [Same, den_abs]

@[simp] theorem isNaN_neg {a : S} : IsNaN (-a) ↔ IsNaN a := by simp [IsNaN, den_neg]
@[simp] theorem isNaN_abs {a : S} : IsNaN (Scalar.abs a) ↔ IsNaN a := by simp [IsNaN, den_abs]
@[simp] theorem finite_neg {a : S} : IsFinite (-a) ↔ IsFinite a := by simp [IsFinite, den_neg]
@[simp] theorem finite_abs {a : S} : IsFinite (Scalar.abs a) ↔ IsFinite a := by simp [IsFinite, den_abs]
@[simp] theorem val_neg (a : S) : val (-a) = -val a := by simp [val, den_neg]
@[simp] theorem real_neg (a : S) : real (-a) = -real a := by simp [real, den_neg]
@[simp] theorem real_abs (a : S) : real (Scalar.abs a) = |real a| := by simp [real, den_abs]
theorem val_abs_nonneg (a : S) : 0 ≤ val (Scalar.abs a) := by
  simp only [val, den_abs]; exact Val.abs_nonneg

theorem val_eq_of_same_or {a b : S} (h : Same a b) : val a = val b := h.val

/-- Addition of finite scalars: rounded exact sum. -/
theorem add_finite {a b : S} (ha : IsFinite a) (hb : IsFinite b) :
    den (a + b) = (IEEE.A S).finish ((den a).neg? && (den b).neg?) (real a + real b) := by
  rw [den_add, Rounding.add_fin _ ha hb]; rfl
theorem sub_finite {a b : S} (ha : IsFinite a) (hb : IsFinite b) :
    den (a - b) = (IEEE.A S).finish ((den a).neg? && !(den b).neg?) (real a - real b) := by
  rw [den_sub, Rounding.sub_fin _ ha hb]; rfl
theorem mul_finite {a b : S} (ha : IsFinite a) (hb : IsFinite b) :
    den (a * b) = (IEEE.A S).finish ((den a).neg? ^^ (den b).neg?) (real a * real b) := by
  rw [den_mul, Rounding.mul_fin _ ha hb]; rfl

/-- Rounding a representable result does nothing. -/
theorem finish_rep_den {a : S} (ha : IsFinite a) : (IEEE.A S).finish (den a).neg? (real a) = den a := by
  rw [Rounding.finish_rep _ ha.rep]; exact (Val.IsFin.eq_mk ha).symm

theorem den_cases {P : Prop} (a : S) (hn : IsNaN a → P) (hi : ∀ s, den a = .inf s → P)
    (hf : IsFinite a → P) : P := by
  by_cases h : IsFinite a
  · exact hf h
  · rcases Val.not_isFin_iff.1 h with h | ⟨s, h⟩
    · exact hn h
    · exact hi s h

/-- `a - 0` is `a` (same sign of zero too). -/
theorem same_sub_zero (a : S) : Same (a - zero) a := by
  refine den_cases a (fun h => ?_) (fun s h => ?_) fun h => ?_
  · have : den a = .nan := h
    simp [Same, den_sub, this, Rounding.sub]
  · simp [Same, den_sub, h, den_zero, Rounding.sub, Rounding.add_inf_fin, Val.neg]
  · unfold Same
    conv_rhs => rw [← finish_rep_den h]
    rw [sub_finite h finite_zero]
    simp [den_zero]

/-- `a + (-0)` is `a`. -/
theorem same_add_neg_zero (a : S) : Same (a + -zero) a := by
  have h := same_sub_zero a
  unfold Same at *
  rw [← h, den_add, den_sub, den_neg]; rfl

theorem val_add_zero {a : S} (h : ¬ IsNaN a) : ¬ IsNaN (a + zero) ∧ val (a + zero) = val a := by
  refine den_cases a (fun h' => absurd h' h) (fun s h' => ?_) fun h' => ?_
  · have : den (a + zero) = .inf s := by simp [den_add, h', den_zero, Rounding.add_inf_fin]
    simp [IsNaN, val, this, h']
  · have := add_finite h' (finite_zero (S := S))
    simp only [real_zero, add_zero] at this
    rw [Rounding.finish_rep _ h'.rep] at this
    simp [IsNaN, val, this]
    exact (Val.IsFin.ereal h').symm

/-- `a + 0 == a` for every non-NaN `a`. -/
theorem add_zero_beq {a : S} (h : ¬ IsNaN a) : (a + zero == a) = true := by
  have := val_add_zero h
  exact beq_iff.2 ⟨this.1, h, this.2⟩
theorem zero_add_beq {a : S} (h : ¬ IsNaN a) : (zero + a == a) = true := by
  have := val_add_zero h
  have hs := same_add_comm (zero : S) a
  exact beq_iff.2 ⟨fun h' => this.1 (hs.isNaN.1 h'), h, hs.val.trans this.2⟩

/-- `a * 1` is `a`. -/
theorem same_mul_one (a : S) : Same (a * one) a := by
  refine den_cases a (fun h => ?_) (fun s h => ?_) fun h => ?_
  · have : den a = .nan := h
    simp [Same, den_mul, this]
  · simp [Same, den_mul, h, den_one, Rounding.mul_inf_fin, show ¬ ((1 : ℝ) < 0) by norm_num]
  · unfold Same
    conv_rhs => rw [← finish_rep_den h]
    rw [mul_finite h finite_one]
    simp [den_one, show ¬ ((1 : ℝ) < 0) by norm_num]
theorem same_one_mul (a : S) : Same (one * a) a := (same_mul_comm _ _).trans (same_mul_one a)

/-- `a / 1` is `a`. -/
theorem same_div_one (a : S) : Same (a / one) a := by
  refine den_cases a (fun h => ?_) (fun s h => ?_) fun h => ?_
  · have : den a = .nan := h
    simp [Same, den_div, this]
  · simp [Same, den_div, h, den_one, Rounding.div_inf_fin, show ¬ ((1 : ℝ) < 0) by norm_num]
  · unfold Same
    rw [den_div, Rounding.div_fin _ h finite_one]
    conv_rhs => rw [← finish_rep_den h]
    simp [den_one, real, show ¬ ((1 : ℝ) < 0) by norm_num]

theorem same_neg_neg (a : S) : Same (- -a) a := by simp [Same, den_neg]
theorem same_mul_neg (a b : S) : Same (a * -b) (-(a * b)) := by
  simp [Same, den_neg, den_mul, Rounding.mul_neg]
theorem same_neg_mul (a b : S) : Same (-a * b) (-(a * b)) := by
  simp [Same, den_neg, den_mul, Rounding.neg_mul]
theorem same_mul_neg_one (a : S) : Same (a * -one) (-a) :=
  (same_mul_neg a one).trans (same_mul_one a).neg
theorem same_sub (a b : S) : Same (a - b) (a + -b) := by
  simp [Same, den_sub, den_add, den_neg, Rounding.sub]

/-- `a * 2` is `a + a`. -/
theorem same_mul_two (a : S) : Same (a * two) (a + a) := by
  refine den_cases a (fun h => ?_) (fun s h => ?_) fun h => ?_
  · have : den a = .nan := h
    simp [Same, den_mul, den_add, this]
  · simp [Same, den_mul, den_add, h, den_two, Rounding.mul_inf_fin, show ¬ ((2 : ℝ) < 0) by norm_num]
  · unfold Same
    rw [mul_finite h finite_two, add_finite h h]
    simp [den_two, mul_two, show ¬ ((2 : ℝ) < 0) by norm_num]

/-- Finite minus itself is `+0`. -/
theorem same_sub_self {a : S} (h : IsFinite a) : Same (a - a) zero := by
  unfold Same
  rw [sub_finite h h, den_zero]
  simp

theorem zero_mul_finite {a b : S} (ha : IsFinite a) (hb : IsFinite b) (h : real a = 0) :
    IsFinite (a * b) ∧ real (a * b) = 0 := by
  have : den (a * b) = Val.mkZero ((den a).neg? ^^ (den b).neg?) := by
    rw [mul_finite ha hb, h]; simp
  simp [IsFinite, real, this]

/-- Distinct finite scalars have a non-zero (possibly infinite) difference: gradual underflow. -/
theorem sub_eq_zero_iff {a b : S} (ha : IsFinite a) (hb : IsFinite b) :
    val (a - b) = 0 ↔ real a = real b := by
  unfold val
  rw [sub_finite ha hb]
  constructor
  · intro h
    by_contra hne
    have h0 := (IEEE.A S).rnd_sub ha.rep.1 hb.rep.1 hne
    by_cases hf : (IEEE.A S).fits ((IEEE.A S).rnd (real a - real b))
    · rw [Rounding.finish_ereal_of_fits _ hf] at h
      exact h0 (by exact_mod_cast h)
    · rw [Rounding.finish_of_not_fits _ hf] at h
      by_cases hlt : real a - real b < 0 <;> simp [hlt] at h
  · intro h; simp [h]

/-- `a - b == -(b - a)` when it is not NaN. -/
theorem sub_neg_beq {a b : S} (h : ¬ IsNaN (a - b)) : (a - b == -(b - a)) = true := by
  have e : ¬ IsNaN (b - a) ∧ val (a - b) = - val (b - a) := by
    unfold IsNaN at *
    rw [den_sub, Rounding.sub_eq_nan] at *
    refine ⟨fun h' => h (by rcases h' with h' | h' | ⟨s, h', h''⟩ <;> simp_all), ?_⟩
    unfold val; rw [den_sub, den_sub]
    refine den_cases a (fun h' => absurd (.inl h') h) (fun s ha => ?_) fun ha => ?_
    · refine den_cases b (fun h' => absurd (.inr (.inl h')) h) (fun t hb => ?_) fun hb => ?_
      · rw [ha, hb] at h ⊢
        cases s <;> cases t <;> simp [Rounding.sub] at h ⊢
      · rw [ha]
        have hb' : (den b).IsFin := hb
        simp only [Rounding.sub]
        rw [Rounding.add_inf_fin _ _ (Val.neg_isFin.2 hb'), Val.neg_inf, Rounding.add_fin_inf _ hb']
        cases s <;> simp
    · refine den_cases b (fun h' => absurd (.inr (.inl h')) h) (fun t hb => ?_) fun hb => ?_
      · rw [hb]
        have ha' : (den a).IsFin := ha
        simp only [Rounding.sub]
        rw [Rounding.add_inf_fin _ _ (Val.neg_isFin.2 ha'), Val.neg_inf, Rounding.add_fin_inf _ ha']
        cases t <;> simp
      · have ha' : (den a).IsFin := ha
        have hb' : (den b).IsFin := hb
        rw [Rounding.sub_fin _ ha' hb', Rounding.sub_fin _ hb' ha', ← Val.neg_ereal,
          Rounding.finish_neg, neg_sub]
        exact le_antisymm (Rounding.finish_mono _ le_rfl) (Rounding.finish_mono _ le_rfl)
  exact beq_iff.2 ⟨h, by simpa using e.1, by simpa using e.2⟩

theorem beq_symm {a b : S} (h : (a == b) = true) : (b == a) = true := by
  rw [beq_iff] at *; tauto
theorem beq_trans {a b c : S} (h : (a == b) = true) (h' : (b == c) = true) : (a == c) = true := by
  rw [beq_iff] at *; exact ⟨h.1, h'.2.1, h.2.2.trans h'.2.2⟩
theorem beq_self_iff {a : S} : (a == a) = true ↔ ¬ IsNaN a := by rw [beq_iff]; tauto

end IEEE

end VecMath
