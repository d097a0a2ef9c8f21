import Verif.IEEE.Class
/-! # Laws of the IEEE operations on `Val` -/

open Classical

namespace VecMath

namespace Val

@[simp] theorem isFin_fin (x : ℝ) : (fin x).IsFin := trivial
@[simp] theorem isFin_nzero : nzero.IsFin := trivial
@[simp] theorem not_isFin_nan : ¬ nan.IsFin := id
@[simp] theorem not_isFin_inf (s) : ¬ (inf s).IsFin := id
@[simp] theorem neg?_fin (x : ℝ) : (fin x).neg? = decide (x < 0) := rfl
@[simp] theorem neg?_nzero : nzero.neg? = true := rfl
@[simp] theorem neg?_inf (s) : (inf s).neg? = s := rfl
@[simp] theorem real_fin (x : ℝ) : (fin x).real = x := rfl
@[simp] theorem real_nzero : nzero.real = 0 := rfl
@[simp] theorem ereal_fin (x : ℝ) : (fin x).ereal = (x : EReal) := rfl
@[simp] theorem ereal_nzero : nzero.ereal = 0 := rfl
@[simp] theorem ereal_pinf : (inf false).ereal = ⊤ := rfl
@[simp] theorem ereal_ninf : (inf true).ereal = ⊥ := rfl
@[simp] theorem ereal_nan : nan.ereal = 0 := rfl
@[simp] theorem mkZero_true : mkZero true = nzero := rfl
@[simp] theorem mkZero_false : mkZero false = fin 0 := rfl
@[simp] theorem real_mkZero (s) : (mkZero s).real = 0 := by cases s <;> rfl
@[simp] theorem ereal_mkZero (s) : (mkZero s).ereal = 0 := by cases s <;> simp
@[simp] theorem neg?_mkZero (s) : (mkZero s).neg? = s := by cases s <;> simp
@[simp] theorem isFin_mkZero (s) : (mkZero s).IsFin := by cases s <;> simp
@[simp] theorem mkZero_ne_nan (s) : mkZero s ≠ nan := by cases s <;> simp
@[simp] theorem isFin_mk (s x) : (mk s x).IsFin := by unfold mk; split <;> simp
@[simp] theorem real_mk (s x) : (mk s x).real = x := by unfold mk; split <;> simp_all
@[simp] theorem ereal_mk (s x) : (mk s x).ereal = (x : EReal) := by unfold mk; split <;> simp_all
@[simp] theorem mk_ne_nan (s x) : mk s x ≠ nan := by unfold mk; split <;> simp
@[simp] theorem mk_zero (s) : mk s 0 = mkZero s := by simp [mk]
theorem mk_of_ne {s x} (h : x ≠ 0) : mk s x = fin x := by simp [mk, h]

theorem IsFin.ne_nan {a : Val} (h : a.IsFin) : a ≠ nan := by rintro rfl; exact h
theorem IsFin.ereal {a : Val} (h : a.IsFin) : a.ereal = (a.real : EReal) := by
  cases a <;> simp_all

/-- A finite datum is determined by its sign and real value. -/
theorem IsFin.eq_mk {a : Val} (h : a.IsFin) : a = mk a.neg? a.real := by
  rcases a with _ | s | _ | x
  · exact h.elim
  · exact h.elim
  · simp
  · by_cases hx : x = 0
    · subst hx; simp
    · simp [mk_of_ne hx]

theorem cases_inf_fin {P : Val → Prop} (a : Val) (hn : P nan) (hi : ∀ s, P (inf s))
    (hf : ∀ a : Val, a.IsFin → P a) : P a := by
  rcases a with _ | s | _ | x
  · exact hn
  · exact hi s
  · exact hf _ trivial
  · exact hf _ trivial

theorem IsFin.cases {P : Val → Prop} {a : Val} (h : a.IsFin) (hz : P nzero)
    (hf : ∀ x, P (fin x)) : P a := by
  rcases a with _ | s | _ | x
  · exact h.elim
  · exact h.elim
  · exact hz
  · exact hf _

theorem not_isFin_iff {a : Val} : ¬ a.IsFin ↔ a = nan ∨ ∃ s, a = inf s := by
  rcases a with _ | s | _ | x <;> simp

theorem isFin_iff {a : Val} : a.IsFin ↔ a ≠ nan ∧ a.ereal ≠ ⊤ ∧ a.ereal ≠ ⊥ := by
  rcases a with _ | (_|_) | _ | x <;> simp

@[simp] theorem neg_neg (a : Val) : a.neg.neg = a := by
  rcases a with _ | s | _ | x
  · rfl
  · simp [neg]
  · simp [neg]
  · by_cases hx : x = 0 <;> simp [neg, hx]
@[simp] theorem neg_nan : nan.neg = nan := rfl
@[simp] theorem neg_inf (s) : (inf s).neg = inf (!s) := rfl
@[simp] theorem neg_nzero : nzero.neg = fin 0 := rfl
@[simp] theorem neg_mkZero (s) : (mkZero s).neg = mkZero (!s) := by cases s <;> simp [neg]
@[simp] theorem neg_mk (s x) : (mk s x).neg = mk (!s) (-x) := by
  by_cases hx : x = 0
  · subst hx; simp
  · simp [mk, hx, neg]
theorem neg_fin_of_ne {x : ℝ} (hx : x ≠ 0) : (fin x).neg = fin (-x) := by simp [neg, hx]
@[simp] theorem neg_isFin {a : Val} : a.neg.IsFin ↔ a.IsFin := by
  rcases a with _ | s | _ | x <;> simp [neg]
  split <;> simp
@[simp] theorem neg_real (a : Val) : a.neg.real = -a.real := by
  rcases a with _ | s | _ | x
  · simp [neg, real]
  · simp [neg, real]
  · simp
  · unfold neg; by_cases h : x = 0 <;> simp [h]
@[simp] theorem neg_ereal (a : Val) : a.neg.ereal = -a.ereal := by
  rcases a with _ | (_|_) | _ | x <;> simp [neg]
  split <;> simp_all
@[simp] theorem neg_eq_nan {a : Val} : a.neg = nan ↔ a = nan := by
  rcases a with _ | (_|_) | _ | x <;> simp [neg]
  split <;> simp
theorem neg_neg? {a : Val} (h : a ≠ nan) : a.neg.neg? = !a.neg? := by
  rcases a with _ | (_|_) | _ | x
  · exact absurd rfl h
  · rfl
  · rfl
  · simp
  · rcases lt_trichotomy x 0 with hx | hx | hx
    · simp [neg, hx.ne, hx, hx.le]
    · simp [neg, hx]
    · simp [neg, hx.ne', hx, not_lt.2 hx.le]
@[simp] theorem neg_inj {a b : Val} : a.neg = b.neg ↔ a = b :=
  ⟨fun h => by simpa using congrArg neg h, fun h => h ▸ rfl⟩

@[simp] theorem abs_eq_nan {a : Val} : a.abs = nan ↔ a = nan := by
  rcases a with _ | (_|_) | _ | x <;> simp [abs]
@[simp] theorem abs_isFin {a : Val} : a.abs.IsFin ↔ a.IsFin := by
  rcases a with _ | (_|_) | _ | x <;> simp [abs]
@[simp] theorem abs_real (a : Val) : a.abs.real = |a.real| := by
  rcases a with _ | (_|_) | _ | x <;> simp [abs, real]
@[simp] theorem abs_neg (a : Val) : a.neg.abs = a.abs := by
  rcases a with _ | (_|_) | _ | x
  · rfl
  · rfl
  · rfl
  · simp [neg, abs]
  · by_cases h : x = 0 <;> simp [neg, h, abs]
@[simp] theorem abs_abs (a : Val) : a.abs.abs = a.abs := by
  rcases a with _ | (_|_) | _ | x <;> simp [abs]
theorem abs_nonneg {a : Val} : 0 ≤ a.abs.ereal := by
  rcases a with _ | (_|_) | _ | x <;> simp [abs]
theorem abs_neg? (a : Val) : a.abs.neg? = false := by
  rcases a with _ | (_|_) | _ | x <;> simp [abs, neg?]
theorem abs_eq {a : Val} : a.abs = a ∨ a.abs = a.neg := by
  rcases a with _ | (_|_) | _ | x
  · simp [abs]
  · simp [abs]
  · simp [abs]
  · simp [abs]
  · rcases lt_trichotomy x 0 with hx | hx | hx
    · right; simp [abs, neg, hx.ne, abs_of_neg hx]
    · simp [abs, hx]
    · left; simp [abs, abs_of_pos hx]

theorem ereal_eq_zero_iff {a : Val} (h : a ≠ nan) : a.ereal = 0 ↔ a.IsFin ∧ a.real = 0 := by
  rcases a with _ | (_|_) | _ | x <;> simp_all

end Val

namespace Rounding
variable (A : Rounding)

@[simp] theorem rnd_zero : A.rnd 0 = 0 := by
  have := A.rnd_neg 0
  rw [neg_zero] at this; linarith
theorem rnd_nonneg {x : ℝ} (h : 0 ≤ x) : 0 ≤ A.rnd x := by simpa using A.rnd_mono h
theorem rnd_nonpos {x : ℝ} (h : x ≤ 0) : A.rnd x ≤ 0 := by simpa using A.rnd_mono h
theorem rnd_abs (x : ℝ) : A.rnd |x| = |A.rnd x| := by
  rcases abs_cases x with ⟨h, h'⟩ | ⟨h, h'⟩
  · rw [h, abs_of_nonneg (A.rnd_nonneg h')]
  · rw [h, A.rnd_neg, abs_of_nonpos (A.rnd_nonpos h'.le)]
theorem fits_neg {x : ℝ} : A.fits (-x) ↔ A.fits x :=
  ⟨A.fits_mono (by simp), A.fits_mono (by simp)⟩
theorem fits_abs {x : ℝ} : A.fits |x| ↔ A.fits x :=
  ⟨A.fits_mono (by simp), A.fits_mono (by simp)⟩
theorem fits_zero : A.fits 0 := A.fits_mono (by simp) A.fits_two
theorem fits_one : A.fits 1 := A.fits_mono (by norm_num) A.fits_two
theorem fits_half : A.fits (1 / 2) := A.fits_mono (by norm_num [abs_of_pos]) A.fits_two
theorem rep_zero : A.Rep 0 := ⟨A.rnd_zero, A.fits_zero⟩
theorem rep_one : A.Rep 1 := ⟨A.rnd_one, A.fits_one⟩
theorem rep_two : A.Rep 2 := ⟨A.rnd_two, A.fits_two⟩
theorem rep_half : A.Rep (1 / 2) := ⟨A.rnd_half, A.fits_half⟩
variable {A} in
theorem Rep.neg {x : ℝ} (h : A.Rep x) : A.Rep (-x) := ⟨by rw [A.rnd_neg, h.1], A.fits_neg.2 h.2⟩
variable {A} in
theorem Rep.abs {x : ℝ} (h : A.Rep x) : A.Rep |x| := ⟨by rw [A.rnd_abs, h.1], A.fits_abs.2 h.2⟩
theorem fits_rnd_mono {x y : ℝ} (h : |x| ≤ |y|) (hy : A.fits (A.rnd y)) : A.fits (A.rnd x) :=
  A.fits_mono (by rw [← A.rnd_abs, ← A.rnd_abs]; exact A.rnd_mono h) hy

theorem finish_ne_nan (s x) : A.finish s x ≠ .nan := by
  unfold finish; split_ifs <;> simp

@[simp] theorem finish_zero (s) : A.finish s 0 = .mkZero s := by simp [finish]

theorem finish_rep {s x} (h : A.Rep x) : A.finish s x = .mk s x := by
  unfold finish Val.mk
  have h1 := h.1; have h2 := h.2
  split_ifs with a b c <;> simp_all

theorem finish_neg (s x) : (A.finish s x).neg = A.finish (!s) (-x) := by
  unfold finish
  rw [A.rnd_neg]
  by_cases h0 : x = 0
  · simp [h0]
  · have : decide (-x < 0) = !decide (x < 0) := by
      rcases lt_or_gt_of_ne h0 with h | h <;> simp [h, h.le, not_lt.2]
    simp only [h0, neg_eq_zero, if_false, A.fits_neg, this]
    split_ifs with h1 h2
    · simp
    · rw [Val.neg_fin_of_ne h1]
    · rfl

theorem finish_neg? (s x) : (A.finish s x).neg? = if x = 0 then s else decide (x < 0) := by
  unfold finish
  split_ifs with h1 h2 h3
  · simp
  · simp
  · rw [Val.neg?_fin]
    congr 1
    rcases lt_or_gt_of_ne h1 with h | h
    · exact propext ⟨fun _ => h, fun _ => lt_of_le_of_ne (A.rnd_nonpos h.le) h2⟩
    · exact propext ⟨fun h' => absurd h' (not_lt.2 (A.rnd_nonneg h.le)), fun h' => absurd h' (not_lt.2 h.le)⟩
  · rfl

theorem finish_of_fits {s x} (h : A.fits (A.rnd x)) :
    (A.finish s x).IsFin ∧ (A.finish s x).real = A.rnd x := by
  unfold finish
  split_ifs with h1 h2
  · simp [h1]
  · simp [h2]
  · simp

theorem finish_ereal_of_fits {s x} (h : A.fits (A.rnd x)) :
    (A.finish s x).ereal = (A.rnd x : EReal) := by
  have := A.finish_of_fits (s := s) h
  rw [this.1.ereal, this.2]

theorem finish_of_not_fits {s x} (h : ¬ A.fits (A.rnd x)) :
    A.finish s x = .inf (decide (x < 0)) := by
  unfold finish
  have h0 : x ≠ 0 := by rintro rfl; exact h (by simpa using A.fits_zero)
  have h1 : A.rnd x ≠ 0 := fun e => h (by rw [e]; exact A.fits_zero)
  simp [h0, h1, h]

theorem finish_isFin {s x} : (A.finish s x).IsFin ↔ A.fits (A.rnd x) := by
  constructor
  · intro h; by_contra h'; rw [A.finish_of_not_fits h'] at h; exact h
  · exact fun h => (A.finish_of_fits h).1

theorem finish_mono {s t x y} (h : x ≤ y) : (A.finish s x).ereal ≤ (A.finish t y).ereal := by
  by_cases hx : A.fits (A.rnd x) <;> by_cases hy : A.fits (A.rnd y)
  · rw [A.finish_ereal_of_fits hx, A.finish_ereal_of_fits hy]
    exact_mod_cast A.rnd_mono h
  · rw [A.finish_of_not_fits hy]
    by_cases h0 : y < 0
    · exact absurd (A.fits_rnd_mono (by rw [abs_of_neg h0, abs_of_neg (by linarith)]; linarith) hx) hy
    · simp [h0]
  · rw [A.finish_of_not_fits hx]
    by_cases h0 : x < 0
    · simp [h0]
    · rw [not_lt] at h0
      exact absurd (A.fits_rnd_mono (by rw [abs_of_nonneg h0, abs_of_nonneg (by linarith)]; linarith) hy) hx
  · rw [A.finish_of_not_fits hx, A.finish_of_not_fits hy]
    by_cases h0 : x < 0 <;> by_cases h1 : y < 0 <;> simp [h0, h1]
    linarith

theorem finish_nonneg {s x} (h : 0 ≤ x) : 0 ≤ (A.finish s x).ereal := by
  simpa using A.finish_mono (s := s) (t := s) h
theorem finish_nonpos {s x} (h : x ≤ 0) : (A.finish s x).ereal ≤ 0 := by
  simpa using A.finish_mono (s := s) (t := s) h

/-! ### Unfolding the operations on finite and infinite data -/

@[simp] theorem add_nan_left (a) : A.add .nan a = .nan := by cases a <;> rfl
@[simp] theorem add_nan_right (a) : A.add a .nan = .nan := by cases a <;> rfl
@[simp] theorem add_inf_inf (s t) : A.add (.inf s) (.inf t) = if s = t then .inf s else .nan := rfl
theorem add_inf_fin (s) {b : Val} (h : b.IsFin) : A.add (.inf s) b = .inf s := by
  cases b <;> simp_all [add]
theorem add_fin_inf {a : Val} (h : a.IsFin) (t) : A.add a (.inf t) = .inf t := by
  cases a <;> simp_all [add]
theorem add_fin {a b : Val} (ha : a.IsFin) (hb : b.IsFin) :
    A.add a b = A.finish (a.neg? && b.neg?) (a.real + b.real) := by
  cases a <;> cases b <;> simp_all [add]

@[simp] theorem mul_nan_left (a) : A.mul .nan a = .nan := by cases a <;> rfl
@[simp] theorem mul_nan_right (a) : A.mul a .nan = .nan := by cases a <;> rfl
@[simp] theorem mul_inf_inf (s t) : A.mul (.inf s) (.inf t) = .inf (s ^^ t) := rfl
theorem mul_inf_fin (s) {b : Val} (h : b.IsFin) :
    A.mul (.inf s) b = if b.real = 0 then .nan else .inf (s ^^ b.neg?) := by
  cases b <;> simp_all [mul]
theorem mul_fin_inf {a : Val} (h : a.IsFin) (t) :
    A.mul a (.inf t) = if a.real = 0 then .nan else .inf (a.neg? ^^ t) := by
  cases a <;> simp_all [mul]
theorem mul_fin {a b : Val} (ha : a.IsFin) (hb : b.IsFin) :
    A.mul a b = A.finish (a.neg? ^^ b.neg?) (a.real * b.real) := by
  cases a <;> cases b <;> simp_all [mul]

@[simp] theorem div_nan_left (a) : A.div .nan a = .nan := by cases a <;> rfl
@[simp] theorem div_nan_right (a) : A.div a .nan = .nan := by cases a <;> rfl
@[simp] theorem div_inf_inf (s t) : A.div (.inf s) (.inf t) = .nan := rfl
theorem div_inf_fin (s) {b : Val} (h : b.IsFin) : A.div (.inf s) b = .inf (s ^^ b.neg?) := by
  cases b <;> simp_all [div]
theorem div_fin_inf {a : Val} (h : a.IsFin) (t) : A.div a (.inf t) = .mkZero (a.neg? ^^ t) := by
  cases a <;> simp_all [div]
theorem div_fin {a b : Val} (ha : a.IsFin) (hb : b.IsFin) :
    A.div a b = if b.real = 0 then (if a.real = 0 then .nan else .inf (a.neg? ^^ b.neg?))
      else A.finish (a.neg? ^^ b.neg?) (a.real / b.real) := by
  cases a <;> cases b <;> simp_all [div]

theorem add_comm (a b : Val) : A.add a b = A.add b a := by
  induction a using Val.cases_inf_fin with
  | hn => simp
  | hi s => induction b using Val.cases_inf_fin with
    | hn => simp
    | hi t => cases s <;> cases t <;> rfl
    | hf b hb => rw [A.add_inf_fin _ hb, A.add_fin_inf hb]
  | hf a ha => induction b using Val.cases_inf_fin with
    | hn => simp
    | hi t => rw [A.add_inf_fin _ ha, A.add_fin_inf ha]
    | hf b hb => rw [A.add_fin ha hb, A.add_fin hb ha, Bool.and_comm, _root_.add_comm]

theorem mul_comm (a b : Val) : A.mul a b = A.mul b a := by
  induction a using Val.cases_inf_fin with
  | hn => simp
  | hi s => induction b using Val.cases_inf_fin with
    | hn => simp
    | hi t => simp [Bool.xor_comm]
    | hf b hb => rw [A.mul_inf_fin _ hb, A.mul_fin_inf hb, Bool.xor_comm]
  | hf a ha => induction b using Val.cases_inf_fin with
    | hn => simp
    | hi t => rw [A.mul_inf_fin _ ha, A.mul_fin_inf ha, Bool.xor_comm]
    | hf b hb => rw [A.mul_fin ha hb, A.mul_fin hb ha, Bool.xor_comm, _root_.mul_comm]

/-- Negation is exact: it commutes with multiplication on either side. -/
theorem mul_neg (a b : Val) : A.mul a b.neg = (A.mul a b).neg := by
  induction a using Val.cases_inf_fin with
  | hn => simp
  | hi s => induction b using Val.cases_inf_fin with
    | hn => simp
    | hi t => cases s <;> cases t <;> rfl
    | hf b hb =>
      rw [A.mul_inf_fin _ hb, A.mul_inf_fin _ (Val.neg_isFin.2 hb), Val.neg_neg? hb.ne_nan]
      simp; split_ifs <;> simp
  | hf a ha => induction b using Val.cases_inf_fin with
    | hn => simp
    | hi t => rw [Val.neg_inf, A.mul_fin_inf ha, A.mul_fin_inf ha]; split_ifs <;> simp
    | hf b hb =>
      rw [A.mul_fin ha hb, A.mul_fin ha (Val.neg_isFin.2 hb), Val.neg_neg? hb.ne_nan, A.finish_neg]
      simp
theorem neg_mul (a b : Val) : A.mul a.neg b = (A.mul a b).neg := by
  rw [A.mul_comm, A.mul_neg, A.mul_comm]

theorem div_neg (a b : Val) : A.div a b.neg = (A.div a b).neg := by
  induction a using Val.cases_inf_fin with
  | hn => simp
  | hi s => induction b using Val.cases_inf_fin with
    | hn => simp
    | hi t => cases s <;> cases t <;> rfl
    | hf b hb =>
      rw [A.div_inf_fin _ hb, A.div_inf_fin _ (Val.neg_isFin.2 hb), Val.neg_neg? hb.ne_nan]
      simp
  | hf a ha => induction b using Val.cases_inf_fin with
    | hn => simp
    | hi t => rw [Val.neg_inf, A.div_fin_inf ha, A.div_fin_inf ha]; simp
    | hf b hb =>
      rw [A.div_fin ha hb, A.div_fin ha (Val.neg_isFin.2 hb), Val.neg_neg? hb.ne_nan]
      simp only [Val.neg_real, neg_eq_zero, _root_.div_neg]
      split_ifs
      · rfl
      · simp
      · rw [A.finish_neg]; simp
theorem neg_div (a b : Val) : A.div a.neg b = (A.div a b).neg := by
  induction a using Val.cases_inf_fin with
  | hn => simp
  | hi s => induction b using Val.cases_inf_fin with
    | hn => simp
    | hi t => cases s <;> cases t <;> rfl
    | hf b hb =>
      rw [A.div_inf_fin _ hb, Val.neg_inf, A.div_inf_fin _ hb]
      simp
  | hf a ha => induction b using Val.cases_inf_fin with
    | hn => simp
    | hi t => rw [A.div_fin_inf ha, A.div_fin_inf (Val.neg_isFin.2 ha), Val.neg_neg? ha.ne_nan]; simp
    | hf b hb =>
      rw [A.div_fin ha hb, A.div_fin (Val.neg_isFin.2 ha) hb, Val.neg_neg? ha.ne_nan]
      simp only [Val.neg_real, neg_eq_zero, _root_.neg_div]
      split_ifs
      · rfl
      · simp
      · rw [A.finish_neg]; simp

/-- `a + b` is NaN exactly for a NaN operand or infinities of opposite sign. -/
theorem add_eq_nan {a b : Val} : A.add a b = .nan ↔
    a = .nan ∨ b = .nan ∨ (∃ s, a = .inf s ∧ b = .inf (!s)) := by
  induction a using Val.cases_inf_fin with
  | hn => simp
  | hi s => induction b using Val.cases_inf_fin with
    | hn => simp
    | hi t => cases s <;> cases t <;> simp
    | hf b hb => simp [A.add_inf_fin _ hb, hb.ne_nan]; rintro rfl; exact hb
  | hf a ha => induction b using Val.cases_inf_fin with
    | hn => simp
    | hi t => simp [A.add_fin_inf ha, ha.ne_nan]; constructor <;> (rintro rfl; exact ha.elim)
    | hf b hb =>
      simp [A.add_fin ha hb, ha.ne_nan, hb.ne_nan, A.finish_ne_nan]
      constructor <;> (rintro rfl; exact ha.elim)

/-- The sum of two non-negative data is non-negative and not NaN. -/
theorem add_nonneg {a b : Val} (ha : a ≠ .nan) (hb : b ≠ .nan) (ha' : 0 ≤ a.ereal)
    (hb' : 0 ≤ b.ereal) : A.add a b ≠ .nan ∧ 0 ≤ (A.add a b).ereal := by
  induction a using Val.cases_inf_fin with
  | hn => exact absurd rfl ha
  | hi s =>
    cases s with
    | true => simp at ha'
    | false => induction b using Val.cases_inf_fin with
      | hn => exact absurd rfl hb
      | hi t => cases t with
        | true => simp at hb'
        | false => simp
      | hf b hb2 => simp [A.add_inf_fin _ hb2]
  | hf a ha2 => induction b using Val.cases_inf_fin with
    | hn => exact absurd rfl hb
    | hi t => cases t with
      | true => simp at hb'
      | false => simp [A.add_fin_inf ha2]
    | hf b hb2 =>
      rw [A.add_fin ha2 hb2]
      refine ⟨A.finish_ne_nan _ _, A.finish_nonneg ?_⟩
      rw [ha2.ereal] at ha'; rw [hb2.ereal] at hb'
      exact _root_.add_nonneg (by exact_mod_cast ha') (by exact_mod_cast hb')

/-- A square is NaN only for NaN, and is otherwise non-negative. -/
theorem mul_self (a : Val) : (A.mul a a = .nan ↔ a = .nan) ∧ 0 ≤ (A.mul a a).ereal := by
  induction a using Val.cases_inf_fin with
  | hn => simp
  | hi s => simp
  | hf a ha =>
    rw [A.mul_fin ha ha]
    exact ⟨by simp [ha.ne_nan, A.finish_ne_nan], A.finish_nonneg (mul_self_nonneg _)⟩

theorem sqrt_nonneg {a : Val} (h : a ≠ .nan) (h0 : 0 ≤ a.ereal) :
    A.sqrt a ≠ .nan ∧ 0 ≤ (A.sqrt a).ereal := by
  rcases a with _ | (_|_) | _ | x
  · exact absurd rfl h
  · simp [sqrt]
  · simp at h0
  · simp [sqrt]
  · have hx : 0 ≤ x := by simpa using h0
    simp only [sqrt, not_lt.2 hx, if_false]
    exact ⟨A.finish_ne_nan _ _, A.finish_nonneg (Real.sqrt_nonneg _)⟩

@[simp] theorem sqrt_nan : A.sqrt .nan = .nan := rfl

/-- `sqrt` is monotone on non-negative data. -/
theorem sqrt_mono {a b : Val} (ha : a ≠ .nan) (hb : b ≠ .nan) (h0 : 0 ≤ a.ereal)
    (h : a.ereal ≤ b.ereal) : (A.sqrt a).ereal ≤ (A.sqrt b).ereal := by
  have h0' := h0.trans h
  have key : ∀ x, 0 ≤ x → A.sqrt (.fin x) = A.finish false (√x) := fun x hx => by
    simp [sqrt, not_lt.2 hx]
  rcases b with _ | (_|_) | _ | y
  · exact absurd rfl hb
  · simp [sqrt]
  · simp at h0'
  · rcases a with _ | (_|_) | _ | x
    · exact absurd rfl ha
    · simp at h
    · simp at h0
    · simp
    · have h1 : 0 ≤ x := by simpa using h0
      have h2 : x ≤ 0 := by simpa using h
      rw [key x h1, le_antisymm h2 h1]; simp [sqrt]
  · have hy : 0 ≤ y := by simpa using h0'
    rw [key y hy]
    rcases a with _ | (_|_) | _ | x
    · exact absurd rfl ha
    · simp at h
    · simp at h0
    · simpa [sqrt] using A.finish_nonneg (Real.sqrt_nonneg y)
    · have h1 : 0 ≤ x := by simpa using h0
      rw [key x h1]
      exact A.finish_mono (Real.sqrt_le_sqrt (by simpa using h))

theorem sub_eq_nan {a b : Val} : A.sub a b = .nan ↔
    a = .nan ∨ b = .nan ∨ (∃ s, a = .inf s ∧ b = .inf s) := by
  unfold sub
  rw [A.add_eq_nan]
  simp only [Val.neg_eq_nan]
  have : ∀ s, b.neg = .inf (!s) ↔ b = .inf s := fun s => by
    rw [← Val.neg_inf, Val.neg_inj]
  simp [this]

theorem sub_fin {a b : Val} (ha : a.IsFin) (hb : b.IsFin) :
    A.sub a b = A.finish (a.neg? && !b.neg?) (a.real - b.real) := by
  rw [sub, A.add_fin ha (Val.neg_isFin.2 hb), Val.neg_neg? hb.ne_nan, Val.neg_real, sub_eq_add_neg]

theorem neg_add (a b : Val) (ha : a.IsFin → b.IsFin → a.real + b.real ≠ 0) :
    (A.add a b).neg = A.add a.neg b.neg := by
  induction a using Val.cases_inf_fin with
  | hn => simp
  | hi s => induction b using Val.cases_inf_fin with
    | hn => simp
    | hi t => cases s <;> cases t <;> rfl
    | hf b hb => rw [A.add_inf_fin _ hb, Val.neg_inf, A.add_inf_fin _ (Val.neg_isFin.2 hb)]
  | hf a ha' => induction b using Val.cases_inf_fin with
    | hn => simp
    | hi t => rw [A.add_fin_inf ha', Val.neg_inf, A.add_fin_inf (Val.neg_isFin.2 ha')]
    | hf b hb =>
      have := ha ha' hb
      rw [A.add_fin ha' hb, A.finish_neg, A.add_fin (Val.neg_isFin.2 ha') (Val.neg_isFin.2 hb)]
      unfold finish
      simp only [Val.neg_real, show -a.real + -b.real = -(a.real + b.real) by ring, neg_eq_zero, this,
        if_false]

end Rounding

end VecMath
