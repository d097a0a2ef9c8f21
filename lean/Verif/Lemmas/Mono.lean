import Verif.Lemmas.Float
/-! # Rounded operations are monotone -/

open Classical

namespace VecMath

namespace Val
theorem eq_inf_of_top {a : Val} (h : a.ereal = ⊤) : a = .inf false := by
  rcases a with _ | s | _ | x
  · simp at h
  · cases s
    · rfl
    · simp at h
  · simp at h
  · simp at h
theorem eq_inf_of_bot {a : Val} (h : a.ereal = ⊥) : a = .inf true := by
  rcases a with _ | s | _ | x
  · simp at h
  · cases s
    · simp at h
    · rfl
  · simp at h
  · simp at h
theorem fin_of_between {a : Val} (hn : a ≠ .nan) (h1 : a.ereal ≠ ⊥) (h2 : a.ereal ≠ ⊤) : a.IsFin :=
  isFin_iff.2 ⟨hn, h2, h1⟩
theorem real_le {a b : Val} (ha : a.IsFin) (hb : b.IsFin) : a.ereal ≤ b.ereal ↔ a.real ≤ b.real := by
  rw [ha.ereal, hb.ereal, EReal.coe_le_coe_iff]
end Val

namespace Rounding
open Val
variable {A : Rounding} {a b a' b' d : Val}

theorem add_ne_nan (h : A.add a b ≠ .nan) : a ≠ .nan ∧ b ≠ .nan := by
  constructor <;> rintro rfl <;> simp at h
theorem mul_ne_nan (h : A.mul a b ≠ .nan) : a ≠ .nan ∧ b ≠ .nan := by
  constructor <;> rintro rfl <;> simp at h
theorem add_bot_left (h : a.ereal = ⊥) (hn : A.add a b ≠ .nan) : (A.add a b).ereal = ⊥ := by
  obtain rfl := eq_inf_of_bot h
  induction b using Val.cases_inf_fin with
  | hn => simp at hn
  | hi s => cases s
            · simp at hn
            · simp
  | hf x hx => rw [add_inf_fin _ _ hx]; rfl
theorem add_top_left (h : a.ereal = ⊤) (hn : A.add a b ≠ .nan) : (A.add a b).ereal = ⊤ := by
  obtain rfl := eq_inf_of_top h
  induction b using Val.cases_inf_fin with
  | hn => simp at hn
  | hi s => cases s
            · simp
            · simp at hn
  | hf x hx => rw [add_inf_fin _ _ hx]; rfl
/-- Rounded addition is monotone. -/
theorem add_mono (h1 : a.ereal ≤ a'.ereal) (h2 : b.ereal ≤ b'.ereal) (hn : A.add a b ≠ .nan)
    (hn' : A.add a' b' ≠ .nan) : (A.add a b).ereal ≤ (A.add a' b').ereal := by
  obtain ⟨na, nb⟩ := add_ne_nan hn
  obtain ⟨na', nb'⟩ := add_ne_nan hn'
  by_cases ha : a.ereal = ⊥
  · rw [add_bot_left ha hn]; exact bot_le
  by_cases hb : b.ereal = ⊥
  · rw [add_comm] at hn ⊢; rw [add_bot_left hb hn]; exact bot_le
  by_cases ha' : a'.ereal = ⊤
  · rw [add_top_left ha' hn']; exact le_top
  by_cases hb' : b'.ereal = ⊤
  · rw [add_comm A a'] at hn' ⊢; rw [add_top_left hb' hn']; exact le_top
  have fa := fin_of_between na ha (h1.trans_lt (lt_top_iff_ne_top.2 ha')).ne
  have fb := fin_of_between nb hb (h2.trans_lt (lt_top_iff_ne_top.2 hb')).ne
  have fa' := fin_of_between na' ((bot_lt_iff_ne_bot.2 ha).trans_le h1).ne' ha'
  have fb' := fin_of_between nb' ((bot_lt_iff_ne_bot.2 hb).trans_le h2).ne' hb'
  rw [real_le fa fa'] at h1
  rw [real_le fb fb'] at h2
  rw [add_fin _ fa fb, add_fin _ fa' fb']
  exact finish_mono _ (by linarith)
theorem mul_top_left (h : a.ereal = ⊤) (hb : 0 ≤ b.ereal) (hn : A.mul a b ≠ .nan) : (A.mul a b).ereal = ⊤ := by
  obtain rfl := eq_inf_of_top h
  induction b using Val.cases_inf_fin with
  | hn => simp at hn
  | hi s => cases s
            · simp
            · simp at hb
  | hf x hx =>
    rw [mul_inf_fin _ _ hx] at hn ⊢
    split_ifs at hn ⊢ with h0
    · simp at hn
    · have : x.neg? = false := by
        rw [hx.ereal, EReal.coe_nonneg] at hb
        revert hb h0
        rcases x with _ | s | _ | y
        · exact hx.elim
        · exact hx.elim
        · intro _ h; simp at h
        · intro hy _; simpa using hy
      simp [this]
/-- Rounded multiplication is monotone on non-negative numbers. -/
theorem mul_mono (ha0 : 0 ≤ a.ereal) (hb0 : 0 ≤ b.ereal) (h1 : a.ereal ≤ a'.ereal) (h2 : b.ereal ≤ b'.ereal)
    (hn : A.mul a b ≠ .nan) (hn' : A.mul a' b' ≠ .nan) : (A.mul a b).ereal ≤ (A.mul a' b').ereal := by
  obtain ⟨na, nb⟩ := mul_ne_nan hn
  obtain ⟨na', nb'⟩ := mul_ne_nan hn'
  by_cases ha' : a'.ereal = ⊤
  · rw [mul_top_left ha' (hb0.trans h2) hn']; exact le_top
  by_cases hb' : b'.ereal = ⊤
  · rw [mul_comm A a'] at hn' ⊢; rw [mul_top_left hb' (ha0.trans h1) hn']; exact le_top
  have bz : (⊥ : EReal) < 0 := EReal.bot_lt_zero
  have fa := fin_of_between na (bz.trans_le ha0).ne' (h1.trans_lt (lt_top_iff_ne_top.2 ha')).ne
  have fb := fin_of_between nb (bz.trans_le hb0).ne' (h2.trans_lt (lt_top_iff_ne_top.2 hb')).ne
  have fa' := fin_of_between na' (bz.trans_le (ha0.trans h1)).ne' ha'
  have fb' := fin_of_between nb' (bz.trans_le (hb0.trans h2)).ne' hb'
  rw [real_le fa fa'] at h1
  rw [real_le fb fb'] at h2
  rw [fa.ereal, EReal.coe_nonneg] at ha0
  rw [fb.ereal, EReal.coe_nonneg] at hb0
  rw [mul_fin _ fa fb, mul_fin _ fa' fb']
  exact finish_mono _ (mul_le_mul h1 h2 hb0 (ha0.trans h1))
/-- Rounded division by a positive number is monotone. -/
theorem div_mono (h1 : a.ereal ≤ a'.ereal) (na : a ≠ .nan) (na' : a' ≠ .nan) (hd : d.IsFin) (h0 : 0 < d.real) :
    (A.div a d).ereal ≤ (A.div a' d).ereal := by
  have hs : d.neg? = false := by
    rcases d with _ | s | _ | y
    · exact hd.elim
    · exact hd.elim
    · simp at h0
    · simpa using h0.le
  by_cases ha : a.ereal = ⊥
  · obtain rfl := eq_inf_of_bot ha
    rw [div_inf_fin _ _ hd, hs]; exact bot_le
  by_cases ha' : a'.ereal = ⊤
  · obtain rfl := eq_inf_of_top ha'
    rw [div_inf_fin _ _ hd, hs]; exact le_top
  have fa := fin_of_between na ha (h1.trans_lt (lt_top_iff_ne_top.2 ha')).ne
  have fa' := fin_of_between na' ((bot_lt_iff_ne_bot.2 ha).trans_le h1).ne' ha'
  rw [real_le fa fa'] at h1
  rw [div_fin _ fa hd, div_fin _ fa' hd, if_neg h0.ne', if_neg h0.ne']
  exact finish_mono _ (div_le_div_of_nonneg_right h1 h0.le)
end Rounding

open Scalar IEEE

namespace IEEE
variable {S : Type} [Scalar S] [IEEE S] {a b a' b' d : S}

theorem nan_of_add (h : ¬ IsNaN (a + b)) : ¬ IsNaN a ∧ ¬ IsNaN b := by
  unfold IsNaN at *; rw [den_add] at h; exact Rounding.add_ne_nan h
theorem nan_of_mul (h : ¬ IsNaN (a * b)) : ¬ IsNaN a ∧ ¬ IsNaN b := by
  unfold IsNaN at *; rw [den_mul] at h; exact Rounding.mul_ne_nan h
theorem nan_of_sub (h : ¬ IsNaN (a - b)) : ¬ IsNaN a ∧ ¬ IsNaN b := by
  have := nan_of_add (a := a) (b := -b) (fun hc => h ((same_sub a b).isNaN.2 hc))
  exact ⟨this.1, fun hc => this.2 (by unfold IsNaN at *; rw [den_neg, hc]; rfl)⟩
theorem val_add_mono (h1 : val a ≤ val a') (h2 : val b ≤ val b') (hn : ¬ IsNaN (a + b)) (hn' : ¬ IsNaN (a' + b')) :
    val (a + b) ≤ val (a' + b') := by
  unfold IsNaN val at *; rw [den_add] at *; rw [den_add] at *; exact Rounding.add_mono h1 h2 hn hn'
theorem val_neg_le (h : val b ≤ val a) : val (-a) ≤ val (-b) := by
  unfold val at *; rw [den_neg, den_neg, Val.neg_ereal, Val.neg_ereal]; exact EReal.neg_le_neg_iff.2 h
theorem val_sub_mono (h1 : val a ≤ val a') (h2 : val b' ≤ val b) (hn : ¬ IsNaN (a - b)) (hn' : ¬ IsNaN (a' - b')) :
    val (a - b) ≤ val (a' - b') := by
  rw [(same_sub a b).val, (same_sub a' b').val]
  exact val_add_mono h1 (val_neg_le h2) (fun hc => hn ((same_sub a b).isNaN.2 hc))
    (fun hc => hn' ((same_sub a' b').isNaN.2 hc))
theorem val_mul_mono (ha : 0 ≤ val a) (hb : 0 ≤ val b) (h1 : val a ≤ val a') (h2 : val b ≤ val b')
    (hn : ¬ IsNaN (a * b)) (hn' : ¬ IsNaN (a' * b')) : val (a * b) ≤ val (a' * b') := by
  unfold IsNaN val at *; rw [den_mul] at *; rw [den_mul] at *; exact Rounding.mul_mono ha hb h1 h2 hn hn'
theorem val_div_mono (h : val a ≤ val a') (na : ¬ IsNaN a) (na' : ¬ IsNaN a') (hd : IsFinite d) (h0 : 0 < real d) :
    val (a / d) ≤ val (a' / d) := by
  unfold IsNaN IsFinite real val at *; rw [den_div, den_div]; exact Rounding.div_mono h na na' hd h0
theorem val_div_anti (h : val a ≤ val a') (na : ¬ IsNaN a) (na' : ¬ IsNaN a') (hd : IsFinite d) (h0 : real d < 0) :
    val (a' / d) ≤ val (a / d) := by
  have key : ∀ x : S, val (x / d) = - val (x / -d) := fun x => by
    unfold val
    rw [den_div, den_div, den_neg, Rounding.div_neg, Val.neg_ereal, neg_neg]
  rw [key, key, EReal.neg_le_neg_iff]
  exact val_div_mono h na na' (finite_neg.2 hd) (by rw [IEEE.real_neg]; linarith)

end IEEE
end VecMath
