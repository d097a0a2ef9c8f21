import re
head='''import Verif.Props.FloatComponent
/-!
# Bounding boxes in IEEE arithmetic (layer F): C24-C34, C36, C37

All statements are about membership (`is_inside`) and Rust's `==`, for every rounding, with NaN and
infinities. `LeAll b.min b.max` ("well-formed") is what `new` guarantees for NaN-free points.
-/

open Classical
set_option linter.unusedSectionVars false

namespace VecMath
open Scalar IEEE
variable {S : Type} [Scalar S] [IEEE S]

/-! ### One dimension -/

/-- `lo <= x && x <= hi` -/
def In1 (lo hi x : S) : Prop := (lo ≤? x) = true ∧ (x ≤? hi) = true

theorem le_trans' {a b c : S} (h : (a ≤? b) = true) (h' : (b ≤? c) = true) : (a ≤? c) = true := by
  rw [le_iff] at *; exact ⟨h.1, h'.2.1, h.2.2.trans h'.2.2⟩
theorem le_antisymm' {a b : S} (h : (a ≤? b) = true) (h' : (b ≤? a) = true) : (a == b) = true := by
  rw [le_iff] at *; exact beq_iff.2 ⟨h.1, h.2.1, le_antisymm h.2.2 h'.2.2⟩
theorem le_nn {a b : S} (h : (a ≤? b) = true) : ¬ IsNaN a ∧ ¬ IsNaN b := by rw [le_iff] at h; tauto
theorem beq_le {a b : S} (h : (a == b) = true) : (a ≤? b) = true := by
  rw [beq_iff] at h; exact le_iff.2 ⟨h.1, h.2.1, h.2.2.le⟩
theorem le_of_vals {a b : S} (ha : ¬ IsNaN a) (hb : ¬ IsNaN b) (h : val a ≤ val b) : (a ≤? b) = true :=
  (le_of_not_nan ha hb).2 h
theorem negInf_le {a : S} (h : ¬ IsNaN a) : ((negInfinity : S) ≤? a) = true :=
  le_of_vals not_nan_negInfinity h (by simp)
theorem le_inf {a : S} (h : ¬ IsNaN a) : (a ≤? (infinity : S)) = true :=
  le_of_vals h not_nan_infinity (by simp)
theorem not_inf_le_negInf : ¬ ((infinity : S) ≤? negInfinity) = true := by
  rw [le_iff]; simp

theorem new_lo_hi {a b : S} (ha : ¬ IsNaN a) (hb : ¬ IsNaN b) : (fmin a b ≤? fmax a b) = true :=
  le_trans' (min_le_left' ha hb) (le_max_left' ha hb)

section union1
variable {al ah bl bh : S} (ha : (al ≤? ah) = true) (hb : (bl ≤? bh) = true)
include ha hb
/-- the lower corner of a union (which passes through `new`) -/
theorem un_lo : (fmin (fmin al bl) (fmax ah bh) == fmin al bl) = true := by
  obtain ⟨n1, n2⟩ := le_nn ha
  obtain ⟨n3, n4⟩ := le_nn hb
  refine beq_iff.2 ⟨min_nn (min_nn n1), min_nn n1, ?_⟩
  rw [le_iff] at ha hb
  rw [val_min (min_nn n1) (max_nn n2), val_min n1 n3, val_max n2 n4]
  exact min_eq_left ((min_le_left _ _).trans (ha.2.2.trans (le_max_left _ _)))
theorem un_hi : (fmax (fmin al bl) (fmax ah bh) == fmax ah bh) = true := by
  obtain ⟨n1, n2⟩ := le_nn ha
  obtain ⟨n3, n4⟩ := le_nn hb
  refine beq_iff.2 ⟨max_nn (min_nn n1), max_nn n2, ?_⟩
  rw [le_iff] at ha hb
  rw [val_max (min_nn n1) (max_nn n2), val_min n1 n3, val_max n2 n4]
  exact max_eq_right ((min_le_left _ _).trans (ha.2.2.trans (le_max_left _ _)))
theorem un_wf : (fmin (fmin al bl) (fmax ah bh) ≤? fmax (fmin al bl) (fmax ah bh)) = true :=
  new_lo_hi (min_nn (le_nn ha).1) (max_nn (le_nn ha).2)
theorem un_lo_l : (fmin (fmin al bl) (fmax ah bh) ≤? al) = true :=
  le_trans' (beq_le (un_lo ha hb)) (min_le_left' (le_nn ha).1 (le_nn hb).1)
theorem un_lo_r : (fmin (fmin al bl) (fmax ah bh) ≤? bl) = true :=
  le_trans' (beq_le (un_lo ha hb)) (min_le_right' (le_nn ha).1 (le_nn hb).1)
theorem un_hi_l : (ah ≤? fmax (fmin al bl) (fmax ah bh)) = true :=
  le_trans' (le_max_left' (le_nn ha).2 (le_nn hb).2) (beq_le (beq_symm (un_hi ha hb)))
theorem un_hi_r : (bh ≤? fmax (fmin al bl) (fmax ah bh)) = true :=
  le_trans' (le_max_right' (le_nn ha).2 (le_nn hb).2) (beq_le (beq_symm (un_hi ha hb)))
theorem un_lo_g {c : S} (h : (c ≤? al) = true) (h' : (c ≤? bl) = true) :
    (c ≤? fmin (fmin al bl) (fmax ah bh)) = true :=
  le_trans' (le_min' h h') (beq_le (beq_symm (un_lo ha hb)))
theorem un_hi_g {c : S} (h : (ah ≤? c) = true) (h' : (bh ≤? c) = true) :
    (fmax (fmin al bl) (fmax ah bh) ≤? c) = true :=
  le_trans' (beq_le (un_hi ha hb)) (max_le' h h')
end union1

/-- The smallest positive facts about an intersection in one dimension. -/
theorem int_lo {al ah bl bh : S} (ha : (al ≤? ah) = true) (hb : (bl ≤? bh) = true)
    (h1 : (bl ≤? ah) = true) (h2 : (al ≤? bh) = true) :
    (fmin (fmax al bl) (fmin ah bh) == fmax al bl) = true ∧
    (fmax (fmax al bl) (fmin ah bh) == fmin ah bh) = true := by
  obtain ⟨n1, n2⟩ := le_nn ha
  obtain ⟨n3, n4⟩ := le_nn hb
  rw [le_iff] at *
  have key : max (val al) (val bl) ≤ min (val ah) (val bh) :=
    max_le (le_min ha.2.2 h2.2.2) (le_min h1.2.2 hb.2.2)
  constructor
  · refine beq_iff.2 ⟨min_nn (max_nn n1), max_nn n1, ?_⟩
    rw [val_min (max_nn n1) (min_nn n2), val_max n1 n3, val_min n2 n4]
    exact min_eq_left key
  · refine beq_iff.2 ⟨max_nn (max_nn n1), min_nn n2, ?_⟩
    rw [val_max (max_nn n1) (min_nn n2), val_max n1 n3, val_min n2 n4]
    exact max_eq_right key
theorem int_in {al ah bl bh x : S} (ha : (al ≤? ah) = true) (hb : (bl ≤? bh) = true)
    (h1 : (bl ≤? ah) = true) (h2 : (al ≤? bh) = true) :
    In1 (fmin (fmax al bl) (fmin ah bh)) (fmax (fmax al bl) (fmin ah bh)) x ↔
    In1 al ah x ∧ In1 bl bh x := by
  obtain ⟨e1, e2⟩ := int_lo ha hb h1 h2
  obtain ⟨n1, n2⟩ := le_nn ha
  obtain ⟨n3, n4⟩ := le_nn hb
  constructor
  · rintro ⟨h3, h4⟩
    have h5 := le_trans' (beq_le (beq_symm e1)) h3
    have h6 := le_trans' h4 (beq_le e2)
    exact ⟨⟨le_trans' (le_max_left' n1 n3) h5, le_trans' h6 (min_le_left' n2 n4)⟩,
      le_trans' (le_max_right' n1 n3) h5, le_trans' h6 (min_le_right' n2 n4)⟩
  · rintro ⟨⟨h3, h4⟩, h5, h6⟩
    exact ⟨le_trans' (beq_le e1) (max_le' h3 h5), le_trans' (le_min' h4 h6) (beq_le (beq_symm e2))⟩
theorem int_comm {al ah bl bh : S} (ha : (al ≤? ah) = true) (hb : (bl ≤? bh) = true)
    (h1 : (bl ≤? ah) = true) (h2 : (al ≤? bh) = true) :
    (fmin (fmax al bl) (fmin ah bh) == fmin (fmax bl al) (fmin bh ah)) = true ∧
    (fmax (fmax al bl) (fmin ah bh) == fmax (fmax bl al) (fmin bh ah)) = true := by
  obtain ⟨e1, e2⟩ := int_lo ha hb h1 h2
  obtain ⟨e3, e4⟩ := int_lo hb ha h2 h1
  obtain ⟨n1, n2⟩ := le_nn ha
  obtain ⟨n3, n4⟩ := le_nn hb
  exact ⟨beq_trans e1 (beq_trans (max_comm' n1 n3) (beq_symm e3)),
    beq_trans e2 (beq_trans (min_comm' n2 n4) (beq_symm e4))⟩

/-! `empty()` in one dimension -/

theorem emp_un_lo {l h : S} (n1 : ¬ IsNaN l) (n2 : ¬ IsNaN h) :
    val (fmin (fmin infinity l) (fmax negInfinity h)) = min (val l) (val h) := by
  rw [val_min (min_nn not_nan_infinity) (max_nn not_nan_negInfinity), val_min not_nan_infinity n1,
    val_max not_nan_negInfinity n2]; simp
theorem emp_un_hi {l h : S} (n1 : ¬ IsNaN l) (n2 : ¬ IsNaN h) :
    val (fmax (fmin infinity l) (fmax negInfinity h)) = max (val l) (val h) := by
  rw [val_max (min_nn not_nan_infinity) (max_nn not_nan_negInfinity), val_min not_nan_infinity n1,
    val_max not_nan_negInfinity n2]; simp
theorem un_emp_lo {l h : S} (n1 : ¬ IsNaN l) (n2 : ¬ IsNaN h) :
    val (fmin (fmin l infinity) (fmax h negInfinity)) = min (val l) (val h) := by
  rw [val_min (min_nn n1) (max_nn n2), val_min n1 not_nan_infinity, val_max n2 not_nan_negInfinity]; simp
theorem un_emp_hi {l h : S} (n1 : ¬ IsNaN l) (n2 : ¬ IsNaN h) :
    val (fmax (fmin l infinity) (fmax h negInfinity)) = max (val l) (val h) := by
  rw [val_max (min_nn n1) (max_nn n2), val_min n1 not_nan_infinity, val_max n2 not_nan_negInfinity]; simp

/-- In one dimension, union with `empty()` (either side) gives `[l, h]` back iff `l <= h`. -/
theorem emp_un_iff {l h : S} :
    ((fmin (fmin infinity l) (fmax negInfinity h) == l) = true ∧
     (fmax (fmin infinity l) (fmax negInfinity h) == h) = true) ↔ (l ≤? h) = true := by
  by_cases n1 : IsNaN l
  · rw [le_iff, beq_iff]; tauto
  by_cases n2 : IsNaN h
  · rw [le_iff, beq_iff, beq_iff]; tauto
  rw [beq_iff, beq_iff, emp_un_lo n1 n2, emp_un_hi n1 n2, le_of_not_nan n1 n2]
  constructor
  · rintro ⟨h1, -⟩; exact min_eq_left_iff.1 h1.2.2
  · intro h1
    exact ⟨⟨min_nn (min_nn not_nan_infinity), n1, min_eq_left h1⟩,
      max_nn (min_nn not_nan_infinity), n2, max_eq_right h1⟩
theorem un_emp_iff {l h : S} :
    ((fmin (fmin l infinity) (fmax h negInfinity) == l) = true ∧
     (fmax (fmin l infinity) (fmax h negInfinity) == h) = true) ↔ (l ≤? h) = true := by
  by_cases n1 : IsNaN l
  · rw [le_iff, beq_iff]; tauto
  by_cases n2 : IsNaN h
  · rw [le_iff, beq_iff, beq_iff]; tauto
  rw [beq_iff, beq_iff, un_emp_lo n1 n2, un_emp_hi n1 n2, le_of_not_nan n1 n2]
  constructor
  · rintro ⟨h1, -⟩; exact min_eq_left_iff.1 h1.2.2
  · intro h1
    exact ⟨⟨min_nn (min_nn n1), n1, min_eq_left h1⟩, max_nn (min_nn n1), n2, max_eq_right h1⟩

/-- Adding one point to `empty()` in one dimension. -/
theorem emp_pt {x : S} (n : ¬ IsNaN x) :
    (fmin (fmin infinity x) (fmax negInfinity x) == x) = true ∧
    (fmax (fmin infinity x) (fmax negInfinity x) == x) = true := emp_un_iff.2 (le_self n)

/-- `empty()` against an interval: only `[-inf, inf]` passes the overlap test. -/
theorem overlap_emp {l h : S} : ((infinity ≤? h) = true ∧ (l ≤? negInfinity) = true) ↔
    ((l == negInfinity) = true ∧ (h == infinity) = true) := by
  rw [le_iff, le_iff, beq_iff, beq_iff]; simp; tauto

/-! ### Ray slabs in one dimension -/

theorem nonneg_max {a b : S} (h : (Scalar.zero ≤? a) = true) : (Scalar.zero ≤? fmax a b) = true := by
  by_cases hb : IsNaN b
  · have := max_nan_right (a := a) hb
    rw [le_iff] at *
    exact ⟨h.1, by rw [this.isNaN]; exact h.2.1, by rw [this.val]; exact h.2.2⟩
  · exact le_trans' h (le_max_left' (le_nn h).2 hb)

theorem sub_neg_of_lt {a b : S} (hb : IsFinite b) (h : (a <? b) = true) :
    ¬ IsNaN (a - b) ∧ val (a - b) < 0 := by
  rw [lt_iff] at h
  refine ⟨isNaN_sub_finite hb h.1, ?_⟩
  by_cases ha : IsFinite a
  · have h2 := sub_finite ha hb
    have h3 : real a < real b := by
      have := h.2.2; rw [ha.val, hb.val] at this; exact_mod_cast this
    refine lt_of_le_of_ne ?_ fun h4 => h3.ne ((sub_eq_zero_iff ha hb).1 h4)
    unfold val; rw [h2]; exact Rounding.finish_nonpos _ (by linarith)
  · rcases Val.not_isFin_iff.1 ha with h1 | ⟨s, h1⟩
    · exact absurd h1 h.1
    · have : s = true := by
        by_contra hs
        have hs : s = false := by simpa using hs
        have := h.2.2
        unfold val at this; rw [h1, hs] at this; simp at this
      subst this
      unfold val; rw [den_sub, h1, Rounding.sub, Rounding.add_inf_fin _ _ (Val.neg_isFin.2 hb)]
      simp
theorem sub_pos_of_lt {a b : S} (hb : IsFinite b) (h : (b <? a) = true) :
    ¬ IsNaN (a - b) ∧ 0 < val (a - b) := by
  rw [lt_iff] at h
  refine ⟨isNaN_sub_finite hb h.2.1, ?_⟩
  by_cases ha : IsFinite a
  · have h2 := sub_finite ha hb
    have h3 : real b < real a := by
      have := h.2.2; rw [ha.val, hb.val] at this; exact_mod_cast this
    refine lt_of_le_of_ne ?_ fun h4 => h3.ne' ((sub_eq_zero_iff ha hb).1 h4.symm)
    unfold val; rw [h2]; exact Rounding.finish_nonneg _ (by linarith)
  · rcases Val.not_isFin_iff.1 ha with h1 | ⟨s, h1⟩
    · exact absurd h1 h.2.1
    · have : s = false := by
        by_contra hs
        have hs : s = true := by simpa using hs
        have := h.2.2
        unfold val at this; rw [h1, hs] at this; simp at this
      subst this
      unfold val; rw [den_sub, h1, Rounding.sub, Rounding.add_inf_fin _ _ (Val.neg_isFin.2 hb)]
      simp

/-- Sign rule for a quotient whose numerator is nonzero. -/
theorem div_sign_val (A : Rounding) {a c : Val} (ha : a ≠ .nan) (hc : c ≠ .nan) (h0 : a.ereal ≠ 0) :
    A.div a c = .nan ∨ ((a.neg? = c.neg? → 0 ≤ (A.div a c).ereal) ∧
      (a.neg? ≠ c.neg? → (A.div a c).ereal ≤ 0)) := by
  induction a using Val.cases_inf_fin with
  | hn => exact absurd rfl ha
  | hi s => induction c using Val.cases_inf_fin with
    | hn => exact absurd rfl hc
    | hi t => left; rfl
    | hf c hc' =>
      right; rw [Rounding.div_inf_fin _ _ hc']
      cases s <;> cases c.neg? <;> simp
  | hf a ha' => induction c using Val.cases_inf_fin with
    | hn => exact absurd rfl hc
    | hi t => right; rw [Rounding.div_fin_inf _ ha']; simp
    | hf c hc' =>
      right
      rw [ha'.ereal] at h0
      have h0' : a.real ≠ 0 := fun h => h0 (by rw [h]; simp)
      rw [Rounding.div_fin _ ha' hc', if_neg h0']
      split_ifs with hz
      · cases a.neg? <;> cases c.neg? <;> simp
      · have sgn : ∀ {v : Val}, v.IsFin → v.real ≠ 0 → (v.neg? = true ↔ v.real < 0) := by
          intro v hv
          refine Val.IsFin.cases (P := fun v => v.real ≠ 0 → (v.neg? = true ↔ v.real < 0)) hv ?_ ?_
          · intro h; simp at h
          · intro x _; simp
        have s1 := sgn ha' h0'
        have s2 := sgn hc' hz
        constructor
        · intro h
          apply Rounding.finish_nonneg
          by_cases ha1 : a.real < 0
          · have hc1 : c.real < 0 := s2.1 (h ▸ s1.2 ha1)
            exact div_nonneg_of_nonpos ha1.le hc1.le
          · have hc1 : ¬ c.real < 0 := fun h' => ha1 (s1.1 (h.trans (s2.2 h')))
            exact div_nonneg (not_lt.1 ha1) (not_lt.1 hc1)
        · intro h
          apply Rounding.finish_nonpos
          by_cases ha1 : a.real < 0
          · have hc1 : ¬ c.real < 0 := fun h' => h ((s1.2 ha1).trans (s2.2 h').symm)
            exact div_nonpos_of_nonpos_of_nonneg ha1.le (not_lt.1 hc1)
          · have hc1 : c.real < 0 := by
              by_contra hc1
              apply h
              rw [Bool.eq_iff_iff, s1, s2]; tauto
            exact div_nonpos_of_nonneg_of_nonpos (not_lt.1 ha1) hc1.le

theorem neg?_of_neg {a : Val} (h : a ≠ .nan) (h0 : a.ereal < 0) : a.neg? = true := by
  induction a using Val.cases_inf_fin with
  | hn => exact absurd rfl h
  | hi s => cases s <;> simp at *
  | hf a ha =>
    revert h0
    refine Val.IsFin.cases (P := fun v => v.ereal < 0 → v.neg? = true) ha (by simp) ?_
    intro x hx; simp at *; exact_mod_cast hx
theorem neg?_of_pos {a : Val} (h : a ≠ .nan) (h0 : 0 < a.ereal) : a.neg? = false := by
  induction a using Val.cases_inf_fin with
  | hn => exact absurd rfl h
  | hi s => cases s <;> simp at *
  | hf a ha =>
    revert h0
    refine Val.IsFin.cases (P := fun v => 0 < v.ereal → v.neg? = false) ha (by simp) ?_
    intro x hx; simp at *
    have : (0:ℝ) < x := by exact_mod_cast hx
    exact this.le

theorem div_nan_inf (A : Rounding) {a c : Val} (ha : a ≠ .nan) (hc : c ≠ .nan) (h0 : a.ereal ≠ 0)
    (h : A.div a c = .nan) : ∃ t, c = .inf t := by
  induction c using Val.cases_inf_fin with
  | hn => exact absurd rfl hc
  | hi t => exact ⟨t, rfl⟩
  | hf c hc' =>
    exfalso
    induction a using Val.cases_inf_fin with
    | hn => exact absurd rfl ha
    | hi s => rw [Rounding.div_inf_fin _ _ hc'] at h; simp at h
    | hf a ha' =>
      rw [ha'.ereal] at h0
      have h0' : a.real ≠ 0 := fun h => h0 (by rw [h]; simp)
      rw [Rounding.div_fin _ ha' hc', if_neg h0'] at h
      split_ifs at h
      exact Rounding.finish_ne_nan _ _ _ h

theorem div_inf_zero (A : Rounding) {a : Val} (ha : a ≠ .nan) (t : Bool) :
    A.div a (.inf t) = .nan ∨ (A.div a (.inf t)).ereal = 0 := by
  induction a using Val.cases_inf_fin with
  | hn => exact absurd rfl ha
  | hi s => left; rfl
  | hf a ha' => right; rw [Rounding.div_fin_inf _ ha']; simp

/-- The slab bounds of a dimension in which the origin is strictly inside: the entry bound is NaN or
`<= 0`, the exit bound NaN or `>= 0`, whatever the direction. -/
theorem slab_strict {l h o d : S} (h1 : (l <? o) = true) (h2 : (o <? h) = true) (hd : ¬ IsNaN d) :
    (IsNaN (fmin ((l - o) / d) ((h - o) / d)) ∨ val (fmin ((l - o) / d) ((h - o) / d)) ≤ 0) ∧
    (IsNaN (fmax ((l - o) / d) ((h - o) / d)) ∨ 0 ≤ val (fmax ((l - o) / d) ((h - o) / d))) := by
  have ho : IsFinite o := by
    have h1' := lt_iff.1 h1
    have h2' := lt_iff.1 h2
    exact finite_iff.2 ⟨h1'.2.1, (h2'.2.2.trans_le le_top).ne, (bot_le.trans_lt h1'.2.2).ne'⟩
  obtain ⟨na, va⟩ := sub_neg_of_lt ho h1
  obtain ⟨nb, vb⟩ := sub_pos_of_lt ho h2
  generalize l - o = a at *
  generalize h - o = b at *
  have da : den (a / d) = (IEEE.A S).div (den a) (den d) := den_div a d
  have db : den (b / d) = (IEEE.A S).div (den b) (den d) := den_div b d
  have sa := div_sign_val (IEEE.A S) na hd va.ne
  have sb := div_sign_val (IEEE.A S) nb hd vb.ne'
  rw [← da, neg?_of_neg na va] at sa
  rw [← db, neg?_of_pos nb vb] at sb
  have ka : IsNaN (a / d) → IsNaN (b / d) ∨ val (b / d) = 0 := fun h => by
    obtain ⟨t, ht⟩ := div_nan_inf _ na hd va.ne (da.symm.trans h)
    unfold IsNaN val; rw [db, ht]; exact div_inf_zero _ nb t
  have kb : IsNaN (b / d) → IsNaN (a / d) ∨ val (a / d) = 0 := fun h => by
    obtain ⟨t, ht⟩ := div_nan_inf _ nb hd vb.ne' (db.symm.trans h)
    unfold IsNaN val; rw [da, ht]; exact div_inf_zero _ na t
  by_cases ia : IsNaN (a / d)
  · have m1 := min_nan_left (b := b / d) ia
    have m2 := max_nan_left (b := b / d) ia
    rw [m1.isNaN, m2.isNaN, m1.val, m2.val]
    rcases ka ia with h | h
    · exact ⟨.inl h, .inl h⟩
    · exact ⟨.inr h.le, .inr h.ge⟩
  by_cases ib : IsNaN (b / d)
  · have m1 := min_nan_right (a := a / d) ib
    have m2 := max_nan_right (a := a / d) ib
    rw [m1.isNaN, m2.isNaN, m1.val, m2.val]
    rcases kb ib with h | h
    · exact ⟨.inl h, .inl h⟩
    · exact ⟨.inr h.le, .inr h.ge⟩
  have sa := sa.resolve_left ia
  have sb := sb.resolve_left ib
  rw [val_min ia ib, val_max ia ib]
  unfold val
  cases hs : (den d).neg? <;> rw [hs] at sa sb <;> simp at sa sb
  · exact ⟨.inr (min_le_iff.2 (.inl sa)), .inr (le_max_iff.2 (.inr sb))⟩
  · exact ⟨.inr (min_le_iff.2 (.inr sb)), .inr (le_max_iff.2 (.inl sa))⟩

/-- One step of the running start: stays numerically zero. -/
theorem start_step {s m : S} (h : (s == Scalar.zero) = true) (hm : IsNaN m ∨ val m ≤ 0) :
    (fmax s m == Scalar.zero) = true := by
  rw [beq_iff, val_zero] at *
  by_cases n : IsNaN m
  · have := max_nan_right (a := s) n
    exact ⟨by rw [this.isNaN]; exact h.1, h.2.1, by rw [this.val]; exact h.2.2⟩
  · refine ⟨max_nn h.1, h.2.1, ?_⟩
    rw [val_max h.1 n, h.2.2]; exact max_eq_left (hm.resolve_left n)
/-- One step of the running end: stays `>= 0`. -/
theorem stop_step {s m : S} (h : (Scalar.zero ≤? s) = true) (hm : IsNaN m ∨ 0 ≤ val m) :
    (Scalar.zero ≤? fmin s m) = true := by
  by_cases n : IsNaN m
  · have := min_nan_right (a := s) n
    rw [le_iff] at *
    exact ⟨h.1, by rw [this.isNaN]; exact h.2.1, by rw [this.val]; exact h.2.2⟩
  · exact le_min' h (le_of_vals not_nan_zero n (by rw [val_zero]; exact hm.resolve_left n))
theorem not_gt_of {s t : S} (h : (s == Scalar.zero) = true) (h' : (Scalar.zero ≤? t) = true) :
    ¬ (s >? t) = true ∧ (s ≤? t) = true := by
  have := le_trans' (beq_le h) h'
  refine ⟨fun h2 => ?_, this⟩
  rw [lt_iff] at h2; rw [le_iff] at this
  exact absurd this.2.2 (not_le.2 h2.2.2)

'''
if __name__=='__main__': tmpl=open('/tmp/w/box_tmpl.lean').read()
def expand(t,n):
    dims=['x','y','z'][:n]
    # ⟪ ... %d ... ⟫ -> ⟨a, b, c⟩ ; ⟪∧ ... ⟫ -> conj ; 
    def rep(m):
        body=m.group(2); kind=m.group(1)
        parts=[]
        for k,d in enumerate(dims):
            sel = {2:['.1','.2'],3:['.1','.2.1','.2.2']}[n][k]
            # interleaved pairs selection for isInside conj  (2n conj): nested
            parts.append(body.replace('%d',d).replace('%s',sel).replace('%D',d.upper()))
        if kind=='∧': return ' ∧ '.join('('+p+')' for p in parts)
        if kind=='∨': return ' ∨ '.join('('+p+')' for p in parts)
        if kind==';': return ', '.join(parts)
        if kind=='&': return '\n'.join(parts)
        if kind=='_': return ' '.join(parts)
        return '⟨'+', '.join(parts)+'⟩'
    t=re.sub(r'⟪([∧;∨&_]?)(.*?)⟫',rep,t,flags=re.S)
    # conditional blocks #2{ ... }# #3{ ... }#
    t=re.sub(r'#%d\{(.*?)\}#'%n,lambda m:m.group(1),t,flags=re.S)
    t=re.sub(r'#%d\{(.*?)\}#'%(5-n),'',t,flags=re.S)
    return t.replace('%n',str(n))
if __name__=='__main__':
    open('/verif/lean/Verif/Props/FloatBox.lean','w').write(head+expand(tmpl,2)+expand(tmpl,3)+'\nend VecMath\n')
