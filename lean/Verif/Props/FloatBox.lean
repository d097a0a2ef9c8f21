import Verif.Props.FloatComponent
/-!
# Bounding boxes in IEEE arithmetic (layer F): C24-C34, C36, C37

All statements are about membership (`is_inside`) and Rust's `==`, for every rounding, with NaN and
infinities. `LeAll b.min b.max` ("well-formed") is what `new` guarantees for NaN-free points.
-/

open Classical
set_option linter.unusedSectionVars false

namespace VecMath
open Scalar IEEE
variable {S : Type} [Scalar S] [IEEE S]

/-! ### One dimension -/

/-- `lo <= x && x <= hi` -/
def In1 (lo hi x : S) : Prop := (lo ≤? x) = true ∧ (x ≤? hi) = true

theorem le_trans' {a b c : S} (h : (a ≤? b) = true) (h' : (b ≤? c) = true) : (a ≤? c) = true := by
  rw [le_iff] at *; exact ⟨h.1, h'.2.1, h.2.2.trans h'.2.2⟩
theorem le_antisymm' {a b : S} (h : (a ≤? b) = true) (h' : (b ≤? a) = true) : (a == b) = true := by
  rw [le_iff] at *; exact beq_iff.2 ⟨h.1, h.2.1, le_antisymm h.2.2 h'.2.2⟩
theorem le_nn {a b : S} (h : (a ≤? b) = true) : ¬ IsNaN a ∧ ¬ IsNaN b := by rw [le_iff] at h; tauto
theorem beq_le {a b : S} (h : (a == b) = true) : (a ≤? b) = true := by
  rw [beq_iff] at h; exact le_iff.2 ⟨h.1, h.2.1, h.2.2.le⟩
theorem le_of_vals {a b : S} (ha : ¬ IsNaN a) (hb : ¬ IsNaN b) (h : val a ≤ val b) : (a ≤? b) = true :=
  (le_of_not_nan ha hb).2 h
theorem negInf_le {a : S} (h : ¬ IsNaN a) : ((negInfinity : S) ≤? a) = true :=
  le_of_vals not_nan_negInfinity h (by simp)
theorem le_inf {a : S} (h : ¬ IsNaN a) : (a ≤? (infinity : S)) = true :=
  le_of_vals h not_nan_infinity (by simp)
theorem not_inf_le_negInf : ¬ ((infinity : S) ≤? negInfinity) = true := by
  rw [le_iff]; simp

theorem new_lo_hi {a b : S} (ha : ¬ IsNaN a) (hb : ¬ IsNaN b) : (fmin a b ≤? fmax a b) = true :=
  le_trans' (min_le_left' ha hb) (le_max_left' ha hb)

section union1
variable {al ah bl bh : S} (ha : (al ≤? ah) = true) (hb : (bl ≤? bh) = true)
include ha hb
/-- the lower corner of a union (which passes through `new`) -/
theorem un_lo : (fmin (fmin al bl) (fmax ah bh) == fmin al bl) = true := by
  obtain ⟨n1, n2⟩ := le_nn ha
  obtain ⟨n3, n4⟩ := le_nn hb
  refine beq_iff.2 ⟨min_nn (min_nn n1), min_nn n1, ?_⟩
  rw [le_iff] at ha hb
  rw [val_min (min_nn n1) (max_nn n2), val_min n1 n3, val_max n2 n4]
  exact min_eq_left ((min_le_left _ _).trans (ha.2.2.trans (le_max_left _ _)))
theorem un_hi : (fmax (fmin al bl) (fmax ah bh) == fmax ah bh) = true := by
  obtain ⟨n1, n2⟩ := le_nn ha
  obtain ⟨n3, n4⟩ := le_nn hb
  refine beq_iff.2 ⟨max_nn (min_nn n1), max_nn n2, ?_⟩
  rw [le_iff] at ha hb
  rw [val_max (min_nn n1) (max_nn n2), val_min n1 n3, val_max n2 n4]
  exact max_eq_right ((min_le_left _ _).trans (ha.2.2.trans (le_max_left _ _)))
theorem un_wf : (fmin (fmin al bl) (fmax ah bh) ≤? fmax (fmin al bl) (fmax ah bh)) = true :=
  new_lo_hi (min_nn (le_nn ha).1) (max_nn (le_nn ha).2)
theorem un_lo_l : (fmin (fmin al bl) (fmax ah bh) ≤? al) = true :=
  le_trans' (beq_le (un_lo ha hb)) (min_le_left' (le_nn ha).1 (le_nn hb).1)
theorem un_lo_r : (fmin (fmin al bl) (fmax ah bh) ≤? bl) = true :=
  le_trans' (beq_le (un_lo ha hb)) (min_le_right' (le_nn ha).1 (le_nn hb).1)
theorem un_hi_l : (ah ≤? fmax (fmin al bl) (fmax ah bh)) = true :=
  le_trans' (le_max_left' (le_nn ha).2 (le_nn hb).2) (beq_le (beq_symm (un_hi ha hb)))
theorem un_hi_r : (bh ≤? fmax (fmin al bl) (fmax ah bh)) = true :=
  le_trans' (le_max_right' (le_nn ha).2 (le_nn hb).2) (beq_le (beq_symm (un_hi ha hb)))
theorem un_lo_g {c : S} (h : (c ≤? al) = true) (h' : (c ≤? bl) = true) :
    (c ≤? fmin (fmin al bl) (fmax ah bh)) = true :=
  le_trans' (le_min' h h') (beq_le (beq_symm (un_lo ha hb)))
theorem un_hi_g {c : S} (h : (ah ≤? c) = true) (h' : (bh ≤? c) = true) :
    (fmax (fmin al bl) (fmax ah bh) ≤? c) = true :=
  le_trans' (beq_le (un_hi ha hb)) (max_le' h h')
end union1

/-- The smallest positive facts about an intersection in one dimension. -/
theorem int_lo {al ah bl bh : S} (ha : (al ≤? ah) = true) (hb : (bl ≤? bh) = true)
    (h1 : (bl ≤? ah) = true) (h2 : (al ≤? bh) = true) :
    (fmin (fmax al bl) (fmin ah bh) == fmax al bl) = true ∧
    (fmax (fmax al bl) (fmin ah bh) == fmin ah bh) = true := by
  obtain ⟨n1, n2⟩ := le_nn ha
  obtain ⟨n3, n4⟩ := le_nn hb
  rw [le_iff] at *
  have key : max (val al) (val bl) ≤ min (val ah) (val bh) :=
    max_le (le_min ha.2.2 h2.2.2) (le_min h1.2.2 hb.2.2)
  constructor
  · refine beq_iff.2 ⟨min_nn (max_nn n1), max_nn n1, ?_⟩
    rw [val_min (max_nn n1) (min_nn n2), val_max n1 n3, val_min n2 n4]
    exact min_eq_left key
  · refine beq_iff.2 ⟨max_nn (max_nn n1), min_nn n2, ?_⟩
    rw [val_max (max_nn n1) (min_nn n2), val_max n1 n3, val_min n2 n4]
    exact max_eq_right key
theorem int_in {al ah bl bh x : S} (ha : (al ≤? ah) = true) (hb : (bl ≤? bh) = true)
    (h1 : (bl ≤? ah) = true) (h2 : (al ≤? bh) = true) :
    In1 (fmin (fmax al bl) (fmin ah bh)) (fmax (fmax al bl) (fmin ah bh)) x ↔
    In1 al ah x ∧ In1 bl bh x := by
  obtain ⟨e1, e2⟩ := int_lo ha hb h1 h2
  obtain ⟨n1, n2⟩ := le_nn ha
  obtain ⟨n3, n4⟩ := le_nn hb
  constructor
  · rintro ⟨h3, h4⟩
    have h5 := le_trans' (beq_le (beq_symm e1)) h3
    have h6 := le_trans' h4 (beq_le e2)
    exact ⟨⟨le_trans' (le_max_left' n1 n3) h5, le_trans' h6 (min_le_left' n2 n4)⟩,
      le_trans' (le_max_right' n1 n3) h5, le_trans' h6 (min_le_right' n2 n4)⟩
  · rintro ⟨⟨h3, h4⟩, h5, h6⟩
    exact ⟨le_trans' (beq_le e1) (max_le' h3 h5), le_trans' (le_min' h4 h6) (beq_le (beq_symm e2))⟩
theorem int_comm {al ah bl bh : S} (ha : (al ≤? ah) = true) (hb : (bl ≤? bh) = true)
    (h1 : (bl ≤? ah) = true) (h2 : (al ≤? bh) = true) :
    (fmin (fmax al bl) (fmin ah bh) == fmin (fmax bl al) (fmin bh ah)) = true ∧
    (fmax (fmax al bl) (fmin ah bh) == fmax (fmax bl al) (fmin bh ah)) = true := by
  obtain ⟨e1, e2⟩ := int_lo ha hb h1 h2
  obtain ⟨e3, e4⟩ := int_lo hb ha h2 h1
  obtain ⟨n1, n2⟩ := le_nn ha
  obtain ⟨n3, n4⟩ := le_nn hb
  exact ⟨beq_trans e1 (beq_trans (max_comm' n1 n3) (beq_symm e3)),
    beq_trans e2 (beq_trans (min_comm' n2 n4) (beq_symm e4))⟩

/-! `empty()` in one dimension -/

theorem emp_un_lo {l h : S} (n1 : ¬ IsNaN l) (n2 : ¬ IsNaN h) :
    val (fmin (fmin infinity l) (fmax negInfinity h)) = min (val l) (val h) := by
  rw [val_min (min_nn not_nan_infinity) (max_nn not_nan_negInfinity), val_min not_nan_infinity n1,
    val_max not_nan_negInfinity n2]; simp
theorem emp_un_hi {l h : S} (n1 : ¬ IsNaN l) (n2 : ¬ IsNaN h) :
    val (fmax (fmin infinity l) (fmax negInfinity h)) = max (val l) (val h) := by
  rw [val_max (min_nn not_nan_infinity) (max_nn not_nan_negInfinity), val_min not_nan_infinity n1,
    val_max not_nan_negInfinity n2]; simp
theorem un_emp_lo {l h : S} (n1 : ¬ IsNaN l) (n2 : ¬ IsNaN h) :
    val (fmin (fmin l infinity) (fmax h negInfinity)) = min (val l) (val h) := by
  rw [val_min (min_nn n1) (max_nn n2), val_min n1 not_nan_infinity, val_max n2 not_nan_negInfinity]; simp
theorem un_emp_hi {l h : S} (n1 : ¬ IsNaN l) (n2 : ¬ IsNaN h) :
    val (fmax (fmin l infinity) (fmax h negInfinity)) = max (val l) (val h) := by
  rw [val_max (min_nn n1) (max_nn n2), val_min n1 not_nan_infinity, val_max n2 not_nan_negInfinity]; simp

/-- In one dimension, union with `empty()` (either side) gives `[l, h]` back iff `l <= h`. -/
theorem emp_un_iff {l h : S} :
    ((fmin (fmin infinity l) (fmax negInfinity h) == l) = true ∧
     (fmax (fmin infinity l) (fmax negInfinity h) == h) = true) ↔ (l ≤? h) = true := by
  by_cases n1 : IsNaN l
  · rw [le_iff, beq_iff]; tauto
  by_cases n2 : IsNaN h
  · rw [le_iff, beq_iff, beq_iff]; tauto
  rw [beq_iff, beq_iff, emp_un_lo n1 n2, emp_un_hi n1 n2, le_of_not_nan n1 n2]
  constructor
  · rintro ⟨h1, -⟩; exact min_eq_left_iff.1 h1.2.2
  · intro h1
    exact ⟨⟨min_nn (min_nn not_nan_infinity), n1, min_eq_left h1⟩,
      max_nn (min_nn not_nan_infinity), n2, max_eq_right h1⟩
theorem un_emp_iff {l h : S} :
    ((fmin (fmin l infinity) (fmax h negInfinity) == l) = true ∧
     (fmax (fmin l infinity) (fmax h negInfinity) == h) = true) ↔ (l ≤? h) = true := by
  by_cases n1 : IsNaN l
  · rw [le_iff, beq_iff]; tauto
  by_cases n2 : IsNaN h
  · rw [le_iff, beq_iff, beq_iff]; tauto
  rw [beq_iff, beq_iff, un_emp_lo n1 n2, un_emp_hi n1 n2, le_of_not_nan n1 n2]
  constructor
  · rintro ⟨h1, -⟩; exact min_eq_left_iff.1 h1.2.2
  · intro h1
    exact ⟨⟨min_nn (min_nn n1), n1, min_eq_left h1⟩, max_nn (min_nn n1), n2, max_eq_right h1⟩

/-- Adding one point to `empty()` in one dimension. -/
theorem emp_pt {x : S} (n : ¬ IsNaN x) :
    (fmin (fmin infinity x) (fmax negInfinity x) == x) = true ∧
    (fmax (fmin infinity x) (fmax negInfinity x) == x) = true := emp_un_iff.2 (le_self n)

/-- `empty()` against an interval: only `[-inf, inf]` passes the overlap test. -/
theorem overlap_emp {l h : S} : ((infinity ≤? h) = true ∧ (l ≤? negInfinity) = true) ↔
    ((l == negInfinity) = true ∧ (h == infinity) = true) := by
  rw [le_iff, le_iff, beq_iff, beq_iff]; simp; tauto

/-! ### Ray slabs in one dimension -/

theorem nonneg_max {a b : S} (h : (Scalar.zero ≤? a) = true) : (Scalar.zero ≤? fmax a b) = true := by
  by_cases hb : IsNaN b
  · have := max_nan_right (a := a) hb
    rw [le_iff] at *
    exact ⟨h.1, by rw [this.isNaN]; exact h.2.1, by rw [this.val]; exact h.2.2⟩
  · exact le_trans' h (le_max_left' (le_nn h).2 hb)

theorem sub_neg_of_lt {a b : S} (hb : IsFinite b) (h : (a <? b) = true) :
    ¬ IsNaN (a - b) ∧ val (a - b) < 0 := by
  rw [lt_iff] at h
  refine ⟨isNaN_sub_finite hb h.1, ?_⟩
  by_cases ha : IsFinite a
  · have h2 := sub_finite ha hb
    have h3 : real a < real b := by
      have := h.2.2; rw [ha.val, hb.val] at this; exact_mod_cast this
    refine lt_of_le_of_ne ?_ fun h4 => h3.ne ((sub_eq_zero_iff ha hb).1 h4)
    unfold val; rw [h2]; exact Rounding.finish_nonpos _ (by linarith)
  · rcases Val.not_isFin_iff.1 ha with h1 | ⟨s, h1⟩
    · exact absurd h1 h.1
    · have : s = true := by
        by_contra hs
        have hs : s = false := by simpa using hs
        have := h.2.2
        unfold val at this; rw [h1, hs] at this; simp at this
      subst this
      unfold val; rw [den_sub, h1, Rounding.sub, Rounding.add_inf_fin _ _ (Val.neg_isFin.2 hb)]
      simp
theorem sub_pos_of_lt {a b : S} (hb : IsFinite b) (h : (b <? a) = true) :
    ¬ IsNaN (a - b) ∧ 0 < val (a - b) := by
  rw [lt_iff] at h
  refine ⟨isNaN_sub_finite hb h.2.1, ?_⟩
  by_cases ha : IsFinite a
  · have h2 := sub_finite ha hb
    have h3 : real b < real a := by
      have := h.2.2; rw [ha.val, hb.val] at this; exact_mod_cast this
    refine lt_of_le_of_ne ?_ fun h4 => h3.ne' ((sub_eq_zero_iff ha hb).1 h4.symm)
    unfold val; rw [h2]; exact Rounding.finish_nonneg _ (by linarith)
  · rcases Val.not_isFin_iff.1 ha with h1 | ⟨s, h1⟩
    · exact absurd h1 h.2.1
    · have : s = false := by
        by_contra hs
        have hs : s = true := by simpa using hs
        have := h.2.2
        unfold val at this; rw [h1, hs] at this; simp at this
      subst this
      unfold val; rw [den_sub, h1, Rounding.sub, Rounding.add_inf_fin _ _ (Val.neg_isFin.2 hb)]
      simp

/-- Sign rule for a quotient whose numerator is nonzero. -/
theorem div_sign_val (A : Rounding) {a c : Val} (ha : a ≠ .nan) (hc : c ≠ .nan) (h0 : a.ereal ≠ 0) :
    A.div a c = .nan ∨ ((a.neg? = c.neg? → 0 ≤ (A.div a c).ereal) ∧
      (a.neg? ≠ c.neg? → (A.div a c).ereal ≤ 0)) := by
  induction a using Val.cases_inf_fin with
  | hn => exact absurd rfl ha
  | hi s => induction c using Val.cases_inf_fin with
    | hn => exact absurd rfl hc
    | hi t => left; rfl
    | hf c hc' =>
      right; rw [Rounding.div_inf_fin _ _ hc']
      cases s <;> cases c.neg? <;> simp
  | hf a ha' => induction c using Val.cases_inf_fin with
    | hn => exact absurd rfl hc
    | hi t => right; rw [Rounding.div_fin_inf _ ha']; simp
    | hf c hc' =>
      right
      rw [ha'.ereal] at h0
      have h0' : a.real ≠ 0 := fun h => h0 (by rw [h]; simp)
      rw [Rounding.div_fin _ ha' hc', if_neg h0']
      split_ifs with hz
      · cases a.neg? <;> cases c.neg? <;> simp
      · have sgn : ∀ {v : Val}, v.IsFin → v.real ≠ 0 → (v.neg? = true ↔ v.real < 0) := by
          intro v hv
          refine Val.IsFin.cases (P := fun v => v.real ≠ 0 → (v.neg? = true ↔ v.real < 0)) hv ?_ ?_
          · intro h; simp at h
          · intro x _; simp
        have s1 := sgn ha' h0'
        have s2 := sgn hc' hz
        constructor
        · intro h
          apply Rounding.finish_nonneg
          by_cases ha1 : a.real < 0
          · have hc1 : c.real < 0 := s2.1 (h ▸ s1.2 ha1)
            exact div_nonneg_of_nonpos ha1.le hc1.le
          · have hc1 : ¬ c.real < 0 := fun h' => ha1 (s1.1 (h.trans (s2.2 h')))
            exact div_nonneg (not_lt.1 ha1) (not_lt.1 hc1)
        · intro h
          apply Rounding.finish_nonpos
          by_cases ha1 : a.real < 0
          · have hc1 : ¬ c.real < 0 := fun h' => h ((s1.2 ha1).trans (s2.2 h').symm)
            exact div_nonpos_of_nonpos_of_nonneg ha1.le (not_lt.1 hc1)
          · have hc1 : c.real < 0 := by
              by_contra hc1
              apply h
              rw [Bool.eq_iff_iff, s1, s2]; tauto
            exact div_nonpos_of_nonneg_of_nonpos (not_lt.1 ha1) hc1.le

theorem neg?_of_neg {a : Val} (h : a ≠ .nan) (h0 : a.ereal < 0) : a.neg? = true := by
  induction a using Val.cases_inf_fin with
  | hn => exact absurd rfl h
  | hi s => cases s <;> simp at *
  | hf a ha =>
    revert h0
    refine Val.IsFin.cases (P := fun v => v.ereal < 0 → v.neg? = true) ha (by simp) ?_
    intro x hx; simp at *; exact_mod_cast hx
theorem neg?_of_pos {a : Val} (h : a ≠ .nan) (h0 : 0 < a.ereal) : a.neg? = false := by
  induction a using Val.cases_inf_fin with
  | hn => exact absurd rfl h
  | hi s => cases s <;> simp at *
  | hf a ha =>
    revert h0
    refine Val.IsFin.cases (P := fun v => 0 < v.ereal → v.neg? = false) ha (by simp) ?_
    intro x hx; simp at *
    have : (0:ℝ) < x := by exact_mod_cast hx
    exact this.le

theorem div_nan_inf (A : Rounding) {a c : Val} (ha : a ≠ .nan) (hc : c ≠ .nan) (h0 : a.ereal ≠ 0)
    (h : A.div a c = .nan) : ∃ t, c = .inf t := by
  induction c using Val.cases_inf_fin with
  | hn => exact absurd rfl hc
  | hi t => exact ⟨t, rfl⟩
  | hf c hc' =>
    exfalso
    induction a using Val.cases_inf_fin with
    | hn => exact absurd rfl ha
    | hi s => rw [Rounding.div_inf_fin _ _ hc'] at h; simp at h
    | hf a ha' =>
      rw [ha'.ereal] at h0
      have h0' : a.real ≠ 0 := fun h => h0 (by rw [h]; simp)
      rw [Rounding.div_fin _ ha' hc', if_neg h0'] at h
      split_ifs at h
      exact Rounding.finish_ne_nan _ _ _ h

theorem div_inf_zero (A : Rounding) {a : Val} (ha : a ≠ .nan) (t : Bool) :
    A.div a (.inf t) = .nan ∨ (A.div a (.inf t)).ereal = 0 := by
  induction a using Val.cases_inf_fin with
  | hn => exact absurd rfl ha
  | hi s => left; rfl
  | hf a ha' => right; rw [Rounding.div_fin_inf _ ha']; simp

/-- The slab bounds of a dimension in which the origin is strictly inside: the entry bound is NaN or
`<= 0`, the exit bound NaN or `>= 0`, whatever the direction. -/
theorem slab_strict {l h o d : S} (h1 : (l <? o) = true) (h2 : (o <? h) = true) (hd : ¬ IsNaN d) :
    (IsNaN (fmin ((l - o) / d) ((h - o) / d)) ∨ val (fmin ((l - o) / d) ((h - o) / d)) ≤ 0) ∧
    (IsNaN (fmax ((l - o) / d) ((h - o) / d)) ∨ 0 ≤ val (fmax ((l - o) / d) ((h - o) / d))) := by
  have ho : IsFinite o := by
    have h1' := lt_iff.1 h1
    have h2' := lt_iff.1 h2
    exact finite_iff.2 ⟨h1'.2.1, (h2'.2.2.trans_le le_top).ne, (bot_le.trans_lt h1'.2.2).ne'⟩
  obtain ⟨na, va⟩ := sub_neg_of_lt ho h1
  obtain ⟨nb, vb⟩ := sub_pos_of_lt ho h2
  generalize l - o = a at *
  generalize h - o = b at *
  have da : den (a / d) = (IEEE.A S).div (den a) (den d) := den_div a d
  have db : den (b / d) = (IEEE.A S).div (den b) (den d) := den_div b d
  have sa := div_sign_val (IEEE.A S) na hd va.ne
  have sb := div_sign_val (IEEE.A S) nb hd vb.ne'
  rw [← da, neg?_of_neg na va] at sa
  rw [← db, neg?_of_pos nb vb] at sb
  have ka : IsNaN (a / d) → IsNaN (b / d) ∨ val (b / d) = 0 := fun h => by
    obtain ⟨t, ht⟩ := div_nan_inf _ na hd va.ne (da.symm.trans h)
    unfold IsNaN val; rw [db, ht]; exact div_inf_zero _ nb t
  have kb : IsNaN (b / d) → IsNaN (a / d) ∨ val (a / d) = 0 := fun h => by
    obtain ⟨t, ht⟩ := div_nan_inf _ nb hd vb.ne' (db.symm.trans h)
    unfold IsNaN val; rw [da, ht]; exact div_inf_zero _ na t
  by_cases ia : IsNaN (a / d)
  · have m1 := min_nan_left (b := b / d) ia
    have m2 := max_nan_left (b := b / d) ia
    rw [m1.isNaN, m2.isNaN, m1.val, m2.val]
    rcases ka ia with h | h
    · exact ⟨.inl h, .inl h⟩
    · exact ⟨.inr h.le, .inr h.ge⟩
  by_cases ib : IsNaN (b / d)
  · have m1 := min_nan_right (a := a / d) ib
    have m2 := max_nan_right (a := a / d) ib
    rw [m1.isNaN, m2.isNaN, m1.val, m2.val]
    rcases kb ib with h | h
    · exact ⟨.inl h, .inl h⟩
    · exact ⟨.inr h.le, .inr h.ge⟩
  have sa := sa.resolve_left ia
  have sb := sb.resolve_left ib
  rw [val_min ia ib, val_max ia ib]
  unfold val
  cases hs : (den d).neg? <;> rw [hs] at sa sb <;> simp at sa sb
  · exact ⟨.inr (min_le_iff.2 (.inl sa)), .inr (le_max_iff.2 (.inr sb))⟩
  · exact ⟨.inr (min_le_iff.2 (.inr sb)), .inr (le_max_iff.2 (.inl sa))⟩

/-- One step of the running start: stays numerically zero. -/
theorem start_step {s m : S} (h : (s == Scalar.zero) = true) (hm : IsNaN m ∨ val m ≤ 0) :
    (fmax s m == Scalar.zero) = true := by
  rw [beq_iff, val_zero] at *
  by_cases n : IsNaN m
  · have := max_nan_right (a := s) n
    exact ⟨by rw [this.isNaN]; exact h.1, h.2.1, by rw [this.val]; exact h.2.2⟩
  · refine ⟨max_nn h.1, h.2.1, ?_⟩
    rw [val_max h.1 n, h.2.2]; exact max_eq_left (hm.resolve_left n)
/-- One step of the running end: stays `>= 0`. -/
theorem stop_step {s m : S} (h : (Scalar.zero ≤? s) = true) (hm : IsNaN m ∨ 0 ≤ val m) :
    (Scalar.zero ≤? fmin s m) = true := by
  by_cases n : IsNaN m
  · have := min_nan_right (a := s) n
    rw [le_iff] at *
    exact ⟨h.1, by rw [this.isNaN]; exact h.2.1, by rw [this.val]; exact h.2.2⟩
  · exact le_min' h (le_of_vals not_nan_zero n (by rw [val_zero]; exact hm.resolve_left n))
theorem not_gt_of {s t : S} (h : (s == Scalar.zero) = true) (h' : (Scalar.zero ≤? t) = true) :
    ¬ (s >? t) = true ∧ (s ≤? t) = true := by
  have := le_trans' (beq_le h) h'
  refine ⟨fun h2 => ?_, this⟩
  rw [lt_iff] at h2; rw [le_iff] at this
  exact absurd this.2.2 (not_le.2 h2.2.2)

/-! ## 2D boxes -/

section dim2
variable {a b c : BoundingBox2 S} {p q r : Point2 S}

omit [IEEE S] in
theorem isInside2_iff : b.isInside p = true ↔ (In1 b.min.x b.max.x p.x) ∧ (In1 b.min.y b.max.y p.y) := by
  simp only [BoundingBox2.isInside, In1, Bool.and_eq_true]; tauto
theorem wf2_iff : LeAll b.min b.max ↔ ((b.min.x ≤? b.max.x) = true) ∧ ((b.min.y ≤? b.max.y) = true) := Point2.leAll
theorem wf2_min (h : LeAll b.min b.max) : b.isInside b.min = true := by
  rw [wf2_iff] at h
  exact isInside2_iff.2 ⟨⟨le_self (le_nn h.1).1, h.1⟩, ⟨le_self (le_nn h.2).1, h.2⟩⟩
theorem wf2_max (h : LeAll b.min b.max) : b.isInside b.max = true := by
  rw [wf2_iff] at h
  exact isInside2_iff.2 ⟨⟨h.1, le_self (le_nn h.1).2⟩, ⟨h.2, le_self (le_nn h.2).2⟩⟩

/-! ### C24: new -/

theorem C24_new2 (p q : Point2 S) (hp : NoNaN p) (hq : NoNaN q) :
    LeAll (BoundingBox2.new p q).min (BoundingBox2.new p q).max ∧
    (BoundingBox2.new p q).isInside p = true ∧ (BoundingBox2.new p q).isInside q = true ∧
    (∀ b : BoundingBox2 S, b.isInside p = true → b.isInside q = true →
      ∀ r, (BoundingBox2.new p q).isInside r = true → b.isInside r = true) ∧
    (BoundingBox2.new p q == BoundingBox2.new q p) = true := by
  rw [Point2.noNaN] at hp hq
  refine ⟨wf2_iff.2 ⟨new_lo_hi hp.1 hq.1, new_lo_hi hp.2 hq.2⟩,
    isInside2_iff.2 ⟨⟨min_le_left' hp.1 hq.1, le_max_left' hp.1 hq.1⟩, ⟨min_le_left' hp.2 hq.2, le_max_left' hp.2 hq.2⟩⟩,
    isInside2_iff.2 ⟨⟨min_le_right' hp.1 hq.1, le_max_right' hp.1 hq.1⟩, ⟨min_le_right' hp.2 hq.2, le_max_right' hp.2 hq.2⟩⟩,
    fun b h1 h2 r h3 => ?_,
    BoundingBox2.beq_iff.2 ⟨Point2.beq_iff.2 ⟨min_comm' hp.1 hq.1, min_comm' hp.2 hq.2⟩,
      Point2.beq_iff.2 ⟨max_comm' hp.1 hq.1, max_comm' hp.2 hq.2⟩⟩⟩
  rw [isInside2_iff] at *
  exact ⟨⟨le_trans' (le_min' h1.1.1 h2.1.1) h3.1.1, le_trans' h3.1.2 (max_le' h1.1.2 h2.1.2)⟩, ⟨le_trans' (le_min' h1.2.1 h2.2.1) h3.2.1, le_trans' h3.2.2 (max_le' h1.2.2 h2.2.2)⟩⟩

/-- A NaN coordinate of one point is replaced by the other's. -/
theorem C24_new_nan2 (p q : Point2 S) :
    ((IsNaN p.x → Same (BoundingBox2.new p q).min.x q.x ∧ Same (BoundingBox2.new p q).max.x q.x) ∧
     (IsNaN q.x → Same (BoundingBox2.new p q).min.x p.x ∧ Same (BoundingBox2.new p q).max.x p.x)) ∧ ((IsNaN p.y → Same (BoundingBox2.new p q).min.y q.y ∧ Same (BoundingBox2.new p q).max.y q.y) ∧
     (IsNaN q.y → Same (BoundingBox2.new p q).min.y p.y ∧ Same (BoundingBox2.new p q).max.y p.y)) :=
  ⟨⟨fun h => ⟨min_nan_left h, max_nan_left h⟩, fun h => ⟨min_nan_right h, max_nan_right h⟩⟩, ⟨fun h => ⟨min_nan_left h, max_nan_left h⟩, fun h => ⟨min_nan_right h, max_nan_right h⟩⟩⟩

example : NoNaN (Point2.new (Ideal.of 0) (Ideal.of 0)) ∧ NoNaN (Point2.new (infinity : Ideal) (infinity : Ideal)) := by
  simp [Point2.noNaN]

/-! ### C25: membership -/

theorem C25_inside2 (b : BoundingBox2 S) (p : Point2 S) :
    (b.isInside p = true ↔ LeAll b.min p ∧ LeAll p b.max) ∧
    (BoundingBox2.empty : BoundingBox2 S).isInside p = false ∧
    (NoNaN p → (BoundingBox2.infinite : BoundingBox2 S).isInside p = true) ∧
    (¬ NoNaN p → b.isInside p = false) := by
  refine ⟨?_, ?_, fun h => ?_, fun h => ?_⟩
  · rw [isInside2_iff, Point2.leAll, Point2.leAll]; unfold In1; tauto
  · rw [Bool.eq_false_iff]; intro h
    rw [isInside2_iff] at h
    exact not_inf_le_negInf (le_trans' h.1.1 h.1.2)
  · rw [Point2.noNaN] at h
    exact isInside2_iff.2 ⟨⟨negInf_le h.1, le_inf h.1⟩, ⟨negInf_le h.2, le_inf h.2⟩⟩
  · rw [Bool.eq_false_iff]; intro h'
    rw [isInside2_iff] at h'
    exact h (Point2.noNaN.2 ⟨(le_nn h'.1.1).2, (le_nn h'.2.1).2⟩)

/-! ### C26: union of boxes -/

theorem union2_wf (ha : LeAll a.min a.max) (hb : LeAll b.min b.max) :
    LeAll (Api.union a b).min (Api.union a b).max := by
  rw [wf2_iff] at *
  exact ⟨un_wf ha.1 hb.1, un_wf ha.2 hb.2⟩
theorem union2_le (ha : LeAll a.min a.max) (hb : LeAll b.min b.max)
    (h1 : LeAll c.min a.min) (h2 : LeAll c.min b.min) (h3 : LeAll a.max c.max) (h4 : LeAll b.max c.max) :
    LeAll c.min (Api.union a b).min ∧ LeAll (Api.union a b).max c.max := by
  simp only [Point2.leAll] at *
  exact ⟨⟨un_lo_g ha.1 hb.1 h1.1 h2.1, un_lo_g ha.2 hb.2 h1.2 h2.2⟩, ⟨un_hi_g ha.1 hb.1 h3.1 h4.1, un_hi_g ha.2 hb.2 h3.2 h4.2⟩⟩
theorem union2_ge (ha : LeAll a.min a.max) (hb : LeAll b.min b.max) :
    (LeAll (Api.union a b).min a.min ∧ LeAll a.max (Api.union a b).max) ∧
    (LeAll (Api.union a b).min b.min ∧ LeAll b.max (Api.union a b).max) := by
  simp only [Point2.leAll] at *
  exact ⟨⟨⟨un_lo_l ha.1 hb.1, un_lo_l ha.2 hb.2⟩, ⟨un_hi_l ha.1 hb.1, un_hi_l ha.2 hb.2⟩⟩,
    ⟨un_lo_r ha.1 hb.1, un_lo_r ha.2 hb.2⟩, ⟨un_hi_r ha.1 hb.1, un_hi_r ha.2 hb.2⟩⟩
theorem inside2_mono (h1 : LeAll c.min a.min) (h2 : LeAll a.max c.max) (h : a.isInside p = true) :
    c.isInside p = true := by
  rw [Point2.leAll] at h1 h2
  rw [isInside2_iff] at *
  exact ⟨⟨le_trans' h1.1 h.1.1, le_trans' h.1.2 h2.1⟩, ⟨le_trans' h1.2 h.2.1, le_trans' h.2.2 h2.2⟩⟩
/-- For a well-formed box, containing all its points is containing its corners. -/
theorem subset2_iff (ha : LeAll a.min a.max) :
    (∀ p, a.isInside p = true → c.isInside p = true) ↔ LeAll c.min a.min ∧ LeAll a.max c.max := by
  constructor
  · intro h
    have h1 := h _ (wf2_min ha)
    have h2 := h _ (wf2_max ha)
    rw [isInside2_iff] at h1 h2
    exact ⟨Point2.leAll.2 ⟨h1.1.1, h1.2.1⟩, Point2.leAll.2 ⟨h2.1.2, h2.2.2⟩⟩
  · rintro ⟨h1, h2⟩ p hp; exact inside2_mono h1 h2 hp
/-- Two well-formed boxes with the same points are equal. -/
theorem ext2_inside (ha : LeAll a.min a.max) (hb : LeAll b.min b.max)
    (h : ∀ p, a.isInside p = true ↔ b.isInside p = true) : (a == b) = true := by
  obtain ⟨h1, h2⟩ := (subset2_iff ha).1 fun p => (h p).1
  obtain ⟨h3, h4⟩ := (subset2_iff hb).1 fun p => (h p).2
  rw [Point2.leAll] at *
  exact BoundingBox2.beq_iff.2 ⟨Point2.beq_iff.2 ⟨le_antisymm' h3.1 h1.1, le_antisymm' h3.2 h1.2⟩,
    Point2.beq_iff.2 ⟨le_antisymm' h2.1 h4.1, le_antisymm' h2.2 h4.2⟩⟩

theorem C26_union2 (a b : BoundingBox2 S) (ha : LeAll a.min a.max) (hb : LeAll b.min b.max) :
    LeAll (Api.union a b).min (Api.union a b).max ∧
    (∀ p, (a.isInside p = true ∨ b.isInside p = true) → (Api.union a b).isInside p = true) ∧
    (∀ c : BoundingBox2 S, (∀ p, a.isInside p = true → c.isInside p = true) →
      (∀ p, b.isInside p = true → c.isInside p = true) →
      ∀ p, (Api.union a b).isInside p = true → c.isInside p = true) := by
  refine ⟨union2_wf ha hb, ?_, ?_⟩
  · obtain ⟨⟨h1, h2⟩, h3, h4⟩ := union2_ge ha hb
    rintro p (h | h)
    · exact inside2_mono h1 h2 h
    · exact inside2_mono h3 h4 h
  · intro c h1 h2
    obtain ⟨h3, h4⟩ := (subset2_iff ha).1 h1
    obtain ⟨h5, h6⟩ := (subset2_iff hb).1 h2
    obtain ⟨h7, h8⟩ := union2_le ha hb h3 h5 h4 h6
    exact fun p hp => inside2_mono h7 h8 hp
theorem C26_laws2 (a b c : BoundingBox2 S) (ha : LeAll a.min a.max) (hb : LeAll b.min b.max)
    (hc : LeAll c.min c.max) :
    (Api.union a b == Api.union b a) = true ∧
    (Api.union (Api.union a b) c == Api.union a (Api.union b c)) = true ∧
    (Api.union a a == a) = true := by
  have wab := union2_wf ha hb
  have wbc := union2_wf hb hc
  have i := fun (x y : BoundingBox2 S) (hx : LeAll x.min x.max) (hy : LeAll y.min y.max) =>
    C26_union2 x y hx hy
  refine ⟨ext2_inside wab (union2_wf hb ha) fun p => ⟨?_, ?_⟩,
    ext2_inside (union2_wf wab hc) (union2_wf ha wbc) fun p => ⟨?_, ?_⟩,
    ext2_inside (union2_wf ha ha) ha fun p => ⟨?_, ?_⟩⟩
  · exact (i a b ha hb).2.2 _ (fun p h => (i b a hb ha).2.1 p (.inr h))
      (fun p h => (i b a hb ha).2.1 p (.inl h)) p
  · exact (i b a hb ha).2.2 _ (fun p h => (i a b ha hb).2.1 p (.inr h))
      (fun p h => (i a b ha hb).2.1 p (.inl h)) p
  · refine (i _ c wab hc).2.2 _ ?_ (fun p h => (i a _ ha wbc).2.1 p (.inr ((i b c hb hc).2.1 p (.inr h)))) p
    exact (i a b ha hb).2.2 _ (fun p h => (i a _ ha wbc).2.1 p (.inl h))
      (fun p h => (i a _ ha wbc).2.1 p (.inr ((i b c hb hc).2.1 p (.inl h))))
  · refine (i a _ ha wbc).2.2 _ (fun p h => (i _ c wab hc).2.1 p (.inl ((i a b ha hb).2.1 p (.inl h)))) ?_ p
    exact (i b c hb hc).2.2 _ (fun p h => (i _ c wab hc).2.1 p (.inl ((i a b ha hb).2.1 p (.inr h))))
      (fun p h => (i _ c wab hc).2.1 p (.inr h))
  · exact (i a a ha ha).2.2 _ (fun _ h => h) (fun _ h => h) p
  · exact fun h => (i a a ha ha).2.1 p (.inl h)

/-- Well-formed boxes exist: everything `new` makes from NaN-free points. -/
example (p q : Point2 S) (hp : NoNaN p) (hq : NoNaN q) :
    LeAll (BoundingBox2.new p q).min (BoundingBox2.new p q).max := (C24_new2 p q hp hq).1

/-! ### C27: growing a box by points -/

theorem union_pt2_eq (b : BoundingBox2 S) (p : Point2 S) :
    Api.union b p = Api.union b (⟨p, p⟩ : BoundingBox2 S) := rfl
theorem wf_pt2 (hp : NoNaN p) : LeAll (⟨p, p⟩ : BoundingBox2 S).min (⟨p, p⟩ : BoundingBox2 S).max := by
  rw [Point2.noNaN] at hp
  exact Point2.leAll.2 ⟨le_self hp.1, le_self hp.2⟩
theorem in_pt2 (hp : NoNaN p) : (⟨p, p⟩ : BoundingBox2 S).isInside p = true := wf2_min (wf_pt2 hp)

/-- One step: for a well-formed box, the union with a point contains both and is contained in every box
that contains both. -/
theorem C27_step2 (b : BoundingBox2 S) (p : Point2 S) (hb : LeAll b.min b.max) (hp : NoNaN p) :
    LeAll (Api.union b p).min (Api.union b p).max ∧
    (Api.union b p).isInside p = true ∧
    (∀ r, b.isInside r = true → (Api.union b p).isInside r = true) ∧
    (∀ c : BoundingBox2 S, (∀ r, b.isInside r = true → c.isInside r = true) → c.isInside p = true →
      ∀ r, (Api.union b p).isInside r = true → c.isInside r = true) := by
  rw [union_pt2_eq]
  obtain ⟨h1, h2, h3⟩ := C26_union2 b ⟨p, p⟩ hb (wf_pt2 hp)
  refine ⟨h1, h2 p (.inr (in_pt2 hp)), fun r h => h2 r (.inl h), fun c hc hcp => h3 c hc ?_⟩
  refine (subset2_iff (wf_pt2 hp)).2 ?_
  rw [isInside2_iff] at hcp
  exact ⟨Point2.leAll.2 ⟨hcp.1.1, hcp.2.1⟩, Point2.leAll.2 ⟨hcp.1.2, hcp.2.2⟩⟩

theorem union_emp2 (hp : NoNaN p) :
    (Api.union (BoundingBox2.empty : BoundingBox2 S) p == (⟨p, p⟩ : BoundingBox2 S)) = true := by
  rw [Point2.noNaN] at hp
  exact BoundingBox2.beq_iff.2 ⟨Point2.beq_iff.2 ⟨(emp_pt hp.1).1, (emp_pt hp.2).1⟩,
    Point2.beq_iff.2 ⟨(emp_pt hp.1).2, (emp_pt hp.2).2⟩⟩
theorem beq_inside2 (h : (a == b) = true) (p : Point2 S) : a.isInside p = true ↔ b.isInside p = true := by
  simp only [BoundingBox2.beq_iff, Point2.beq_iff] at h
  obtain ⟨h1, h2⟩ := h
  rw [isInside2_iff, isInside2_iff]
  constructor
  · intro h
    exact ⟨⟨le_trans' (beq_le (beq_symm h1.1)) h.1.1, le_trans' h.1.2 (beq_le h2.1)⟩, ⟨le_trans' (beq_le (beq_symm h1.2)) h.2.1, le_trans' h.2.2 (beq_le h2.2)⟩⟩
  · intro h
    exact ⟨⟨le_trans' (beq_le h1.1) h.1.1, le_trans' h.1.2 (beq_le (beq_symm h2.1))⟩, ⟨le_trans' (beq_le h1.2) h.2.1, le_trans' h.2.2 (beq_le (beq_symm h2.2))⟩⟩

theorem fold_pts2 (b : BoundingBox2 S) (ps : List (Point2 S)) (hb : LeAll b.min b.max)
    (hps : ∀ p ∈ ps, NoNaN p) :
    LeAll (ps.foldl (fun b p => Api.union b p) b).min (ps.foldl (fun b p => Api.union b p) b).max ∧
    (∀ p ∈ ps, (ps.foldl (fun b p => Api.union b p) b).isInside p = true) ∧
    (∀ r, b.isInside r = true → (ps.foldl (fun b p => Api.union b p) b).isInside r = true) ∧
    (∀ c : BoundingBox2 S, (∀ r, b.isInside r = true → c.isInside r = true) →
      (∀ p ∈ ps, c.isInside p = true) →
      ∀ r, (ps.foldl (fun b p => Api.union b p) b).isInside r = true → c.isInside r = true) := by
  induction ps generalizing b with
  | nil => exact ⟨hb, by simp, fun r h => h, fun c h _ => h⟩
  | cons p ps ih =>
    obtain ⟨s1, s2, s3, s4⟩ := C27_step2 b p hb (hps p (by simp))
    obtain ⟨i1, i2, i3, i4⟩ := ih (Api.union b p) s1 (fun q hq => hps q (by simp [hq]))
    refine ⟨i1, ?_, fun r h => i3 r (s3 r h), fun c h1 h2 => ?_⟩
    · intro q hq
      rcases List.mem_cons.1 hq with rfl | hq
      · exact i3 _ s2
      · exact i2 q hq
    · exact i4 c (s4 c h1 (h2 p (by simp))) (fun q hq => h2 q (by simp [hq]))

/-- Any non-empty sequence of NaN-free points, added one by one to `empty()`. -/
theorem C27_points2 (ps : List (Point2 S)) (hne : ps ≠ []) (hps : ∀ p ∈ ps, NoNaN p) :
    LeAll (ps.foldl (fun b p => Api.union b p) (BoundingBox2.empty : BoundingBox2 S)).min
      (ps.foldl (fun b p => Api.union b p) (BoundingBox2.empty : BoundingBox2 S)).max ∧
    (∀ p ∈ ps, (ps.foldl (fun b p => Api.union b p) (BoundingBox2.empty : BoundingBox2 S)).isInside p = true) ∧
    (∀ c : BoundingBox2 S, (∀ p ∈ ps, c.isInside p = true) →
      ∀ r, (ps.foldl (fun b p => Api.union b p) (BoundingBox2.empty : BoundingBox2 S)).isInside r = true →
        c.isInside r = true) := by
  obtain ⟨p, ps, rfl⟩ := List.exists_cons_of_ne_nil hne
  have hp : NoNaN p := hps p (by simp)
  have he := union_emp2 (S := S) hp
  have hw : LeAll (Api.union (BoundingBox2.empty : BoundingBox2 S) p).min
      (Api.union (BoundingBox2.empty : BoundingBox2 S) p).max := by
    simp only [BoundingBox2.beq_iff, Point2.beq_iff] at he
    obtain ⟨h1, h2⟩ := he
    exact Point2.leAll.2 ⟨le_trans' (beq_le h1.1) (beq_le (beq_symm h2.1)), le_trans' (beq_le h1.2) (beq_le (beq_symm h2.2))⟩
  obtain ⟨i1, i2, i3, i4⟩ := fold_pts2 _ ps hw (fun q hq => hps q (by simp [hq]))
  refine ⟨i1, ?_, fun c hc => i4 c ?_ (fun q hq => hc q (by simp [hq]))⟩
  · intro q hq
    rcases List.mem_cons.1 hq with rfl | hq
    · exact i3 _ ((beq_inside2 he _).2 (in_pt2 hp))
    · exact i2 q hq
  · intro r hr
    have hcp := isInside2_iff.1 (hc p (by simp))
    refine (subset2_iff (wf_pt2 hp)).2 ⟨Point2.leAll.2 ⟨hcp.1.1, hcp.2.1⟩, Point2.leAll.2 ⟨hcp.1.2, hcp.2.2⟩⟩ r ?_
    exact (beq_inside2 he _).1 hr
/-- The result does not depend on the order (or on repetitions) of the points. -/
theorem C27_order2 (ps qs : List (Point2 S)) (hne : ps ≠ []) (hps : ∀ p ∈ ps, NoNaN p)
    (h : ∀ p, p ∈ ps ↔ p ∈ qs) :
    (ps.foldl (fun b p => Api.union b p) (BoundingBox2.empty : BoundingBox2 S) ==
     qs.foldl (fun b p => Api.union b p) (BoundingBox2.empty : BoundingBox2 S)) = true := by
  have hne' : qs ≠ [] := by
    rintro rfl
    obtain ⟨p, ps, rfl⟩ := List.exists_cons_of_ne_nil hne
    exact absurd ((h p).1 (by simp)) (by simp)
  obtain ⟨a1, a2, a3⟩ := C27_points2 ps hne hps
  obtain ⟨b1, b2, b3⟩ := C27_points2 qs hne' (fun p hp => hps p ((h p).2 hp))
  refine ext2_inside a1 b1 fun p => ⟨a3 _ (fun q hq => b2 q ((h q).1 hq)) p,
    b3 _ (fun q hq => a2 q ((h q).2 hq)) p⟩

example : ∀ p ∈ [Point2.new (Ideal.of 3) (Ideal.of 3), Point2.new (Ideal.of (-1)) (Ideal.of (-1)), Point2.origin], NoNaN p := by
  intro p hp; fin_cases hp <;> simp [Point2.noNaN, Point2.origin, Point2.new]

/-! ### C28: union with empty() -/

/-- `empty()` is neutral exactly for the well-formed boxes. -/
theorem C28_neutral2 (b : BoundingBox2 S) :
    ((Api.union (BoundingBox2.empty : BoundingBox2 S) b == b) = true ↔ LeAll b.min b.max) ∧
    ((Api.union b (BoundingBox2.empty : BoundingBox2 S) == b) = true ↔ LeAll b.min b.max) := by
  simp only [BoundingBox2.beq_iff, Point2.beq_iff, Point2.leAll]
  constructor
  · constructor
    · rintro ⟨h1, h2⟩
      exact ⟨emp_un_iff.1 ⟨h1.1, h2.1⟩, emp_un_iff.1 ⟨h1.2, h2.2⟩⟩
    · intro h
      exact ⟨⟨(emp_un_iff.2 h.1).1, (emp_un_iff.2 h.2).1⟩, ⟨(emp_un_iff.2 h.1).2, (emp_un_iff.2 h.2).2⟩⟩
  · constructor
    · rintro ⟨h1, h2⟩
      exact ⟨un_emp_iff.1 ⟨h1.1, h2.1⟩, un_emp_iff.1 ⟨h1.2, h2.2⟩⟩
    · intro h
      exact ⟨⟨(un_emp_iff.2 h.1).1, (un_emp_iff.2 h.2).1⟩, ⟨(un_emp_iff.2 h.1).2, (un_emp_iff.2 h.2).2⟩⟩
/-- The full claim fails for `b = empty()`: the union of two empty boxes is the infinite box, because the
corners pass through `new`, which swaps them. -/
theorem C28_empty_empty2 :
    (Api.union (BoundingBox2.empty : BoundingBox2 S) (BoundingBox2.empty : BoundingBox2 S) ==
      BoundingBox2.infinite) = true ∧
    (Api.union (BoundingBox2.empty : BoundingBox2 S) (BoundingBox2.empty : BoundingBox2 S) ==
      BoundingBox2.empty) = false := by
  have lo : (fmin (fmin infinity infinity) (fmax negInfinity negInfinity) == (negInfinity : S)) = true :=
    beq_iff.2 ⟨min_nn (min_nn not_nan_infinity), not_nan_negInfinity, by
      rw [emp_un_lo not_nan_infinity not_nan_negInfinity]; simp⟩
  have hi : (fmax (fmin infinity infinity) (fmax negInfinity negInfinity) == (infinity : S)) = true :=
    beq_iff.2 ⟨max_nn (min_nn not_nan_infinity), not_nan_infinity, by
      rw [emp_un_hi not_nan_infinity not_nan_negInfinity]; simp⟩
  constructor
  · simp only [BoundingBox2.beq_iff, Point2.beq_iff]
    exact ⟨⟨lo, lo⟩, ⟨hi, hi⟩⟩
  · rw [Bool.eq_false_iff]; intro h
    rw [(C28_neutral2 _).1, Point2.leAll] at h
    exact not_inf_le_negInf h.1

/-! ### C29: overlaps -/

omit [IEEE S] in
theorem overlaps2_iff : a.overlaps b = true ↔
    ((b.min.x ≤? a.max.x) = true ∧ (a.min.x ≤? b.max.x) = true) ∧ ((b.min.y ≤? a.max.y) = true ∧ (a.min.y ≤? b.max.y) = true) := by
  simp only [BoundingBox2.overlaps, Bool.and_eq_true]; tauto
omit [IEEE S] in
theorem C29_symmetric2 (a b : BoundingBox2 S) : a.overlaps b = b.overlaps a := by
  rw [Bool.eq_iff_iff, overlaps2_iff, overlaps2_iff]; tauto
theorem C29_common_point2 (a b : BoundingBox2 S) (ha : LeAll a.min a.max) (hb : LeAll b.min b.max) :
    a.overlaps b = true ↔ ∃ p, a.isInside p = true ∧ b.isInside p = true := by
  rw [overlaps2_iff]
  rw [wf2_iff] at ha hb
  constructor
  · intro h
    refine ⟨⟨fmax a.min.x b.min.x, fmax a.min.y b.min.y⟩, ?_⟩
    rw [isInside2_iff, isInside2_iff]
    exact ⟨⟨⟨le_max_left' (le_nn ha.1).1 (le_nn hb.1).1, max_le' ha.1 h.1.1⟩, ⟨le_max_left' (le_nn ha.2).1 (le_nn hb.2).1, max_le' ha.2 h.2.1⟩⟩,
      ⟨⟨le_max_right' (le_nn ha.1).1 (le_nn hb.1).1, max_le' h.1.2 hb.1⟩, ⟨le_max_right' (le_nn ha.2).1 (le_nn hb.2).1, max_le' h.2.2 hb.2⟩⟩⟩
  · rintro ⟨p, h1, h2⟩
    rw [isInside2_iff] at h1 h2
    exact ⟨⟨le_trans' h2.1.1 h1.1.2, le_trans' h1.1.1 h2.1.2⟩, ⟨le_trans' h2.2.1 h1.2.2, le_trans' h1.2.1 h2.2.2⟩⟩
/-- `empty()` overlaps no box except the infinite one. -/
theorem C29_empty2 (a : BoundingBox2 S) :
    (a.overlaps (BoundingBox2.empty : BoundingBox2 S) = true ↔
      (a == (BoundingBox2.infinite : BoundingBox2 S)) = true) ∧
    ((BoundingBox2.empty : BoundingBox2 S).overlaps a = true ↔
      (a == (BoundingBox2.infinite : BoundingBox2 S)) = true) := by
  rw [C29_symmetric2 BoundingBox2.empty a]
  simp only [and_self]
  rw [overlaps2_iff, BoundingBox2.beq_iff, Point2.beq_iff, Point2.beq_iff]
  constructor
  · intro h
    exact ⟨⟨(overlap_emp.1 h.1).1, (overlap_emp.1 h.2).1⟩, ⟨(overlap_emp.1 h.1).2, (overlap_emp.1 h.2).2⟩⟩
  · rintro ⟨h1, h2⟩
    exact ⟨overlap_emp.2 ⟨h1.1, h2.1⟩, overlap_emp.2 ⟨h1.2, h2.2⟩⟩
/-- The claim "no box overlaps `empty()`" fails for the infinite box. -/
theorem C29_infinite_overlaps_empty2 :
    (BoundingBox2.infinite : BoundingBox2 S).overlaps (BoundingBox2.empty : BoundingBox2 S) = true := by
  rw [(C29_empty2 _).1, BoundingBox2.beq_iff, Point2.beq_iff, Point2.beq_iff]
  exact ⟨⟨(Same.refl (negInfinity : S)).beq not_nan_negInfinity, (Same.refl (negInfinity : S)).beq not_nan_negInfinity⟩,
    ⟨(Same.refl (infinity : S)).beq not_nan_infinity, (Same.refl (infinity : S)).beq not_nan_infinity⟩⟩

/-- Two boxes with exactly a corner in common, and two disjoint ones. -/
example : (BoundingBox2.new (Point2.new (Ideal.of 0) (Ideal.of 0)) (Point2.new (Ideal.of 1) (Ideal.of 1))).overlaps
      (BoundingBox2.new (Point2.new (Ideal.of 1) (Ideal.of 1)) (Point2.new (Ideal.of 2) (Ideal.of 2))) = true ∧
    (BoundingBox2.new (Point2.new (Ideal.of 0) (Ideal.of 0)) (Point2.new (Ideal.of 1) (Ideal.of 1))).overlaps
      (BoundingBox2.new (Point2.new (Ideal.of 2) (Ideal.of 2)) (Point2.new (Ideal.of 3) (Ideal.of 3))) = false := by
  rw [Bool.eq_false_iff, ne_eq, overlaps2_iff, overlaps2_iff]
  simp [Point2.new, Ideal.le_real]

/-! ### C30: intersection of boxes -/

theorem C30_intersect2 (a b : BoundingBox2 S) (ha : LeAll a.min a.max) (hb : LeAll b.min b.max) :
    ((Api.intersect a b).isSome = true ↔ ∃ p, a.isInside p = true ∧ b.isInside p = true) ∧
    (∀ c, Api.intersect a b = some c → LeAll c.min c.max ∧
      ∀ p, c.isInside p = true ↔ a.isInside p = true ∧ b.isInside p = true) ∧
    (∀ c, Api.intersect a b = some c → ∃ c', Api.intersect b a = some c' ∧ (c == c') = true) := by
  rw [← C29_common_point2 a b ha hb]
  have e1 : Api.intersect a b = if a.overlaps b then
      some (BoundingBox2.new (Api.max a.min b.min) (Api.min a.max b.max)) else none := rfl
  have e2 : Api.intersect b a = if b.overlaps a then
      some (BoundingBox2.new (Api.max b.min a.min) (Api.min b.max a.max)) else none := rfl
  rw [e1, e2, C29_symmetric2 b a]
  by_cases h : a.overlaps b = true
  · rw [if_pos h, if_pos h]
    rw [overlaps2_iff] at h
    rw [wf2_iff] at ha hb
    refine ⟨by simp [overlaps2_iff, h], ?_, ?_⟩
    · rintro c hc
      obtain rfl := Option.some.inj hc
      refine ⟨wf2_iff.2 ⟨new_lo_hi (max_nn (le_nn ha.1).1) (min_nn (le_nn ha.1).2), new_lo_hi (max_nn (le_nn ha.2).1) (min_nn (le_nn ha.2).2)⟩, fun p => ?_⟩
      rw [isInside2_iff, isInside2_iff, isInside2_iff]
      constructor
      · intro h'
        exact ⟨⟨((int_in ha.1 hb.1 h.1.1 h.1.2).1 h'.1).1, ((int_in ha.2 hb.2 h.2.1 h.2.2).1 h'.2).1⟩, ⟨((int_in ha.1 hb.1 h.1.1 h.1.2).1 h'.1).2, ((int_in ha.2 hb.2 h.2.1 h.2.2).1 h'.2).2⟩⟩
      · rintro ⟨h1, h2⟩
        exact ⟨(int_in ha.1 hb.1 h.1.1 h.1.2).2 ⟨h1.1, h2.1⟩, (int_in ha.2 hb.2 h.2.1 h.2.2).2 ⟨h1.2, h2.2⟩⟩
    · rintro c hc
      obtain rfl := Option.some.inj hc
      refine ⟨_, rfl, BoundingBox2.beq_iff.2 ⟨Point2.beq_iff.2 ⟨(int_comm ha.1 hb.1 h.1.1 h.1.2).1, (int_comm ha.2 hb.2 h.2.1 h.2.2).1⟩,
        Point2.beq_iff.2 ⟨(int_comm ha.1 hb.1 h.1.1 h.1.2).2, (int_comm ha.2 hb.2 h.2.1 h.2.2).2⟩⟩⟩
  · rw [if_neg h]; simp [h]
/-- Intersecting with `empty()` gives `None` for every box but the infinite one, ... -/
theorem C30_empty2 (a : BoundingBox2 S)
    (h : (a == (BoundingBox2.infinite : BoundingBox2 S)) = false) :
    Api.intersect a (BoundingBox2.empty : BoundingBox2 S) = none ∧
    Api.intersect (BoundingBox2.empty : BoundingBox2 S) a = none := by
  have h1 := mt (C29_empty2 a).1.1 (by simp [h])
  have h2 := mt (C29_empty2 a).2.1 (by simp [h])
  exact ⟨if_neg h1, if_neg h2⟩
/-- ... for which it gives back the infinite box: the claim fails there. -/
theorem C30_infinite_empty2 :
    ∃ c, Api.intersect (BoundingBox2.infinite : BoundingBox2 S) (BoundingBox2.empty : BoundingBox2 S) = some c ∧
      (c == BoundingBox2.infinite) = true := by
  refine ⟨_, if_pos C29_infinite_overlaps_empty2, ?_⟩
  have lo : (fmin (fmax negInfinity infinity) (fmin infinity negInfinity) == (negInfinity : S)) = true :=
    beq_iff.2 ⟨min_nn (max_nn not_nan_negInfinity), not_nan_negInfinity, by
      rw [val_min (max_nn not_nan_negInfinity) (min_nn not_nan_infinity),
        val_max not_nan_negInfinity not_nan_infinity, val_min not_nan_infinity not_nan_negInfinity]; simp⟩
  have hi : (fmax (fmax negInfinity infinity) (fmin infinity negInfinity) == (infinity : S)) = true :=
    beq_iff.2 ⟨max_nn (max_nn not_nan_negInfinity), not_nan_infinity, by
      rw [val_max (max_nn not_nan_negInfinity) (min_nn not_nan_infinity),
        val_max not_nan_negInfinity not_nan_infinity, val_min not_nan_infinity not_nan_negInfinity]; simp⟩
  simp only [BoundingBox2.beq_iff, Point2.beq_iff]
  exact ⟨⟨lo, lo⟩, ⟨hi, hi⟩⟩

example : ((BoundingBox2.empty : BoundingBox2 S) == (BoundingBox2.infinite : BoundingBox2 S)) = false := by
  rw [Bool.eq_false_iff, ne_eq, BoundingBox2.beq_iff, Point2.beq_iff, Point2.beq_iff]
  rintro ⟨h, -⟩
  exact not_inf_le_negInf (beq_le h.1)

/-! ### C34: a reported range is well-formed -/

theorem C34_range2 (b : BoundingBox2 S) (ray : Ray2 S) (i : Range S)
    (h : Api.intersect b ray = some i) :
    (Scalar.zero ≤? i.start) = true ∧ (i.start ≤? i.stop) = true ∧ ¬ IsNaN i.start ∧ ¬ IsNaN i.stop := by
  change b.intersectRay ray = some i at h
  simp only [BoundingBox2.intersectRay] at h
  have h0 : (Scalar.zero ≤? (Scalar.zero : S)) = true := le_self not_nan_zero
  split_ifs at h with h1 h3
  obtain rfl := Option.some.inj h
  exact ⟨nonneg_max (nonneg_max h0), h3, (le_nn h3).1, (le_nn h3).2⟩

/-! ### C36: from strictly inside -/

theorem C36_inside2 (b : BoundingBox2 S) (ray : Ray2 S) (hd : NoNaN ray.direction)
    (h : ((b.min.x <? ray.origin.x) = true ∧ (ray.origin.x <? b.max.x) = true) ∧ ((b.min.y <? ray.origin.y) = true ∧ (ray.origin.y <? b.max.y) = true)) :
    ∃ i, Api.intersect b ray = some i ∧ (i.start == Scalar.zero) = true := by
  rw [Vector2.noNaN] at hd
  have z0 : ((Scalar.zero : S) == Scalar.zero) = true := (Same.refl _).beq not_nan_zero
  have i0 : (Scalar.zero ≤? (infinity : S)) = true := le_inf not_nan_zero
  have sx := slab_strict h.1.1 h.1.2 hd.1
  have ax := start_step z0 sx.1
  have bx := stop_step i0 sx.2
  have sy := slab_strict h.2.1 h.2.2 hd.2
  have ay := start_step ax sy.1
  have by' := stop_step bx sy.2
  show ∃ i, b.intersectRay ray = some i ∧ (i.start == Scalar.zero) = true
  simp only [BoundingBox2.intersectRay, Api.min, Api.max, MinMax.min, MinMax.max]
  exact ⟨_, (if_neg (not_gt_of ax bx).1).trans (if_pos (not_gt_of ay by').2), ay⟩
/-- Hypotheses of C36 (and so of C34) are met, e.g. in the box `[0, 2]` from `1` in direction `(1, 0, ..)`. -/
example : ∃ i, Api.intersect (BoundingBox2.mk (Point2.new (Ideal.of 0) (Ideal.of 0)) (Point2.new (Ideal.of 2) (Ideal.of 2)))
    (Ray2.new (Point2.new (Ideal.of 1) (Ideal.of 1)) (Vector2.new (Ideal.of 1) (Ideal.of 0))) = some i := by
  obtain ⟨i, hi, -⟩ := C36_inside2 (BoundingBox2.mk (Point2.new (Ideal.of 0) (Ideal.of 0)) (Point2.new (Ideal.of 2) (Ideal.of 2)))
    (Ray2.new (Point2.new (Ideal.of 1) (Ideal.of 1)) (Vector2.new (Ideal.of 1) (Ideal.of 0)))
    (by simp [Vector2.noNaN, Ray2.new, Vector2.new]) (by simp [Ray2.new, Point2.new, Ideal.lt_real])
  exact ⟨i, hi⟩

end dim2

/-! ## 3D boxes -/

section dim3
variable {a b c : BoundingBox3 S} {p q r : Point3 S}

omit [IEEE S] in
theorem isInside3_iff : b.isInside p = true ↔ (In1 b.min.x b.max.x p.x) ∧ (In1 b.min.y b.max.y p.y) ∧ (In1 b.min.z b.max.z p.z) := by
  simp only [BoundingBox3.isInside, In1, Bool.and_eq_true]; tauto
theorem wf3_iff : LeAll b.min b.max ↔ ((b.min.x ≤? b.max.x) = true) ∧ ((b.min.y ≤? b.max.y) = true) ∧ ((b.min.z ≤? b.max.z) = true) := Point3.leAll
theorem wf3_min (h : LeAll b.min b.max) : b.isInside b.min = true := by
  rw [wf3_iff] at h
  exact isInside3_iff.2 ⟨⟨le_self (le_nn h.1).1, h.1⟩, ⟨le_self (le_nn h.2.1).1, h.2.1⟩, ⟨le_self (le_nn h.2.2).1, h.2.2⟩⟩
theorem wf3_max (h : LeAll b.min b.max) : b.isInside b.max = true := by
  rw [wf3_iff] at h
  exact isInside3_iff.2 ⟨⟨h.1, le_self (le_nn h.1).2⟩, ⟨h.2.1, le_self (le_nn h.2.1).2⟩, ⟨h.2.2, le_self (le_nn h.2.2).2⟩⟩

/-! ### C24: new -/

theorem C24_new3 (p q : Point3 S) (hp : NoNaN p) (hq : NoNaN q) :
    LeAll (BoundingBox3.new p q).min (BoundingBox3.new p q).max ∧
    (BoundingBox3.new p q).isInside p = true ∧ (BoundingBox3.new p q).isInside q = true ∧
    (∀ b : BoundingBox3 S, b.isInside p = true → b.isInside q = true →
      ∀ r, (BoundingBox3.new p q).isInside r = true → b.isInside r = true) ∧
    (BoundingBox3.new p q == BoundingBox3.new q p) = true := by
  rw [Point3.noNaN] at hp hq
  refine ⟨wf3_iff.2 ⟨new_lo_hi hp.1 hq.1, new_lo_hi hp.2.1 hq.2.1, new_lo_hi hp.2.2 hq.2.2⟩,
    isInside3_iff.2 ⟨⟨min_le_left' hp.1 hq.1, le_max_left' hp.1 hq.1⟩, ⟨min_le_left' hp.2.1 hq.2.1, le_max_left' hp.2.1 hq.2.1⟩, ⟨min_le_left' hp.2.2 hq.2.2, le_max_left' hp.2.2 hq.2.2⟩⟩,
    isInside3_iff.2 ⟨⟨min_le_right' hp.1 hq.1, le_max_right' hp.1 hq.1⟩, ⟨min_le_right' hp.2.1 hq.2.1, le_max_right' hp.2.1 hq.2.1⟩, ⟨min_le_right' hp.2.2 hq.2.2, le_max_right' hp.2.2 hq.2.2⟩⟩,
    fun b h1 h2 r h3 => ?_,
    BoundingBox3.beq_iff.2 ⟨Point3.beq_iff.2 ⟨min_comm' hp.1 hq.1, min_comm' hp.2.1 hq.2.1, min_comm' hp.2.2 hq.2.2⟩,
      Point3.beq_iff.2 ⟨max_comm' hp.1 hq.1, max_comm' hp.2.1 hq.2.1, max_comm' hp.2.2 hq.2.2⟩⟩⟩
  rw [isInside3_iff] at *
  exact ⟨⟨le_trans' (le_min' h1.1.1 h2.1.1) h3.1.1, le_trans' h3.1.2 (max_le' h1.1.2 h2.1.2)⟩, ⟨le_trans' (le_min' h1.2.1.1 h2.2.1.1) h3.2.1.1, le_trans' h3.2.1.2 (max_le' h1.2.1.2 h2.2.1.2)⟩, ⟨le_trans' (le_min' h1.2.2.1 h2.2.2.1) h3.2.2.1, le_trans' h3.2.2.2 (max_le' h1.2.2.2 h2.2.2.2)⟩⟩

/-- A NaN coordinate of one point is replaced by the other's. -/
theorem C24_new_nan3 (p q : Point3 S) :
    ((IsNaN p.x → Same (BoundingBox3.new p q).min.x q.x ∧ Same (BoundingBox3.new p q).max.x q.x) ∧
     (IsNaN q.x → Same (BoundingBox3.new p q).min.x p.x ∧ Same (BoundingBox3.new p q).max.x p.x)) ∧ ((IsNaN p.y → Same (BoundingBox3.new p q).min.y q.y ∧ Same (BoundingBox3.new p q).max.y q.y) ∧
     (IsNaN q.y → Same (BoundingBox3.new p q).min.y p.y ∧ Same (BoundingBox3.new p q).max.y p.y)) ∧ ((IsNaN p.z → Same (BoundingBox3.new p q).min.z q.z ∧ Same (BoundingBox3.new p q).max.z q.z) ∧
     (IsNaN q.z → Same (BoundingBox3.new p q).min.z p.z ∧ Same (BoundingBox3.new p q).max.z p.z)) :=
  ⟨⟨fun h => ⟨min_nan_left h, max_nan_left h⟩, fun h => ⟨min_nan_right h, max_nan_right h⟩⟩, ⟨fun h => ⟨min_nan_left h, max_nan_left h⟩, fun h => ⟨min_nan_right h, max_nan_right h⟩⟩, ⟨fun h => ⟨min_nan_left h, max_nan_left h⟩, fun h => ⟨min_nan_right h, max_nan_right h⟩⟩⟩

example : NoNaN (Point3.new (Ideal.of 0) (Ideal.of 0) (Ideal.of 0)) ∧ NoNaN (Point3.new (infinity : Ideal) (infinity : Ideal) (infinity : Ideal)) := by
  simp [Point3.noNaN]

/-! ### C25: membership -/

theorem C25_inside3 (b : BoundingBox3 S) (p : Point3 S) :
    (b.isInside p = true ↔ LeAll b.min p ∧ LeAll p b.max) ∧
    (BoundingBox3.empty : BoundingBox3 S).isInside p = false ∧
    (NoNaN p → (BoundingBox3.infinite : BoundingBox3 S).isInside p = true) ∧
    (¬ NoNaN p → b.isInside p = false) := by
  refine ⟨?_, ?_, fun h => ?_, fun h => ?_⟩
  · rw [isInside3_iff, Point3.leAll, Point3.leAll]; unfold In1; tauto
  · rw [Bool.eq_false_iff]; intro h
    rw [isInside3_iff] at h
    exact not_inf_le_negInf (le_trans' h.1.1 h.1.2)
  · rw [Point3.noNaN] at h
    exact isInside3_iff.2 ⟨⟨negInf_le h.1, le_inf h.1⟩, ⟨negInf_le h.2.1, le_inf h.2.1⟩, ⟨negInf_le h.2.2, le_inf h.2.2⟩⟩
  · rw [Bool.eq_false_iff]; intro h'
    rw [isInside3_iff] at h'
    exact h (Point3.noNaN.2 ⟨(le_nn h'.1.1).2, (le_nn h'.2.1.1).2, (le_nn h'.2.2.1).2⟩)

/-! ### C26: union of boxes -/

theorem union3_wf (ha : LeAll a.min a.max) (hb : LeAll b.min b.max) :
    LeAll (Api.union a b).min (Api.union a b).max := by
  rw [wf3_iff] at *
  exact ⟨un_wf ha.1 hb.1, un_wf ha.2.1 hb.2.1, un_wf ha.2.2 hb.2.2⟩
theorem union3_le (ha : LeAll a.min a.max) (hb : LeAll b.min b.max)
    (h1 : LeAll c.min a.min) (h2 : LeAll c.min b.min) (h3 : LeAll a.max c.max) (h4 : LeAll b.max c.max) :
    LeAll c.min (Api.union a b).min ∧ LeAll (Api.union a b).max c.max := by
  simp only [Point3.leAll] at *
  exact ⟨⟨un_lo_g ha.1 hb.1 h1.1 h2.1, un_lo_g ha.2.1 hb.2.1 h1.2.1 h2.2.1, un_lo_g ha.2.2 hb.2.2 h1.2.2 h2.2.2⟩, ⟨un_hi_g ha.1 hb.1 h3.1 h4.1, un_hi_g ha.2.1 hb.2.1 h3.2.1 h4.2.1, un_hi_g ha.2.2 hb.2.2 h3.2.2 h4.2.2⟩⟩
theorem union3_ge (ha : LeAll a.min a.max) (hb : LeAll b.min b.max) :
    (LeAll (Api.union a b).min a.min ∧ LeAll a.max (Api.union a b).max) ∧
    (LeAll (Api.union a b).min b.min ∧ LeAll b.max (Api.union a b).max) := by
  simp only [Point3.leAll] at *
  exact ⟨⟨⟨un_lo_l ha.1 hb.1, un_lo_l ha.2.1 hb.2.1, un_lo_l ha.2.2 hb.2.2⟩, ⟨un_hi_l ha.1 hb.1, un_hi_l ha.2.1 hb.2.1, un_hi_l ha.2.2 hb.2.2⟩⟩,
    ⟨un_lo_r ha.1 hb.1, un_lo_r ha.2.1 hb.2.1, un_lo_r ha.2.2 hb.2.2⟩, ⟨un_hi_r ha.1 hb.1, un_hi_r ha.2.1 hb.2.1, un_hi_r ha.2.2 hb.2.2⟩⟩
theorem inside3_mono (h1 : LeAll c.min a.min) (h2 : LeAll a.max c.max) (h : a.isInside p = true) :
    c.isInside p = true := by
  rw [Point3.leAll] at h1 h2
  rw [isInside3_iff] at *
  exact ⟨⟨le_trans' h1.1 h.1.1, le_trans' h.1.2 h2.1⟩, ⟨le_trans' h1.2.1 h.2.1.1, le_trans' h.2.1.2 h2.2.1⟩, ⟨le_trans' h1.2.2 h.2.2.1, le_trans' h.2.2.2 h2.2.2⟩⟩
/-- For a well-formed box, containing all its points is containing its corners. -/
theorem subset3_iff (ha : LeAll a.min a.max) :
    (∀ p, a.isInside p = true → c.isInside p = true) ↔ LeAll c.min a.min ∧ LeAll a.max c.max := by
  constructor
  · intro h
    have h1 := h _ (wf3_min ha)
    have h2 := h _ (wf3_max ha)
    rw [isInside3_iff] at h1 h2
    exact ⟨Point3.leAll.2 ⟨h1.1.1, h1.2.1.1, h1.2.2.1⟩, Point3.leAll.2 ⟨h2.1.2, h2.2.1.2, h2.2.2.2⟩⟩
  · rintro ⟨h1, h2⟩ p hp; exact inside3_mono h1 h2 hp
/-- Two well-formed boxes with the same points are equal. -/
theorem ext3_inside (ha : LeAll a.min a.max) (hb : LeAll b.min b.max)
    (h : ∀ p, a.isInside p = true ↔ b.isInside p = true) : (a == b) = true := by
  obtain ⟨h1, h2⟩ := (subset3_iff ha).1 fun p => (h p).1
  obtain ⟨h3, h4⟩ := (subset3_iff hb).1 fun p => (h p).2
  rw [Point3.leAll] at *
  exact BoundingBox3.beq_iff.2 ⟨Point3.beq_iff.2 ⟨le_antisymm' h3.1 h1.1, le_antisymm' h3.2.1 h1.2.1, le_antisymm' h3.2.2 h1.2.2⟩,
    Point3.beq_iff.2 ⟨le_antisymm' h2.1 h4.1, le_antisymm' h2.2.1 h4.2.1, le_antisymm' h2.2.2 h4.2.2⟩⟩

theorem C26_union3 (a b : BoundingBox3 S) (ha : LeAll a.min a.max) (hb : LeAll b.min b.max) :
    LeAll (Api.union a b).min (Api.union a b).max ∧
    (∀ p, (a.isInside p = true ∨ b.isInside p = true) → (Api.union a b).isInside p = true) ∧
    (∀ c : BoundingBox3 S, (∀ p, a.isInside p = true → c.isInside p = true) →
      (∀ p, b.isInside p = true → c.isInside p = true) →
      ∀ p, (Api.union a b).isInside p = true → c.isInside p = true) := by
  refine ⟨union3_wf ha hb, ?_, ?_⟩
  · obtain ⟨⟨h1, h2⟩, h3, h4⟩ := union3_ge ha hb
    rintro p (h | h)
    · exact inside3_mono h1 h2 h
    · exact inside3_mono h3 h4 h
  · intro c h1 h2
    obtain ⟨h3, h4⟩ := (subset3_iff ha).1 h1
    obtain ⟨h5, h6⟩ := (subset3_iff hb).1 h2
    obtain ⟨h7, h8⟩ := union3_le ha hb h3 h5 h4 h6
    exact fun p hp => inside3_mono h7 h8 hp
theorem C26_laws3 (a b c : BoundingBox3 S) (ha : LeAll a.min a.max) (hb : LeAll b.min b.max)
    (hc : LeAll c.min c.max) :
    (Api.union a b == Api.union b a) = true ∧
    (Api.union (Api.union a b) c == Api.union a (Api.union b c)) = true ∧
    (Api.union a a == a) = true := by
  have wab := union3_wf ha hb
  have wbc := union3_wf hb hc
  have i := fun (x y : BoundingBox3 S) (hx : LeAll x.min x.max) (hy : LeAll y.min y.max) =>
    C26_union3 x y hx hy
  refine ⟨ext3_inside wab (union3_wf hb ha) fun p => ⟨?_, ?_⟩,
    ext3_inside (union3_wf wab hc) (union3_wf ha wbc) fun p => ⟨?_, ?_⟩,
    ext3_inside (union3_wf ha ha) ha fun p => ⟨?_, ?_⟩⟩
  · exact (i a b ha hb).2.2 _ (fun p h => (i b a hb ha).2.1 p (.inr h))
      (fun p h => (i b a hb ha).2.1 p (.inl h)) p
  · exact (i b a hb ha).2.2 _ (fun p h => (i a b ha hb).2.1 p (.inr h))
      (fun p h => (i a b ha hb).2.1 p (.inl h)) p
  · refine (i _ c wab hc).2.2 _ ?_ (fun p h => (i a _ ha wbc).2.1 p (.inr ((i b c hb hc).2.1 p (.inr h)))) p
    exact (i a b ha hb).2.2 _ (fun p h => (i a _ ha wbc).2.1 p (.inl h))
      (fun p h => (i a _ ha wbc).2.1 p (.inr ((i b c hb hc).2.1 p (.inl h))))
  · refine (i a _ ha wbc).2.2 _ (fun p h => (i _ c wab hc).2.1 p (.inl ((i a b ha hb).2.1 p (.inl h)))) ?_ p
    exact (i b c hb hc).2.2 _ (fun p h => (i _ c wab hc).2.1 p (.inl ((i a b ha hb).2.1 p (.inr h))))
      (fun p h => (i _ c wab hc).2.1 p (.inr h))
  · exact (i a a ha ha).2.2 _ (fun _ h => h) (fun _ h => h) p
  · exact fun h => (i a a ha ha).2.1 p (.inl h)

/-- Well-formed boxes exist: everything `new` makes from NaN-free points. -/
example (p q : Point3 S) (hp : NoNaN p) (hq : NoNaN q) :
    LeAll (BoundingBox3.new p q).min (BoundingBox3.new p q).max := (C24_new3 p q hp hq).1

/-! ### C27: growing a box by points -/

theorem union_pt3_eq (b : BoundingBox3 S) (p : Point3 S) :
    Api.union b p = Api.union b (⟨p, p⟩ : BoundingBox3 S) := rfl
theorem wf_pt3 (hp : NoNaN p) : LeAll (⟨p, p⟩ : BoundingBox3 S).min (⟨p, p⟩ : BoundingBox3 S).max := by
  rw [Point3.noNaN] at hp
  exact Point3.leAll.2 ⟨le_self hp.1, le_self hp.2.1, le_self hp.2.2⟩
theorem in_pt3 (hp : NoNaN p) : (⟨p, p⟩ : BoundingBox3 S).isInside p = true := wf3_min (wf_pt3 hp)

/-- One step: for a well-formed box, the union with a point contains both and is contained in every box
that contains both. -/
theorem C27_step3 (b : BoundingBox3 S) (p : Point3 S) (hb : LeAll b.min b.max) (hp : NoNaN p) :
    LeAll (Api.union b p).min (Api.union b p).max ∧
    (Api.union b p).isInside p = true ∧
    (∀ r, b.isInside r = true → (Api.union b p).isInside r = true) ∧
    (∀ c : BoundingBox3 S, (∀ r, b.isInside r = true → c.isInside r = true) → c.isInside p = true →
      ∀ r, (Api.union b p).isInside r = true → c.isInside r = true) := by
  rw [union_pt3_eq]
  obtain ⟨h1, h2, h3⟩ := C26_union3 b ⟨p, p⟩ hb (wf_pt3 hp)
  refine ⟨h1, h2 p (.inr (in_pt3 hp)), fun r h => h2 r (.inl h), fun c hc hcp => h3 c hc ?_⟩
  refine (subset3_iff (wf_pt3 hp)).2 ?_
  rw [isInside3_iff] at hcp
  exact ⟨Point3.leAll.2 ⟨hcp.1.1, hcp.2.1.1, hcp.2.2.1⟩, Point3.leAll.2 ⟨hcp.1.2, hcp.2.1.2, hcp.2.2.2⟩⟩

theorem union_emp3 (hp : NoNaN p) :
    (Api.union (BoundingBox3.empty : BoundingBox3 S) p == (⟨p, p⟩ : BoundingBox3 S)) = true := by
  rw [Point3.noNaN] at hp
  exact BoundingBox3.beq_iff.2 ⟨Point3.beq_iff.2 ⟨(emp_pt hp.1).1, (emp_pt hp.2.1).1, (emp_pt hp.2.2).1⟩,
    Point3.beq_iff.2 ⟨(emp_pt hp.1).2, (emp_pt hp.2.1).2, (emp_pt hp.2.2).2⟩⟩
theorem beq_inside3 (h : (a == b) = true) (p : Point3 S) : a.isInside p = true ↔ b.isInside p = true := by
  simp only [BoundingBox3.beq_iff, Point3.beq_iff] at h
  obtain ⟨h1, h2⟩ := h
  rw [isInside3_iff, isInside3_iff]
  constructor
  · intro h
    exact ⟨⟨le_trans' (beq_le (beq_symm h1.1)) h.1.1, le_trans' h.1.2 (beq_le h2.1)⟩, ⟨le_trans' (beq_le (beq_symm h1.2.1)) h.2.1.1, le_trans' h.2.1.2 (beq_le h2.2.1)⟩, ⟨le_trans' (beq_le (beq_symm h1.2.2)) h.2.2.1, le_trans' h.2.2.2 (beq_le h2.2.2)⟩⟩
  · intro h
    exact ⟨⟨le_trans' (beq_le h1.1) h.1.1, le_trans' h.1.2 (beq_le (beq_symm h2.1))⟩, ⟨le_trans' (beq_le h1.2.1) h.2.1.1, le_trans' h.2.1.2 (beq_le (beq_symm h2.2.1))⟩, ⟨le_trans' (beq_le h1.2.2) h.2.2.1, le_trans' h.2.2.2 (beq_le (beq_symm h2.2.2))⟩⟩

theorem fold_pts3 (b : BoundingBox3 S) (ps : List (Point3 S)) (hb : LeAll b.min b.max)
    (hps : ∀ p ∈ ps, NoNaN p) :
    LeAll (ps.foldl (fun b p => Api.union b p) b).min (ps.foldl (fun b p => Api.union b p) b).max ∧
    (∀ p ∈ ps, (ps.foldl (fun b p => Api.union b p) b).isInside p = true) ∧
    (∀ r, b.isInside r = true → (ps.foldl (fun b p => Api.union b p) b).isInside r = true) ∧
    (∀ c : BoundingBox3 S, (∀ r, b.isInside r = true → c.isInside r = true) →
      (∀ p ∈ ps, c.isInside p = true) →
      ∀ r, (ps.foldl (fun b p => Api.union b p) b).isInside r = true → c.isInside r = true) := by
  induction ps generalizing b with
  | nil => exact ⟨hb, by simp, fun r h => h, fun c h _ => h⟩
  | cons p ps ih =>
    obtain ⟨s1, s2, s3, s4⟩ := C27_step3 b p hb (hps p (by simp))
    obtain ⟨i1, i2, i3, i4⟩ := ih (Api.union b p) s1 (fun q hq => hps q (by simp [hq]))
    refine ⟨i1, ?_, fun r h => i3 r (s3 r h), fun c h1 h2 => ?_⟩
    · intro q hq
      rcases List.mem_cons.1 hq with rfl | hq
      · exact i3 _ s2
      · exact i2 q hq
    · exact i4 c (s4 c h1 (h2 p (by simp))) (fun q hq => h2 q (by simp [hq]))

/-- Any non-empty sequence of NaN-free points, added one by one to `empty()`. -/
theorem C27_points3 (ps : List (Point3 S)) (hne : ps ≠ []) (hps : ∀ p ∈ ps, NoNaN p) :
    LeAll (ps.foldl (fun b p => Api.union b p) (BoundingBox3.empty : BoundingBox3 S)).min
      (ps.foldl (fun b p => Api.union b p) (BoundingBox3.empty : BoundingBox3 S)).max ∧
    (∀ p ∈ ps, (ps.foldl (fun b p => Api.union b p) (BoundingBox3.empty : BoundingBox3 S)).isInside p = true) ∧
    (∀ c : BoundingBox3 S, (∀ p ∈ ps, c.isInside p = true) →
      ∀ r, (ps.foldl (fun b p => Api.union b p) (BoundingBox3.empty : BoundingBox3 S)).isInside r = true →
        c.isInside r = true) := by
  obtain ⟨p, ps, rfl⟩ := List.exists_cons_of_ne_nil hne
  have hp : NoNaN p := hps p (by simp)
  have he := union_emp3 (S := S) hp
  have hw : LeAll (Api.union (BoundingBox3.empty : BoundingBox3 S) p).min
      (Api.union (BoundingBox3.empty : BoundingBox3 S) p).max := by
    simp only [BoundingBox3.beq_iff, Point3.beq_iff] at he
    obtain ⟨h1, h2⟩ := he
    exact Point3.leAll.2 ⟨le_trans' (beq_le h1.1) (beq_le (beq_symm h2.1)), le_trans' (beq_le h1.2.1) (beq_le (beq_symm h2.2.1)), le_trans' (beq_le h1.2.2) (beq_le (beq_symm h2.2.2))⟩
  obtain ⟨i1, i2, i3, i4⟩ := fold_pts3 _ ps hw (fun q hq => hps q (by simp [hq]))
  refine ⟨i1, ?_, fun c hc => i4 c ?_ (fun q hq => hc q (by simp [hq]))⟩
  · intro q hq
    rcases List.mem_cons.1 hq with rfl | hq
    · exact i3 _ ((beq_inside3 he _).2 (in_pt3 hp))
    · exact i2 q hq
  · intro r hr
    have hcp := isInside3_iff.1 (hc p (by simp))
    refine (subset3_iff (wf_pt3 hp)).2 ⟨Point3.leAll.2 ⟨hcp.1.1, hcp.2.1.1, hcp.2.2.1⟩, Point3.leAll.2 ⟨hcp.1.2, hcp.2.1.2, hcp.2.2.2⟩⟩ r ?_
    exact (beq_inside3 he _).1 hr
/-- The result does not depend on the order (or on repetitions) of the points. -/
theorem C27_order3 (ps qs : List (Point3 S)) (hne : ps ≠ []) (hps : ∀ p ∈ ps, NoNaN p)
    (h : ∀ p, p ∈ ps ↔ p ∈ qs) :
    (ps.foldl (fun b p => Api.union b p) (BoundingBox3.empty : BoundingBox3 S) ==
     qs.foldl (fun b p => Api.union b p) (BoundingBox3.empty : BoundingBox3 S)) = true := by
  have hne' : qs ≠ [] := by
    rintro rfl
    obtain ⟨p, ps, rfl⟩ := List.exists_cons_of_ne_nil hne
    exact absurd ((h p).1 (by simp)) (by simp)
  obtain ⟨a1, a2, a3⟩ := C27_points3 ps hne hps
  obtain ⟨b1, b2, b3⟩ := C27_points3 qs hne' (fun p hp => hps p ((h p).2 hp))
  refine ext3_inside a1 b1 fun p => ⟨a3 _ (fun q hq => b2 q ((h q).1 hq)) p,
    b3 _ (fun q hq => a2 q ((h q).2 hq)) p⟩

example : ∀ p ∈ [Point3.new (Ideal.of 3) (Ideal.of 3) (Ideal.of 3), Point3.new (Ideal.of (-1)) (Ideal.of (-1)) (Ideal.of (-1)), Point3.origin], NoNaN p := by
  intro p hp; fin_cases hp <;> simp [Point3.noNaN, Point3.origin, Point3.new]

/-! ### C28: union with empty() -/

/-- `empty()` is neutral exactly for the well-formed boxes. -/
theorem C28_neutral3 (b : BoundingBox3 S) :
    ((Api.union (BoundingBox3.empty : BoundingBox3 S) b == b) = true ↔ LeAll b.min b.max) ∧
    ((Api.union b (BoundingBox3.empty : BoundingBox3 S) == b) = true ↔ LeAll b.min b.max) := by
  simp only [BoundingBox3.beq_iff, Point3.beq_iff, Point3.leAll]
  constructor
  · constructor
    · rintro ⟨h1, h2⟩
      exact ⟨emp_un_iff.1 ⟨h1.1, h2.1⟩, emp_un_iff.1 ⟨h1.2.1, h2.2.1⟩, emp_un_iff.1 ⟨h1.2.2, h2.2.2⟩⟩
    · intro h
      exact ⟨⟨(emp_un_iff.2 h.1).1, (emp_un_iff.2 h.2.1).1, (emp_un_iff.2 h.2.2).1⟩, ⟨(emp_un_iff.2 h.1).2, (emp_un_iff.2 h.2.1).2, (emp_un_iff.2 h.2.2).2⟩⟩
  · constructor
    · rintro ⟨h1, h2⟩
      exact ⟨un_emp_iff.1 ⟨h1.1, h2.1⟩, un_emp_iff.1 ⟨h1.2.1, h2.2.1⟩, un_emp_iff.1 ⟨h1.2.2, h2.2.2⟩⟩
    · intro h
      exact ⟨⟨(un_emp_iff.2 h.1).1, (un_emp_iff.2 h.2.1).1, (un_emp_iff.2 h.2.2).1⟩, ⟨(un_emp_iff.2 h.1).2, (un_emp_iff.2 h.2.1).2, (un_emp_iff.2 h.2.2).2⟩⟩
/-- The full claim fails for `b = empty()`: the union of two empty boxes is the infinite box, because the
corners pass through `new`, which swaps them. -/
theorem C28_empty_empty3 :
    (Api.union (BoundingBox3.empty : BoundingBox3 S) (BoundingBox3.empty : BoundingBox3 S) ==
      BoundingBox3.infinite) = true ∧
    (Api.union (BoundingBox3.empty : BoundingBox3 S) (BoundingBox3.empty : BoundingBox3 S) ==
      BoundingBox3.empty) = false := by
  have lo : (fmin (fmin infinity infinity) (fmax negInfinity negInfinity) == (negInfinity : S)) = true :=
    beq_iff.2 ⟨min_nn (min_nn not_nan_infinity), not_nan_negInfinity, by
      rw [emp_un_lo not_nan_infinity not_nan_negInfinity]; simp⟩
  have hi : (fmax (fmin infinity infinity) (fmax negInfinity negInfinity) == (infinity : S)) = true :=
    beq_iff.2 ⟨max_nn (min_nn not_nan_infinity), not_nan_infinity, by
      rw [emp_un_hi not_nan_infinity not_nan_negInfinity]; simp⟩
  constructor
  · simp only [BoundingBox3.beq_iff, Point3.beq_iff]
    exact ⟨⟨lo, lo, lo⟩, ⟨hi, hi, hi⟩⟩
  · rw [Bool.eq_false_iff]; intro h
    rw [(C28_neutral3 _).1, Point3.leAll] at h
    exact not_inf_le_negInf h.1

/-! ### C29: overlaps -/

omit [IEEE S] in
theorem overlaps3_iff : a.overlaps b = true ↔
    ((b.min.x ≤? a.max.x) = true ∧ (a.min.x ≤? b.max.x) = true) ∧ ((b.min.y ≤? a.max.y) = true ∧ (a.min.y ≤? b.max.y) = true) ∧ ((b.min.z ≤? a.max.z) = true ∧ (a.min.z ≤? b.max.z) = true) := by
  simp only [BoundingBox3.overlaps, Bool.and_eq_true]; tauto
omit [IEEE S] in
theorem C29_symmetric3 (a b : BoundingBox3 S) : a.overlaps b = b.overlaps a := by
  rw [Bool.eq_iff_iff, overlaps3_iff, overlaps3_iff]; tauto
theorem C29_common_point3 (a b : BoundingBox3 S) (ha : LeAll a.min a.max) (hb : LeAll b.min b.max) :
    a.overlaps b = true ↔ ∃ p, a.isInside p = true ∧ b.isInside p = true := by
  rw [overlaps3_iff]
  rw [wf3_iff] at ha hb
  constructor
  · intro h
    refine ⟨⟨fmax a.min.x b.min.x, fmax a.min.y b.min.y, fmax a.min.z b.min.z⟩, ?_⟩
    rw [isInside3_iff, isInside3_iff]
    exact ⟨⟨⟨le_max_left' (le_nn ha.1).1 (le_nn hb.1).1, max_le' ha.1 h.1.1⟩, ⟨le_max_left' (le_nn ha.2.1).1 (le_nn hb.2.1).1, max_le' ha.2.1 h.2.1.1⟩, ⟨le_max_left' (le_nn ha.2.2).1 (le_nn hb.2.2).1, max_le' ha.2.2 h.2.2.1⟩⟩,
      ⟨⟨le_max_right' (le_nn ha.1).1 (le_nn hb.1).1, max_le' h.1.2 hb.1⟩, ⟨le_max_right' (le_nn ha.2.1).1 (le_nn hb.2.1).1, max_le' h.2.1.2 hb.2.1⟩, ⟨le_max_right' (le_nn ha.2.2).1 (le_nn hb.2.2).1, max_le' h.2.2.2 hb.2.2⟩⟩⟩
  · rintro ⟨p, h1, h2⟩
    rw [isInside3_iff] at h1 h2
    exact ⟨⟨le_trans' h2.1.1 h1.1.2, le_trans' h1.1.1 h2.1.2⟩, ⟨le_trans' h2.2.1.1 h1.2.1.2, le_trans' h1.2.1.1 h2.2.1.2⟩, ⟨le_trans' h2.2.2.1 h1.2.2.2, le_trans' h1.2.2.1 h2.2.2.2⟩⟩
/-- `empty()` overlaps no box except the infinite one. -/
theorem C29_empty3 (a : BoundingBox3 S) :
    (a.overlaps (BoundingBox3.empty : BoundingBox3 S) = true ↔
      (a == (BoundingBox3.infinite : BoundingBox3 S)) = true) ∧
    ((BoundingBox3.empty : BoundingBox3 S).overlaps a = true ↔
      (a == (BoundingBox3.infinite : BoundingBox3 S)) = true) := by
  rw [C29_symmetric3 BoundingBox3.empty a]
  simp only [and_self]
  rw [overlaps3_iff, BoundingBox3.beq_iff, Point3.beq_iff, Point3.beq_iff]
  constructor
  · intro h
    exact ⟨⟨(overlap_emp.1 h.1).1, (overlap_emp.1 h.2.1).1, (overlap_emp.1 h.2.2).1⟩, ⟨(overlap_emp.1 h.1).2, (overlap_emp.1 h.2.1).2, (overlap_emp.1 h.2.2).2⟩⟩
  · rintro ⟨h1, h2⟩
    exact ⟨overlap_emp.2 ⟨h1.1, h2.1⟩, overlap_emp.2 ⟨h1.2.1, h2.2.1⟩, overlap_emp.2 ⟨h1.2.2, h2.2.2⟩⟩
/-- The claim "no box overlaps `empty()`" fails for the infinite box. -/
theorem C29_infinite_overlaps_empty3 :
    (BoundingBox3.infinite : BoundingBox3 S).overlaps (BoundingBox3.empty : BoundingBox3 S) = true := by
  rw [(C29_empty3 _).1, BoundingBox3.beq_iff, Point3.beq_iff, Point3.beq_iff]
  exact ⟨⟨(Same.refl (negInfinity : S)).beq not_nan_negInfinity, (Same.refl (negInfinity : S)).beq not_nan_negInfinity, (Same.refl (negInfinity : S)).beq not_nan_negInfinity⟩,
    ⟨(Same.refl (infinity : S)).beq not_nan_infinity, (Same.refl (infinity : S)).beq not_nan_infinity, (Same.refl (infinity : S)).beq not_nan_infinity⟩⟩

/-- Two boxes with exactly a corner in common, and two disjoint ones. -/
example : (BoundingBox3.new (Point3.new (Ideal.of 0) (Ideal.of 0) (Ideal.of 0)) (Point3.new (Ideal.of 1) (Ideal.of 1) (Ideal.of 1))).overlaps
      (BoundingBox3.new (Point3.new (Ideal.of 1) (Ideal.of 1) (Ideal.of 1)) (Point3.new (Ideal.of 2) (Ideal.of 2) (Ideal.of 2))) = true ∧
    (BoundingBox3.new (Point3.new (Ideal.of 0) (Ideal.of 0) (Ideal.of 0)) (Point3.new (Ideal.of 1) (Ideal.of 1) (Ideal.of 1))).overlaps
      (BoundingBox3.new (Point3.new (Ideal.of 2) (Ideal.of 2) (Ideal.of 2)) (Point3.new (Ideal.of 3) (Ideal.of 3) (Ideal.of 3))) = false := by
  rw [Bool.eq_false_iff, ne_eq, overlaps3_iff, overlaps3_iff]
  simp [Point3.new, Ideal.le_real]

/-! ### C30: intersection of boxes -/

theorem C30_intersect3 (a b : BoundingBox3 S) (ha : LeAll a.min a.max) (hb : LeAll b.min b.max) :
    ((Api.intersect a b).isSome = true ↔ ∃ p, a.isInside p = true ∧ b.isInside p = true) ∧
    (∀ c, Api.intersect a b = some c → LeAll c.min c.max ∧
      ∀ p, c.isInside p = true ↔ a.isInside p = true ∧ b.isInside p = true) ∧
    (∀ c, Api.intersect a b = some c → ∃ c', Api.intersect b a = some c' ∧ (c == c') = true) := by
  rw [← C29_common_point3 a b ha hb]
  have e1 : Api.intersect a b = if a.overlaps b then
      some (BoundingBox3.new (Api.max a.min b.min) (Api.min a.max b.max)) else none := rfl
  have e2 : Api.intersect b a = if b.overlaps a then
      some (BoundingBox3.new (Api.max b.min a.min) (Api.min b.max a.max)) else none := rfl
  rw [e1, e2, C29_symmetric3 b a]
  by_cases h : a.overlaps b = true
  · rw [if_pos h, if_pos h]
    rw [overlaps3_iff] at h
    rw [wf3_iff] at ha hb
    refine ⟨by simp [overlaps3_iff, h], ?_, ?_⟩
    · rintro c hc
      obtain rfl := Option.some.inj hc
      refine ⟨wf3_iff.2 ⟨new_lo_hi (max_nn (le_nn ha.1).1) (min_nn (le_nn ha.1).2), new_lo_hi (max_nn (le_nn ha.2.1).1) (min_nn (le_nn ha.2.1).2), new_lo_hi (max_nn (le_nn ha.2.2).1) (min_nn (le_nn ha.2.2).2)⟩, fun p => ?_⟩
      rw [isInside3_iff, isInside3_iff, isInside3_iff]
      constructor
      · intro h'
        exact ⟨⟨((int_in ha.1 hb.1 h.1.1 h.1.2).1 h'.1).1, ((int_in ha.2.1 hb.2.1 h.2.1.1 h.2.1.2).1 h'.2.1).1, ((int_in ha.2.2 hb.2.2 h.2.2.1 h.2.2.2).1 h'.2.2).1⟩, ⟨((int_in ha.1 hb.1 h.1.1 h.1.2).1 h'.1).2, ((int_in ha.2.1 hb.2.1 h.2.1.1 h.2.1.2).1 h'.2.1).2, ((int_in ha.2.2 hb.2.2 h.2.2.1 h.2.2.2).1 h'.2.2).2⟩⟩
      · rintro ⟨h1, h2⟩
        exact ⟨(int_in ha.1 hb.1 h.1.1 h.1.2).2 ⟨h1.1, h2.1⟩, (int_in ha.2.1 hb.2.1 h.2.1.1 h.2.1.2).2 ⟨h1.2.1, h2.2.1⟩, (int_in ha.2.2 hb.2.2 h.2.2.1 h.2.2.2).2 ⟨h1.2.2, h2.2.2⟩⟩
    · rintro c hc
      obtain rfl := Option.some.inj hc
      refine ⟨_, rfl, BoundingBox3.beq_iff.2 ⟨Point3.beq_iff.2 ⟨(int_comm ha.1 hb.1 h.1.1 h.1.2).1, (int_comm ha.2.1 hb.2.1 h.2.1.1 h.2.1.2).1, (int_comm ha.2.2 hb.2.2 h.2.2.1 h.2.2.2).1⟩,
        Point3.beq_iff.2 ⟨(int_comm ha.1 hb.1 h.1.1 h.1.2).2, (int_comm ha.2.1 hb.2.1 h.2.1.1 h.2.1.2).2, (int_comm ha.2.2 hb.2.2 h.2.2.1 h.2.2.2).2⟩⟩⟩
  · rw [if_neg h]; simp [h]
/-- Intersecting with `empty()` gives `None` for every box but the infinite one, ... -/
theorem C30_empty3 (a : BoundingBox3 S)
    (h : (a == (BoundingBox3.infinite : BoundingBox3 S)) = false) :
    Api.intersect a (BoundingBox3.empty : BoundingBox3 S) = none ∧
    Api.intersect (BoundingBox3.empty : BoundingBox3 S) a = none := by
  have h1 := mt (C29_empty3 a).1.1 (by simp [h])
  have h2 := mt (C29_empty3 a).2.1 (by simp [h])
  exact ⟨if_neg h1, if_neg h2⟩
/-- ... for which it gives back the infinite box: the claim fails there. -/
theorem C30_infinite_empty3 :
    ∃ c, Api.intersect (BoundingBox3.infinite : BoundingBox3 S) (BoundingBox3.empty : BoundingBox3 S) = some c ∧
      (c == BoundingBox3.infinite) = true := by
  refine ⟨_, if_pos C29_infinite_overlaps_empty3, ?_⟩
  have lo : (fmin (fmax negInfinity infinity) (fmin infinity negInfinity) == (negInfinity : S)) = true :=
    beq_iff.2 ⟨min_nn (max_nn not_nan_negInfinity), not_nan_negInfinity, by
      rw [val_min (max_nn not_nan_negInfinity) (min_nn not_nan_infinity),
        val_max not_nan_negInfinity not_nan_infinity, val_min not_nan_infinity not_nan_negInfinity]; simp⟩
  have hi : (fmax (fmax negInfinity infinity) (fmin infinity negInfinity) == (infinity : S)) = true :=
    beq_iff.2 ⟨max_nn (max_nn not_nan_negInfinity), not_nan_infinity, by
      rw [val_max (max_nn not_nan_negInfinity) (min_nn not_nan_infinity),
        val_max not_nan_negInfinity not_nan_infinity, val_min not_nan_infinity not_nan_negInfinity]; simp⟩
  simp only [BoundingBox3.beq_iff, Point3.beq_iff]
  exact ⟨⟨lo, lo, lo⟩, ⟨hi, hi, hi⟩⟩

example : ((BoundingBox3.empty : BoundingBox3 S) == (BoundingBox3.infinite : BoundingBox3 S)) = false := by
  rw [Bool.eq_false_iff, ne_eq, BoundingBox3.beq_iff, Point3.beq_iff, Point3.beq_iff]
  rintro ⟨h, -⟩
  exact not_inf_le_negInf (beq_le h.1)

/-! ### C34: a reported range is well-formed -/

theorem C34_range3 (b : BoundingBox3 S) (ray : Ray3 S) (i : Range S)
    (h : Api.intersect b ray = some i) :
    (Scalar.zero ≤? i.start) = true ∧ (i.start ≤? i.stop) = true ∧ ¬ IsNaN i.start ∧ ¬ IsNaN i.stop := by
  change b.intersectRay ray = some i at h
  simp only [BoundingBox3.intersectRay] at h
  have h0 : (Scalar.zero ≤? (Scalar.zero : S)) = true := le_self not_nan_zero
  split_ifs at h with h1 h2 h3
  obtain rfl := Option.some.inj h
  exact ⟨nonneg_max (nonneg_max (nonneg_max h0)), h3, (le_nn h3).1, (le_nn h3).2⟩

/-! ### C36: from strictly inside -/

theorem C36_inside3 (b : BoundingBox3 S) (ray : Ray3 S) (hd : NoNaN ray.direction)
    (h : ((b.min.x <? ray.origin.x) = true ∧ (ray.origin.x <? b.max.x) = true) ∧ ((b.min.y <? ray.origin.y) = true ∧ (ray.origin.y <? b.max.y) = true) ∧ ((b.min.z <? ray.origin.z) = true ∧ (ray.origin.z <? b.max.z) = true)) :
    ∃ i, Api.intersect b ray = some i ∧ (i.start == Scalar.zero) = true := by
  rw [Vector3.noNaN] at hd
  have z0 : ((Scalar.zero : S) == Scalar.zero) = true := (Same.refl _).beq not_nan_zero
  have i0 : (Scalar.zero ≤? (infinity : S)) = true := le_inf not_nan_zero
  have sx := slab_strict h.1.1 h.1.2 hd.1
  have ax := start_step z0 sx.1
  have bx := stop_step i0 sx.2
  have sy := slab_strict h.2.1.1 h.2.1.2 hd.2.1
  have ay := start_step ax sy.1
  have by' := stop_step bx sy.2
  have sz := slab_strict h.2.2.1 h.2.2.2 hd.2.2
  have az := start_step ay sz.1
  have bz := stop_step by' sz.2
  show ∃ i, b.intersectRay ray = some i ∧ (i.start == Scalar.zero) = true
  simp only [BoundingBox3.intersectRay, Api.min, Api.max, MinMax.min, MinMax.max]
  exact ⟨_, (if_neg (not_gt_of ax bx).1).trans ((if_neg (not_gt_of ay by').1).trans
    (if_pos (not_gt_of az bz).2)), az⟩
/-- Hypotheses of C36 (and so of C34) are met, e.g. in the box `[0, 2]` from `1` in direction `(1, 0, ..)`. -/
example : ∃ i, Api.intersect (BoundingBox3.mk (Point3.new (Ideal.of 0) (Ideal.of 0) (Ideal.of 0)) (Point3.new (Ideal.of 2) (Ideal.of 2) (Ideal.of 2)))
    (Ray3.new (Point3.new (Ideal.of 1) (Ideal.of 1) (Ideal.of 1)) (Vector3.new (Ideal.of 1) (Ideal.of 0) (Ideal.of 0))) = some i := by
  obtain ⟨i, hi, -⟩ := C36_inside3 (BoundingBox3.mk (Point3.new (Ideal.of 0) (Ideal.of 0) (Ideal.of 0)) (Point3.new (Ideal.of 2) (Ideal.of 2) (Ideal.of 2)))
    (Ray3.new (Point3.new (Ideal.of 1) (Ideal.of 1) (Ideal.of 1)) (Vector3.new (Ideal.of 1) (Ideal.of 0) (Ideal.of 0)))
    (by simp [Vector3.noNaN, Ray3.new, Vector3.new]) (by simp [Ray3.new, Point3.new, Ideal.lt_real])
  exact ⟨i, hi⟩

end dim3


end VecMath
