import Verif.Spec.Ray
import Verif.Lemmas.Round
import Verif.Props.FloatBox
/-! # One slab of the ray/box test in floating point -/

open Classical

namespace VecMath
open Scalar IEEE

section
variable {S : Type} [Scalar S] [IEEE S]

theorem neg?_eq {a : S} (ha : IsFinite a) (h0 : real a ≠ 0) : (den a).neg? = decide (real a < 0) := by
  unfold IsFinite at ha; unfold real at *
  generalize den a = v at *
  rcases v with _ | s | _ | x
  · exact ha.elim
  · exact ha.elim
  · exact absurd rfl h0
  · rfl
/-- A nonzero number over a zero is an infinity. -/
theorem den_div_zero {a b : S} (ha : IsFinite a) (hb : IsFinite b) (h : real a ≠ 0) (h0 : real b = 0) :
    den (a / b) = .inf (decide (real a < 0) ^^ (den b).neg?) := by
  rw [den_div, Rounding.div_fin _ ha hb, if_pos (show (den b).real = 0 from h0),
    if_neg (show (den a).real ≠ 0 from h), neg?_eq ha h]
theorem nan_div_zero {a b : S} (ha : IsFinite a) (hb : IsFinite b) (h : real a = 0) (h0 : real b = 0) :
    IsNaN (a / b) := by
  unfold IsNaN
  rw [den_div, Rounding.div_fin _ ha hb, if_pos (show (den b).real = 0 from h0),
    if_pos (show (den a).real = 0 from h)]
theorem val_inf {a : S} {b : Bool} (h : den a = .inf b) : ¬ IsNaN a ∧ val a = if b then ⊥ else ⊤ := by
  unfold IsNaN val; rw [h]; cases b <;> simp

/-- The running start of the test. -/
theorem fmax_step {s n : S} (hs : ¬ IsNaN s) : ¬ IsNaN (fmax s n) ∧ val s ≤ val (fmax s n) ∧
    (¬ IsNaN n → val n ≤ val (fmax s n)) ∧
    ∀ X : EReal, val s ≤ X → (¬ IsNaN n → val n ≤ X) → val (fmax s n) ≤ X := by
  refine ⟨fun h => hs (isNaN_max.1 h).1, ?_⟩
  by_cases hn : IsNaN n
  · rw [(max_nan_right (a := s) hn).val]
    exact ⟨le_rfl, fun h => absurd hn h, fun X h _ => h⟩
  · rw [val_max hs hn]
    exact ⟨le_max_left _ _, fun _ => le_max_right _ _, fun X h h' => max_le h (h' hn)⟩
/-- The running end of the test. -/
theorem fmin_step {s n : S} (hs : ¬ IsNaN s) : ¬ IsNaN (fmin s n) ∧ val (fmin s n) ≤ val s ∧
    (¬ IsNaN n → val (fmin s n) ≤ val n) ∧
    ∀ X : EReal, X ≤ val s → (¬ IsNaN n → X ≤ val n) → X ≤ val (fmin s n) := by
  refine ⟨fun h => hs (isNaN_min.1 h).1, ?_⟩
  by_cases hn : IsNaN n
  · rw [(min_nan_right (a := s) hn).val]
    exact ⟨le_rfl, fun h => absurd hn h, fun X h _ => h⟩
  · rw [val_min hs hn]
    exact ⟨min_le_left _ _, fun _ => min_le_right _ _, fun X h h' => le_min h (h' hn)⟩
end

section
variable {S : Type} [Scalar S] [IEEE S] [Binary S]

theorem real_sub_sign {a b : S} (h : IsFinite (a - b)) :
    (0 ≤ real (a - b) ↔ real b ≤ real a) ∧ (real (a - b) ≤ 0 ↔ real a ≤ real b) := by
  have he := err_sub h
  have hu := uro_le (S := S)
  have hp := uro_pos (S := S)
  constructor
  · constructor
    · intro h0
      by_contra hc
      push Not at hc
      rw [abs_of_neg (show real a - real b < 0 by linarith), abs_le] at he
      nlinarith
    · intro h0
      rw [abs_of_nonneg (show 0 ≤ real a - real b by linarith), abs_le] at he
      nlinarith
  · constructor
    · intro h0
      by_contra hc
      push Not at hc
      rw [abs_of_pos (show 0 < real a - real b by linarith), abs_le] at he
      nlinarith
    · intro h0
      rw [abs_of_nonpos (show real a - real b ≤ 0 by linarith), abs_le] at he
      nlinarith

/-- The computed crossing parameter has two rounding errors. -/
theorem quot_bounds {l o d : S} (h1 : IsFinite (l - o)) (hd : IsFinite d) (h0 : real d ≠ 0)
    (h : IsFinite ((l - o) / d)) {q : ℝ} (hq : q = (real l - real o) / real d) :
    (0 ≤ q → down S q ≤ real ((l - o) / d) ∧ real ((l - o) / d) ≤ up S q) ∧
    (q ≤ 0 → real ((l - o) / d) ≤ tiny S) := by
  have e1 := err_sub h1
  have e2 := err_div h1 hd h0 h
  have hu := uro_le (S := S)
  have hp := uro_pos (S := S)
  have e3 : |real (l - o) / real d - q| ≤ uro S * |q| := by
    rw [hq, ← sub_div, abs_div, abs_div, ← mul_div_assoc]
    exact div_le_div_of_nonneg_right e1 (abs_nonneg _)
  set r := real (l - o) / real d
  set c := real ((l - o) / d)
  constructor
  · intro hq0
    rw [abs_of_nonneg hq0, abs_le] at e3
    have hr : 0 ≤ r := by nlinarith
    rw [abs_of_nonneg hr, abs_le] at e2
    unfold down up
    constructor <;> nlinarith
  · intro hq0
    rw [abs_of_nonpos hq0, abs_le] at e3
    have hr : r ≤ 0 := by nlinarith
    rw [abs_of_nonpos hr, abs_le] at e2
    nlinarith

theorem slab_inside {l h o d t : ℝ} (hd : d ≠ 0) (hlh : l ≤ h) :
    (l ≤ o + t * d ∧ o + t * d ≤ h) ↔
      min ((l - o) / d) ((h - o) / d) ≤ t ∧ t ≤ max ((l - o) / d) ((h - o) / d) := by
  rcases lt_or_gt_of_ne hd with hd | hd
  · have : (h - o) / d ≤ (l - o) / d := by
      rw [div_le_div_right_of_neg hd]; linarith
    rw [min_eq_right this, max_eq_left this, div_le_iff_of_neg hd, le_div_iff_of_neg hd]
    constructor <;> rintro ⟨h1, h2⟩ <;> constructor <;> linarith
  · have : (l - o) / d ≤ (h - o) / d := by
      rw [div_le_div_iff_of_pos_right hd]; linarith
    rw [min_eq_left this, max_eq_right this, div_le_iff₀ hd, le_div_iff₀ hd]
    constructor <;> rintro ⟨h1, h2⟩ <;> constructor <;> linarith

variable {lo hi o d : S}

/-- Soundness in one slab: parameters in the interior of the reported range are in the slab. -/
theorem slab_sound (hf : SlabFinite lo hi o d) (hle : real lo ≤ real hi) {s e t : ℝ} (hs : 0 ≤ s)
    (hn : ¬ IsNaN (fmin ((lo - o) / d) ((hi - o) / d)) → val (fmin ((lo - o) / d) ((hi - o) / d)) ≤ s)
    (hm : ¬ IsNaN (fmax ((lo - o) / d) ((hi - o) / d)) → (e : EReal) ≤ val (fmax ((lo - o) / d) ((hi - o) / d)))
    (h1 : s ≤ down S t) (h2 : up S t ≤ e) : ExactIn lo hi o d t := by
  obtain ⟨f1, f2, fd, fq⟩ := hf
  have hu := uro_le (S := S)
  have hp := uro_pos (S := S)
  have ht := tiny_pos (S := S)
  have t0 : 0 < t := by unfold down at h1; by_contra hc; push Not at hc; nlinarith [sq_nonneg (1 - uro S)]
  by_cases hd : real d = 0
  · unfold ExactIn
    rw [hd, mul_zero, add_zero]
    obtain ⟨a1, a2⟩ := real_sub_sign f1
    obtain ⟨b1, b2⟩ := real_sub_sign f2
    by_contra hc
    -- the origin is outside the slab: both quotients are the same infinity, or one is and the other is NaN
    have key : ∀ c : Bool, ¬ IsNaN (fmin ((lo - o) / d) ((hi - o) / d)) ∧ ¬ IsNaN (fmax ((lo - o) / d) ((hi - o) / d)) →
        val (fmin ((lo - o) / d) ((hi - o) / d)) = (if c then ⊥ else ⊤) →
        val (fmax ((lo - o) / d) ((hi - o) / d)) = (if c then ⊥ else ⊤) → False := by
      intro c hnn h3 h4
      cases c
      · have := hn hnn.1; rw [h3] at this; simp at this
      · have := hm hnn.2; rw [h4] at this; simp at this
    have key2 : ∀ c : Bool, den ((lo - o) / d) = .inf c → den ((hi - o) / d) = .inf c → False := by
      intro c h3 h4
      obtain ⟨n3, v3⟩ := val_inf h3
      obtain ⟨n4, v4⟩ := val_inf h4
      refine key c ⟨fun h => n3 (isNaN_min.1 h).1, fun h => n3 (isNaN_max.1 h).1⟩ ?_ ?_
      · rw [val_min n3 n4, v3, v4, min_self]
      · rw [val_max n3 n4, v3, v4, max_self]
    rw [not_and_or, not_le, not_le] at hc
    rcases hc with hc | hc
    · have n1 : 0 < real (lo - o) := not_le.1 (mt a2.1 (not_le.2 hc))
      have n2 : 0 < real (hi - o) := not_le.1 (mt b2.1 (not_le.2 (by linarith)))
      have d1 := den_div_zero f1 fd n1.ne' hd
      have d2 := den_div_zero f2 fd n2.ne' hd
      rw [decide_eq_false (not_lt.2 n1.le)] at d1
      rw [decide_eq_false (not_lt.2 n2.le)] at d2
      exact key2 _ d1 d2
    · have n1 : real (lo - o) < 0 := not_le.1 (mt a1.1 (not_le.2 (by linarith)))
      have n2 : real (hi - o) < 0 := not_le.1 (mt b1.1 (not_le.2 hc))
      have d1 := den_div_zero f1 fd n1.ne hd
      have d2 := den_div_zero f2 fd n2.ne hd
      rw [decide_eq_true n1] at d1
      rw [decide_eq_true n2] at d2
      exact key2 _ d1 d2
  · obtain ⟨q1, q2⟩ := fq hd
    obtain ⟨p1, p2⟩ := quot_bounds f1 fd hd q1 rfl
    obtain ⟨r1, r2⟩ := quot_bounds f2 fd hd q2 rfl
    have hn' := hn (fun h => q1.not_nan (isNaN_min.1 h).1)
    have hm' := hm (fun h => q1.not_nan (isNaN_max.1 h).1)
    rw [val_min q1.not_nan q2.not_nan, q1.val, q2.val, ← EReal.coe_strictMono.monotone.map_min,
      EReal.coe_le_coe_iff] at hn'
    rw [val_max q1.not_nan q2.not_nan, q1.val, q2.val, ← EReal.coe_strictMono.monotone.map_max,
      EReal.coe_le_coe_iff] at hm'
    rw [ExactIn, slab_inside hd hle]
    set A := (real lo - real o) / real d
    set B := (real hi - real o) / real d
    have hup : tiny S < up S t := by unfold up; nlinarith [mul_pos (show 0 < (1 + uro S) ^ 2 by positivity) t0]
    have lower : ∀ {Q c : ℝ}, (0 ≤ Q → down S Q ≤ c ∧ c ≤ up S Q) → c ≤ s → Q ≤ t := by
      intro Q c hQ hcs
      by_contra hc
      push Not at hc
      have := (hQ (by linarith)).1
      unfold down at *
      nlinarith [mul_lt_mul_of_pos_left hc (show 0 < (1 - uro S) ^ 2 by apply pow_pos; linarith)]
    have upper : ∀ {Q c : ℝ}, (0 ≤ Q → down S Q ≤ c ∧ c ≤ up S Q) → (Q ≤ 0 → c ≤ tiny S) → e ≤ c → t ≤ Q := by
      intro Q c hQ hQ0 hce
      by_contra hc
      push Not at hc
      by_cases h0 : 0 ≤ Q
      · have := (hQ h0).2
        unfold up at *
        nlinarith [mul_lt_mul_of_pos_left hc (show 0 < (1 + uro S) ^ 2 by positivity)]
      · have := hQ0 (by linarith)
        linarith
    constructor
    · rcases min_le_iff.1 hn' with h | h
      · exact (min_le_left _ _).trans (lower p1 h)
      · exact (min_le_right _ _).trans (lower r1 h)
    · rcases le_max_iff.1 hm' with h | h
      · exact (upper p1 p2 h).trans (le_max_left _ _)
      · exact (upper r1 r2 h).trans (le_max_right _ _)

/-- Completeness in one slab: the computed crossing parameters bracket the parameters in the slab, up to rounding. -/
theorem slab_complete (hf : SlabFinite lo hi o d) (ho : OffFace lo hi o d) (hle : real lo ≤ real hi) {t₁ t₂ : ℝ}
    (h0 : 0 ≤ t₁) (h0' : 0 ≤ t₂) (h1 : ExactIn lo hi o d t₁) (h2 : ExactIn lo hi o d t₂) :
    (¬ IsNaN (fmin ((lo - o) / d) ((hi - o) / d)) → val (fmin ((lo - o) / d) ((hi - o) / d)) ≤ (up S t₁ : ℝ)) ∧
    (¬ IsNaN (fmax ((lo - o) / d) ((hi - o) / d)) → ((down S t₂ : ℝ) : EReal) ≤ val (fmax ((lo - o) / d) ((hi - o) / d))) := by
  obtain ⟨f1, f2, fd, fq⟩ := hf
  have hu := uro_le (S := S)
  have hp := uro_pos (S := S)
  have ht := tiny_pos (S := S)
  by_cases hd : real d = 0
  · have ho := ho hd
    unfold ExactIn at h1
    rw [hd, mul_zero, add_zero] at h1
    obtain ⟨a1, a2⟩ := real_sub_sign f1
    obtain ⟨b1, b2⟩ := real_sub_sign f2
    by_cases he : real o = real lo
    · -- a flat slab containing the origin: both quotients are NaN
      have he' := ho.1 he
      have n1 : real (lo - o) = 0 := le_antisymm (a2.2 he.ge) (a1.2 he.le)
      have n2 : real (hi - o) = 0 := le_antisymm (b2.2 he'.ge) (b1.2 he'.le)
      have x1 := nan_div_zero f1 fd n1 hd
      have x2 := nan_div_zero f2 fd n2 hd
      exact ⟨fun h => absurd (isNaN_min.2 ⟨x1, x2⟩) h, fun h => absurd (isNaN_max.2 ⟨x1, x2⟩) h⟩
    · have l1 : real lo < real o := lt_of_le_of_ne h1.1 (Ne.symm he)
      have l2 : real o < real hi := lt_of_le_of_ne h1.2 (mt ho.2 he)
      have n1 : real (lo - o) < 0 := not_le.1 (mt a1.1 (not_le.2 l1))
      have n2 : 0 < real (hi - o) := not_le.1 (mt b2.1 (not_le.2 l2))
      have d1 := den_div_zero f1 fd n1.ne hd
      have d2 := den_div_zero f2 fd n2.ne' hd
      rw [decide_eq_true n1] at d1
      rw [decide_eq_false (not_lt.2 n2.le)] at d2
      obtain ⟨m1, v1⟩ := val_inf d1
      obtain ⟨m2, v2⟩ := val_inf d2
      rw [val_min m1 m2, val_max m1 m2, v1, v2]
      cases (den d).neg? <;> simp
  · obtain ⟨q1, q2⟩ := fq hd
    obtain ⟨p1, p2⟩ := quot_bounds f1 fd hd q1 rfl
    obtain ⟨r1, r2⟩ := quot_bounds f2 fd hd q2 rfl
    rw [val_min q1.not_nan q2.not_nan, val_max q1.not_nan q2.not_nan, q1.val, q2.val,
      ← EReal.coe_strictMono.monotone.map_min, ← EReal.coe_strictMono.monotone.map_max,
      EReal.coe_le_coe_iff, EReal.coe_le_coe_iff]
    rw [ExactIn, slab_inside hd hle] at h1 h2
    set A := (real lo - real o) / real d
    set B := (real hi - real o) / real d
    have lower : ∀ {Q c : ℝ}, (0 ≤ Q → down S Q ≤ c ∧ c ≤ up S Q) → (Q ≤ 0 → c ≤ tiny S) → Q ≤ t₁ → c ≤ up S t₁ := by
      intro Q c hQ hQ0 hcs
      by_cases h : 0 ≤ Q
      · have := (hQ h).2
        unfold up at *
        nlinarith [mul_le_mul_of_nonneg_left hcs (show 0 ≤ (1 + uro S) ^ 2 by positivity)]
      · have := hQ0 (by linarith)
        unfold up
        nlinarith [mul_nonneg (show 0 ≤ (1 + uro S) ^ 2 by positivity) h0]
    have upper : ∀ {Q c : ℝ}, (0 ≤ Q → down S Q ≤ c ∧ c ≤ up S Q) → t₂ ≤ Q → down S t₂ ≤ c := by
      intro Q c hQ hce
      have := (hQ (by linarith)).1
      unfold down at *
      nlinarith [mul_le_mul_of_nonneg_left hce (sq_nonneg (1 - uro S))]
    constructor
    · intro _
      rcases min_le_iff.1 h1.1 with h | h
      · exact (min_le_left _ _).trans (lower p1 p2 h)
      · exact (min_le_right _ _).trans (lower r1 r2 h)
    · intro _
      rcases le_max_iff.1 h2.2 with h | h
      · exact (upper p1 h).trans (le_max_left _ _)
      · exact (upper r1 h).trans (le_max_right _ _)

end
end VecMath
