import Verif.Spec.Hit
import Verif.Lemmas.FloatSlab
import Verif.Lemmas.Mono
/-! # Where a ray is at the crossing parameters of one slab -/

open Classical

namespace VecMath
open Scalar IEEE

section
variable {S : Type} [Scalar S] [IEEE S] [Binary S]

/-- At the computed crossing parameter the exact point is at the face, up to rounding. -/
theorem quot_face {c o d : S} (h1 : IsFinite (c - o)) (hd : IsFinite d) (h0 : real d ≠ 0)
    (h : IsFinite ((c - o) / d)) : |real o + real d * real ((c - o) / d) - real c| ≤ faceErr c o d := by
  have e1 := err_sub h1
  have e2 := err_div h1 hd h0 h
  have hp := uro_pos (S := S)
  have hD : 0 < |real d| := abs_pos.2 h0
  have e3 : |real d * real ((c - o) / d) - real (c - o)| ≤ uro S * |real (c - o)| + tiny S * |real d| := by
    have : real d * real ((c - o) / d) - real (c - o) = (real ((c - o) / d) - real (c - o) / real d) * real d := by
      field_simp
    rw [this, abs_mul]
    calc _ ≤ (uro S * |real (c - o) / real d| + tiny S) * |real d| := mul_le_mul_of_nonneg_right e2 hD.le
      _ = _ := by rw [abs_div]; field_simp
  have e4 : |real (c - o)| ≤ (1 + uro S) * |real c - real o| := by
    have := abs_sub_abs_le_abs_sub (real (c - o)) (real c - real o)
    nlinarith
  have e5 : real o + real d * real ((c - o) / d) - real c =
      (real d * real ((c - o) / d) - real (c - o)) + (real (c - o) - (real c - real o)) := by ring
  rw [e5]
  refine (abs_add_le _ _).trans ?_
  unfold faceErr
  nlinarith

variable {lo hi o d : S}

/-- With a zero direction both quotients are the same infinity if the origin is outside the slab. -/
theorem slab_parallel (hf : SlabFinite lo hi o d) (hle : real lo ≤ real hi) (hd : real d = 0) {t : ℝ}
    (hn : ¬ IsNaN (fmin ((lo - o) / d) ((hi - o) / d)) → val (fmin ((lo - o) / d) ((hi - o) / d)) ≤ (t : EReal))
    (hm : ¬ IsNaN (fmax ((lo - o) / d) ((hi - o) / d)) → (t : EReal) ≤ val (fmax ((lo - o) / d) ((hi - o) / d))) :
    real lo ≤ real o ∧ real o ≤ real hi := by
  obtain ⟨f1, f2, fd, -⟩ := hf
  obtain ⟨a1, a2⟩ := real_sub_sign f1
  obtain ⟨b1, b2⟩ := real_sub_sign f2
  by_contra hc
  have key2 : ∀ c : Bool, den ((lo - o) / d) = .inf c → den ((hi - o) / d) = .inf c → False := by
    intro c h3 h4
    obtain ⟨n3, v3⟩ := val_inf h3
    obtain ⟨n4, v4⟩ := val_inf h4
    have hn := hn (fun h => n3 (isNaN_min.1 h).1)
    have hm := hm (fun h => n3 (isNaN_max.1 h).1)
    rw [val_min n3 n4, v3, v4, min_self] at hn
    rw [val_max n3 n4, v3, v4, max_self] at hm
    cases c <;> simp at hn hm
  rw [not_and_or, not_le, not_le] at hc
  rcases hc with hc | hc
  · have n1 : 0 < real (lo - o) := not_le.1 (mt a2.1 (not_le.2 hc))
    have n2 : 0 < real (hi - o) := not_le.1 (mt b2.1 (not_le.2 (by linarith)))
    have d1 := den_div_zero f1 fd n1.ne' hd
    have d2 := den_div_zero f2 fd n2.ne' hd
    rw [decide_eq_false (not_lt.2 n1.le)] at d1
    rw [decide_eq_false (not_lt.2 n2.le)] at d2
    exact key2 _ d1 d2
  · have n1 : real (lo - o) < 0 := not_le.1 (mt a1.1 (not_le.2 (by linarith)))
    have n2 : real (hi - o) < 0 := not_le.1 (mt b1.1 (not_le.2 hc))
    have d1 := den_div_zero f1 fd n1.ne hd
    have d2 := den_div_zero f2 fd n2.ne hd
    rw [decide_eq_true n1] at d1
    rw [decide_eq_true n2] at d2
    exact key2 _ d1 d2

/-- Which quotient is the smaller one. -/
theorem slab_order (hf : SlabFinite lo hi o d) (hle : real lo ≤ real hi) (hd : real d ≠ 0) :
    IsFinite ((lo - o) / d) ∧ IsFinite ((hi - o) / d) ∧
    (0 < real d → real ((lo - o) / d) ≤ real ((hi - o) / d)) ∧
    (real d < 0 → real ((hi - o) / d) ≤ real ((lo - o) / d)) := by
  obtain ⟨f1, f2, fd, fq⟩ := hf
  obtain ⟨q1, q2⟩ := fq hd
  have hs : val (lo - o) ≤ val (hi - o) := by
    refine val_sub_mono ?_ le_rfl f1.not_nan f2.not_nan
    rw [(finite_of_sub f1).1.val, (finite_of_sub f2).1.val, EReal.coe_le_coe_iff]; exact hle
  refine ⟨q1, q2, fun h => ?_, fun h => ?_⟩
  · have := val_div_mono hs f1.not_nan f2.not_nan fd h
    rwa [q1.val, q2.val, EReal.coe_le_coe_iff] at this
  · have := val_div_anti hs f1.not_nan f2.not_nan fd h
    rwa [q1.val, q2.val, EReal.coe_le_coe_iff] at this

theorem faceErr_nonneg (c o d : S) : 0 ≤ faceErr c o d := by
  have := uro_pos (S := S); have := tiny_pos (S := S)
  unfold faceErr
  have : 0 ≤ (1 + uro S) ^ 2 - 1 := by nlinarith
  positivity

/-- In one slab: at every parameter between the computed ones the exact point is in the slab, up to rounding. -/
theorem slab_near (hf : SlabFinite lo hi o d) (hle : real lo ≤ real hi) {t : ℝ}
    (hn : ¬ IsNaN (fmin ((lo - o) / d) ((hi - o) / d)) → val (fmin ((lo - o) / d) ((hi - o) / d)) ≤ (t : EReal))
    (hm : ¬ IsNaN (fmax ((lo - o) / d) ((hi - o) / d)) → (t : EReal) ≤ val (fmax ((lo - o) / d) ((hi - o) / d))) :
    NearSlab lo hi o d (real o + real d * t) 0 := by
  have n1 := faceErr_nonneg lo o d
  have n2 := faceErr_nonneg hi o d
  unfold NearSlab
  by_cases hd : real d = 0
  · obtain ⟨h1, h2⟩ := slab_parallel hf hle hd hn hm
    rw [hd, zero_mul, add_zero]
    constructor <;> linarith
  · obtain ⟨q1, q2, oP, oN⟩ := slab_order hf hle hd
    have hn' := hn (fun h => q1.not_nan (isNaN_min.1 h).1)
    have hm' := hm (fun h => q1.not_nan (isNaN_max.1 h).1)
    rw [val_min q1.not_nan q2.not_nan, q1.val, q2.val, ← EReal.coe_strictMono.monotone.map_min,
      EReal.coe_le_coe_iff] at hn'
    rw [val_max q1.not_nan q2.not_nan, q1.val, q2.val, ← EReal.coe_strictMono.monotone.map_max,
      EReal.coe_le_coe_iff] at hm'
    have b1 := abs_le.1 (quot_face hf.1 hf.2.2.1 hd q1)
    have b2 := abs_le.1 (quot_face hf.2.1 hf.2.2.1 hd q2)
    rcases lt_or_gt_of_ne hd with h | h
    · rw [min_eq_right (oN h)] at hn'
      rw [max_eq_left (oN h)] at hm'
      constructor <;> nlinarith
    · rw [min_eq_left (oP h)] at hn'
      rw [max_eq_right (oP h)] at hm'
      constructor <;> nlinarith

/-- In one slab: a finite smaller parameter is one at which the exact point is at the entry face. -/
theorem slab_entry (hf : SlabFinite lo hi o d) (hle : real lo ≤ real hi) {t : ℝ}
    (hn : ¬ IsNaN (fmin ((lo - o) / d) ((hi - o) / d))) (ht : val (fmin ((lo - o) / d) ((hi - o) / d)) = (t : EReal)) :
    NearEntry lo hi o d (real o + real d * t) 0 := by
  by_cases hd : real d = 0
  · exfalso
    obtain ⟨f1, f2, fd, -⟩ := hf
    have inf : ∀ c : S, IsFinite (c - o) → IsNaN ((c - o) / d) ∨ (¬ IsNaN ((c - o) / d) ∧
        (val ((c - o) / d) = ⊥ ∨ val ((c - o) / d) = ⊤)) := by
      intro c hc
      by_cases h0 : real (c - o) = 0
      · exact .inl (nan_div_zero hc fd h0 hd)
      · obtain ⟨a, b⟩ := val_inf (den_div_zero hc fd h0 hd)
        refine .inr ⟨a, ?_⟩
        rw [b]; split_ifs <;> simp
    rcases inf lo f1 with h1 | ⟨h1, h1'⟩ <;> rcases inf hi f2 with h2 | ⟨h2, h2'⟩
    · exact hn (isNaN_min.2 ⟨h1, h2⟩)
    · rw [(min_nan_left h1).val] at ht
      rcases h2' with h | h <;> rw [h] at ht <;> simp at ht
    · rw [(min_nan_right h2).val] at ht
      rcases h1' with h | h <;> rw [h] at ht <;> simp at ht
    · rw [val_min h1 h2] at ht
      rcases h1' with h | h <;> rcases h2' with h' | h' <;> rw [h, h'] at ht <;> simp at ht
  · obtain ⟨q1, q2, oP, oN⟩ := slab_order hf hle hd
    rw [val_min q1.not_nan q2.not_nan, q1.val, q2.val, ← EReal.coe_strictMono.monotone.map_min,
      EReal.coe_eq_coe_iff] at ht
    unfold NearEntry
    rw [add_zero, add_zero]
    rcases lt_or_gt_of_ne hd with h | h
    · rw [min_eq_right (oN h)] at ht
      subst ht
      exact .inr ⟨h, quot_face hf.2.1 hf.2.2.1 hd q2⟩
    · rw [min_eq_left (oP h)] at ht
      subst ht
      exact .inl ⟨h, quot_face hf.1 hf.2.2.1 hd q1⟩

/-- In one slab: a finite larger parameter is one at which the exact point is at the exit face. -/
theorem slab_exit (hf : SlabFinite lo hi o d) (hle : real lo ≤ real hi) {t : ℝ}
    (hn : ¬ IsNaN (fmax ((lo - o) / d) ((hi - o) / d))) (ht : val (fmax ((lo - o) / d) ((hi - o) / d)) = (t : EReal)) :
    NearExit lo hi o d (real o + real d * t) 0 := by
  by_cases hd : real d = 0
  · exfalso
    obtain ⟨f1, f2, fd, -⟩ := hf
    have inf : ∀ c : S, IsFinite (c - o) → IsNaN ((c - o) / d) ∨ (¬ IsNaN ((c - o) / d) ∧
        (val ((c - o) / d) = ⊥ ∨ val ((c - o) / d) = ⊤)) := by
      intro c hc
      by_cases h0 : real (c - o) = 0
      · exact .inl (nan_div_zero hc fd h0 hd)
      · obtain ⟨a, b⟩ := val_inf (den_div_zero hc fd h0 hd)
        refine .inr ⟨a, ?_⟩
        rw [b]; split_ifs <;> simp
    rcases inf lo f1 with h1 | ⟨h1, h1'⟩ <;> rcases inf hi f2 with h2 | ⟨h2, h2'⟩
    · exact hn (isNaN_max.2 ⟨h1, h2⟩)
    · rw [(max_nan_left h1).val] at ht
      rcases h2' with h | h <;> rw [h] at ht <;> simp at ht
    · rw [(max_nan_right h2).val] at ht
      rcases h1' with h | h <;> rw [h] at ht <;> simp at ht
    · rw [val_max h1 h2] at ht
      rcases h1' with h | h <;> rcases h2' with h' | h' <;> rw [h, h'] at ht <;> simp at ht
  · obtain ⟨q1, q2, oP, oN⟩ := slab_order hf hle hd
    rw [val_max q1.not_nan q2.not_nan, q1.val, q2.val, ← EReal.coe_strictMono.monotone.map_max,
      EReal.coe_eq_coe_iff] at ht
    unfold NearExit
    rw [add_zero, add_zero]
    rcases lt_or_gt_of_ne hd with h | h
    · rw [max_eq_left (oN h)] at ht
      subst ht
      exact .inr ⟨h, quot_face hf.1 hf.2.2.1 hd q1⟩
    · rw [max_eq_right (oP h)] at ht
      subst ht
      exact .inl ⟨h, quot_face hf.2.1 hf.2.2.1 hd q2⟩

omit [Binary S] in
/-- The running start is one of the two. -/
theorem fmax_cases {s n : S} (hs : ¬ IsNaN s) : val (fmax s n) = val s ∨ (¬ IsNaN n ∧ val (fmax s n) = val n) := by
  by_cases hn : IsNaN n
  · exact .inl (max_nan_right hn).val
  · rw [val_max hs hn]
    rcases max_choice (val s) (val n) with h | h
    · exact .inl h
    · exact .inr ⟨hn, h⟩
omit [Binary S] in
theorem fmin_cases {s n : S} (hs : ¬ IsNaN s) : val (fmin s n) = val s ∨ (¬ IsNaN n ∧ val (fmin s n) = val n) := by
  by_cases hn : IsNaN n
  · exact .inl (min_nan_right hn).val
  · rw [val_min hs hn]
    rcases min_choice (val s) (val n) with h | h
    · exact .inl h
    · exact .inr ⟨hn, h⟩
end
end VecMath
