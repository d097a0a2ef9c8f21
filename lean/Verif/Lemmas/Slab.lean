import Verif.IEEE.Ideal
import Verif.Spec.Basic
/-!
# One slab of the ray/box test in exact arithmetic
-/

namespace VecMath
open Scalar IEEE

namespace Slab
variable {lo hi o d s e : Ideal}

/-- A nonzero number over a zero (of either sign) is an infinity. -/
theorem div_zero {a b : Ideal} (ha : IsFinite a) (hb : IsFinite b) (h : real a ≠ 0) (h0 : real b = 0) :
    den (a / b) = .inf (decide (real a < 0) ^^ (den b).neg?) := by
  rw [den_div]
  refine (Rounding.div_fin _ ha hb).trans ?_
  rw [if_pos (show (den b).real = 0 from h0), if_neg (show (den a).real ≠ 0 from h)]
  congr 2
  unfold IsFinite at ha
  unfold real at *
  generalize den a = v at *
  revert h
  refine Val.IsFin.cases (P := fun v => v.real ≠ 0 → v.neg? = decide (v.real < 0)) ha ?_ ?_
  · intro h; exact absurd rfl h
  · intro x _; rfl
theorem zero_div_zero {a b : Ideal} (ha : IsFinite a) (hb : IsFinite b) (h : real a = 0) (h0 : real b = 0) :
    IsNaN (a / b) := by
  unfold IsNaN
  rw [den_div]
  refine (Rounding.div_fin _ ha hb).trans ?_
  rw [if_pos (show (den b).real = 0 from h0), if_pos (show (den a).real = 0 from h)]

/-- The two parameters at which the ray crosses the planes of a slab, sorted. -/
noncomputable def near (lo hi o d : Ideal) : Ideal := fmin ((lo - o) / d) ((hi - o) / d)
/-- see `near` -/
noncomputable def far (lo hi o d : Ideal) : Ideal := fmax ((lo - o) / d) ((hi - o) / d)

theorem not_nan_of_inf {a : Ideal} {b : Bool} (h : den a = .inf b) : ¬ IsNaN a := by
  unfold IsNaN; rw [h]; simp
theorem val_of_inf {a : Ideal} {b : Bool} (h : den a = .inf b) : val a = if b then ⊥ else ⊤ := by
  unfold val; rw [h]; cases b <;> rfl

theorem regular (hlo : IsFinite lo) (hhi : IsFinite hi) (ho : IsFinite o) (hd : IsFinite d) (hle : real lo ≤ real hi)
    (h : real d ≠ 0 ∨ (real o ≠ real lo ∧ real o ≠ real hi)) :
    ¬ IsNaN (near lo hi o d) ∧ ¬ IsNaN (far lo hi o d) ∧ (real d ≠ 0 → val (far lo hi o d) < ⊤) ∧
    ∀ t : ℝ, (val (near lo hi o d) ≤ t ∧ (t : EReal) ≤ val (far lo hi o d)) ↔
      (real lo ≤ real o + real d * t ∧ real o + real d * t ≤ real hi) := by
  have h1 := Ideal.finite_sub hlo ho
  have h2 := Ideal.finite_sub hhi ho
  have r1 := Ideal.real_sub hlo ho
  have r2 := Ideal.real_sub hhi ho
  by_cases hz : real d = 0
  · have h := h.resolve_left (by simpa using hz)
    have n1 : real (lo - o) ≠ 0 := by rw [r1]; exact sub_ne_zero.2 (Ne.symm h.1)
    have n2 : real (hi - o) ≠ 0 := by rw [r2]; exact sub_ne_zero.2 (Ne.symm h.2)
    have d1 := div_zero h1 hd n1 hz
    have d2 := div_zero h2 hd n2 hz
    have m1 := not_nan_of_inf d1
    have m2 := not_nan_of_inf d2
    refine ⟨fun hn => m1 (isNaN_min.1 hn).1, fun hn => m1 (isNaN_max.1 hn).1, fun hn => absurd hz hn, fun t => ?_⟩
    unfold near far
    rw [val_min m1 m2, val_max m1 m2, val_of_inf d1, val_of_inf d2, hz, r1, r2, zero_mul, add_zero]
    by_cases c1 : real lo - real o < 0 <;> by_cases c2 : real hi - real o < 0 <;> cases (den d).neg? <;>
      simp [c1, c2]
    all_goals first
      | (intro; linarith)
      | (constructor <;> linarith)
      | (intro; exact absurd ‹_› (by push_neg; intros; first | linarith | (exact lt_of_le_of_ne (by linarith) (by first | exact h.1 | exact h.2 | exact h.1.symm | exact h.2.symm)))) 
  · have f1 := Ideal.finite_div h1 hd hz
    have f2 := Ideal.finite_div h2 hd hz
    have e1 := Ideal.real_div h1 hd hz
    have e2 := Ideal.real_div h2 hd hz
    refine ⟨(Ideal.finite_min f1 f2).not_nan, (Ideal.finite_max f1 f2).not_nan, fun _ => ?_, fun t => ?_⟩
    · unfold far; rw [(Ideal.finite_max f1 f2).val]; exact EReal.coe_lt_top _
    · unfold near far
      rw [(Ideal.finite_max f1 f2).val, (Ideal.finite_min f1 f2).val, EReal.coe_le_coe_iff, EReal.coe_le_coe_iff, Ideal.real_min f1 f2,
        Ideal.real_max f1 f2, e1, e2, r1, r2]
      rcases lt_or_gt_of_ne hz with hn | hp
      · have : (real hi - real o) / real d ≤ (real lo - real o) / real d :=
          div_le_div_of_nonpos_of_le hn.le (by linarith)
        rw [min_eq_right this, max_eq_left this, div_le_iff_of_neg hn, le_div_iff_of_neg hn]
        constructor <;> rintro ⟨a, b⟩ <;> constructor <;> nlinarith
      · have : (real lo - real o) / real d ≤ (real hi - real o) / real d := by gcongr
        rw [min_eq_left this, max_eq_right this, div_le_iff₀ hp, le_div_iff₀ hp]
        constructor <;> rintro ⟨a, b⟩ <;> constructor <;> nlinarith

/-- A flat slab containing the ray: both quotients are NaN, and `min`/`max` ignore them. -/
theorem flat (hlo : IsFinite lo) (hhi : IsFinite hi) (ho : IsFinite o) (hd : IsFinite d) (hz : real d = 0)
    (h1 : real o = real lo) (h2 : real o = real hi) : IsNaN (near lo hi o d) ∧ IsNaN (far lo hi o d) := by
  have n1 := zero_div_zero (Ideal.finite_sub hlo ho) hd (by rw [Ideal.real_sub hlo ho, h1, sub_self]) hz
  have n2 := zero_div_zero (Ideal.finite_sub hhi ho) hd (by rw [Ideal.real_sub hhi ho, h2, sub_self]) hz
  exact ⟨isNaN_min.2 ⟨n1, n2⟩, isNaN_max.2 ⟨n1, n2⟩⟩

/-- The ray runs inside one face plane of a slab with nonempty interior: one quotient is NaN, the other an
infinity, which then is both `near` and `far`. -/
theorem face (hlo : IsFinite lo) (hhi : IsFinite hi) (ho : IsFinite o) (hd : IsFinite d) (hz : real d = 0)
    (hne : real lo ≠ real hi) (h : real o = real lo ∨ real o = real hi) :
    ∃ b : Bool, den (near lo hi o d) = .inf b ∧ den (far lo hi o d) = .inf b := by
  have h1 := Ideal.finite_sub hlo ho
  have h2 := Ideal.finite_sub hhi ho
  have r1 := Ideal.real_sub hlo ho
  have r2 := Ideal.real_sub hhi ho
  rcases h with h | h
  · have n1 := zero_div_zero h1 hd (by rw [r1, h, sub_self]) hz
    have d2 := div_zero h2 hd (by rw [r2, h]; exact sub_ne_zero.2 (Ne.symm hne)) hz
    exact ⟨_, (min_nan_left n1).trans d2, (max_nan_left n1).trans d2⟩
  · have n1 := zero_div_zero h2 hd (by rw [r2, h, sub_self]) hz
    have d2 := div_zero h1 hd (by rw [r1, h]; exact sub_ne_zero.2 hne) hz
    exact ⟨_, (min_nan_right n1).trans d2, (max_nan_right n1).trans d2⟩

/-- The condition under which the code handles a slab exactly. -/
def Good (lo hi o d : Ideal) : Prop :=
  real d ≠ 0 ∨ (real o ≠ real lo ∧ real o ≠ real hi) ∨ real lo = real hi

/-- One step of the loop. -/
theorem step_good (hlo : IsFinite lo) (hhi : IsFinite hi) (ho : IsFinite o) (hd : IsFinite d) (hle : real lo ≤ real hi)
    (h : Good lo hi o d) (hs : ¬ IsNaN s) (he : ¬ IsNaN e) :
    (¬ IsNaN (fmax s (near lo hi o d)) ∧ ¬ IsNaN (fmin e (far lo hi o d)) ∧ val s ≤ val (fmax s (near lo hi o d)) ∧
      val (fmin e (far lo hi o d)) ≤ val e) ∧ (real d ≠ 0 → val (fmin e (far lo hi o d)) < ⊤) ∧
    ∀ t : ℝ, (val (fmax s (near lo hi o d)) ≤ t ∧ (t : EReal) ≤ val (fmin e (far lo hi o d))) ↔
      (val s ≤ t ∧ (t : EReal) ≤ val e) ∧ (real lo ≤ real o + real d * t ∧ real o + real d * t ≤ real hi) := by
  by_cases hreg : real d ≠ 0 ∨ (real o ≠ real lo ∧ real o ≠ real hi)
  · obtain ⟨n1, n2, hf, ht⟩ := regular hlo hhi ho hd hle hreg
    rw [val_max hs n1, val_min he n2]
    refine ⟨⟨fun hn => hs (isNaN_max.1 hn).1, fun hn => he (isNaN_min.1 hn).1, le_max_left _ _, min_le_left _ _⟩,
      fun h0 => lt_of_le_of_lt (min_le_right _ _) (hf h0), fun t => ?_⟩
    rw [← ht t, max_le_iff, le_min_iff]; tauto
  · unfold Good at h
    push Not at hreg
    have hz : real d = 0 := by
      by_contra hz; exact hz hreg.1
    have hlh : real lo = real hi := by tauto
    have ho1 : real o = real lo := by
      by_contra hne; exact hne (by rw [hreg.2 hne, hlh])
    obtain ⟨n1, n2⟩ := flat hlo hhi ho hd hz ho1 (ho1.trans hlh)
    have s1 : Same (fmax s (near lo hi o d)) s := max_nan_right n1
    have s2 : Same (fmin e (far lo hi o d)) e := min_nan_right n2
    rw [s1.val, s2.val, s1.isNaN, s2.isNaN]
    refine ⟨⟨hs, he, le_rfl, le_rfl⟩, fun h => absurd hz h, fun t => ?_⟩
    rw [hz, zero_mul, add_zero, ho1, hlh]; simp
/-- A ray in a face plane makes the interval empty. -/
theorem step_face (hlo : IsFinite lo) (hhi : IsFinite hi) (ho : IsFinite o) (hd : IsFinite d)
    (h : ¬ Good lo hi o d) (hs : ¬ IsNaN s) (he : ¬ IsNaN e) :
    (¬ IsNaN (fmax s (near lo hi o d)) ∧ ¬ IsNaN (fmin e (far lo hi o d)) ∧ val s ≤ val (fmax s (near lo hi o d)) ∧
      val (fmin e (far lo hi o d)) ≤ val e) ∧
    (val (fmax s (near lo hi o d)) = ⊤ ∨ val (fmin e (far lo hi o d)) = ⊥) := by
  unfold Good at h
  push Not at h
  obtain ⟨b, h1, h2⟩ := face hlo hhi ho hd h.1 h.2.2 (by
    by_contra hc; push Not at hc; exact hc.2 (h.2.1 hc.1))
  have n1 := not_nan_of_inf h1
  have n2 := not_nan_of_inf h2
  rw [val_max hs n1, val_min he n2, val_of_inf h1, val_of_inf h2]
  refine ⟨⟨fun hn => hs (isNaN_max.1 hn).1, fun hn => he (isNaN_min.1 hn).1, le_max_left _ _, min_le_left _ _⟩, ?_⟩
  cases b <;> simp
end Slab
end VecMath
