from genbox import expand
head='''import Verif.Props.FloatBox
/-!
# Bounding boxes in IEEE arithmetic, continued: extents, measures, center, corners, rays in face planes
-/

open Classical
set_option linter.unusedSectionVars false

namespace VecMath
open Scalar IEEE
variable {S : Type} [Scalar S] [IEEE S]

/-! ### Scalars -/

theorem extent_nonneg {l h : S} (hl : IsFinite l) (hh : IsFinite h) (hle : (l ≤? h) = true) :
    (Scalar.zero ≤? h - l) = true := by
  have nn : ¬ IsNaN (h - l) := isNaN_sub_finite hl hh.not_nan
  refine le_of_vals not_nan_zero nn ?_
  rw [le_iff, hl.val, hh.val, EReal.coe_le_coe_iff] at hle
  unfold val; rw [den_zero, sub_finite hh hl]
  simpa using Rounding.finish_nonneg (IEEE.A S) (s := (den h).neg? && !(den l).neg?) (x := real h - real l) (by linarith)

theorem mul_nonneg_val (A : Rounding) {a b : Val} (ha : a ≠ .nan) (hb : b ≠ .nan) (ha0 : 0 ≤ a.ereal)
    (hb0 : 0 ≤ b.ereal) :
    (A.mul a b = .nan ↔ (a.ereal = ⊤ ∧ b.ereal = 0) ∨ (a.ereal = 0 ∧ b.ereal = ⊤)) ∧
    (A.mul a b ≠ .nan → 0 ≤ (A.mul a b).ereal) := by
  have posinf : ∀ {s : Bool}, 0 ≤ (Val.inf s).ereal → s = false := by
    intro s h; cases s
    · rfl
    · simp at h
  have negnn : ∀ {v : Val}, v.IsFin → 0 ≤ v.ereal → v.real ≠ 0 → v.neg? = false := by
    intro v hv h h0
    refine neg?_of_pos hv.ne_nan (lt_of_le_of_ne h ?_)
    rw [hv.ereal]; intro h'; exact h0 (by exact_mod_cast h'.symm)
  induction a using Val.cases_inf_fin with
  | hn => exact absurd rfl ha
  | hi s =>
    obtain rfl := posinf ha0
    induction b using Val.cases_inf_fin with
    | hn => exact absurd rfl hb
    | hi t => obtain rfl := posinf hb0; simp
    | hf b hb' =>
      rw [Rounding.mul_inf_fin _ _ hb', hb'.ereal]
      split_ifs with h
      · simp [h]
      · have := negnn hb' hb0 h
        simp [this, h]
  | hf a ha' =>
    induction b using Val.cases_inf_fin with
    | hn => exact absurd rfl hb
    | hi t =>
      obtain rfl := posinf hb0
      rw [Rounding.mul_fin_inf _ ha', ha'.ereal]
      split_ifs with h
      · simp [h]
      · have := negnn ha' ha0 h
        simp [this, h]
    | hf b hb' =>
      rw [ha'.ereal, hb'.ereal] at *
      rw [Rounding.mul_fin _ ha' hb']
      refine ⟨by simp [Rounding.finish_ne_nan], fun _ => Rounding.finish_nonneg _ ?_⟩
      exact mul_nonneg (by exact_mod_cast ha0) (by exact_mod_cast hb0)

/-- The product of two non-negative floats: NaN exactly for infinity times zero, otherwise `>= 0`. -/
theorem mul_nonneg' {a b : S} (ha : (Scalar.zero ≤? a) = true) (hb : (Scalar.zero ≤? b) = true) :
    (IsNaN (a * b) ↔ (val a = ⊤ ∧ val b = 0) ∨ (val a = 0 ∧ val b = ⊤)) ∧
    (¬ IsNaN (a * b) → (Scalar.zero ≤? a * b) = true) := by
  rw [le_iff, val_zero] at ha hb
  have := mul_nonneg_val (IEEE.A S) ha.2.1 hb.2.1 ha.2.2 hb.2.2
  unfold IsNaN val
  rw [le_iff, den_mul]
  refine ⟨this.1, fun h => ⟨not_nan_zero, ?_, ?_⟩⟩
  · unfold IsNaN; rw [den_mul]; exact h
  · rw [val_zero]; unfold val; rw [den_mul]; exact this.2 h
theorem mul_nonneg_finite {a b : S} (ha : (Scalar.zero ≤? a) = true) (hb : (Scalar.zero ≤? b) = true)
    (fa : IsFinite a) (fb : IsFinite b) : (Scalar.zero ≤? a * b) = true := by
  refine (mul_nonneg' ha hb).2 fun h => ?_
  rw [(mul_nonneg' ha hb).1, fa.val, fb.val] at h
  simp at h
theorem add_nonneg' {a b : S} (ha : (Scalar.zero ≤? a) = true) (hb : (Scalar.zero ≤? b) = true) :
    (Scalar.zero ≤? a + b) = true := by
  rw [le_iff, val_zero] at *
  have := IEEE.add_nonneg ha.2.1 hb.2.1 ha.2.2 hb.2.2
  exact ⟨not_nan_zero, this.1, this.2⟩
theorem two_mul_nonneg {a : S} (ha : (Scalar.zero ≤? a) = true) : (Scalar.zero ≤? Scalar.two * a) = true := by
  have h2 : (Scalar.zero ≤? (Scalar.two : S)) = true := by
    refine le_of_vals not_nan_zero finite_two.not_nan ?_
    rw [finite_two.val, real_two, val_zero]; norm_cast
  refine (mul_nonneg' h2 ha).2 fun h => ?_
  rw [(mul_nonneg' h2 ha).1, finite_two.val, real_two] at h
  simp at h

/-- The center in one dimension lies in the interval, if the extent does not overflow. -/
theorem center1 {l h : S} (hl : IsFinite l) (hh : IsFinite h) (hle : (l ≤? h) = true)
    (hd : IsFinite (h - l)) : In1 l h (l + (h - l) * Scalar.half) := by
  rw [le_iff, hl.val, hh.val, EReal.coe_le_coe_iff] at hle
  have hle := hle.2.2
  have dd := sub_finite hh hl
  have dfit : (IEEE.A S).fits ((IEEE.A S).rnd (real h - real l)) := by
    have := hd; unfold IsFinite at this; rw [dd, Rounding.finish_isFin] at this; exact this
  have rd : real (h - l) = (IEEE.A S).rnd (real h - real l) := by
    unfold real; rw [dd]; exact (Rounding.finish_of_fits _ dfit).2
  have rd0 : 0 ≤ real (h - l) := by rw [rd]; exact Rounding.rnd_nonneg _ (by linarith)
  have mm := mul_finite hd (finite_half (S := S))
  have gap := (IEEE.A S).rnd_half_gap hl.rep.1 hh.rep.1 hle
  rw [← rd] at gap
  have m0 : 0 ≤ (IEEE.A S).rnd (real (h - l) * (1 / 2)) := Rounding.rnd_nonneg _ (by linarith)
  have mfit : (IEEE.A S).fits ((IEEE.A S).rnd (real (h - l) * (1 / 2))) := by
    refine (IEEE.A S).fits_rnd_mono (y := real (h - l)) ?_ ?_
    · rw [abs_mul, abs_of_nonneg (show (0:ℝ) ≤ 1 / 2 by norm_num)]; linarith [abs_nonneg (real (h - l))]
    · rw [hd.rep.1]; exact hd.rep.2
  have mf : IsFinite ((h - l) * Scalar.half) := by
    unfold IsFinite; rw [mm, real_half, Rounding.finish_isFin]; exact mfit
  have rm : real ((h - l) * Scalar.half) = (IEEE.A S).rnd (real (h - l) * (1 / 2)) := by
    conv_lhs => unfold real
    rw [mm, real_half]; exact (Rounding.finish_of_fits _ mfit).2
  have ss := add_finite hl mf
  have lo : real l ≤ (IEEE.A S).rnd (real l + real ((h - l) * Scalar.half)) := by
    conv_lhs => rw [← hl.rep.1]
    exact (IEEE.A S).rnd_mono (by rw [rm]; linarith)
  have hi : (IEEE.A S).rnd (real l + real ((h - l) * Scalar.half)) ≤ real h := by
    conv_rhs => rw [← hh.rep.1]
    exact (IEEE.A S).rnd_mono (by rw [rm]; linarith)
  have sfit : (IEEE.A S).fits ((IEEE.A S).rnd (real l + real ((h - l) * Scalar.half))) := by
    rcases le_total |real l| |real h| with hc | hc
    · refine (IEEE.A S).fits_mono (y := real h) ?_ hh.rep.2
      exact abs_le.2 ⟨by linarith [neg_abs_le (real l)], by linarith [le_abs_self (real h)]⟩
    · refine (IEEE.A S).fits_mono (y := real l) ?_ hl.rep.2
      exact abs_le.2 ⟨by linarith [neg_abs_le (real l)], by linarith [le_abs_self (real h)]⟩
  have sf : IsFinite (l + (h - l) * Scalar.half) := by
    unfold IsFinite; rw [ss, Rounding.finish_isFin]; exact sfit
  have rs : real (l + (h - l) * Scalar.half) = (IEEE.A S).rnd (real l + real ((h - l) * Scalar.half)) := by
    conv_lhs => unfold real
    rw [ss]; exact (Rounding.finish_of_fits _ sfit).2
  constructor
  · refine le_of_vals hl.not_nan sf.not_nan ?_
    rw [hl.val, sf.val, rs]; exact_mod_cast lo
  · refine le_of_vals sf.not_nan hh.not_nan ?_
    rw [hh.val, sf.val, rs]; exact_mod_cast hi

theorem zero_beq_one_false : ((Scalar.zero : S) == Scalar.one) = false := by
  rw [Bool.eq_false_iff]; intro h
  rw [IEEE.beq_iff] at h; simp at h

/-- Numerically zero over numerically zero. -/
theorem sub_div_zero_nan : IsNaN (((Scalar.zero : S) - Scalar.zero) / Scalar.zero) := by
  have h := same_sub_self (finite_zero (S := S))
  exact (Same.div h (Same.refl (Scalar.zero : S))).isNaN.2
    (zero_div_zero finite_zero finite_zero real_zero real_zero)
theorem one_div_zero : den (((Scalar.one : S) - Scalar.zero) / Scalar.zero) = .inf false := by
  have h : den ((Scalar.one : S) - Scalar.zero) = den (Scalar.one : S) := same_sub_zero _
  rw [den_div, h, den_one, den_zero, Rounding.div_fin _ (by simp) (by simp)]
  simp

'''
t=open('/tmp/w/box2_tmpl.lean').read()
open('/verif/lean/Verif/Props/FloatBoxMeasure.lean','w').write(head+expand(t,2)+expand(t,3)+'\nend VecMath\n')
