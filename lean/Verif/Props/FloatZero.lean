import Verif.Props.FloatLimits
import Verif.Props.FloatWitness
/-!
# Layer F: exactly when a computed length or distance is zero
-/

namespace VecMath

namespace Fmt
variable (F : Fmt)

/-- Rounding gives zero exactly up to half the smallest positive number. -/
theorem rnd_eq_zero_iff (x : ℝ) : F.rnd x = 0 ↔ |x| ≤ 2 ^ (F.emin - 1) := by
  have hq : (2 : ℝ) ^ F.emin = 2 * 2 ^ (F.emin - 1) := by
    rw [← zpow_one_add₀ (by norm_num)]; congr 1; ring
  constructor
  · intro h
    by_contra hc
    push Not at hc
    have key : ∀ y : ℝ, 0 < y → F.rnd y = 0 → y ≤ 2 ^ (F.emin - 1) := by
      intro y hy h
      have := F.rnd_nearest y (F.has_zpow le_rfl)
      rw [h, zero_sub, abs_neg, abs_of_pos hy, le_abs] at this
      rcases this with h | h
      · linarith
      · have := z_pos F.emin; linarith
    rcases lt_trichotomy x 0 with h0 | h0 | h0
    · have := key (-x) (by linarith) (by rw [F.rnd_neg, h, neg_zero])
      rw [abs_of_neg h0] at hc; linarith
    · rw [h0, abs_zero] at hc; exact absurd hc (not_lt.2 (z_pos _).le)
    · have := key x h0 h
      rw [abs_of_pos h0] at hc; linarith
  · intro h
    rcases h.lt_or_eq with h | h
    · exact F.rnd_tiny h
    · have key : F.rnd (2 ^ (F.emin - 1)) = 0 := by
        have hl : Int.log 2 |(2 : ℝ) ^ (F.emin - 1)| = F.emin - 1 := by
          rw [abs_of_pos (z_pos _)]; exact Int.log_zpow (R := ℝ) (b := 2) (by norm_num) _
        have hp := F.hp
        have he : F.ex (2 ^ (F.emin - 1)) = F.emin := by unfold ex; rw [hl]; omega
        unfold rnd; rw [he]
        have hd : (2 : ℝ) ^ (F.emin - 1) / 2 ^ F.emin = 1 / 2 := by
          rw [hq]; have := z_pos (F.emin - 1); field_simp
        rw [hd]
        have : rne (1 / 2) = 0 := by
          unfold rne
          rw [show ⌊(1 / 2 : ℝ)⌋ = 0 by norm_num, show Int.fract (1 / 2 : ℝ) = 1 / 2 by norm_num [Int.fract]]
          simp
        rw [this]; simp
      rcases abs_eq_abs.1 (h.trans (abs_of_pos (z_pos _)).symm) with h | h
      · rw [h, key]
      · rw [h, F.rnd_neg, key, neg_zero]
end Fmt

open Scalar IEEE
variable {S : Type} [Scalar S] [IEEE S] [Binary S]

theorem mul_zero_iff {a b : S} : IsZero (a * b) ↔ IsFinite a ∧ IsFinite b ∧ |real a * real b| ≤ tiny S := by
  constructor
  · rintro ⟨hf, h0⟩
    obtain ⟨ha, hb⟩ := finite_of_mul hf
    refine ⟨ha, hb, ?_⟩
    rw [real_mul hf, rnd_eq] at h0
    exact ((Binary.F S).rnd_eq_zero_iff _).1 h0
  · rintro ⟨ha, hb, h⟩
    have hr : (IEEE.A S).rnd (real a * real b) = 0 := by
      rw [rnd_eq]; exact ((Binary.F S).rnd_eq_zero_iff _).2 h
    have hf : IsFinite (a * b) := by
      unfold IsFinite
      rw [mul_finite ha hb, Rounding.finish_isFin, hr]; exact Rounding.fits_zero _
    exact ⟨hf, by rw [real_mul hf, hr]⟩
theorem add_zero_iff {a b : S} (ha : 0 ≤ val a) (hb : 0 ≤ val b) : IsZero (a + b) ↔ IsZero a ∧ IsZero b := by
  constructor
  · rintro ⟨hf, h0⟩
    obtain ⟨fa, fb⟩ := finite_of_add hf
    rw [fa.val] at ha
    rw [fb.val] at hb
    have ha' : 0 ≤ real a := by exact_mod_cast ha
    have hb' : 0 ≤ real b := by exact_mod_cast hb
    have he := err_add hf
    have hu := uro_le (S := S)
    rw [h0, zero_sub, abs_neg, abs_of_nonneg (by linarith)] at he
    have : real a + real b = 0 := by nlinarith
    exact ⟨⟨fa, by linarith⟩, ⟨fb, by linarith⟩⟩
  · exact fun h => h.1.add h.2
theorem sqrt_zero_iff {a : S} : IsZero (Scalar.sqrt a) ↔ IsZero a := by
  constructor
  · rintro ⟨hf, h0⟩
    obtain ⟨fa, ha⟩ := finite_of_sqrt hf
    have he := err_sqrt hf
    have hu := uro_le (S := S)
    have hs := Real.sqrt_nonneg (real a)
    rw [h0, zero_sub, abs_neg, abs_of_nonneg hs] at he
    have : √(real a) = 0 := by nlinarith
    exact ⟨fa, (Real.sqrt_eq_zero ha).1 this⟩
  · exact IsZero.sqrt
theorem sq_zero_iff {a : S} : IsZero (a * a) ↔ IsFinite a ∧ real a ^ 2 ≤ tiny S := by
  rw [mul_zero_iff, ← pow_two, abs_of_nonneg (sq_nonneg _)]; tauto

/-- **C12** in floats: the computed length is zero exactly when every component is finite and has a square that
underflows to zero (at most half the smallest positive number). -/
theorem C12_float_zero_iff2 (v : Vector2 S) : (Api.length v == Scalar.zero) = true ↔
    AllFinite v ∧ real v.x ^ 2 ≤ tiny S ∧ real v.y ^ 2 ≤ tiny S := by
  rw [← isZero_iff, Vector2.allFinite]
  show IsZero (Scalar.sqrt (v.x * v.x + v.y * v.y)) ↔ _
  rw [sqrt_zero_iff, add_zero_iff (val_mul_self_nonneg _) (val_mul_self_nonneg _), sq_zero_iff, sq_zero_iff]
  tauto
/-- **C12** in floats, 3D. -/
theorem C12_float_zero_iff3 (v : Vector3 S) : (Api.length v == Scalar.zero) = true ↔
    AllFinite v ∧ real v.x ^ 2 ≤ tiny S ∧ real v.y ^ 2 ≤ tiny S ∧ real v.z ^ 2 ≤ tiny S := by
  rw [← isZero_iff, Vector3.allFinite]
  show IsZero (Scalar.sqrt (v.x * v.x + v.y * v.y + v.z * v.z)) ↔ _
  have hx : ¬ IsNaN (v.x * v.x) → ¬ IsNaN (v.y * v.y) → 0 ≤ val (v.x * v.x + v.y * v.y) := fun h h' =>
    (add_nonneg h h' (val_mul_self_nonneg _) (val_mul_self_nonneg _)).2
  rw [sqrt_zero_iff]
  constructor
  · intro h
    obtain ⟨f1, f2⟩ := finite_of_add h.1
    obtain ⟨f3, f4⟩ := finite_of_add f1
    rw [add_zero_iff (hx f3.not_nan f4.not_nan) (val_mul_self_nonneg _),
      add_zero_iff (val_mul_self_nonneg _) (val_mul_self_nonneg _), sq_zero_iff, sq_zero_iff, sq_zero_iff] at h
    tauto
  · rintro ⟨⟨f1, f2, f3⟩, h1, h2, h3⟩
    exact ((sq_zero_iff.2 ⟨f1, h1⟩).add (sq_zero_iff.2 ⟨f2, h2⟩)).add (sq_zero_iff.2 ⟨f3, h3⟩)

/-- **C15** in floats: the computed distance of two points is zero exactly when every computed coordinate difference is
finite and has a square that underflows to zero. -/
theorem C15_float_zero_iff2 (p q : Point2 S) : (Api.distance p q == Scalar.zero) = true ↔
    (IsFinite (q.x - p.x) ∧ IsFinite (q.y - p.y)) ∧
    real (q.x - p.x) ^ 2 ≤ tiny S ∧ real (q.y - p.y) ^ 2 ≤ tiny S := by
  rw [← Vector2.allFinite (v2 := ⟨q.x - p.x, q.y - p.y⟩)]
  exact C12_float_zero_iff2 _
/-- **C15** in floats, 3D. -/
theorem C15_float_zero_iff3 (p q : Point3 S) : (Api.distance p q == Scalar.zero) = true ↔
    (IsFinite (q.x - p.x) ∧ IsFinite (q.y - p.y) ∧ IsFinite (q.z - p.z)) ∧
    real (q.x - p.x) ^ 2 ≤ tiny S ∧ real (q.y - p.y) ^ 2 ≤ tiny S ∧ real (q.z - p.z) ^ 2 ≤ tiny S := by
  rw [← Vector3.allFinite (v3 := ⟨q.x - p.x, q.y - p.y, q.z - p.z⟩)]
  exact C12_float_zero_iff3 _

end VecMath
