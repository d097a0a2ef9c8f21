import Verif.Spec.Persp
import Verif.Lemmas.Symm
import Verif.Props.FloatErrorMat
import Verif.Props.FloatAim
import Verif.Props.FloatBox
import Verif.Props.FloatCull
import Verif.Props.FloatReflect
import Verif.Props.FloatInverse
import Verif.Props.FloatFrame
/-!
# Perspective transforms in floating point (layer F): C120

(Generated by tools/gen/persp_float.py.)
-/
open Classical

namespace VecMath
open Scalar IEEE

namespace Fmt
variable (F : Fmt)
/-- A number of the format is a multiple of its last place. -/
theorem Has.ulp {F : Fmt} {x : ℝ} (h : F.Has x) : ∃ n : ℤ, x = n * 2 ^ F.ex x := by
  have := F.rnd_of_has h
  exact ⟨_, this.symm⟩
/-- A quotient of two numbers of the format that is more than one is not rounded to one. -/
theorem one_lt_rnd {x w : ℝ} (hx : F.Has x) (hw : F.Has w) (h0 : 0 < w) (h : w < x) : 1 < F.rnd (x / w) := by
  obtain ⟨n, en⟩ := hw.ulp
  obtain ⟨k, ek⟩ := hx.ulp
  have hex : F.ex w ≤ F.ex x := F.ex_mono h0.ne' (by rw [abs_of_pos h0, abs_of_pos (h0.trans h)]; exact h.le)
  set e := F.ex w with he
  have pe := z_pos e
  obtain ⟨d, hd⟩ : ∃ d : ℕ, F.ex x = e + d := ⟨(F.ex x - e).toNat, by omega⟩
  have ek' : x = ((k * 2 ^ d : ℤ) : ℝ) * 2 ^ e := by
    rw [ek, hd, z_add, zpow_natCast]; push_cast; ring
  have hn : n < k * 2 ^ d := by
    rw [en, ek'] at h
    exact_mod_cast lt_of_mul_lt_mul_right h pe.le
  have gap : w + 2 ^ e ≤ x := by
    have : (n : ℝ) + 1 ≤ ((k * 2 ^ d : ℤ) : ℝ) := by exact_mod_cast hn
    rw [en, ek']; nlinarith
  have small : w < 2 ^ (F.p : ℤ) * 2 ^ e := by
    have := F.abs_lt_ex w
    rw [abs_div, abs_of_pos (z_pos _), abs_of_pos h0, div_lt_iff₀ (z_pos _)] at this
    exact this
  have hq : 1 + 2 ^ (-(F.p : ℤ)) < x / w := by
    rw [lt_div_iff₀ h0]
    have : w * 2 ^ (-(F.p : ℤ)) < 2 ^ e := by
      have := mul_lt_mul_of_pos_right small (z_pos (-(F.p : ℤ)))
      rw [mul_right_comm, ← z_add] at this
      simpa using this
    linarith
  have p2 := F.hp
  have hmin := F.hmin
  have next : F.Has (1 + 2 ^ (1 - (F.p : ℤ))) := by
    refine ⟨2 ^ (F.p - 1) + 1, 1 - F.p, by omega, ?_, ?_⟩
    · rw [abs_of_pos (by positivity)]
      have : (2 : ℤ) ^ F.p = 2 ^ (F.p - 1) + 2 ^ (F.p - 1) := by
        conv_lhs => rw [show F.p = (F.p - 1) + 1 by omega, pow_succ]
        ring
      have := one_le_pow₀ (M₀ := ℤ) (a := 2) (n := F.p - 1) (by norm_num)
      omega
    · push_cast
      rw [add_mul, one_mul, ← zpow_natCast, ← z_add, show ((F.p - 1 : ℕ) : ℤ) + (1 - F.p) = 0 by omega, zpow_zero]
  have half : (2 : ℝ) ^ (1 - (F.p : ℤ)) = 2 * 2 ^ (-(F.p : ℤ)) := by
    rw [show (1 - (F.p : ℤ)) = 1 + -(F.p : ℤ) by ring, z_add, zpow_one]
  have pu := z_pos (-(F.p : ℤ))
  by_contra hc
  push Not at hc
  rcases le_or_gt (1 + 2 ^ (1 - (F.p : ℤ))) (x / w) with a | a
  · have := F.rnd_mono a
    rw [F.rnd_of_has next] at this
    have := z_pos (1 - (F.p : ℤ))
    linarith
  · have := F.rnd_nearest (x / w) next
    rw [abs_of_nonpos (by linarith), abs_of_pos (by linarith)] at this
    linarith
end Fmt

section
variable {S : Type} [Scalar S] [IEEE S] [Binary S]
/-- Dividing by a positive finite number does not change the result of a comparison with one: clipping may be done after the division. -/
theorem div_le_one' {x w : S} (hw : IsFinite w) (h0 : 0 < real w) : (x / w ≤? one) = (x ≤? w) := by
  by_cases nx : IsNaN x
  · have : IsNaN (x / w) := by unfold IsNaN at *; rw [den_div, nx]; rfl
    rw [Bool.eq_iff_iff, le_iff, le_iff]
    exact ⟨fun h => absurd this h.1, fun h => absurd nx h.1⟩
  have nq := not_nan_div nx hw h0.ne'
  obtain ⟨ns, vs⟩ := val_div_self hw h0.ne'
  have v1 : val (one : S) = 1 := by rw [(finite_one (S := S)).val, real_one]; rfl
  rw [Bool.eq_iff_iff, le_iff, le_iff, v1]
  constructor
  · rintro ⟨-, -, h⟩
    refine ⟨nx, hw.not_nan, ?_⟩
    by_contra hc
    push Not at hc
    have hge : (1 : EReal) ≤ val (x / w) := by rw [← vs]; exact val_div_mono hc.le hw.not_nan nx hw h0
    have hq1 : val (x / w) = 1 := le_antisymm h hge
    have fq : IsFinite (x / w) := finite_iff.2 ⟨nq, by rw [hq1]; exact EReal.coe_ne_top 1, by rw [hq1]; exact EReal.coe_ne_bot 1⟩
    have rq : real (x / w) = 1 := by rw [fq.val] at hq1; exact_mod_cast hq1
    obtain ⟨fx, -, -⟩ := finite_of_div fq (by rw [rq]; norm_num)
    rw [hw.val, fx.val, EReal.coe_lt_coe_iff] at hc
    have := (Binary.F S).one_lt_rnd (isFinite_has fx) (isFinite_has hw) h0 hc
    rw [← rnd_eq (S := S), ← IEEE.real_div fx hw h0.ne' fq, rq] at this
    exact lt_irrefl _ this
  · rintro ⟨-, -, h⟩
    refine ⟨nq, finite_one.not_nan, ?_⟩
    rw [← vs]; exact val_div_mono h nx hw.not_nan hw h0
omit [Binary S] in
theorem num_beq {a b : S} (h : num a = num b) (nb : ¬ IsNaN b) : (a == b) = true := by
  have na : ¬ IsNaN a := fun c => nb ((num_nan h).1 c)
  exact beq_iff.2 ⟨na, nb, by rw [val_num, h, ← val_num]⟩
theorem val_one' : val (one : S) = 1 := by rw [(finite_one (S := S)).val, real_one]; rfl
theorem neg_one_le : ¬ IsNaN (-one : S) ∧ val (-one : S) ≤ val (one : S) := by
  have := finite_neg.2 (finite_one (S := S))
  refine ⟨this.not_nan, ?_⟩
  rw [this.val, finite_one.val, IEEE.real_neg, real_one, EReal.coe_le_coe_iff]; norm_num
theorem clip_min : num (fmin (-one) one : S) = num (-one : S) := by
  obtain ⟨a, b⟩ := neg_one_le (S := S)
  exact num_ext (by simp [isNaN_min]) fun _ => by rw [val_min a finite_one.not_nan, min_eq_left b]
theorem clip_max : num (fmax (-one) one : S) = num (one : S) := by
  obtain ⟨a, b⟩ := neg_one_le (S := S)
  exact num_ext (by simp [isNaN_max]) fun _ => by rw [val_max a finite_one.not_nan, max_eq_right b]
theorem num_neg_neg (x : S) : num (- -x) = num x := by unfold num; rw [den_neg, den_neg, Val.neg_neg]
theorem le_neg_comm (a b : S) : (-a ≤? b) = (-b ≤? a) := by
  rw [Bool.eq_iff_iff, le_iff, le_iff, isNaN_neg', isNaN_neg', val_neg', val_neg', EReal.neg_le]
  exact ⟨fun h => ⟨h.2.1, h.1, h.2.2⟩, fun h => ⟨h.2.1, h.1, h.2.2⟩⟩
theorem one_le_div' {x w : S} (hw : IsFinite w) (h0 : 0 < real w) : (-one ≤? x / w) = (-w ≤? x) := by
  have e : num (-(x / w)) = num (-x / w) := by unfold num; rw [den_neg, den_div, den_div, den_neg, Rounding.neg_div]
  rw [le_neg_comm, le_congr e rfl, div_le_one' hw h0, le_neg_comm w x]
theorem div_neg_num (x w : S) : num (x / -w) = num (-x / w) := by
  unfold num; rw [den_div, den_div, den_neg, den_neg, Rounding.div_neg, Rounding.neg_div]
/-- ... and dividing by a negative one turns it around. -/
theorem div_le_one_neg {x w : S} (hw : IsFinite w) (h0 : real w < 0) : (x / w ≤? one) = (w ≤? x) := by
  have e : num (x / w) = num (-x / -w) := by
    unfold num; rw [den_div, den_div, den_neg, den_neg, Rounding.div_neg, Rounding.neg_div, Val.neg_neg]
  rw [le_congr e rfl, div_le_one' (finite_neg.2 hw) (by rw [IEEE.real_neg]; linarith), le_neg_comm, le_congr (num_neg_neg w) rfl]
theorem one_le_div_neg {x w : S} (hw : IsFinite w) (h0 : real w < 0) : (-one ≤? x / w) = (x ≤? -w) := by
  have e : num (x / w) = num (-x / -w) := by
    unfold num; rw [den_div, den_div, den_neg, den_neg, Rounding.div_neg, Rounding.neg_div, Val.neg_neg]
  rw [le_congr rfl e, one_le_div' (finite_neg.2 hw) (by rw [IEEE.real_neg]; linarith), le_congr (num_neg_neg w) rfl, Bool.eq_iff_iff,
    le_iff, le_iff, isNaN_neg', isNaN_neg', val_neg', val_neg', EReal.le_neg]
  exact ⟨fun h => ⟨h.2.1, h.1, h.2.2⟩, fun h => ⟨h.2.1, h.1, h.2.2⟩⟩
end

theorem weight_ne {W W' E : ℝ} (h : E < |W|) (hw : |W' - W| ≤ E) : W' ≠ 0 := by
  rintro rfl
  rw [zero_sub, abs_neg] at hw
  linarith
theorem proj_err {u T X W X' W' EX EW q : ℝ} (hu : 0 ≤ u) (hW : EW < |W|) (h1 : |X' - X| ≤ EX) (h2 : |W' - W| ≤ EW)
    (hq : |q - X' / W'| ≤ u * |X' / W'| + T) :
    |q - X / W| ≤ (EX + |X / W| * EW) / (|W| - EW) + u * (|X / W| + (EX + |X / W| * EW) / (|W| - EW)) + T := by
  have hw0 := weight_ne hW h2
  have W0 : W ≠ 0 := by
    rintro rfl
    rw [abs_zero] at hW
    exact absurd ((abs_nonneg _).trans h2) (not_le.2 hW)
  have lo : |W| - EW ≤ |W'| := by
    have := abs_sub_abs_le_abs_sub W W'
    rw [abs_sub_comm] at this
    linarith
  have pos : 0 < |W| - EW := by linarith
  have key : |X' / W' - X / W| ≤ (EX + |X / W| * EW) / (|W| - EW) := by
    have e : X' / W' - X / W = ((X' - X) - X / W * (W' - W)) / W' := by field_simp; ring
    rw [e, abs_div, div_le_div_iff₀ (abs_pos.2 hw0) pos]
    have a : |(X' - X) - X / W * (W' - W)| ≤ EX + |X / W| * EW := by
      refine (abs_sub _ _).trans (add_le_add h1 ?_)
      rw [abs_mul]
      exact mul_le_mul_of_nonneg_left h2 (abs_nonneg _)
    exact mul_le_mul a lo pos.le ((abs_nonneg _).trans a)
  have b : |X' / W'| ≤ |X / W| + (EX + |X / W| * EW) / (|W| - EW) := by
    have := abs_sub_abs_le_abs_sub (X' / W') (X / W)
    linarith
  have c := abs_sub_le q (X' / W') (X / W)
  have d := mul_le_mul_of_nonneg_left b hu
  linarith

/-! ## Dimension 2 -/
section
variable {S : Type} [Scalar S] [IEEE S]
theorem Matrix3x3.rowAt_div (m : Matrix3x3 S) (p : Point2 S) : m * p = ⟨m.rowAt 0 p / m.rowAt 2 p, m.rowAt 1 p / m.rowAt 2 p⟩ := rfl
/-- **C120**: a matrix and its negative act alike on points: `(m * -1) * p == m * p`, whatever the rounding, unless the weight is zero or
the image is NaN. So no test of the image can tell a point in front of the eye from one behind it. -/
theorem C120_negate2 (m : Matrix3x3 S) (p : Point2 S) (h0 : val (m.rowAt 2 p) ≠ 0) (hn : NoNaN (m * p)) : ((m * (-one : S)) * p == m * p) = true := by
  have e : ∀ i : Fin 3, num ((m * (-one : S)).rowAt i p) = num (-(m.rowAt i p)) := by
    intro i
    have t : ∀ (k : ℕ) (hk : k < 9), num ((m * (-one : S)).m[k]) = num (-m.m[k]) := by
      intro k hk
      rw [Matrix3x3.muls]
      exact (num_mul_neg _ _).trans (num_neg_congr (IEEE.num_mul_one _))
    have t2 : ∀ (k : ℕ) (hk : k < 9) (x : S), num ((m * (-one : S)).m[k] * x) = num (-(m.m[k] * x)) := by
      intro k hk x
      rw [num_mul_congr (t k hk) rfl]
      exact (same_neg_mul _ _).num
    exact num_neg_add' (num_neg_add' (t2 _ (by omega) _) (t2 _ (by omega) _)) (t _ (by omega))
  have q : ∀ i : Fin 3, num ((m * (-one : S)).rowAt i p / (m * (-one : S)).rowAt 2 p) = num (m.rowAt i p / m.rowAt 2 p) := by
    intro i
    have v0 : val ((m * (-one : S)).rowAt 2 p) ≠ 0 := by
      rw [val_num, e, ← val_num, val_neg']; simpa using h0
    rw [num_div_congr rfl (e 2) v0]
    exact num_div_neg (e i)
  have hn' := Point2.noNaN.1 hn
  rw [Point2.beq_iff]
  exact ⟨num_beq (q 0) hn'.1, num_beq (q 1) hn'.2⟩
variable [Binary S]
/-- **C120**: for a point in front of the eye (finite positive weight), testing the image against the clip box gives bit for bit the same
decision as testing the homogeneous coordinates against the weight before the division. -/
theorem C120_clip2 (m : Matrix3x3 S) (p : Point2 S) (hw : IsFinite (m.rowAt 2 p)) (h0 : (zero <? (m.rowAt 2 p)) = true) :
    clipBox2.isInside (m * p) = true ↔
      ∀ i : Fin 2, (-(m.rowAt 2 p) ≤? m.rowAt i.castSucc p) = true ∧ (m.rowAt i.castSucc p ≤? (m.rowAt 2 p)) = true := by
  have r0 : 0 < real (m.rowAt 2 p) := by
    have := (lt_iff.1 h0).2.2
    rw [(finite_zero (S := S)).val, hw.val, EReal.coe_lt_coe_iff, real_zero] at this; exact this
  rw [isInside2_iff]
  have k : ∀ i : Fin 3, In1 (fmin (-one) one) (fmax (-one) one) (m.rowAt i p / m.rowAt 2 p) ↔ (-(m.rowAt 2 p) ≤? m.rowAt i p) = true ∧ (m.rowAt i p ≤? (m.rowAt 2 p)) = true := by
    intro i
    unfold In1
    rw [le_congr clip_min rfl, le_congr rfl clip_max, one_le_div' hw r0, div_le_one' hw r0]
  constructor
  · intro h i
    fin_cases i
    · exact (k 0).1 h.1
    · exact (k 1).1 h.2
  · intro h
    exact ⟨(k 0).2 (h 0), (k 1).2 (h 1)⟩
/-- **C120**: for a point behind the eye (finite negative weight) the same test of the image is *not* a rejection: it holds exactly if the
homogeneous coordinates are between the weight and its negative, the wrong way round. -/
theorem C120_behind2 (m : Matrix3x3 S) (p : Point2 S) (hw : IsFinite (m.rowAt 2 p)) (h0 : ((m.rowAt 2 p) <? zero) = true) :
    clipBox2.isInside (m * p) = true ↔
      ∀ i : Fin 2, (m.rowAt i.castSucc p ≤? -(m.rowAt 2 p)) = true ∧ ((m.rowAt 2 p) ≤? m.rowAt i.castSucc p) = true := by
  have r0 : real (m.rowAt 2 p) < 0 := by
    have := (lt_iff.1 h0).2.2
    rw [(finite_zero (S := S)).val, hw.val, EReal.coe_lt_coe_iff, real_zero] at this; exact this
  rw [isInside2_iff]
  have k : ∀ i : Fin 3, In1 (fmin (-one) one) (fmax (-one) one) (m.rowAt i p / m.rowAt 2 p) ↔ (m.rowAt i p ≤? -(m.rowAt 2 p)) = true ∧ ((m.rowAt 2 p) ≤? m.rowAt i p) = true := by
    intro i
    unfold In1
    rw [le_congr clip_min rfl, le_congr rfl clip_max, one_le_div_neg hw r0, div_le_one_neg hw r0]
  constructor
  · intro h i
    fin_cases i
    · exact (k 0).1 h.1
    · exact (k 1).1 h.2
  · intro h
    exact ⟨(k 0).2 (h 0), (k 1).2 (h 1)⟩

/-- The rounding error of a homogeneous coordinate. -/
theorem Matrix3x3.rowAt_err (m : Matrix3x3 S) (p : Point2 S) (i : Fin 3) (h : IsFinite (m.rowAt i p)) :
    |real (m.rowAt i p) - (∑ j : Fin 2, m.toReal i j.castSucc * p.toReal j + m.toReal i 2)| ≤ ((1 + uro S) ^ 3 - 1) * (∑ j : Fin 2, |m.toReal i j.castSucc * p.toReal j| + |m.toReal i 2|) + (1 + uro S) ^ 2 * (2 * tiny S) := by
  rw [Fin.sum_univ_two, Fin.sum_univ_two]
  have := row2a h
  fin_cases i <;> exact this
/-- **C120**: the rounding error of a coordinate of the image under an arbitrary matrix. With `X / W` the exact coordinate, `A` the sums of
the absolute values of the terms of `X` and `W`, `E` the error bounds of the homogeneous coordinates: as long as the weight is larger than
its own error bound, the computed coordinate is off by at most `D + u (|X / W| + D) + tiny` with `D = (E_X + |X / W| E_W) / (|W| - E_W)`. -/
theorem C120_error2 (m : Matrix3x3 S) (p : Point2 S) (i : Fin 2) (hx : IsFinite (m.rowAt i.castSucc p)) (hw : IsFinite (m.rowAt 2 p))
    (hq : IsFinite (m.rowAt i.castSucc p / m.rowAt 2 p)) {X W EX EW D : ℝ}
    (eX : X = (∑ j : Fin 2, m.toReal i.castSucc j.castSucc * p.toReal j + m.toReal i.castSucc 2)) (eW : W = (∑ j : Fin 2, m.toReal 2 j.castSucc * p.toReal j + m.toReal 2 2))
    (eEX : EX = ((1 + uro S) ^ 3 - 1) * (∑ j : Fin 2, |m.toReal i.castSucc j.castSucc * p.toReal j| + |m.toReal i.castSucc 2|) + (1 + uro S) ^ 2 * (2 * tiny S))
    (eEW : EW = ((1 + uro S) ^ 3 - 1) * (∑ j : Fin 2, |m.toReal 2 j.castSucc * p.toReal j| + |m.toReal 2 2|) + (1 + uro S) ^ 2 * (2 * tiny S))
    (hW : EW < |W|) (eD : D = (EX + |X / W| * EW) / (|W| - EW)) :
    |(m * p).toReal i - X / W| ≤ D + uro S * (|X / W| + D) + tiny S := by
  have h1 := m.rowAt_err p _ hx
  have h2 := m.rowAt_err p _ hw
  rw [← eX, ← eEX] at h1
  rw [← eW, ← eEW] at h2
  have e : (m * p).toReal i = real (m.rowAt i.castSucc p / m.rowAt 2 p) := by fin_cases i <;> rfl
  rw [e, eD]
  have hw0 := weight_ne hW h2
  refine proj_err (uro_pos (S := S)).le hW h1 h2 ?_
  exact err_div hx hw hw0 hq
end

/-! ## Dimension 3 -/
section
variable {S : Type} [Scalar S] [IEEE S]
theorem Matrix4x4.rowAt_div (m : Matrix4x4 S) (p : Point3 S) : m * p = ⟨m.rowAt 0 p / m.rowAt 3 p, m.rowAt 1 p / m.rowAt 3 p, m.rowAt 2 p / m.rowAt 3 p⟩ := rfl
/-- **C120**: a matrix and its negative act alike on points: `(m * -1) * p == m * p`, whatever the rounding, unless the weight is zero or
the image is NaN. So no test of the image can tell a point in front of the eye from one behind it. -/
theorem C120_negate3 (m : Matrix4x4 S) (p : Point3 S) (h0 : val (m.rowAt 3 p) ≠ 0) (hn : NoNaN (m * p)) : ((m * (-one : S)) * p == m * p) = true := by
  have e : ∀ i : Fin 4, num ((m * (-one : S)).rowAt i p) = num (-(m.rowAt i p)) := by
    intro i
    have t : ∀ (k : ℕ) (hk : k < 16), num ((m * (-one : S)).m[k]) = num (-m.m[k]) := by
      intro k hk
      rw [Matrix4x4.muls]
      exact (num_mul_neg _ _).trans (num_neg_congr (IEEE.num_mul_one _))
    have t2 : ∀ (k : ℕ) (hk : k < 16) (x : S), num ((m * (-one : S)).m[k] * x) = num (-(m.m[k] * x)) := by
      intro k hk x
      rw [num_mul_congr (t k hk) rfl]
      exact (same_neg_mul _ _).num
    exact num_neg_add' (num_neg_add' (num_neg_add' (t2 _ (by omega) _) (t2 _ (by omega) _)) (t2 _ (by omega) _)) (t _ (by omega))
  have q : ∀ i : Fin 4, num ((m * (-one : S)).rowAt i p / (m * (-one : S)).rowAt 3 p) = num (m.rowAt i p / m.rowAt 3 p) := by
    intro i
    have v0 : val ((m * (-one : S)).rowAt 3 p) ≠ 0 := by
      rw [val_num, e, ← val_num, val_neg']; simpa using h0
    rw [num_div_congr rfl (e 3) v0]
    exact num_div_neg (e i)
  have hn' := Point3.noNaN.1 hn
  rw [Point3.beq_iff]
  exact ⟨num_beq (q 0) hn'.1, num_beq (q 1) hn'.2.1, num_beq (q 2) hn'.2.2⟩
variable [Binary S]
/-- **C120**: for a point in front of the eye (finite positive weight), testing the image against the clip box gives bit for bit the same
decision as testing the homogeneous coordinates against the weight before the division. -/
theorem C120_clip3 (m : Matrix4x4 S) (p : Point3 S) (hw : IsFinite (m.rowAt 3 p)) (h0 : (zero <? (m.rowAt 3 p)) = true) :
    clipBox3.isInside (m * p) = true ↔
      ∀ i : Fin 3, (-(m.rowAt 3 p) ≤? m.rowAt i.castSucc p) = true ∧ (m.rowAt i.castSucc p ≤? (m.rowAt 3 p)) = true := by
  have r0 : 0 < real (m.rowAt 3 p) := by
    have := (lt_iff.1 h0).2.2
    rw [(finite_zero (S := S)).val, hw.val, EReal.coe_lt_coe_iff, real_zero] at this; exact this
  rw [isInside3_iff]
  have k : ∀ i : Fin 4, In1 (fmin (-one) one) (fmax (-one) one) (m.rowAt i p / m.rowAt 3 p) ↔ (-(m.rowAt 3 p) ≤? m.rowAt i p) = true ∧ (m.rowAt i p ≤? (m.rowAt 3 p)) = true := by
    intro i
    unfold In1
    rw [le_congr clip_min rfl, le_congr rfl clip_max, one_le_div' hw r0, div_le_one' hw r0]
  constructor
  · intro h i
    fin_cases i
    · exact (k 0).1 h.1
    · exact (k 1).1 h.2.1
    · exact (k 2).1 h.2.2
  · intro h
    exact ⟨(k 0).2 (h 0), (k 1).2 (h 1), (k 2).2 (h 2)⟩
/-- **C120**: for a point behind the eye (finite negative weight) the same test of the image is *not* a rejection: it holds exactly if the
homogeneous coordinates are between the weight and its negative, the wrong way round. -/
theorem C120_behind3 (m : Matrix4x4 S) (p : Point3 S) (hw : IsFinite (m.rowAt 3 p)) (h0 : ((m.rowAt 3 p) <? zero) = true) :
    clipBox3.isInside (m * p) = true ↔
      ∀ i : Fin 3, (m.rowAt i.castSucc p ≤? -(m.rowAt 3 p)) = true ∧ ((m.rowAt 3 p) ≤? m.rowAt i.castSucc p) = true := by
  have r0 : real (m.rowAt 3 p) < 0 := by
    have := (lt_iff.1 h0).2.2
    rw [(finite_zero (S := S)).val, hw.val, EReal.coe_lt_coe_iff, real_zero] at this; exact this
  rw [isInside3_iff]
  have k : ∀ i : Fin 4, In1 (fmin (-one) one) (fmax (-one) one) (m.rowAt i p / m.rowAt 3 p) ↔ (m.rowAt i p ≤? -(m.rowAt 3 p)) = true ∧ ((m.rowAt 3 p) ≤? m.rowAt i p) = true := by
    intro i
    unfold In1
    rw [le_congr clip_min rfl, le_congr rfl clip_max, one_le_div_neg hw r0, div_le_one_neg hw r0]
  constructor
  · intro h i
    fin_cases i
    · exact (k 0).1 h.1
    · exact (k 1).1 h.2.1
    · exact (k 2).1 h.2.2
  · intro h
    exact ⟨(k 0).2 (h 0), (k 1).2 (h 1), (k 2).2 (h 2)⟩

/-- The rounding error of a homogeneous coordinate. -/
theorem Matrix4x4.rowAt_err (m : Matrix4x4 S) (p : Point3 S) (i : Fin 4) (h : IsFinite (m.rowAt i p)) :
    |real (m.rowAt i p) - (∑ j : Fin 3, m.toReal i j.castSucc * p.toReal j + m.toReal i 3)| ≤ ((1 + uro S) ^ 4 - 1) * (∑ j : Fin 3, |m.toReal i j.castSucc * p.toReal j| + |m.toReal i 3|) + (1 + uro S) ^ 3 * (3 * tiny S) := by
  rw [Fin.sum_univ_three, Fin.sum_univ_three]
  have := row3a h
  fin_cases i <;> exact this
/-- **C120**: the rounding error of a coordinate of the image under an arbitrary matrix. With `X / W` the exact coordinate, `A` the sums of
the absolute values of the terms of `X` and `W`, `E` the error bounds of the homogeneous coordinates: as long as the weight is larger than
its own error bound, the computed coordinate is off by at most `D + u (|X / W| + D) + tiny` with `D = (E_X + |X / W| E_W) / (|W| - E_W)`. -/
theorem C120_error3 (m : Matrix4x4 S) (p : Point3 S) (i : Fin 3) (hx : IsFinite (m.rowAt i.castSucc p)) (hw : IsFinite (m.rowAt 3 p))
    (hq : IsFinite (m.rowAt i.castSucc p / m.rowAt 3 p)) {X W EX EW D : ℝ}
    (eX : X = (∑ j : Fin 3, m.toReal i.castSucc j.castSucc * p.toReal j + m.toReal i.castSucc 3)) (eW : W = (∑ j : Fin 3, m.toReal 3 j.castSucc * p.toReal j + m.toReal 3 3))
    (eEX : EX = ((1 + uro S) ^ 4 - 1) * (∑ j : Fin 3, |m.toReal i.castSucc j.castSucc * p.toReal j| + |m.toReal i.castSucc 3|) + (1 + uro S) ^ 3 * (3 * tiny S))
    (eEW : EW = ((1 + uro S) ^ 4 - 1) * (∑ j : Fin 3, |m.toReal 3 j.castSucc * p.toReal j| + |m.toReal 3 3|) + (1 + uro S) ^ 3 * (3 * tiny S))
    (hW : EW < |W|) (eD : D = (EX + |X / W| * EW) / (|W| - EW)) :
    |(m * p).toReal i - X / W| ≤ D + uro S * (|X / W| + D) + tiny S := by
  have h1 := m.rowAt_err p _ hx
  have h2 := m.rowAt_err p _ hw
  rw [← eX, ← eEX] at h1
  rw [← eW, ← eEW] at h2
  have e : (m * p).toReal i = real (m.rowAt i.castSucc p / m.rowAt 3 p) := by fin_cases i <;> rfl
  rw [e, eD]
  have hw0 := weight_ne hW h2
  refine proj_err (uro_pos (S := S)).le hW h1 h2 ?_
  exact err_div hx hw hw0 hq
end

end VecMath
