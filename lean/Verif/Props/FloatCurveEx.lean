import Verif.Props.RealCurve
import Verif.Props.FloatPlaneEx
/-!
# C118: concrete curves, and interpolation that overshoots

(Generated by tools/gen.)
-/

open Classical

namespace VecMath
open Scalar IEEE
variable {F : Fmt}

theorem half_unit : ((zero : F32) ≤? half) = true ∧ ((half : F32) ≤? one) = true := by
  rw [le_fin finite_zero finite_half, le_fin finite_half finite_one, real_zero, real_half, real_one]
  norm_num
theorem curve32 {M : ℝ} (h0 : 0 ≤ M := by norm_num) (h : M ≤ 5 := by norm_num) : 3 * (M + curveErr F32 3 M) < overflowAt F32 := by
  have u0 := uro_pos (S := F32)
  have u1 := uro_le (S := F32)
  have t0 := tiny_pos (S := F32)
  have t1 : tiny F32 ≤ 1 := by
    show (2 : ℝ) ^ (binary32.emin - 1) ≤ 1
    rw [← zpow_zero (2 : ℝ)]; exact Fmt.z_le (by decide)
  have o : (1000000 : ℝ) ≤ overflowAt F32 := overflow32
  have m1 : mixErr F32 ≤ 2 := by unfold mixErr; nlinarith [pow_le_pow_left₀ u0.le u1 2, pow_le_pow_left₀ u0.le u1 3]
  have m0 := mixErr_pos (S := F32)
  have p : (1 + mixErr F32) ^ 3 ≤ 3 ^ 3 := pow_le_pow_left₀ (by linarith) (by linarith) 3
  have q : M + 3 * ((1 + uro F32) * tiny F32) ≤ 11 := by nlinarith
  have := mul_le_mul p q (by positivity) (by norm_num)
  unfold curveErr
  push_cast
  linarith
theorem int_step118 {a b : ℤ} (h : |b - a| ≤ 16777216) (ha : |a| ≤ 16777216 := by norm_num) (hb : |b| ≤ 16777216 := by norm_num) : (int32 a ha + (int32 b hb - int32 a ha) == int32 b hb) = true := by
  have e := int_add32' (x := int32 a ha) exactly_int (int_sub32' (x := int32 b hb) (y := int32 a ha) exactly_int exactly_int h) (by rw [add_sub_cancel]; exact hb)
  rw [add_sub_cancel] at e
  exact beq_of_num' (num_of_real e.1 finite_int32 (e.2.trans real_int32.symm)) finite_int32.not_nan
theorem int_le118 {a b : ℤ} (h : a ≤ b) (ha : |a| ≤ 16777216 := by norm_num) (hb : |b| ≤ 16777216 := by norm_num) : (int32 a ha ≤? int32 b hb) = true := le_exact exactly_int exactly_int h
theorem int_diff118 {a b : ℤ} (h : |b - a| ≤ 16777216) (ha : |a| ≤ 16777216 := by norm_num) (hb : |b| ≤ 16777216 := by norm_num) : IsFinite (int32 b hb - int32 a ha) :=
  (int_sub32' (x := int32 b hb) (y := int32 a ha) exactly_int exactly_int h).1
theorem over_diff : Exactly ((-half : F32) - int32 (-16777216)) ((16777216 : ℤ) : ℝ) := by
  refine exec_sub (x := -(1 / 2)) (y := ((-16777216 : ℤ) : ℝ)) ⟨finite_neg.2 finite_half, by rw [IEEE.real_neg, real_half]⟩ exactly_int ?_ (big32 (by norm_num))
  have := Fmt.rnd_lit_even binary32 (x := -(1 / 2) - ((-16777216 : ℤ) : ℝ)) 23 0 16777216 (by decide) (by decide) (by norm_num) (by norm_num) (by norm_num) (by norm_num)
  exact this.trans (by norm_num)
theorem over_end : Exactly (mix1 one (int32 (-16777216)) (-half : F32)) ((0 : ℤ) : ℝ) := by
  have h : Exactly (((-half : F32) - int32 (-16777216)) * one) ((16777216 : ℤ) : ℝ) := by
    have n := IEEE.num_mul_one ((-half : F32) - int32 (-16777216))
    have f := finite_of_num n over_diff.1
    exact ⟨f, (real_of_num f over_diff.1 n).trans over_diff.2⟩
  exact int_add32' exactly_int h (by norm_num)
theorem over_le : ((int32 (-16777216) : F32) ≤? -half) = true := by
  rw [le_fin finite_int32 (finite_neg.2 finite_half), real_int32, IEEE.real_neg, real_half]
  norm_num
theorem big_step : IsNaN (mix1 zero (-Fl.big F) (Fl.big F)) := by
  have h : ¬ IsFinite (Fl.big F - -Fl.big F) := by
    rw [(correct_sub Fl.finite_big (finite_neg.2 Fl.finite_big)).1, IEEE.real_neg, sub_neg_eq_add, ← Fl.big_double, not_lt, abs_of_pos (Fmt.z_pos _)]
    exact Fl.overflow_le
  have n : ¬ IsNaN (Fl.big F - -Fl.big F) := isNaN_sub_finite (finite_neg.2 Fl.finite_big) Fl.finite_big.not_nan
  have m : IsNaN ((Fl.big F - -Fl.big F) * zero) := by
    generalize Fl.big F - -Fl.big F = x at h n
    unfold IsNaN IsFinite at *
    rw [den_mul]
    cases e : den x with
    | nan => exact absurd e n
    | inf s =>
      have : (den (zero : Fl F)).IsFin := finite_zero
      rw [Rounding.mul_inf_fin _ s this, if_pos]
      exact real_zero (S := Fl F)
    | nzero => exact absurd (by rw [e]; trivial) h
    | fin y => exact absurd (by rw [e]; trivial) h
  exact isNaN_add_right m

/-! ## 2D -/

/-- A cubic arc. -/
noncomputable def arc2 : ℕ → Point2 F32
  | 0 => ⟨int32 0, int32 0⟩
  | 1 => ⟨int32 1, int32 4⟩
  | 2 => ⟨int32 3, int32 4⟩
  | _ => ⟨int32 4, int32 0⟩
theorem arc2_finite (j : ℕ) : AllFinite (arc2 j) := by
  match j with
  | 0 | 1 | 2 | _ + 3 => exact Point2.allFinite.2 ⟨trivial, trivial⟩
theorem arc2_grid (j : ℕ) (i : Fin 2) : OnGrid 0 4 ((arc2 j).toReal i) := by
  match j with
  | 0 | 1 | 2 | _ + 3 => fin_cases i <;> exact OnGrid.int (by norm_num)
theorem arc2_bound (j : ℕ) (i : Fin 2) : |(arc2 j).toReal i| ≤ 4 := by
  obtain ⟨n, h, e⟩ := arc2_grid j i
  rw [e, zpow_zero, mul_one]
  exact_mod_cast h
theorem arc2_box (j : ℕ) : (⟨⟨int32 (-5), int32 (-5)⟩, ⟨int32 5, int32 5⟩⟩ : BoundingBox2 F32).isInside (arc2 j) = true := by
  rw [isInside2_iff]
  match j with
  | 0 | 1 | 2 | _ + 3 => exact ⟨⟨int_le118 (by norm_num), int_le118 (by norm_num)⟩, ⟨int_le118 (by norm_num), int_le118 (by norm_num)⟩⟩
/-- The middle of the arc is computed without rounding. -/
theorem arc2_middle : AllFinite (Point2.curve arc2 3 half) ∧ (Point2.curve arc2 3 half).toReal = ![2, 3] ∧
    (⟨⟨int32 (-5), int32 (-5)⟩, ⟨int32 5, int32 5⟩⟩ : BoundingBox2 F32).isInside (Point2.curve arc2 3 half) = true := by
  obtain ⟨h1, h2, h3⟩ := C118_grid2 arc2 3 half 0 1 4 (by norm_num) half_unit.1 finite_half ⟨1, by norm_num, by rw [real_half]; norm_num⟩
    (fun j _ => arc2_finite j) (fun j _ => arc2_grid j) ⟨by decide, by decide, by decide⟩ (fits_f32 (by norm_num))
  refine ⟨h1, funext fun i => ?_, h3 _ fun j _ => arc2_box j⟩
  rw [h2 i, real_half]
  simp only [bezier, Finset.sum_range_succ, Finset.sum_range_zero]
  fin_cases i <;>
    simp [arc2, Point2.toReal, real_int32, Nat.choose] <;> norm_num
/-- `C118_finite2` and `C118_error2` apply to the whole arc. -/
example (t : F32) (h0 : (zero ≤? t) = true) (h1 : (t ≤? one) = true) (i : Fin 2) :
    |(Point2.curve arc2 3 t).toReal i - bezier (fun j => (arc2 j).toReal i) 3 (real t)| ≤ curveErr F32 3 4 :=
  C118_error2 arc2 3 t 4 h0 h1 (C118_finite2 arc2 3 t 4 h0 h1 (fun j _ => arc2_finite j) (fun j _ => arc2_bound j) curve32) (fun j _ => arc2_bound j) i
theorem arc2_step (j : ℕ) : AllFinite (arc2 (j + 1) - arc2 j) ∧ (arc2 j + (arc2 (j + 1) - arc2 j) == arc2 (j + 1)) = true := by
  rw [Vector2.allFinite, Point2.beq_iff]
  match j with
  | 0 | 1 | 2 | _ + 3 => exact ⟨⟨int_diff118 (by norm_num), int_diff118 (by norm_num)⟩, int_step118 (by norm_num), int_step118 (by norm_num)⟩
/-- The arc starts and ends in its first and last control point. -/
example : (Point2.curve arc2 3 zero == arc2 0) = true ∧ (Point2.curve arc2 3 one == arc2 3) = true :=
  ⟨C118_start2 arc2 3 zero (beq_self_iff.2 finite_zero.not_nan) (arc2_finite 0) fun j _ => (arc2_step j).1,
    C118_end2 arc2 3 one (beq_self_iff.2 finite_one.not_nan) (Point2.noNaN.2 ⟨(Point2.allFinite.1 (arc2_finite 3)).1.not_nan, (Point2.allFinite.1 (arc2_finite 3)).2.not_nan⟩) fun j _ => (arc2_step j).2⟩
/-- Between two control points. -/
example (t : F32) (h0 : (zero ≤? t) = true) (h1 : (t ≤? one) = true) :
    (⟨⟨int32 (-5), int32 (-5)⟩, ⟨int32 5, int32 5⟩⟩ : BoundingBox2 F32).isInside (Point2.mix t (arc2 1) (arc2 2)) = true :=
  C118_segment2 _ _ (arc2_finite 1) (arc2_step 1).1 (arc2_step 1).2 t h0 h1 _ (arc2_box 1) (arc2_box 2)
/-- **C118**: without the condition of `C118_segment2`, interpolation overshoots the second point and leaves a box that holds both points. -/
theorem C118_overshoot2 : ∃ (p q : Point2 F32) (b : BoundingBox2 F32), AllFinite p ∧ AllFinite q ∧ AllFinite (q - p) ∧ b.isInside p = true ∧ b.isInside q = true ∧
    b.isInside (Point2.mix one p q) = false ∧ (Point2.mix one p q == q) = false := by
  have e : Exactly ((Point2.mix one ⟨int32 (-16777216), zero⟩ ⟨-half, zero⟩ : Point2 F32).x) ((0 : ℤ) : ℝ) := over_end
  refine ⟨⟨int32 (-16777216), zero⟩, ⟨-half, zero⟩, ⟨⟨int32 (-16777216), zero⟩, ⟨-half, zero⟩⟩, ?_, ?_, ?_, ?_, ?_, ?_, ?_⟩
  · exact Point2.allFinite.2 ⟨finite_int32 (h := by norm_num), finite_zero⟩
  · exact Point2.allFinite.2 ⟨finite_neg.2 finite_half, finite_zero⟩
  · exact Vector2.allFinite.2 ⟨over_diff.1, (int_sub32' int_zero32 int_zero32 (by norm_num)).1⟩
  · rw [isInside2_iff]
    exact ⟨⟨int_le118 le_rfl, over_le⟩, ⟨le_self finite_zero.not_nan, le_self finite_zero.not_nan⟩⟩
  · rw [isInside2_iff]
    exact ⟨⟨over_le, le_self (finite_neg.2 finite_half).not_nan⟩, ⟨le_self finite_zero.not_nan, le_self finite_zero.not_nan⟩⟩
  · rw [Bool.eq_false_iff, Ne, isInside2_iff]
    intro h
    have h := h.1.2
    rw [le_fin e.1 (finite_neg.2 finite_half), e.2, IEEE.real_neg, real_half] at h
    norm_num at h
  · rw [Bool.eq_false_iff, Ne, Point2.beq_iff]
    intro h
    have h := real_of_num e.1 (finite_neg.2 finite_half) (num_of_beq h.1)
    rw [e.2, IEEE.real_neg, real_half] at h
    norm_num at h
/-- **C118**: without the condition of `C118_start2`, in every format there are finite points between which interpolation with `0` is NaN. -/
theorem C118_lost_start2 : ∃ p q : Point2 (Fl F), AllFinite p ∧ AllFinite q ∧ IsNaN (Point2.mix zero p q).x ∧ (Point2.mix zero p q == p) = false := by
  have n : IsNaN (Point2.mix zero (⟨-Fl.big F, zero⟩ : Point2 (Fl F)) ⟨Fl.big F, zero⟩).x := big_step
  refine ⟨⟨-Fl.big F, zero⟩, ⟨Fl.big F, zero⟩, Point2.allFinite.2 ⟨finite_neg.2 Fl.finite_big, finite_zero⟩, Point2.allFinite.2 ⟨Fl.finite_big, finite_zero⟩, n, ?_⟩
  rw [Bool.eq_false_iff, Ne, Point2.beq_iff]
  intro h
  exact (beq_iff.1 h.1).1 n

/-! ## 3D -/

/-- A cubic arc. -/
noncomputable def arc3 : ℕ → Point3 F32
  | 0 => ⟨int32 0, int32 0, int32 1⟩
  | 1 => ⟨int32 1, int32 4, int32 (-3)⟩
  | 2 => ⟨int32 3, int32 4, int32 5⟩
  | _ => ⟨int32 4, int32 0, int32 1⟩
theorem arc3_finite (j : ℕ) : AllFinite (arc3 j) := by
  match j with
  | 0 | 1 | 2 | _ + 3 => exact Point3.allFinite.2 ⟨trivial, trivial, trivial⟩
theorem arc3_grid (j : ℕ) (i : Fin 3) : OnGrid 0 5 ((arc3 j).toReal i) := by
  match j with
  | 0 | 1 | 2 | _ + 3 => fin_cases i <;> exact OnGrid.int (by norm_num)
theorem arc3_bound (j : ℕ) (i : Fin 3) : |(arc3 j).toReal i| ≤ 5 := by
  obtain ⟨n, h, e⟩ := arc3_grid j i
  rw [e, zpow_zero, mul_one]
  exact_mod_cast h
theorem arc3_box (j : ℕ) : (⟨⟨int32 (-5), int32 (-5), int32 (-5)⟩, ⟨int32 5, int32 5, int32 5⟩⟩ : BoundingBox3 F32).isInside (arc3 j) = true := by
  rw [isInside3_iff]
  match j with
  | 0 | 1 | 2 | _ + 3 => exact ⟨⟨int_le118 (by norm_num), int_le118 (by norm_num)⟩, ⟨int_le118 (by norm_num), int_le118 (by norm_num)⟩, ⟨int_le118 (by norm_num), int_le118 (by norm_num)⟩⟩
/-- The middle of the arc is computed without rounding. -/
theorem arc3_middle : AllFinite (Point3.curve arc3 3 half) ∧ (Point3.curve arc3 3 half).toReal = ![2, 3, 1] ∧
    (⟨⟨int32 (-5), int32 (-5), int32 (-5)⟩, ⟨int32 5, int32 5, int32 5⟩⟩ : BoundingBox3 F32).isInside (Point3.curve arc3 3 half) = true := by
  obtain ⟨h1, h2, h3⟩ := C118_grid3 arc3 3 half 0 1 5 (by norm_num) half_unit.1 finite_half ⟨1, by norm_num, by rw [real_half]; norm_num⟩
    (fun j _ => arc3_finite j) (fun j _ => arc3_grid j) ⟨by decide, by decide, by decide⟩ (fits_f32 (by norm_num))
  refine ⟨h1, funext fun i => ?_, h3 _ fun j _ => arc3_box j⟩
  rw [h2 i, real_half]
  simp only [bezier, Finset.sum_range_succ, Finset.sum_range_zero]
  fin_cases i <;>
    simp [arc3, Point3.toReal, real_int32, Nat.choose] <;> norm_num
/-- `C118_finite3` and `C118_error3` apply to the whole arc. -/
example (t : F32) (h0 : (zero ≤? t) = true) (h1 : (t ≤? one) = true) (i : Fin 3) :
    |(Point3.curve arc3 3 t).toReal i - bezier (fun j => (arc3 j).toReal i) 3 (real t)| ≤ curveErr F32 3 5 :=
  C118_error3 arc3 3 t 5 h0 h1 (C118_finite3 arc3 3 t 5 h0 h1 (fun j _ => arc3_finite j) (fun j _ => arc3_bound j) curve32) (fun j _ => arc3_bound j) i
theorem arc3_step (j : ℕ) : AllFinite (arc3 (j + 1) - arc3 j) ∧ (arc3 j + (arc3 (j + 1) - arc3 j) == arc3 (j + 1)) = true := by
  rw [Vector3.allFinite, Point3.beq_iff]
  match j with
  | 0 | 1 | 2 | _ + 3 => exact ⟨⟨int_diff118 (by norm_num), int_diff118 (by norm_num), int_diff118 (by norm_num)⟩, int_step118 (by norm_num), int_step118 (by norm_num), int_step118 (by norm_num)⟩
/-- The arc starts and ends in its first and last control point. -/
example : (Point3.curve arc3 3 zero == arc3 0) = true ∧ (Point3.curve arc3 3 one == arc3 3) = true :=
  ⟨C118_start3 arc3 3 zero (beq_self_iff.2 finite_zero.not_nan) (arc3_finite 0) fun j _ => (arc3_step j).1,
    C118_end3 arc3 3 one (beq_self_iff.2 finite_one.not_nan) (Point3.noNaN.2 ⟨(Point3.allFinite.1 (arc3_finite 3)).1.not_nan, (Point3.allFinite.1 (arc3_finite 3)).2.1.not_nan, (Point3.allFinite.1 (arc3_finite 3)).2.2.not_nan⟩) fun j _ => (arc3_step j).2⟩
/-- Between two control points. -/
example (t : F32) (h0 : (zero ≤? t) = true) (h1 : (t ≤? one) = true) :
    (⟨⟨int32 (-5), int32 (-5), int32 (-5)⟩, ⟨int32 5, int32 5, int32 5⟩⟩ : BoundingBox3 F32).isInside (Point3.mix t (arc3 1) (arc3 2)) = true :=
  C118_segment3 _ _ (arc3_finite 1) (arc3_step 1).1 (arc3_step 1).2 t h0 h1 _ (arc3_box 1) (arc3_box 2)
/-- **C118**: without the condition of `C118_segment3`, interpolation overshoots the second point and leaves a box that holds both points. -/
theorem C118_overshoot3 : ∃ (p q : Point3 F32) (b : BoundingBox3 F32), AllFinite p ∧ AllFinite q ∧ AllFinite (q - p) ∧ b.isInside p = true ∧ b.isInside q = true ∧
    b.isInside (Point3.mix one p q) = false ∧ (Point3.mix one p q == q) = false := by
  have e : Exactly ((Point3.mix one ⟨int32 (-16777216), zero, zero⟩ ⟨-half, zero, zero⟩ : Point3 F32).x) ((0 : ℤ) : ℝ) := over_end
  refine ⟨⟨int32 (-16777216), zero, zero⟩, ⟨-half, zero, zero⟩, ⟨⟨int32 (-16777216), zero, zero⟩, ⟨-half, zero, zero⟩⟩, ?_, ?_, ?_, ?_, ?_, ?_, ?_⟩
  · exact Point3.allFinite.2 ⟨finite_int32 (h := by norm_num), finite_zero, finite_zero⟩
  · exact Point3.allFinite.2 ⟨finite_neg.2 finite_half, finite_zero, finite_zero⟩
  · exact Vector3.allFinite.2 ⟨over_diff.1, (int_sub32' int_zero32 int_zero32 (by norm_num)).1, (int_sub32' int_zero32 int_zero32 (by norm_num)).1⟩
  · rw [isInside3_iff]
    exact ⟨⟨int_le118 le_rfl, over_le⟩, ⟨le_self finite_zero.not_nan, le_self finite_zero.not_nan⟩, ⟨le_self finite_zero.not_nan, le_self finite_zero.not_nan⟩⟩
  · rw [isInside3_iff]
    exact ⟨⟨over_le, le_self (finite_neg.2 finite_half).not_nan⟩, ⟨le_self finite_zero.not_nan, le_self finite_zero.not_nan⟩, ⟨le_self finite_zero.not_nan, le_self finite_zero.not_nan⟩⟩
  · rw [Bool.eq_false_iff, Ne, isInside3_iff]
    intro h
    have h := h.1.2
    rw [le_fin e.1 (finite_neg.2 finite_half), e.2, IEEE.real_neg, real_half] at h
    norm_num at h
  · rw [Bool.eq_false_iff, Ne, Point3.beq_iff]
    intro h
    have h := real_of_num e.1 (finite_neg.2 finite_half) (num_of_beq h.1)
    rw [e.2, IEEE.real_neg, real_half] at h
    norm_num at h
/-- **C118**: without the condition of `C118_start3`, in every format there are finite points between which interpolation with `0` is NaN. -/
theorem C118_lost_start3 : ∃ p q : Point3 (Fl F), AllFinite p ∧ AllFinite q ∧ IsNaN (Point3.mix zero p q).x ∧ (Point3.mix zero p q == p) = false := by
  have n : IsNaN (Point3.mix zero (⟨-Fl.big F, zero, zero⟩ : Point3 (Fl F)) ⟨Fl.big F, zero, zero⟩).x := big_step
  refine ⟨⟨-Fl.big F, zero, zero⟩, ⟨Fl.big F, zero, zero⟩, Point3.allFinite.2 ⟨finite_neg.2 Fl.finite_big, finite_zero, finite_zero⟩, Point3.allFinite.2 ⟨Fl.finite_big, finite_zero, finite_zero⟩, n, ?_⟩
  rw [Bool.eq_false_iff, Ne, Point3.beq_iff]
  intro h
  exact (beq_iff.1 h.1).1 n

/-! ## Without rounding -/

/-- Control points for the exact theorems. -/
example : AllFinite (Point2.curve (fun j => ⟨Ideal.of j, Ideal.of (j ^ 2)⟩) 2 (Ideal.of 3)) ∧
    (Point2.curve (fun j => ⟨Ideal.of j, Ideal.of (j ^ 2)⟩) 2 (Ideal.of 3)).toReal 1 = bezier (fun j => (j : ℝ) ^ 2) 2 3 :=
  have h := C118_real2 (fun j => ⟨Ideal.of j, Ideal.of (j ^ 2)⟩) 2 (Ideal.of 3) (Ideal.finite_of _) fun _ _ => Point2.allFinite.2 ⟨trivial, trivial⟩
  ⟨h.1, h.2 1⟩
example (s t : Ideal) (hs : IsFinite s) (ht : IsFinite t) :
    (Point3.curve (Point3.upTo (fun j => ⟨Ideal.of j, Ideal.of (j ^ 2), Ideal.of 1⟩) s) 4 t == Point3.curve (fun j => ⟨Ideal.of j, Ideal.of (j ^ 2), Ideal.of 1⟩) 4 (s * t)) = true :=
  (C118_real_split3 (fun j => ⟨Ideal.of j, Ideal.of (j ^ 2), Ideal.of 1⟩) 4 s t hs ht fun _ _ => Point3.allFinite.2 ⟨trivial, trivial, trivial⟩).1

end VecMath
