import Verif.Props.FloatBallErr
import Verif.Props.FloatBallEx
import Verif.Props.FloatExamples8
/-! # C119: rays clear of tangency

(Generated by tools/gen.) -/

namespace VecMath
open Scalar IEEE Matrix

theorem err32 {D O P : ℝ} (h : |D * (2 * O + P)| + |D + O + P + 1| ≤ 1000000) : ballErr F32 D O P < 1 := by
  have hu : uro F32 = 1 / 16777216 := by
    have : uro F32 = 2 ^ (-24 : ℤ) := by show (2 : ℝ) ^ (_ : ℤ) = _; congr 1
    rw [this]; norm_num
  have ht : tiny F32 = 2 ^ (-150 : ℤ) := by show (2 : ℝ) ^ (_ : ℤ) = _; congr 1
  have ht' : tiny F32 ≤ 1 / 16777216 := by rw [ht]; norm_num
  have t0 := tiny_pos (S := F32)
  have a := le_abs_self (D * (2 * O + P))
  have b := le_abs_self (D + O + P + 1)
  have b' := abs_nonneg (D + O + P + 1)
  unfold ballErr
  rw [hu]
  have : 12 * tiny F32 * (D + O + P + 1) ≤ 12 * (1 / 16777216) * |D + O + P + 1| :=
    (mul_le_mul_of_nonneg_left b (by positivity)).trans (mul_le_mul_of_nonneg_right (by linarith) b')
  linarith

noncomputable def ray_hit2 : Ray2 F32 := ⟨pt2 (-6) (-8), ⟨int32 3, int32 4⟩⟩
noncomputable def mid_hit2 : Point2 F32 := pt2 0 0
theorem exact_hit2 : Exactly (Api.dot ray_hit2.direction (ray_hit2.origin - mid_hit2 : Vector2 F32) * Api.dot ray_hit2.direction (ray_hit2.origin - mid_hit2 : Vector2 F32) -
    Api.dot ray_hit2.direction ray_hit2.direction * (Api.dot (ray_hit2.origin - mid_hit2 : Vector2 F32) (ray_hit2.origin - mid_hit2 : Vector2 F32) - int32 5 * int32 5)) ((625 : ℤ) : ℝ) := by
  have a : Exactly (Api.dot ray_hit2.direction ray_hit2.direction) ((25 : ℤ) : ℝ) := ex_int (int_add32' (int_mul32 exi exi (by norm_num)) (int_mul32 exi exi (by norm_num)) (by norm_num)) (by norm_num)
  have h : Exactly (Api.dot ray_hit2.direction (ray_hit2.origin - mid_hit2 : Vector2 F32)) ((-50 : ℤ) : ℝ) := ex_int (int_add32' (int_mul32 exi (int_sub32' exi exi (by norm_num)) (by norm_num)) (int_mul32 exi (int_sub32' exi exi (by norm_num)) (by norm_num)) (by norm_num)) (by norm_num)
  have o : Exactly (Api.dot (ray_hit2.origin - mid_hit2 : Vector2 F32) (ray_hit2.origin - mid_hit2 : Vector2 F32)) ((100 : ℤ) : ℝ) := ex_int (int_add32' (int_mul32 (int_sub32' exi exi (by norm_num)) (int_sub32' exi exi (by norm_num)) (by norm_num)) (int_mul32 (int_sub32' exi exi (by norm_num)) (int_sub32' exi exi (by norm_num)) (by norm_num)) (by norm_num)) (by norm_num)
  have r := ex_int (int_mul32 (exi (n := 5)) (exi (n := 5)) (by norm_num)) (show _ = (25 : ℤ) by norm_num)
  have k := ex_int (int_sub32' o r (by norm_num)) (show _ = (75 : ℤ) by norm_num)
  exact ex_int (int_sub32' (int_mul32 h h (by norm_num)) (int_mul32 a k (by norm_num)) (by norm_num)) (by norm_num)
theorem dir_hit2 : ray_hit2.direction.toReal ≠ 0 := by
  intro h
  have := congrFun h 1
  change real (int32 4) = 0 at this
  rw [real_int32] at this
  norm_num at this
theorem sums_hit2 : ray_hit2.direction.toReal ⬝ᵥ ray_hit2.direction.toReal = 25 ∧ ray_hit2.direction.toReal ⬝ᵥ (ray_hit2.origin.toReal - mid_hit2.toReal) = -50 ∧
    (ray_hit2.origin.toReal - mid_hit2.toReal) ⬝ᵥ (ray_hit2.origin.toReal - mid_hit2.toReal) = 100 := by
  simp only [dotProduct, Fin.sum_univ_two, Pi.sub_apply]
  simp only [ray_hit2, mid_hit2, pt2, Vector2.toReal, Point2.toReal, Matrix.cons_val_zero, Matrix.cons_val_one, Matrix.cons_val, real_int32]
  norm_num
example : ray_hit2.ball mid_hit2 (int32 5) = none ↔ ∀ t : ℝ, ¬ InBall ray_hit2.direction.toReal ray_hit2.origin.toReal mid_hit2.toReal (real (int32 5)) t := by
  obtain ⟨a, h, o⟩ := sums_hit2
  refine C119_clear2 standard_f32 _ _ _ dir_hit2 exact_hit2.1 ?_
  rw [a, h, o, real_int32]
  refine lt_of_lt_of_le (err32 ?_) ?_ <;> norm_num [abs_of_nonneg, abs_of_nonpos]
example : ∃ t : ℝ, ∑ i, (ray_hit2.origin.toReal i + t * ray_hit2.direction.toReal i - mid_hit2.toReal i) ^ 2 ≤ 25 + 1 / 25 := by
  obtain ⟨a, h, o⟩ := sums_hit2
  have n := (C119_near2 standard_f32 ray_hit2 mid_hit2 (int32 5) dir_hit2 exact_hit2.1).1 (fun c => by
    have := (rootRange_none exact_hit2.1).1 c
    rw [exact_hit2.2] at this
    norm_num at this)
  obtain ⟨t, ht⟩ := n
  refine ⟨t, ht.trans ?_⟩
  rw [a, o, real_int32]
  have := (err32 (D := 25) (O := 100) (P := ((5 : ℤ) : ℝ) ^ 2) (by norm_num [abs_of_nonneg])).le
  have := div_le_div_of_nonneg_right this (show (0 : ℝ) ≤ 25 by norm_num)
  norm_num at this ⊢
  linarith

noncomputable def ray_hit3 : Ray3 F32 := ⟨pt3 (-3) (-6) (-6), ⟨int32 1, int32 2, int32 2⟩⟩
noncomputable def mid_hit3 : Point3 F32 := pt3 0 0 0
theorem exact_hit3 : Exactly (Api.dot ray_hit3.direction (ray_hit3.origin - mid_hit3 : Vector3 F32) * Api.dot ray_hit3.direction (ray_hit3.origin - mid_hit3 : Vector3 F32) -
    Api.dot ray_hit3.direction ray_hit3.direction * (Api.dot (ray_hit3.origin - mid_hit3 : Vector3 F32) (ray_hit3.origin - mid_hit3 : Vector3 F32) - int32 3 * int32 3)) ((81 : ℤ) : ℝ) := by
  have a : Exactly (Api.dot ray_hit3.direction ray_hit3.direction) ((9 : ℤ) : ℝ) := ex_int (int_add32' (int_add32' (int_mul32 exi exi (by norm_num)) (int_mul32 exi exi (by norm_num)) (by norm_num)) (int_mul32 exi exi (by norm_num)) (by norm_num)) (by norm_num)
  have h : Exactly (Api.dot ray_hit3.direction (ray_hit3.origin - mid_hit3 : Vector3 F32)) ((-27 : ℤ) : ℝ) := ex_int (int_add32' (int_add32' (int_mul32 exi (int_sub32' exi exi (by norm_num)) (by norm_num)) (int_mul32 exi (int_sub32' exi exi (by norm_num)) (by norm_num)) (by norm_num)) (int_mul32 exi (int_sub32' exi exi (by norm_num)) (by norm_num)) (by norm_num)) (by norm_num)
  have o : Exactly (Api.dot (ray_hit3.origin - mid_hit3 : Vector3 F32) (ray_hit3.origin - mid_hit3 : Vector3 F32)) ((81 : ℤ) : ℝ) := ex_int (int_add32' (int_add32' (int_mul32 (int_sub32' exi exi (by norm_num)) (int_sub32' exi exi (by norm_num)) (by norm_num)) (int_mul32 (int_sub32' exi exi (by norm_num)) (int_sub32' exi exi (by norm_num)) (by norm_num)) (by norm_num)) (int_mul32 (int_sub32' exi exi (by norm_num)) (int_sub32' exi exi (by norm_num)) (by norm_num)) (by norm_num)) (by norm_num)
  have r := ex_int (int_mul32 (exi (n := 3)) (exi (n := 3)) (by norm_num)) (show _ = (9 : ℤ) by norm_num)
  have k := ex_int (int_sub32' o r (by norm_num)) (show _ = (72 : ℤ) by norm_num)
  exact ex_int (int_sub32' (int_mul32 h h (by norm_num)) (int_mul32 a k (by norm_num)) (by norm_num)) (by norm_num)
theorem dir_hit3 : ray_hit3.direction.toReal ≠ 0 := by
  intro h
  have := congrFun h 2
  change real (int32 2) = 0 at this
  rw [real_int32] at this
  norm_num at this
theorem sums_hit3 : ray_hit3.direction.toReal ⬝ᵥ ray_hit3.direction.toReal = 9 ∧ ray_hit3.direction.toReal ⬝ᵥ (ray_hit3.origin.toReal - mid_hit3.toReal) = -27 ∧
    (ray_hit3.origin.toReal - mid_hit3.toReal) ⬝ᵥ (ray_hit3.origin.toReal - mid_hit3.toReal) = 81 := by
  simp only [dotProduct, Fin.sum_univ_three, Pi.sub_apply]
  simp only [ray_hit3, mid_hit3, pt3, Vector3.toReal, Point3.toReal, Matrix.cons_val_zero, Matrix.cons_val_one, Matrix.cons_val, real_int32]
  norm_num
example : ray_hit3.ball mid_hit3 (int32 3) = none ↔ ∀ t : ℝ, ¬ InBall ray_hit3.direction.toReal ray_hit3.origin.toReal mid_hit3.toReal (real (int32 3)) t := by
  obtain ⟨a, h, o⟩ := sums_hit3
  refine C119_clear3 standard_f32 _ _ _ dir_hit3 exact_hit3.1 ?_
  rw [a, h, o, real_int32]
  refine lt_of_lt_of_le (err32 ?_) ?_ <;> norm_num [abs_of_nonneg, abs_of_nonpos]
example : ∃ t : ℝ, ∑ i, (ray_hit3.origin.toReal i + t * ray_hit3.direction.toReal i - mid_hit3.toReal i) ^ 2 ≤ 9 + 1 / 9 := by
  obtain ⟨a, h, o⟩ := sums_hit3
  have n := (C119_near3 standard_f32 ray_hit3 mid_hit3 (int32 3) dir_hit3 exact_hit3.1).1 (fun c => by
    have := (rootRange_none exact_hit3.1).1 c
    rw [exact_hit3.2] at this
    norm_num at this)
  obtain ⟨t, ht⟩ := n
  refine ⟨t, ht.trans ?_⟩
  rw [a, o, real_int32]
  have := (err32 (D := 9) (O := 81) (P := ((3 : ℤ) : ℝ) ^ 2) (by norm_num [abs_of_nonneg])).le
  have := div_le_div_of_nonneg_right this (show (0 : ℝ) ≤ 9 by norm_num)
  norm_num at this ⊢
  linarith

noncomputable def ray_off2 : Ray2 F32 := ⟨pt2 1 2, ⟨int32 3, int32 4⟩⟩
noncomputable def mid_off2 : Point2 F32 := pt2 5 0
theorem exact_off2 : Exactly (Api.dot ray_off2.direction (ray_off2.origin - mid_off2 : Vector2 F32) * Api.dot ray_off2.direction (ray_off2.origin - mid_off2 : Vector2 F32) -
    Api.dot ray_off2.direction ray_off2.direction * (Api.dot (ray_off2.origin - mid_off2 : Vector2 F32) (ray_off2.origin - mid_off2 : Vector2 F32) - int32 3 * int32 3)) ((-259 : ℤ) : ℝ) := by
  have a : Exactly (Api.dot ray_off2.direction ray_off2.direction) ((25 : ℤ) : ℝ) := ex_int (int_add32' (int_mul32 exi exi (by norm_num)) (int_mul32 exi exi (by norm_num)) (by norm_num)) (by norm_num)
  have h : Exactly (Api.dot ray_off2.direction (ray_off2.origin - mid_off2 : Vector2 F32)) ((-4 : ℤ) : ℝ) := ex_int (int_add32' (int_mul32 exi (int_sub32' exi exi (by norm_num)) (by norm_num)) (int_mul32 exi (int_sub32' exi exi (by norm_num)) (by norm_num)) (by norm_num)) (by norm_num)
  have o : Exactly (Api.dot (ray_off2.origin - mid_off2 : Vector2 F32) (ray_off2.origin - mid_off2 : Vector2 F32)) ((20 : ℤ) : ℝ) := ex_int (int_add32' (int_mul32 (int_sub32' exi exi (by norm_num)) (int_sub32' exi exi (by norm_num)) (by norm_num)) (int_mul32 (int_sub32' exi exi (by norm_num)) (int_sub32' exi exi (by norm_num)) (by norm_num)) (by norm_num)) (by norm_num)
  have r := ex_int (int_mul32 (exi (n := 3)) (exi (n := 3)) (by norm_num)) (show _ = (9 : ℤ) by norm_num)
  have k := ex_int (int_sub32' o r (by norm_num)) (show _ = (11 : ℤ) by norm_num)
  exact ex_int (int_sub32' (int_mul32 h h (by norm_num)) (int_mul32 a k (by norm_num)) (by norm_num)) (by norm_num)
theorem dir_off2 : ray_off2.direction.toReal ≠ 0 := by
  intro h
  have := congrFun h 1
  change real (int32 4) = 0 at this
  rw [real_int32] at this
  norm_num at this
theorem sums_off2 : ray_off2.direction.toReal ⬝ᵥ ray_off2.direction.toReal = 25 ∧ ray_off2.direction.toReal ⬝ᵥ (ray_off2.origin.toReal - mid_off2.toReal) = -4 ∧
    (ray_off2.origin.toReal - mid_off2.toReal) ⬝ᵥ (ray_off2.origin.toReal - mid_off2.toReal) = 20 := by
  simp only [dotProduct, Fin.sum_univ_two, Pi.sub_apply]
  simp only [ray_off2, mid_off2, pt2, Vector2.toReal, Point2.toReal, Matrix.cons_val_zero, Matrix.cons_val_one, Matrix.cons_val, real_int32]
  norm_num
example : ray_off2.ball mid_off2 (int32 3) = none ↔ ∀ t : ℝ, ¬ InBall ray_off2.direction.toReal ray_off2.origin.toReal mid_off2.toReal (real (int32 3)) t := by
  obtain ⟨a, h, o⟩ := sums_off2
  refine C119_clear2 standard_f32 _ _ _ dir_off2 exact_off2.1 ?_
  rw [a, h, o, real_int32]
  refine lt_of_lt_of_le (err32 ?_) ?_ <;> norm_num [abs_of_nonneg, abs_of_nonpos]
example : ∀ t : ℝ, 9 - 1 / 25 ≤ ∑ i, (ray_off2.origin.toReal i + t * ray_off2.direction.toReal i - mid_off2.toReal i) ^ 2 := by
  obtain ⟨a, h, o⟩ := sums_off2
  have n := (C119_near2 standard_f32 ray_off2 mid_off2 (int32 3) dir_off2 exact_off2.1).2 ((rootRange_none exact_off2.1).2 (by
    rw [exact_off2.2]
    norm_num))
  intro t
  refine le_trans ?_ (n t)
  rw [a, o, real_int32]
  have := (err32 (D := 25) (O := 20) (P := ((3 : ℤ) : ℝ) ^ 2) (by norm_num [abs_of_nonneg])).le
  have := div_le_div_of_nonneg_right this (show (0 : ℝ) ≤ 25 by norm_num)
  norm_num at this ⊢
  linarith

noncomputable def ray_off3 : Ray3 F32 := ⟨pt3 1 0 0, ⟨int32 0, int32 3, int32 4⟩⟩
noncomputable def mid_off3 : Point3 F32 := pt3 3 1 1
theorem exact_off3 : Exactly (Api.dot ray_off3.direction (ray_off3.origin - mid_off3 : Vector3 F32) * Api.dot ray_off3.direction (ray_off3.origin - mid_off3 : Vector3 F32) -
    Api.dot ray_off3.direction ray_off3.direction * (Api.dot (ray_off3.origin - mid_off3 : Vector3 F32) (ray_off3.origin - mid_off3 : Vector3 F32) - int32 1 * int32 1)) ((-76 : ℤ) : ℝ) := by
  have a : Exactly (Api.dot ray_off3.direction ray_off3.direction) ((25 : ℤ) : ℝ) := ex_int (int_add32' (int_add32' (int_mul32 exi exi (by norm_num)) (int_mul32 exi exi (by norm_num)) (by norm_num)) (int_mul32 exi exi (by norm_num)) (by norm_num)) (by norm_num)
  have h : Exactly (Api.dot ray_off3.direction (ray_off3.origin - mid_off3 : Vector3 F32)) ((-7 : ℤ) : ℝ) := ex_int (int_add32' (int_add32' (int_mul32 exi (int_sub32' exi exi (by norm_num)) (by norm_num)) (int_mul32 exi (int_sub32' exi exi (by norm_num)) (by norm_num)) (by norm_num)) (int_mul32 exi (int_sub32' exi exi (by norm_num)) (by norm_num)) (by norm_num)) (by norm_num)
  have o : Exactly (Api.dot (ray_off3.origin - mid_off3 : Vector3 F32) (ray_off3.origin - mid_off3 : Vector3 F32)) ((6 : ℤ) : ℝ) := ex_int (int_add32' (int_add32' (int_mul32 (int_sub32' exi exi (by norm_num)) (int_sub32' exi exi (by norm_num)) (by norm_num)) (int_mul32 (int_sub32' exi exi (by norm_num)) (int_sub32' exi exi (by norm_num)) (by norm_num)) (by norm_num)) (int_mul32 (int_sub32' exi exi (by norm_num)) (int_sub32' exi exi (by norm_num)) (by norm_num)) (by norm_num)) (by norm_num)
  have r := ex_int (int_mul32 (exi (n := 1)) (exi (n := 1)) (by norm_num)) (show _ = (1 : ℤ) by norm_num)
  have k := ex_int (int_sub32' o r (by norm_num)) (show _ = (5 : ℤ) by norm_num)
  exact ex_int (int_sub32' (int_mul32 h h (by norm_num)) (int_mul32 a k (by norm_num)) (by norm_num)) (by norm_num)
theorem dir_off3 : ray_off3.direction.toReal ≠ 0 := by
  intro h
  have := congrFun h 2
  change real (int32 4) = 0 at this
  rw [real_int32] at this
  norm_num at this
theorem sums_off3 : ray_off3.direction.toReal ⬝ᵥ ray_off3.direction.toReal = 25 ∧ ray_off3.direction.toReal ⬝ᵥ (ray_off3.origin.toReal - mid_off3.toReal) = -7 ∧
    (ray_off3.origin.toReal - mid_off3.toReal) ⬝ᵥ (ray_off3.origin.toReal - mid_off3.toReal) = 6 := by
  simp only [dotProduct, Fin.sum_univ_three, Pi.sub_apply]
  simp only [ray_off3, mid_off3, pt3, Vector3.toReal, Point3.toReal, Matrix.cons_val_zero, Matrix.cons_val_one, Matrix.cons_val, real_int32]
  norm_num
example : ray_off3.ball mid_off3 (int32 1) = none ↔ ∀ t : ℝ, ¬ InBall ray_off3.direction.toReal ray_off3.origin.toReal mid_off3.toReal (real (int32 1)) t := by
  obtain ⟨a, h, o⟩ := sums_off3
  refine C119_clear3 standard_f32 _ _ _ dir_off3 exact_off3.1 ?_
  rw [a, h, o, real_int32]
  refine lt_of_lt_of_le (err32 ?_) ?_ <;> norm_num [abs_of_nonneg, abs_of_nonpos]
example : ∀ t : ℝ, 1 - 1 / 25 ≤ ∑ i, (ray_off3.origin.toReal i + t * ray_off3.direction.toReal i - mid_off3.toReal i) ^ 2 := by
  obtain ⟨a, h, o⟩ := sums_off3
  have n := (C119_near3 standard_f32 ray_off3 mid_off3 (int32 1) dir_off3 exact_off3.1).2 ((rootRange_none exact_off3.1).2 (by
    rw [exact_off3.2]
    norm_num))
  intro t
  refine le_trans ?_ (n t)
  rw [a, o, real_int32]
  have := (err32 (D := 25) (O := 6) (P := ((1 : ℤ) : ℝ) ^ 2) (by norm_num [abs_of_nonneg])).le
  have := div_le_div_of_nonneg_right this (show (0 : ℝ) ≤ 25 by norm_num)
  norm_num at this ⊢
  linarith

end VecMath
