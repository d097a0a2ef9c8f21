import Verif.Props.FloatMoving
import Verif.Props.FloatChain2Ex
import Verif.Props.FloatExamples2
/-!
# C105: concrete `f32` cases, and objects moved in small steps
-/

open Classical

namespace VecMath
open Scalar IEEE

example := C105_swept2 (cube2 1 3) v34 cube2_finite finite_v34 (int32 0) (int32 1) (int32 2) finite_int32 finite_int32 finite_int32
  (int32_le (by norm_num)) (int32_le (by norm_num))
example := C105_swept3 (cube3 1 3) v236 cube3_finite finite_v236 (int32 0) (int32 1) (int32 2) finite_int32 finite_int32 finite_int32
  (int32_le (by norm_num)) (int32_le (by norm_num))
theorem rnd_int32 {n : ℤ} (h : |n| ≤ 16777216) : (Binary.F F32).rnd (n : ℝ) = n :=
  Fmt.rnd_of_has (F := binary32) ⟨n, 0, by decide, by simpa [binary32] using h, by simp⟩
theorem small_lt {n : ℤ} (h : |n| ≤ 1000) : |(n : ℝ)| < overflowAt F32 := by
  refine lt_of_lt_of_le ?_ overflow32
  have : ((|n| : ℤ) : ℝ) ≤ 1000 := by exact_mod_cast h
  rw [Int.cast_abs] at this
  linarith
/-- Small integers are moved exactly. -/
theorem int_move {a b c : ℤ} {ha : |a| ≤ 16777216} {hb : |b| ≤ 16777216} {hc : |c| ≤ 16777216} (h1 : |b * c| ≤ 1000) (h2 : |a + b * c| ≤ 1000) :
    Exactly (int32 a ha + int32 b hb * int32 c hc) ((a + b * c : ℤ) : ℝ) := by
  have m : Exactly (int32 b hb * int32 c hc) ((b * c : ℤ) : ℝ) := by
    refine exec_mul exactly_int exactly_int ?_ ?_ <;> rw [← Int.cast_mul]
    · exact rnd_int32 (h1.trans (by norm_num))
    · exact small_lt h1
  refine exec_add exactly_int m ?_ ?_ <;> rw [← Int.cast_add]
  · exact rnd_int32 (h2.trans (by norm_num))
  · exact small_lt h2
theorem exactly_le {a b : F32} {x y : ℝ} (ha : Exactly a x) (hb : Exactly b y) (h : x ≤ y) : (a ≤? b) = true :=
  le_iff.2 ⟨ha.1.not_nan, hb.1.not_nan, by rw [ha.1.val, hb.1.val, ha.2, hb.2]; exact_mod_cast h⟩
/-- Two boxes that fly through each other: apart at times 0 and 2, in contact at time 1. -/
example : (swept2 (cube2 0 1) ⟨int32 4, int32 0⟩ (int32 0) (int32 2)).overlaps
    (swept2 (cube2 4 5) ⟨int32 0, int32 (-4)⟩ (int32 0) (int32 2)) = true := by
  refine C105_contact2 (cube2 0 1) (cube2 4 5) ⟨int32 4, int32 0⟩ ⟨int32 0, int32 (-4)⟩ cube2_finite cube2_finite (Vector2.allFinite.2 ⟨trivial, trivial⟩)
    (Vector2.allFinite.2 ⟨trivial, trivial⟩) _ (int32 1) _ finite_int32 finite_int32 finite_int32
    (int32_le (by norm_num)) (int32_le (by norm_num)) ?_
  have m (a b : ℤ) (ha : |a| ≤ 16777216) (hb : |b| ≤ 16777216) (h1 : |b * 1| ≤ 1000) (h2 : |a + b * 1| ≤ 1000) := int_move (a := a) (b := b) (c := 1) (ha := ha) (hb := hb) (hc := by norm_num) h1 h2
  have a0 := m 0 4 (by norm_num) (by norm_num) (by norm_num) (by norm_num)
  have a1 := m 1 4 (by norm_num) (by norm_num) (by norm_num) (by norm_num)
  have a2 := m 0 0 (by norm_num) (by norm_num) (by norm_num) (by norm_num)
  have a3 := m 1 0 (by norm_num) (by norm_num) (by norm_num) (by norm_num)
  have b0 := m 4 0 (by norm_num) (by norm_num) (by norm_num) (by norm_num)
  have b1 := m 5 0 (by norm_num) (by norm_num) (by norm_num) (by norm_num)
  have b2 := m 4 (-4) (by norm_num) (by norm_num) (by norm_num) (by norm_num)
  have b3 := m 5 (-4) (by norm_num) (by norm_num) (by norm_num) (by norm_num)
  have k : ∀ {x y z w : F32} {p q r s : ℝ}, Exactly x p → Exactly y q → Exactly z r → Exactly w s → p ≤ s → (fmin x y ≤? fmax z w) = true :=
    fun hx hy hz hw h => le_trans' (min_le_left' hx.1.not_nan hy.1.not_nan) (le_trans' (exactly_le hx hw h) (le_max_right' hz.1.not_nan hw.1.not_nan))
  exact overlaps2_iff.2 ⟨⟨k b0 b1 a0 a1 (by norm_num), k a0 a1 b0 b1 (by norm_num)⟩, k b2 b3 a2 a3 (by norm_num), k a2 a3 b2 b3 (by norm_num)⟩
theorem neg10_le {n : ℤ} {h : |n| ≤ 16777216} (hn : -10 ≤ n) : (-(int32 10) ≤? int32 n h) = true := by
  refine le_iff.2 ⟨(finite_neg.2 (finite_int32 (n := 10) (h := by norm_num))).not_nan, finite_int32.not_nan, ?_⟩
  rw [val_neg, (finite_int32 (n := 10) (h := by norm_num)).val, (finite_int32 (n := n) (h := h)).val, real_int32, real_int32, ← EReal.coe_neg, EReal.coe_le_coe_iff]
  exact_mod_cast hn
/-- A margin of 10, and a displacement by `(3, 4)`. -/
example := C105_fat2 (cube2 1 3) ⟨int32 10, int32 10⟩ v34 (cube2_le (by norm_num)) cube2_finite (Vector2.allFinite.2 ⟨trivial, trivial⟩) finite_v34
  (Vector2.leAll.2 ⟨neg10_le (h := by norm_num) (by norm_num), neg10_le (h := by norm_num) (by norm_num)⟩) (Vector2.leAll.2 ⟨int32_le (by norm_num), int32_le (by norm_num)⟩)
example := C105_fat3 (cube3 1 3) ⟨int32 10, int32 10, int32 10⟩ v236 (cube3_le (by norm_num)) cube3_finite (Vector3.allFinite.2 ⟨trivial, trivial, trivial⟩) finite_v236
  (Vector3.leAll.2 ⟨neg10_le (h := by norm_num) (by norm_num), neg10_le (h := by norm_num) (by norm_num), neg10_le (h := by norm_num) (by norm_num)⟩)
  (Vector3.leAll.2 ⟨int32_le (by norm_num), int32_le (by norm_num), int32_le (by norm_num)⟩)

/-! ## Small steps leave the swept box -/

/-- `5 * 2^-25` -/
noncomputable def creep : F32 := Fl.of (F := binary32) (5 * 2 ^ (-25 : ℤ)) ⟨5, -25, by decide, by decide, by norm_num⟩ (by
  show |(5 * 2 ^ (-25 : ℤ) : ℝ)| < 2 ^ (128 : ℤ); norm_num [abs_of_pos])
noncomputable def halfF32 : F32 := Fl.of (F := binary32) (2 ^ (-1 : ℤ)) ⟨1, -1, by decide, by decide, by norm_num⟩ (by
  show |(2 ^ (-1 : ℤ) : ℝ)| < 2 ^ (128 : ℤ); norm_num [abs_of_pos])
/-- `1 + 2^-23`, the number after 1 -/
noncomputable def next1 : F32 := Fl.of (F := binary32) (1 + 2 ^ (-23 : ℤ)) ⟨8388609, -23, by decide, by decide, by norm_num⟩ (by
  show |(1 + 2 ^ (-23 : ℤ) : ℝ)| < 2 ^ (128 : ℤ); norm_num [abs_of_pos])
theorem half_creep : Exactly (creep * halfF32) (5 * 2 ^ (-26 : ℤ)) := by
  refine exec_mul (x := 5 * 2 ^ (-25 : ℤ)) (y := 2 ^ (-1 : ℤ)) ⟨trivial, rfl⟩ ⟨trivial, rfl⟩ ?_ ?_
  · have := Fmt.rnd_lit binary32 (x := 5 * 2 ^ (-25 : ℤ) * 2 ^ (-1 : ℤ)) (-24) (-47) 10485760 (by decide) (by norm_num) (by norm_num) (by norm_num) (by norm_num)
    exact this.trans (by norm_num)
  · refine lt_of_lt_of_le ?_ overflow32
    norm_num [abs_of_pos]
theorem creep1 : Exactly (int32 1 + creep * halfF32) (1 + 2 ^ (-23 : ℤ)) := by
  refine exec_add (x := 1) ⟨trivial, by rw [real_int32]; norm_num⟩ half_creep ?_ ?_
  · have := Fmt.rnd_lit binary32 (x := 1 + 5 * 2 ^ (-26 : ℤ)) 0 (-23) 8388609 (by decide) (by norm_num) (by norm_num) (by norm_num) (by norm_num)
    exact this.trans (by norm_num)
  · refine lt_of_lt_of_le ?_ overflow32
    norm_num [abs_of_pos]
theorem creep2 : Exactly (int32 1 + creep * halfF32 + creep * halfF32) (1 + 2 ^ (-22 : ℤ)) := by
  refine exec_add creep1 half_creep ?_ ?_
  · have := Fmt.rnd_lit binary32 (x := 1 + 2 ^ (-23 : ℤ) + 5 * 2 ^ (-26 : ℤ)) 0 (-23) 8388610 (by decide) (by norm_num) (by norm_num) (by norm_num) (by norm_num)
    exact this.trans (by norm_num)
  · refine lt_of_lt_of_le ?_ overflow32
    norm_num [abs_of_pos]
theorem creep_full : Exactly (int32 1 + creep * int32 1) (1 + 2 ^ (-23 : ℤ)) := by
  have m : Exactly (creep * int32 1) (5 * 2 ^ (-25 : ℤ)) := by
    refine exec_mul (x := 5 * 2 ^ (-25 : ℤ)) (y := 1) ⟨trivial, rfl⟩ ⟨trivial, by rw [real_int32]; norm_num⟩ ?_ ?_
    · have := Fmt.rnd_lit binary32 (x := 5 * 2 ^ (-25 : ℤ) * 1) (-23) (-46) 10485760 (by decide) (by norm_num) (by norm_num) (by norm_num) (by norm_num)
      exact this.trans (by norm_num)
    · refine lt_of_lt_of_le ?_ overflow32
      norm_num [abs_of_pos]
  refine exec_add (x := 1) ⟨trivial, by rw [real_int32]; norm_num⟩ m ?_ ?_
  · have := Fmt.rnd_lit binary32 (x := 1 + 5 * 2 ^ (-25 : ℤ)) 0 (-23) 8388609 (by decide) (by norm_num) (by norm_num) (by norm_num) (by norm_num)
    exact this.trans (by norm_num)
  · refine lt_of_lt_of_le ?_ overflow32
    norm_num [abs_of_pos]
theorem creep_none : Exactly (int32 1 + creep * int32 0) 1 := by
  have m : Exactly (creep * int32 0) 0 := by
    refine exec_mul (x := 5 * 2 ^ (-25 : ℤ)) (y := 0) ⟨trivial, rfl⟩ ⟨trivial, by rw [real_int32]; norm_num⟩ ?_ ?_
    · rw [mul_zero]; exact_mod_cast rnd_int32 (n := 0) (by norm_num)
    · refine lt_of_lt_of_le ?_ overflow32
      norm_num
  refine exec_add (x := 1) ⟨trivial, by rw [real_int32]; norm_num⟩ m ?_ ?_
  · rw [add_zero]; exact_mod_cast rnd_int32 (n := 1) (by norm_num)
  · refine lt_of_lt_of_le ?_ overflow32
    norm_num
noncomputable def creepV2 : Vector2 F32 := ⟨creep, creep⟩
noncomputable def creepV3 : Vector3 F32 := ⟨creep, creep, creep⟩
/-- **C105**: an object that makes two steps of half the way can be outside of the box swept from time 0 to time 1: the rounding
errors of the steps add up. -/
theorem C105_steps_leave2 : AllFinite (cube2 1 1) ∧ LeAll (cube2 1 1).min (cube2 1 1).max ∧ AllFinite creepV2 ∧ (cube2 1 1).isInside (cube2 1 1).min = true ∧
    (swept2 (cube2 1 1) creepV2 (int32 0) (int32 1)).isInside ((cube2 1 1).min + creepV2 * halfF32 + creepV2 * halfF32) = false := by
  refine ⟨cube2_finite, cube2_le le_rfl, Vector2.allFinite.2 ⟨trivial, trivial⟩, isInside2_iff.2 ⟨⟨int32_le le_rfl, int32_le le_rfl⟩, int32_le le_rfl, int32_le le_rfl⟩, ?_⟩
  rw [Bool.eq_false_iff]
  intro h
  have n0 := creep_none.1.not_nan
  have n1 := creep_full.1.not_nan
  have l : ∀ {a : F32} {x : ℝ}, Exactly a x → x = 1 ∨ x = 1 + 2 ^ (-23 : ℤ) → In1 (int32 1) next1 a := fun ha hx =>
    ⟨exactly_le exactly_int ha (by rcases hx with rfl | rfl <;> norm_num), exactly_le (y := 1 + 2 ^ (-23 : ℤ)) ha ⟨trivial, rfl⟩ (by rcases hx with rfl | rfl <;> norm_num)⟩
  have s0 : ∀ p, (boxAt2 (cube2 1 1) creepV2 (int32 0)).isInside p = true → (⟨⟨int32 1, int32 1⟩, ⟨next1, next1⟩⟩ : BoundingBox2 F32).isInside p = true :=
    fun p hp => new_sub2 _ _ (Point2.noNaN.2 ⟨n0, n0⟩) (Point2.noNaN.2 ⟨n0, n0⟩) _ (isInside2_iff.2 ⟨l creep_none (.inl rfl), l creep_none (.inl rfl)⟩)
      (isInside2_iff.2 ⟨l creep_none (.inl rfl), l creep_none (.inl rfl)⟩) p hp
  have s1 : ∀ p, (boxAt2 (cube2 1 1) creepV2 (int32 1)).isInside p = true → (⟨⟨int32 1, int32 1⟩, ⟨next1, next1⟩⟩ : BoundingBox2 F32).isInside p = true :=
    fun p hp => new_sub2 _ _ (Point2.noNaN.2 ⟨n1, n1⟩) (Point2.noNaN.2 ⟨n1, n1⟩) _ (isInside2_iff.2 ⟨l creep_full (.inr rfl), l creep_full (.inr rfl)⟩)
      (isInside2_iff.2 ⟨l creep_full (.inr rfl), l creep_full (.inr rfl)⟩) p hp
  have w0 := (C24_new2 _ _ (Point2.noNaN.2 ⟨n0, n0⟩ : NoNaN ((cube2 1 1).min + creepV2 * int32 0)) (Point2.noNaN.2 ⟨n0, n0⟩ : NoNaN ((cube2 1 1).max + creepV2 * int32 0))).1
  have w1 := (C24_new2 _ _ (Point2.noNaN.2 ⟨n1, n1⟩ : NoNaN ((cube2 1 1).min + creepV2 * int32 1)) (Point2.noNaN.2 ⟨n1, n1⟩ : NoNaN ((cube2 1 1).max + creepV2 * int32 1))).1
  have hu := (C26_union2 _ _ w0 w1).2.2 _ s0 s1 _ h
  have := (le_iff.1 (isInside2_iff.1 hu).1.2).2.2
  rw [show val ((cube2 1 1).min + creepV2 * halfF32 + creepV2 * halfF32).x = _ from creep2.1.val, creep2.2,
    show val next1 = ((1 + 2 ^ (-23 : ℤ) : ℝ) : EReal) from rfl, EReal.coe_le_coe_iff] at this
  norm_num at this
theorem C105_steps_leave3 : AllFinite (cube3 1 1) ∧ LeAll (cube3 1 1).min (cube3 1 1).max ∧ AllFinite creepV3 ∧ (cube3 1 1).isInside (cube3 1 1).min = true ∧
    (swept3 (cube3 1 1) creepV3 (int32 0) (int32 1)).isInside ((cube3 1 1).min + creepV3 * halfF32 + creepV3 * halfF32) = false := by
  refine ⟨cube3_finite, cube3_le le_rfl, Vector3.allFinite.2 ⟨trivial, trivial, trivial⟩,
    isInside3_iff.2 ⟨⟨int32_le le_rfl, int32_le le_rfl⟩, ⟨int32_le le_rfl, int32_le le_rfl⟩, int32_le le_rfl, int32_le le_rfl⟩, ?_⟩
  rw [Bool.eq_false_iff]
  intro h
  have n0 := creep_none.1.not_nan
  have n1 := creep_full.1.not_nan
  have l : ∀ {a : F32} {x : ℝ}, Exactly a x → x = 1 ∨ x = 1 + 2 ^ (-23 : ℤ) → In1 (int32 1) next1 a := fun ha hx =>
    ⟨exactly_le exactly_int ha (by rcases hx with rfl | rfl <;> norm_num), exactly_le (y := 1 + 2 ^ (-23 : ℤ)) ha ⟨trivial, rfl⟩ (by rcases hx with rfl | rfl <;> norm_num)⟩
  have l0 := l creep_none (.inl rfl)
  have l1 := l creep_full (.inr rfl)
  have m0 : NoNaN (⟨int32 1 + creep * int32 0, int32 1 + creep * int32 0, int32 1 + creep * int32 0⟩ : Point3 F32) := Point3.noNaN.2 ⟨n0, n0, n0⟩
  have m1 : NoNaN (⟨int32 1 + creep * int32 1, int32 1 + creep * int32 1, int32 1 + creep * int32 1⟩ : Point3 F32) := Point3.noNaN.2 ⟨n1, n1, n1⟩
  have s0 : ∀ p, (boxAt3 (cube3 1 1) creepV3 (int32 0)).isInside p = true → (⟨⟨int32 1, int32 1, int32 1⟩, ⟨next1, next1, next1⟩⟩ : BoundingBox3 F32).isInside p = true :=
    fun p hp => new_sub3 _ _ m0 m0 _ (isInside3_iff.2 ⟨l0, l0, l0⟩) (isInside3_iff.2 ⟨l0, l0, l0⟩) p hp
  have s1 : ∀ p, (boxAt3 (cube3 1 1) creepV3 (int32 1)).isInside p = true → (⟨⟨int32 1, int32 1, int32 1⟩, ⟨next1, next1, next1⟩⟩ : BoundingBox3 F32).isInside p = true :=
    fun p hp => new_sub3 _ _ m1 m1 _ (isInside3_iff.2 ⟨l1, l1, l1⟩) (isInside3_iff.2 ⟨l1, l1, l1⟩) p hp
  have hu := (C26_union3 _ _ (C24_new3 _ _ m0 m0).1 (C24_new3 _ _ m1 m1).1).2.2 _ s0 s1 _ h
  have := (le_iff.1 (isInside3_iff.1 hu).1.2).2.2
  rw [show val ((cube3 1 1).min + creepV3 * halfF32 + creepV3 * halfF32).x = _ from creep2.1.val, creep2.2,
    show val next1 = ((1 + 2 ^ (-23 : ℤ) : ℝ) : EReal) from rfl, EReal.coe_le_coe_iff] at this
  norm_num at this

end VecMath
