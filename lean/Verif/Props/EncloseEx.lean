import Verif.Props.FloatEnclose
import Verif.Props.RealEnclose
import Verif.Props.FloatBallEx
import Verif.Props.FloatAxis
/-! # C121: the hypotheses are met; the misses

(Generated by tools/gen.) -/

namespace VecMath
open Scalar IEEE

theorem tie24 : (Binary.F F32).rnd (((16777216 : ℤ) : ℝ) - ((-1 : ℤ) : ℝ)) = ((16777216 : ℤ) : ℝ) := by
  have := Fmt.rnd_lit_even binary32 (x := ((16777216 : ℤ) : ℝ) - ((-1 : ℤ) : ℝ)) 24 1 8388608 (by decide) (by decide) (by norm_num) (by norm_num) (by norm_num) (by norm_num)
  exact this.trans (by norm_num)
theorem beq_exact' {x y : F32} {a : ℤ} (hx : Exactly x a) (hy : Exactly y a) : (x == y) = true := (obeq_real hx.1 hy.1).2 (hx.2.trans hy.2.symm)
theorem ideal_nonneg {x : ℝ} (h : 0 ≤ x) : (zero ≤? Ideal.of x) = true := by
  rw [Ideal.le_real finite_zero (Ideal.finite_of _), real_zero, Ideal.real_of]; exact h
theorem zero_gap : ((int32 0 - int32 0 : F32) == zero) = true := beq_exact' (ex_int (int_sub32' exi exi (by norm_num)) (show _ = (0 : ℤ) by norm_num)) (ex_int int_zero32 (by norm_num))
theorem wide_half : Exactly ((int32 16777216 - int32 1 : F32) * half) (16777215 / 2) := by
  have h : Exactly (int32 16777216 - int32 1 : F32) ((16777215 : ℤ) : ℝ) := ex_int (int_sub32' exi exi (by norm_num)) (by norm_num)
  refine exec_mul (y := 1 / 2) h ⟨finite_half, real_half⟩ ?_ (big32' ?_)
  · have := Fmt.rnd_lit binary32 (x := ((16777215 : ℤ) : ℝ) * (1 / 2)) 22 (-1) 16777215 (by decide) (by norm_num) (by norm_num) (by norm_num) (by norm_num)
    exact this.trans (by norm_num)
  · rw [abs_of_pos] <;> norm_num
theorem wide_mid : Exactly (int32 1 + (int32 16777216 - int32 1 : F32) * half) ((8388608 : ℤ) : ℝ) := by
  refine exec_add (exi (n := 1)) wide_half ?_ (big32' ?_)
  · have := Fmt.rnd_lit_even binary32 (x := ((1 : ℤ) : ℝ) + 16777215 / 2) 23 0 8388608 (by decide) (by decide) (by norm_num) (by norm_num) (by norm_num) (by norm_num)
    exact this.trans (by norm_num)
  · rw [abs_of_pos] <;> norm_num
theorem flat_mid : Exactly (int32 0 + (int32 0 - int32 0 : F32) * half) ((0 : ℤ) : ℝ) := by
  have z : Exactly (int32 0 - int32 0 : F32) ((0 : ℤ) : ℝ) := ex_int (int_sub32' exi exi (by norm_num)) (by norm_num)
  have h : Exactly ((int32 0 - int32 0 : F32) * half) ((0 : ℤ) : ℝ) := by
    have := exec_mul (z := 0) (y := 1 / 2) z ⟨finite_half, real_half⟩ (by rw [Int.cast_zero, zero_mul]; exact Fmt.rnd_zero _) (big32' (by norm_num))
    exact ⟨this.1, by rw [this.2]; norm_num⟩
  exact ex_int (int_add32' exi h (by norm_num)) (by norm_num)

/-! ## Dimension 2 -/
/-- The distance of two points on a line parallel to the first axis. -/
theorem axis_dist2 {p q : Point2 F32} {m : ℤ} (hx : Exactly (q.x - p.x) (m : ℝ)) (hy : (q.y - p.y == zero) = true) (h0 : 0 ≤ m) (hm : m ≤ 2 ^ 25) :
    Exactly (Api.distance p q) (m : ℝ) := by
  have a : Exactly (Scalar.abs (q.x - p.x)) (m : ℝ) := by
    have := int_abs32 hx
    rwa [abs_of_nonneg h0] at this
  have b : |(m : ℝ) ^ 2| ≤ 2 ^ 50 := by
    rw [abs_of_nonneg (sq_nonneg _)]
    exact_mod_cast (pow_le_pow_left₀ h0 hm 2).trans (by norm_num)
  have o : real (q.x - p.x) ^ 2 < overflowAt F32 := by
    rw [hx.2]; exact lt_of_le_of_lt (le_abs_self _) (big32' b)
  refine exactly_beq (C98_axis_distance2 p q .X hx.1 ?_ (sq_normal hx) o) a
  intro e he
  cases e
  exacts [absurd rfl he, hy]
noncomputable def wideBox2 : BoundingBox2 F32 := ⟨⟨int32 1, int32 0⟩, ⟨int32 16777216, int32 0⟩⟩
theorem wideBox2_fin : AllFinite wideBox2 := BoundingBox2.allFinite.2 ⟨Point2.allFinite.2 ⟨trivial, trivial⟩, Point2.allFinite.2 ⟨trivial, trivial⟩⟩
theorem wideBox2_le : LeAll wideBox2.min wideBox2.max :=
  Point2.leAll.2 ⟨int32_le (by norm_num), int32_le (by norm_num)⟩
/-- **C121**, where it fails in floating point: half the diagonal around the center of a box does not always reach its corners. In `f32`, for the box
from `(1, 0, …)` to `(2^24, 0, …)` the center is rounded to `(2^23, 0, …)`, which is farther from the last corner than half of `2^24 - 1`. -/
theorem C121_half_misses2 : ∃ (b : BoundingBox2 F32) (p : Point2 F32), AllFinite b ∧ LeAll b.min b.max ∧ b.isInside p = true ∧ b.ball.has p = false := by
  refine ⟨wideBox2, wideBox2.max, wideBox2_fin, wideBox2_le, ?_, ?_⟩
  · exact corner_inside2 .debug _ wideBox2_le (by decide : (3 : UInt32) < 4) (corner_ok2 .debug wideBox2).2.2.2
  · have d : Exactly (Api.distance wideBox2.min wideBox2.max) ((16777215 : ℤ) : ℝ) :=
      axis_dist2 (ex_int (int_sub32' (exi (n := 16777216)) (exi (n := 1)) (by norm_num)) (by norm_num)) zero_gap (by norm_num) (by norm_num)
    have r : Exactly (wideBox2.ball.radius) (16777215 / 2) := by
      refine exec_mul (y := 1 / 2) d ⟨finite_half, real_half⟩ ?_ (big32' ?_)
      · have := Fmt.rnd_lit binary32 (x := ((16777215 : ℤ) : ℝ) * (1 / 2)) 22 (-1) 16777215 (by decide) (by norm_num) (by norm_num) (by norm_num) (by norm_num)
        exact this.trans (by norm_num)
      · rw [abs_of_pos] <;> norm_num
    have g : (int32 0 - (int32 0 + (int32 0 - int32 0 : F32) * half) == zero) = true :=
      beq_exact' (ex_int (int_sub32' exi flat_mid (by norm_num)) (show _ = (0 : ℤ) by norm_num)) (ex_int int_zero32 (by norm_num))
    have e : Exactly (Api.distance wideBox2.ball.center wideBox2.max) ((8388608 : ℤ) : ℝ) :=
      axis_dist2 (ex_int (int_sub32' (exi (n := 16777216)) wide_mid (by norm_num)) (by norm_num)) g (by norm_num) (by norm_num)
    rw [Bool.eq_false_iff]
    intro h
    have h := (ole_real e.1 r.1).1 h
    rw [e.2, r.2] at h
    norm_num at h
/-- **C121**, where it fails in floating point: two discs with a common point need not pass the overlap test. In `f32`, the disc around `(-2, 0, …)` with
radius 1 and the disc around `(2^24, 0, …)` with radius `2^24` both have `(-1, 0, …)`, but the sum of the radii is rounded to `2^24`. -/
theorem C121_overlap_lost2 : ∃ (a b : Ball2 F32) (p : Point2 F32), AllFinite p ∧ a.has p = true ∧ b.has p = true ∧ a.meets b = false := by
  refine ⟨⟨(⟨int32 (-2), int32 0⟩ : Point2 F32), int32 1⟩, ⟨(⟨int32 16777216, int32 0⟩ : Point2 F32), int32 16777216⟩, (⟨int32 (-1), int32 0⟩ : Point2 F32), Point2.allFinite.2 ⟨trivial, trivial⟩, ?_, ?_, ?_⟩
  · have e : Exactly (Api.distance (⟨int32 (-2), int32 0⟩ : Point2 F32) (⟨int32 (-1), int32 0⟩ : Point2 F32)) ((1 : ℤ) : ℝ) :=
      axis_dist2 (ex_int (int_sub32' (exi (n := -1)) (exi (n := -2)) (by norm_num)) (by norm_num)) zero_gap (by norm_num) (by norm_num)
    exact le_exact e exi (by norm_num)
  · have e : Exactly (Api.distance (⟨int32 (-1), int32 0⟩ : Point2 F32) (⟨int32 16777216, int32 0⟩ : Point2 F32)) ((16777216 : ℤ) : ℝ) := by
      refine axis_dist2 ?_ zero_gap (by norm_num) (by norm_num)
      refine exec_sub (exi (n := 16777216)) (exi (n := -1)) tie24 (big32' ?_)
      rw [abs_of_pos] <;> norm_num
    have s := C15_float_symmetric2 (⟨int32 16777216, int32 0⟩ : Point2 F32) (⟨int32 (-1), int32 0⟩ : Point2 F32)
    have e' : Exactly (Api.distance (⟨int32 16777216, int32 0⟩ : Point2 F32) (⟨int32 (-1), int32 0⟩ : Point2 F32)) ((16777216 : ℤ) : ℝ) :=
      exactly_beq (s.beq (mt s.isNaN.1 e.1.not_nan)) e
    exact le_exact e' exi (by norm_num)
  · have e : Exactly (Api.distance (⟨int32 (-2), int32 0⟩ : Point2 F32) (⟨int32 16777216, int32 0⟩ : Point2 F32)) ((16777218 : ℤ) : ℝ) := by
      refine axis_dist2 (ex_int (wide_sub (exi (n := 16777216)) (exi (n := -2)) (m := 8388609) (e := 1) (by norm_num) (by norm_num) ?_) (by norm_num)) zero_gap (by norm_num) (by norm_num)
      rw [abs_of_pos] <;> norm_num
    have r : Exactly (int32 1 + int32 16777216 : F32) ((16777216 : ℤ) : ℝ) := by
      refine exec_add (exi (n := 1)) (exi (n := 16777216)) ?_ (big32' ?_)
      · exact (congrArg _ (by norm_num)).trans tie24
      · rw [abs_of_pos] <;> norm_num
    rw [Bool.eq_false_iff]
    intro h
    have h := (ole_real e.1 r.1).1 h
    rw [e.2, r.2] at h
    norm_num at h

/-! ### The hypotheses are met -/
example : ∃ q, wideBox2.farCorner .release (⟨int32 3, int32 0⟩ : Point2 F32) = .ok q ∧ (⟨(⟨int32 3, int32 0⟩ : Point2 F32), Api.distance (⟨int32 3, int32 0⟩ : Point2 F32) q⟩ : Ball2 F32).has wideBox2.max = true := by
  obtain ⟨q, h1, -, h3, -⟩ := C121_corner2 .release wideBox2 wideBox2_fin wideBox2_le (⟨int32 3, int32 0⟩ : Point2 F32) (Point2.allFinite.2 ⟨trivial, trivial⟩)
  exact ⟨q, h1, h3 _ (corner_inside2 .debug _ wideBox2_le (by decide : (3 : UInt32) < 4) (corner_ok2 .debug wideBox2).2.2.2)⟩
example : (Ball2.around (⟨int32 3, int32 0⟩ : Point2 F32) [(⟨int32 5, int32 0⟩ : Point2 F32), (⟨int32 (-70), int32 0⟩ : Point2 F32)]).has (⟨int32 5, int32 0⟩ : Point2 F32) = true :=
  (C121_points2 (⟨int32 3, int32 0⟩ : Point2 F32) [(⟨int32 5, int32 0⟩ : Point2 F32), (⟨int32 (-70), int32 0⟩ : Point2 F32)] (by rw [Point2.allFinite]; exact ⟨trivial, trivial⟩) (by simp only [List.forall_mem_cons, List.not_mem_nil, IsEmpty.forall_iff, implies_true, and_true, Point2.allFinite]; exact ⟨⟨trivial, trivial⟩, trivial, trivial⟩)).1 _ (by simp)
example (p : Point2 F32) (h : (⟨(⟨int32 3, int32 0⟩ : Point2 F32), int32 4⟩ : Ball2 F32).has p = true) : (⟨(⟨int32 3, int32 0⟩ : Point2 F32), int32 5⟩ : Ball2 F32).has p = true :=
  (C121_grow2 ⟨(⟨int32 3, int32 0⟩ : Point2 F32), int32 4⟩ (int32 5) (int32_le (by norm_num))).1 p h
theorem discI2_fin (x : ℝ) : AllFinite (⟨Ideal.of x, Ideal.of 0⟩ : Point2 Ideal) := Point2.allFinite.2 ⟨Ideal.finite_of _, Ideal.finite_of _⟩
/-- Two discs of radius 2 and 3 around points at distance 5 touch. -/
example : ∃ p, AllFinite p ∧ (⟨⟨Ideal.of 0, Ideal.of 0⟩, Ideal.of 2⟩ : Ball2 Ideal).has p = true ∧ (⟨⟨Ideal.of 5, Ideal.of 0⟩, Ideal.of 3⟩ : Ball2 Ideal).has p = true := by
  refine (C121_meets_iff2 ⟨⟨Ideal.of 0, Ideal.of 0⟩, Ideal.of 2⟩ ⟨⟨Ideal.of 5, Ideal.of 0⟩, Ideal.of 3⟩ (discI2_fin 0) (Ideal.finite_of _) (discI2_fin 5) (Ideal.finite_of _) ?_ ?_).1 ?_
  · rw [Ideal.le_real finite_zero (Ideal.finite_of _), real_zero, Ideal.real_of]; norm_num
  · rw [Ideal.le_real finite_zero (Ideal.finite_of _), real_zero, Ideal.real_of]; norm_num
  · rw [Ball2.meets_real _ _ (discI2_fin 0) (Ideal.finite_of _) (discI2_fin 5) (Ideal.finite_of _)]
    rw [EuclideanSpace.dist_eq]
    simp only [Point2.toE, Point2.toReal, Fin.sum_univ_succ, Ideal.real_of]
    simp [Real.dist_eq, Real.sqrt_sq_eq_abs]
    norm_num
/-- The disc around two discs of radius 2 and 3 around points at distance 5. -/
example : IsFinite ((Ball2.mk ⟨Ideal.of 0, Ideal.of 0⟩ (Ideal.of 2)).join (Ball2.mk ⟨Ideal.of 5, Ideal.of 0⟩ (Ideal.of 3))).radius :=
  (C121_join2 ⟨⟨Ideal.of 0, Ideal.of 0⟩, Ideal.of 2⟩ ⟨⟨Ideal.of 5, Ideal.of 0⟩, Ideal.of 3⟩ (discI2_fin 0) (Ideal.finite_of _) (discI2_fin 5) (Ideal.finite_of _)
    (ideal_nonneg (by norm_num)) (ideal_nonneg (by norm_num))).2.1
/-- The disc around the origin with radius 2 is in the disc around `(5, 0, …)` with radius `r` exactly if all its points are. -/
example (r : ℝ) : (Ball2.mk ⟨Ideal.of 0, Ideal.of 0⟩ (Ideal.of 2)).within ⟨⟨Ideal.of 5, Ideal.of 0⟩, Ideal.of r⟩ = true ↔
    ∀ p, AllFinite p → (Ball2.mk ⟨Ideal.of 0, Ideal.of 0⟩ (Ideal.of 2)).has p = true → (Ball2.mk ⟨Ideal.of 5, Ideal.of 0⟩ (Ideal.of r)).has p = true :=
  C121_within_iff2 _ _ (discI2_fin 0) (Ideal.finite_of _) (discI2_fin 5) (Ideal.finite_of _) (ideal_nonneg (by norm_num))
example : (⟨⟨Ideal.of 0, Ideal.of 0⟩, ⟨Ideal.of 4, Ideal.of 0⟩⟩ : BoundingBox2 Ideal).ball.has ⟨Ideal.of 4, Ideal.of 0⟩ = true := by
  have le : ∀ {x y : ℝ}, x ≤ y → (Ideal.of x ≤? Ideal.of y) = true := fun h => by
    rw [Ideal.le_real (Ideal.finite_of _) (Ideal.finite_of _), Ideal.real_of, Ideal.real_of]; exact h
  have wb : LeAll (⟨Ideal.of 0, Ideal.of 0⟩ : Point2 Ideal) ⟨Ideal.of 4, Ideal.of 0⟩ := Point2.leAll.2 ⟨le (by norm_num), le (by norm_num)⟩
  exact (C121_half2 ⟨⟨Ideal.of 0, Ideal.of 0⟩, ⟨Ideal.of 4, Ideal.of 0⟩⟩ (BoundingBox2.allFinite.2 ⟨discI2_fin 0, discI2_fin 4⟩) wb).2.2.1 _
    (corner_inside2 .debug _ wb (by decide : (3 : UInt32) < 4) (corner_ok2 .debug _).2.2.2)
example (v : Vector2 Ideal) (h : AllFinite v) (p : Point2 Ideal) (hp : AllFinite p) :
    (Ball2.mk (Transform.transform (Transform2.translate v) (⟨Ideal.of 5, Ideal.of 0⟩ : Point2 Ideal)) (Ideal.of 3)).has (Transform.transform (Transform2.translate v) p) =
      (Ball2.mk ⟨Ideal.of 5, Ideal.of 0⟩ (Ideal.of 3)).has p :=
  (C121_motion2 _ (.translate v h) ⟨⟨Ideal.of 5, Ideal.of 0⟩, Ideal.of 3⟩ ⟨⟨Ideal.of 0, Ideal.of 0⟩, Ideal.of 3⟩ (discI2_fin 5) (discI2_fin 0)).1 p hp

/-! ## Dimension 3 -/
/-- The distance of two points on a line parallel to the first axis. -/
theorem axis_dist3 {p q : Point3 F32} {m : ℤ} (hx : Exactly (q.x - p.x) (m : ℝ)) (hy : (q.y - p.y == zero) = true) (hz : (q.z - p.z == zero) = true) (h0 : 0 ≤ m) (hm : m ≤ 2 ^ 25) :
    Exactly (Api.distance p q) (m : ℝ) := by
  have a : Exactly (Scalar.abs (q.x - p.x)) (m : ℝ) := by
    have := int_abs32 hx
    rwa [abs_of_nonneg h0] at this
  have b : |(m : ℝ) ^ 2| ≤ 2 ^ 50 := by
    rw [abs_of_nonneg (sq_nonneg _)]
    exact_mod_cast (pow_le_pow_left₀ h0 hm 2).trans (by norm_num)
  have o : real (q.x - p.x) ^ 2 < overflowAt F32 := by
    rw [hx.2]; exact lt_of_le_of_lt (le_abs_self _) (big32' b)
  refine exactly_beq (C98_axis_distance3 p q .X hx.1 ?_ (sq_normal hx) o) a
  intro e he
  cases e
  exacts [absurd rfl he, hy, hz]
noncomputable def wideBox3 : BoundingBox3 F32 := ⟨⟨int32 1, int32 0, int32 0⟩, ⟨int32 16777216, int32 0, int32 0⟩⟩
theorem wideBox3_fin : AllFinite wideBox3 := BoundingBox3.allFinite.2 ⟨Point3.allFinite.2 ⟨trivial, trivial, trivial⟩, Point3.allFinite.2 ⟨trivial, trivial, trivial⟩⟩
theorem wideBox3_le : LeAll wideBox3.min wideBox3.max :=
  Point3.leAll.2 ⟨int32_le (by norm_num), int32_le (by norm_num), int32_le (by norm_num)⟩
/-- **C121**, where it fails in floating point: half the diagonal around the center of a box does not always reach its corners. In `f32`, for the box
from `(1, 0, …)` to `(2^24, 0, …)` the center is rounded to `(2^23, 0, …)`, which is farther from the last corner than half of `2^24 - 1`. -/
theorem C121_half_misses3 : ∃ (b : BoundingBox3 F32) (p : Point3 F32), AllFinite b ∧ LeAll b.min b.max ∧ b.isInside p = true ∧ b.ball.has p = false := by
  refine ⟨wideBox3, wideBox3.max, wideBox3_fin, wideBox3_le, ?_, ?_⟩
  · exact corner_inside3 .debug _ wideBox3_le (by decide : (7 : UInt32) < 8) (corner_ok3 .debug wideBox3).2.2.2.2.2.2.2
  · have d : Exactly (Api.distance wideBox3.min wideBox3.max) ((16777215 : ℤ) : ℝ) :=
      axis_dist3 (ex_int (int_sub32' (exi (n := 16777216)) (exi (n := 1)) (by norm_num)) (by norm_num)) zero_gap zero_gap (by norm_num) (by norm_num)
    have r : Exactly (wideBox3.ball.radius) (16777215 / 2) := by
      refine exec_mul (y := 1 / 2) d ⟨finite_half, real_half⟩ ?_ (big32' ?_)
      · have := Fmt.rnd_lit binary32 (x := ((16777215 : ℤ) : ℝ) * (1 / 2)) 22 (-1) 16777215 (by decide) (by norm_num) (by norm_num) (by norm_num) (by norm_num)
        exact this.trans (by norm_num)
      · rw [abs_of_pos] <;> norm_num
    have g : (int32 0 - (int32 0 + (int32 0 - int32 0 : F32) * half) == zero) = true :=
      beq_exact' (ex_int (int_sub32' exi flat_mid (by norm_num)) (show _ = (0 : ℤ) by norm_num)) (ex_int int_zero32 (by norm_num))
    have e : Exactly (Api.distance wideBox3.ball.center wideBox3.max) ((8388608 : ℤ) : ℝ) :=
      axis_dist3 (ex_int (int_sub32' (exi (n := 16777216)) wide_mid (by norm_num)) (by norm_num)) g g (by norm_num) (by norm_num)
    rw [Bool.eq_false_iff]
    intro h
    have h := (ole_real e.1 r.1).1 h
    rw [e.2, r.2] at h
    norm_num at h
/-- **C121**, where it fails in floating point: two balls with a common point need not pass the overlap test. In `f32`, the ball around `(-2, 0, …)` with
radius 1 and the ball around `(2^24, 0, …)` with radius `2^24` both have `(-1, 0, …)`, but the sum of the radii is rounded to `2^24`. -/
theorem C121_overlap_lost3 : ∃ (a b : Ball3 F32) (p : Point3 F32), AllFinite p ∧ a.has p = true ∧ b.has p = true ∧ a.meets b = false := by
  refine ⟨⟨(⟨int32 (-2), int32 0, int32 0⟩ : Point3 F32), int32 1⟩, ⟨(⟨int32 16777216, int32 0, int32 0⟩ : Point3 F32), int32 16777216⟩, (⟨int32 (-1), int32 0, int32 0⟩ : Point3 F32), Point3.allFinite.2 ⟨trivial, trivial, trivial⟩, ?_, ?_, ?_⟩
  · have e : Exactly (Api.distance (⟨int32 (-2), int32 0, int32 0⟩ : Point3 F32) (⟨int32 (-1), int32 0, int32 0⟩ : Point3 F32)) ((1 : ℤ) : ℝ) :=
      axis_dist3 (ex_int (int_sub32' (exi (n := -1)) (exi (n := -2)) (by norm_num)) (by norm_num)) zero_gap zero_gap (by norm_num) (by norm_num)
    exact le_exact e exi (by norm_num)
  · have e : Exactly (Api.distance (⟨int32 (-1), int32 0, int32 0⟩ : Point3 F32) (⟨int32 16777216, int32 0, int32 0⟩ : Point3 F32)) ((16777216 : ℤ) : ℝ) := by
      refine axis_dist3 ?_ zero_gap zero_gap (by norm_num) (by norm_num)
      refine exec_sub (exi (n := 16777216)) (exi (n := -1)) tie24 (big32' ?_)
      rw [abs_of_pos] <;> norm_num
    have s := C15_float_symmetric3 (⟨int32 16777216, int32 0, int32 0⟩ : Point3 F32) (⟨int32 (-1), int32 0, int32 0⟩ : Point3 F32)
    have e' : Exactly (Api.distance (⟨int32 16777216, int32 0, int32 0⟩ : Point3 F32) (⟨int32 (-1), int32 0, int32 0⟩ : Point3 F32)) ((16777216 : ℤ) : ℝ) :=
      exactly_beq (s.beq (mt s.isNaN.1 e.1.not_nan)) e
    exact le_exact e' exi (by norm_num)
  · have e : Exactly (Api.distance (⟨int32 (-2), int32 0, int32 0⟩ : Point3 F32) (⟨int32 16777216, int32 0, int32 0⟩ : Point3 F32)) ((16777218 : ℤ) : ℝ) := by
      refine axis_dist3 (ex_int (wide_sub (exi (n := 16777216)) (exi (n := -2)) (m := 8388609) (e := 1) (by norm_num) (by norm_num) ?_) (by norm_num)) zero_gap zero_gap (by norm_num) (by norm_num)
      rw [abs_of_pos] <;> norm_num
    have r : Exactly (int32 1 + int32 16777216 : F32) ((16777216 : ℤ) : ℝ) := by
      refine exec_add (exi (n := 1)) (exi (n := 16777216)) ?_ (big32' ?_)
      · exact (congrArg _ (by norm_num)).trans tie24
      · rw [abs_of_pos] <;> norm_num
    rw [Bool.eq_false_iff]
    intro h
    have h := (ole_real e.1 r.1).1 h
    rw [e.2, r.2] at h
    norm_num at h

/-! ### The hypotheses are met -/
example : ∃ q, wideBox3.farCorner .release (⟨int32 3, int32 0, int32 0⟩ : Point3 F32) = .ok q ∧ (⟨(⟨int32 3, int32 0, int32 0⟩ : Point3 F32), Api.distance (⟨int32 3, int32 0, int32 0⟩ : Point3 F32) q⟩ : Ball3 F32).has wideBox3.max = true := by
  obtain ⟨q, h1, -, h3, -⟩ := C121_corner3 .release wideBox3 wideBox3_fin wideBox3_le (⟨int32 3, int32 0, int32 0⟩ : Point3 F32) (Point3.allFinite.2 ⟨trivial, trivial, trivial⟩)
  exact ⟨q, h1, h3 _ (corner_inside3 .debug _ wideBox3_le (by decide : (7 : UInt32) < 8) (corner_ok3 .debug wideBox3).2.2.2.2.2.2.2)⟩
example : (Ball3.around (⟨int32 3, int32 0, int32 0⟩ : Point3 F32) [(⟨int32 5, int32 0, int32 0⟩ : Point3 F32), (⟨int32 (-70), int32 0, int32 0⟩ : Point3 F32)]).has (⟨int32 5, int32 0, int32 0⟩ : Point3 F32) = true :=
  (C121_points3 (⟨int32 3, int32 0, int32 0⟩ : Point3 F32) [(⟨int32 5, int32 0, int32 0⟩ : Point3 F32), (⟨int32 (-70), int32 0, int32 0⟩ : Point3 F32)] (by rw [Point3.allFinite]; exact ⟨trivial, trivial, trivial⟩) (by simp only [List.forall_mem_cons, List.not_mem_nil, IsEmpty.forall_iff, implies_true, and_true, Point3.allFinite]; exact ⟨⟨trivial, trivial, trivial⟩, trivial, trivial, trivial⟩)).1 _ (by simp)
example (p : Point3 F32) (h : (⟨(⟨int32 3, int32 0, int32 0⟩ : Point3 F32), int32 4⟩ : Ball3 F32).has p = true) : (⟨(⟨int32 3, int32 0, int32 0⟩ : Point3 F32), int32 5⟩ : Ball3 F32).has p = true :=
  (C121_grow3 ⟨(⟨int32 3, int32 0, int32 0⟩ : Point3 F32), int32 4⟩ (int32 5) (int32_le (by norm_num))).1 p h
theorem discI3_fin (x : ℝ) : AllFinite (⟨Ideal.of x, Ideal.of 0, Ideal.of 0⟩ : Point3 Ideal) := Point3.allFinite.2 ⟨Ideal.finite_of _, Ideal.finite_of _, Ideal.finite_of _⟩
/-- Two balls of radius 2 and 3 around points at distance 5 touch. -/
example : ∃ p, AllFinite p ∧ (⟨⟨Ideal.of 0, Ideal.of 0, Ideal.of 0⟩, Ideal.of 2⟩ : Ball3 Ideal).has p = true ∧ (⟨⟨Ideal.of 5, Ideal.of 0, Ideal.of 0⟩, Ideal.of 3⟩ : Ball3 Ideal).has p = true := by
  refine (C121_meets_iff3 ⟨⟨Ideal.of 0, Ideal.of 0, Ideal.of 0⟩, Ideal.of 2⟩ ⟨⟨Ideal.of 5, Ideal.of 0, Ideal.of 0⟩, Ideal.of 3⟩ (discI3_fin 0) (Ideal.finite_of _) (discI3_fin 5) (Ideal.finite_of _) ?_ ?_).1 ?_
  · rw [Ideal.le_real finite_zero (Ideal.finite_of _), real_zero, Ideal.real_of]; norm_num
  · rw [Ideal.le_real finite_zero (Ideal.finite_of _), real_zero, Ideal.real_of]; norm_num
  · rw [Ball3.meets_real _ _ (discI3_fin 0) (Ideal.finite_of _) (discI3_fin 5) (Ideal.finite_of _)]
    rw [EuclideanSpace.dist_eq]
    simp only [Point3.toE, Point3.toReal, Fin.sum_univ_succ, Ideal.real_of]
    simp [Real.dist_eq, Real.sqrt_sq_eq_abs]
    norm_num
/-- The ball around two balls of radius 2 and 3 around points at distance 5. -/
example : IsFinite ((Ball3.mk ⟨Ideal.of 0, Ideal.of 0, Ideal.of 0⟩ (Ideal.of 2)).join (Ball3.mk ⟨Ideal.of 5, Ideal.of 0, Ideal.of 0⟩ (Ideal.of 3))).radius :=
  (C121_join3 ⟨⟨Ideal.of 0, Ideal.of 0, Ideal.of 0⟩, Ideal.of 2⟩ ⟨⟨Ideal.of 5, Ideal.of 0, Ideal.of 0⟩, Ideal.of 3⟩ (discI3_fin 0) (Ideal.finite_of _) (discI3_fin 5) (Ideal.finite_of _)
    (ideal_nonneg (by norm_num)) (ideal_nonneg (by norm_num))).2.1
/-- The ball around the origin with radius 2 is in the ball around `(5, 0, …)` with radius `r` exactly if all its points are. -/
example (r : ℝ) : (Ball3.mk ⟨Ideal.of 0, Ideal.of 0, Ideal.of 0⟩ (Ideal.of 2)).within ⟨⟨Ideal.of 5, Ideal.of 0, Ideal.of 0⟩, Ideal.of r⟩ = true ↔
    ∀ p, AllFinite p → (Ball3.mk ⟨Ideal.of 0, Ideal.of 0, Ideal.of 0⟩ (Ideal.of 2)).has p = true → (Ball3.mk ⟨Ideal.of 5, Ideal.of 0, Ideal.of 0⟩ (Ideal.of r)).has p = true :=
  C121_within_iff3 _ _ (discI3_fin 0) (Ideal.finite_of _) (discI3_fin 5) (Ideal.finite_of _) (ideal_nonneg (by norm_num))
example : (⟨⟨Ideal.of 0, Ideal.of 0, Ideal.of 0⟩, ⟨Ideal.of 4, Ideal.of 0, Ideal.of 0⟩⟩ : BoundingBox3 Ideal).ball.has ⟨Ideal.of 4, Ideal.of 0, Ideal.of 0⟩ = true := by
  have le : ∀ {x y : ℝ}, x ≤ y → (Ideal.of x ≤? Ideal.of y) = true := fun h => by
    rw [Ideal.le_real (Ideal.finite_of _) (Ideal.finite_of _), Ideal.real_of, Ideal.real_of]; exact h
  have wb : LeAll (⟨Ideal.of 0, Ideal.of 0, Ideal.of 0⟩ : Point3 Ideal) ⟨Ideal.of 4, Ideal.of 0, Ideal.of 0⟩ := Point3.leAll.2 ⟨le (by norm_num), le (by norm_num), le (by norm_num)⟩
  exact (C121_half3 ⟨⟨Ideal.of 0, Ideal.of 0, Ideal.of 0⟩, ⟨Ideal.of 4, Ideal.of 0, Ideal.of 0⟩⟩ (BoundingBox3.allFinite.2 ⟨discI3_fin 0, discI3_fin 4⟩) wb).2.2.1 _
    (corner_inside3 .debug _ wb (by decide : (7 : UInt32) < 8) (corner_ok3 .debug _).2.2.2.2.2.2.2)
example (v : Vector3 Ideal) (h : AllFinite v) (p : Point3 Ideal) (hp : AllFinite p) :
    (Ball3.mk (Transform.transform (Transform3.translate v) (⟨Ideal.of 5, Ideal.of 0, Ideal.of 0⟩ : Point3 Ideal)) (Ideal.of 3)).has (Transform.transform (Transform3.translate v) p) =
      (Ball3.mk ⟨Ideal.of 5, Ideal.of 0, Ideal.of 0⟩ (Ideal.of 3)).has p :=
  (C121_motion3 _ (.translate v h) ⟨⟨Ideal.of 5, Ideal.of 0, Ideal.of 0⟩, Ideal.of 3⟩ ⟨⟨Ideal.of 0, Ideal.of 0, Ideal.of 0⟩, Ideal.of 3⟩ (discI3_fin 5) (discI3_fin 0)).1 p hp

end VecMath
