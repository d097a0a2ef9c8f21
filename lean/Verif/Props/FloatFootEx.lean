import Verif.Props.FloatFoot
import Verif.Lemmas.Fl
import Verif.Props.FloatInvAffineEx
/-!
# C112: concrete cases, and points of a segment for which the wrong end is reported

(Generated by tools/gen.)
-/

open Classical

namespace VecMath
open Scalar IEEE
variable {F : Fmt}

theorem far_one (x : Fl F) : num (zero + x * one : Fl F) = num x := (IEEE.num_zero_add _).trans (IEEE.num_mul_one _)
theorem big_mul : ¬ IsFinite (Fl.big F * Fl.big F) := by
  rw [(correct_mul Fl.finite_big Fl.finite_big).1, not_lt, ← pow_two, abs_of_nonneg (sq_nonneg _)]
  exact Fl.big_sq
theorem small_mul : num (Fl.small F * Fl.small F) = num (zero : Fl F) := by
  have f : IsFinite (Fl.small F * Fl.small F) := by
    rw [(correct_mul Fl.finite_small Fl.finite_small).1, ← pow_two, abs_of_nonneg (sq_nonneg _)]
    refine Fl.small_sq.trans_le ?_
    have a : tiny (Fl F) ≤ 1 := by
      show (2 : ℝ) ^ (F.emin - 1) ≤ 1
      rw [← zpow_zero (2 : ℝ)]; exact Fmt.z_le (by have := Fl.bound F; omega)
    have b := half_le_overflow (S := Fl F)
    have c : (1 : ℝ) ≤ 2 ^ (F.emax - 1) := by
      rw [← zpow_zero (2 : ℝ)]; exact Fmt.z_le (by have := Fl.bound F; omega)
    have b : (2 : ℝ) ^ (F.emax - 1) < overflowAt (Fl F) := b
    linarith
  have z : (IEEE.A (Fl F)).rnd (real (Fl.small F) * real (Fl.small F)) = 0 := by
    rw [rnd_eq, ← pow_two]
    refine Fmt.rnd_tiny _ ?_
    rw [abs_of_nonneg (sq_nonneg _)]; exact Fl.small_sq
  rw [num_finite f, real_mul f, z, num_finite finite_zero, real_zero]

/-- The segment from the origin along the first axis to `x`. -/
noncomputable def axisRay2 (x : Fl F) : Ray2 (Fl F) := ⟨⟨zero, zero⟩, ⟨x, zero⟩⟩
theorem axisRay2_finite {x : Fl F} (hx : IsFinite x) : AllFinite (axisRay2 x) :=
  Ray2.allFinite.2 ⟨Point2.allFinite.2 ⟨finite_zero, finite_zero⟩, Vector2.allFinite.2 ⟨hx, finite_zero⟩⟩
theorem axisRay2_end {x : Fl F} (hx : IsFinite x) (h0 : real x ≠ 0) : AllFinite ((axisRay2 x).at one) ∧ ((axisRay2 x).at one == (axisRay2 x).origin) = false := by
  refine ⟨Point2.allFinite.2 ⟨finite_of_num (far_one x) hx, finite_of_num (far_one zero) finite_zero⟩, ?_⟩
  rw [Bool.eq_false_iff, Ne, Point2.beq_iff]
  intro h
  have := num_of_beq h.1
  have e : num x = num (zero : Fl F) := (far_one x).symm.trans this
  exact h0 ((real_of_num hx finite_zero e).trans real_zero)
/-- **C112** (2D): in every format there is a segment whose far end is a finite point different from the near end, so that the point nearest to the
far end is the far end itself, yet the near end is reported, because the direction times itself overflows. -/
theorem C112_far_end2 : ∃ r : Ray2 (Fl F), AllFinite r ∧ AllFinite (r.at one) ∧ (r.at one == r.origin) = false ∧ ¬ IsFinite (Api.dot r.direction r.direction : Fl F) ∧
    (r.at (r.segParam (r.at one)) == r.origin) = true := by
  have hr := axisRay2_finite (Fl.finite_big (F := F))
  have e := axisRay2_end (Fl.finite_big (F := F)) Fl.real_big_pos.ne'
  have d : ¬ IsFinite (Api.dot (axisRay2 (Fl.big F)).direction (axisRay2 (Fl.big F)).direction : Fl F) := by
    intro h
    have h : IsFinite (Fl.big F * Fl.big F + zero * zero) := h
    exact big_mul (finite_of_add h).1
  exact ⟨_, hr, e.1, e.2, d, C112_overflow2 _ _ hr d⟩
/-- **C112** (2D): the same at the other end of the range: the direction times itself underflows to zero. -/
theorem C112_near_end2 : ∃ r : Ray2 (Fl F), AllFinite r ∧ AllFinite (r.at one) ∧ (r.at one == r.origin) = false ∧
    (IsFinite (Api.dot r.direction r.direction : Fl F) ∧ real (Api.dot r.direction r.direction : Fl F) = 0) ∧
    (r.at (r.segParam (r.at one)) == r.origin) = true := by
  have hr := axisRay2_finite (Fl.finite_small (F := F))
  have e := axisRay2_end (Fl.finite_small (F := F)) Fl.real_small_pos.ne'
  have zz : num (zero * zero : Fl F) = num (zero : Fl F) := IEEE.num_zero_mul finite_zero
  have d : num (Api.dot (axisRay2 (Fl.small F)).direction (axisRay2 (Fl.small F)).direction : Fl F) = num (zero : Fl F) := by
    show num (Fl.small F * Fl.small F + zero * zero) = _
    rw [num_add_congr small_mul zz]; exact IEEE.num_add_zero _
  have w : num (Api.dot (axisRay2 (Fl.small F)).direction ((axisRay2 (Fl.small F)).at one - (axisRay2 (Fl.small F)).origin : Vector2 (Fl F)) : Fl F) = num (zero : Fl F) := by
    show num (Fl.small F * (zero + Fl.small F * one - zero) + zero * (zero + zero * one - zero)) = _
    have s : ∀ x : Fl F, num (zero + x * one - zero) = num x := fun x => (n_sub0 rfl).trans (far_one x)
    have a := (num_mul_congr (rfl : num (Fl.small F) = _) (s (Fl.small F))).trans small_mul
    have b := (num_mul_congr (rfl : num (zero : Fl F) = _) (s zero)).trans zz
    rw [num_add_congr a b]; exact IEEE.num_add_zero _
  have fd := finite_of_num d finite_zero
  have rd := (real_of_num fd finite_zero d).trans real_zero
  have fw := finite_of_num w finite_zero
  have rw' := (real_of_num fw finite_zero w).trans real_zero
  exact ⟨_, hr, e.1, e.2, ⟨fd, rd⟩, (C112_box2 _ _ hr).2.2.2.1 ((div_zero_cases fd rd).2 fw rw')⟩
/-- Non-vacuity: the segment from (1, 0) along (4, 0) and the point (3, 5), in `f32`. -/
noncomputable def footRay2 : Ray2 F32 := ⟨⟨int32 1, int32 0⟩, ⟨int32 4, int32 0⟩⟩
noncomputable def footPt2 : Point2 F32 := ⟨int32 3, int32 5⟩
theorem footRay2_num : Exactly (Api.dot footRay2.direction (footPt2 - footRay2.origin : Vector2 F32) : F32) ((8 : ℤ) : ℝ) :=
  (int_add32' (int_mul32 (exactly_int (n := 4) (h := by norm_num)) (int_sub32' (exactly_int (n := 3) (h := by norm_num)) (exactly_int (n := 1) (h := by norm_num)) (by norm_num)) (by norm_num)) (int_mul32 (exactly_int (n := 0) (h := by norm_num)) (int_sub32' (exactly_int (n := 5) (h := by norm_num)) (exactly_int (n := 0) (h := by norm_num)) (by norm_num)) (by norm_num)) (by norm_num))
theorem footRay2_den : Exactly (Api.dot footRay2.direction footRay2.direction : F32) ((16 : ℤ) : ℝ) :=
  (int_add32' (int_mul32 (exactly_int (n := 4) (h := by norm_num)) (exactly_int (n := 4) (h := by norm_num)) (by norm_num)) (int_mul32 (exactly_int (n := 0) (h := by norm_num)) (exactly_int (n := 0) (h := by norm_num)) (by norm_num)) (by norm_num))
theorem footRay2_normal : footRay2.FootNormal footPt2 := by
  have q : IsFinite (footRay2.footParam footPt2) := by
    have := (correct_div footRay2_num.1 footRay2_den.1 (by rw [footRay2_den.2]; norm_num)).1
    refine this.2 ?_
    rw [footRay2_num.2, footRay2_den.2]; exact big32 (by norm_num)
  have w : real ((int32 3 : F32) - int32 1) = 2 := by
    have := (int_sub32' (a := 3) (b := 1) (exactly_int (n := 3) (h := by norm_num)) (exactly_int (n := 1) (h := by norm_num)) (by norm_num)).2; exact this.trans (by norm_num)
  have z : real (int32 0 : F32) = 0 := by rw [(exactly_int (n := 0) (h := by norm_num)).2]; norm_num
  have f : real (int32 4 : F32) = 4 := by rw [(exactly_int (n := 4) (h := by norm_num)).2]; norm_num
  have nm : minNormal F32 ≤ 1 / 2 := by
    show (2 : ℝ) ^ (_ : ℤ) ≤ 1 / 2
    rw [show (1 / 2 : ℝ) = 2 ^ (-1 : ℤ) by norm_num]; exact Fmt.z_le (by decide)
  have nb : ∀ x : ℝ, 1 / 2 ≤ |x| → Normal F32 x := fun x h => .inr (nm.trans h)
  have n0 : ∀ y : ℝ, Normal F32 (real (int32 0 : F32) * y) := fun y => .inl (by rw [z, zero_mul])
  have s0 : Normal F32 (real (int32 0 : F32) ^ 2) := .inl (by rw [z]; norm_num)
  refine ⟨footRay2_num.1, footRay2_den.1, q, ⟨?_, n0 _⟩, ⟨?_, s0⟩, ?_⟩
  · refine nb _ ?_
    show 1 / 2 ≤ |real (int32 4 : F32) * real ((int32 3 : F32) - int32 1)|
    rw [w, f]; norm_num
  · refine nb _ ?_
    show 1 / 2 ≤ |real (int32 4 : F32) ^ 2|
    rw [f]; norm_num
  · rw [footRay2_num.2, footRay2_den.2]
    exact nb _ (by norm_num)
theorem footRay2_ne : real footRay2.direction.x ^ 2 + real footRay2.direction.y ^ 2 ≠ 0 := by
  show real (int32 4 : F32) ^ 2 + real (int32 0 : F32) ^ 2 ≠ 0
  rw [(exactly_int (n := 4) (h := by norm_num)).2, (exactly_int (n := 0) (h := by norm_num)).2]; norm_num
example := C112_accurate2 footRay2 footPt2 footRay2_normal footRay2_ne
example := C112_point2 footRay2 footPt2 footRay2_normal footRay2_ne
theorem footRay2_finite : AllFinite footRay2 := Ray2.allFinite.2 ⟨Point2.allFinite.2 ⟨(exactly_int (n := 1) (h := by norm_num)).1, (exactly_int (n := 0) (h := by norm_num)).1⟩, Vector2.allFinite.2 ⟨(exactly_int (n := 4) (h := by norm_num)).1, (exactly_int (n := 0) (h := by norm_num)).1⟩⟩
example := C112_box2 footRay2 footPt2 footRay2_finite
example := C112_origin2 footRay2 footRay2_finite
/-- The segment from the origin along the first axis to `x`. -/
noncomputable def axisRay3 (x : Fl F) : Ray3 (Fl F) := ⟨⟨zero, zero, zero⟩, ⟨x, zero, zero⟩⟩
theorem axisRay3_finite {x : Fl F} (hx : IsFinite x) : AllFinite (axisRay3 x) :=
  Ray3.allFinite.2 ⟨Point3.allFinite.2 ⟨finite_zero, finite_zero, finite_zero⟩, Vector3.allFinite.2 ⟨hx, finite_zero, finite_zero⟩⟩
theorem axisRay3_end {x : Fl F} (hx : IsFinite x) (h0 : real x ≠ 0) : AllFinite ((axisRay3 x).at one) ∧ ((axisRay3 x).at one == (axisRay3 x).origin) = false := by
  refine ⟨Point3.allFinite.2 ⟨finite_of_num (far_one x) hx, finite_of_num (far_one zero) finite_zero, finite_of_num (far_one zero) finite_zero⟩, ?_⟩
  rw [Bool.eq_false_iff, Ne, Point3.beq_iff]
  intro h
  have := num_of_beq h.1
  have e : num x = num (zero : Fl F) := (far_one x).symm.trans this
  exact h0 ((real_of_num hx finite_zero e).trans real_zero)
/-- **C112** (3D): in every format there is a segment whose far end is a finite point different from the near end, so that the point nearest to the
far end is the far end itself, yet the near end is reported, because the direction times itself overflows. -/
theorem C112_far_end3 : ∃ r : Ray3 (Fl F), AllFinite r ∧ AllFinite (r.at one) ∧ (r.at one == r.origin) = false ∧ ¬ IsFinite (Api.dot r.direction r.direction : Fl F) ∧
    (r.at (r.segParam (r.at one)) == r.origin) = true := by
  have hr := axisRay3_finite (Fl.finite_big (F := F))
  have e := axisRay3_end (Fl.finite_big (F := F)) Fl.real_big_pos.ne'
  have d : ¬ IsFinite (Api.dot (axisRay3 (Fl.big F)).direction (axisRay3 (Fl.big F)).direction : Fl F) := by
    intro h
    have h : IsFinite (Fl.big F * Fl.big F + zero * zero + zero * zero) := h
    exact big_mul (finite_of_add (finite_of_add h).1).1
  exact ⟨_, hr, e.1, e.2, d, C112_overflow3 _ _ hr d⟩
/-- **C112** (3D): the same at the other end of the range: the direction times itself underflows to zero. -/
theorem C112_near_end3 : ∃ r : Ray3 (Fl F), AllFinite r ∧ AllFinite (r.at one) ∧ (r.at one == r.origin) = false ∧
    (IsFinite (Api.dot r.direction r.direction : Fl F) ∧ real (Api.dot r.direction r.direction : Fl F) = 0) ∧
    (r.at (r.segParam (r.at one)) == r.origin) = true := by
  have hr := axisRay3_finite (Fl.finite_small (F := F))
  have e := axisRay3_end (Fl.finite_small (F := F)) Fl.real_small_pos.ne'
  have zz : num (zero * zero : Fl F) = num (zero : Fl F) := IEEE.num_zero_mul finite_zero
  have d : num (Api.dot (axisRay3 (Fl.small F)).direction (axisRay3 (Fl.small F)).direction : Fl F) = num (zero : Fl F) := by
    show num (Fl.small F * Fl.small F + zero * zero + zero * zero) = _
    rw [num_add_congr (num_add_congr small_mul zz) zz, num_add_congr (IEEE.num_add_zero _) rfl]; exact IEEE.num_add_zero _
  have w : num (Api.dot (axisRay3 (Fl.small F)).direction ((axisRay3 (Fl.small F)).at one - (axisRay3 (Fl.small F)).origin : Vector3 (Fl F)) : Fl F) = num (zero : Fl F) := by
    show num (Fl.small F * (zero + Fl.small F * one - zero) + zero * (zero + zero * one - zero) + zero * (zero + zero * one - zero)) = _
    have s : ∀ x : Fl F, num (zero + x * one - zero) = num x := fun x => (n_sub0 rfl).trans (far_one x)
    have a := (num_mul_congr (rfl : num (Fl.small F) = _) (s (Fl.small F))).trans small_mul
    have b := (num_mul_congr (rfl : num (zero : Fl F) = _) (s zero)).trans zz
    rw [num_add_congr (num_add_congr a b) b, num_add_congr (IEEE.num_add_zero _) rfl]; exact IEEE.num_add_zero _
  have fd := finite_of_num d finite_zero
  have rd := (real_of_num fd finite_zero d).trans real_zero
  have fw := finite_of_num w finite_zero
  have rw' := (real_of_num fw finite_zero w).trans real_zero
  exact ⟨_, hr, e.1, e.2, ⟨fd, rd⟩, (C112_box3 _ _ hr).2.2.2.1 ((div_zero_cases fd rd).2 fw rw')⟩
/-- Non-vacuity: the segment from (1, 0, 0) along (4, 0, 0) and the point (3, 5, 5), in `f32`. -/
noncomputable def footRay3 : Ray3 F32 := ⟨⟨int32 1, int32 0, int32 0⟩, ⟨int32 4, int32 0, int32 0⟩⟩
noncomputable def footPt3 : Point3 F32 := ⟨int32 3, int32 5, int32 5⟩
theorem footRay3_num : Exactly (Api.dot footRay3.direction (footPt3 - footRay3.origin : Vector3 F32) : F32) ((8 : ℤ) : ℝ) :=
  (int_add32' (int_add32' (int_mul32 (exactly_int (n := 4) (h := by norm_num)) (int_sub32' (exactly_int (n := 3) (h := by norm_num)) (exactly_int (n := 1) (h := by norm_num)) (by norm_num)) (by norm_num)) (int_mul32 (exactly_int (n := 0) (h := by norm_num)) (int_sub32' (exactly_int (n := 5) (h := by norm_num)) (exactly_int (n := 0) (h := by norm_num)) (by norm_num)) (by norm_num)) (by norm_num)) (int_mul32 (exactly_int (n := 0) (h := by norm_num)) (int_sub32' (exactly_int (n := 5) (h := by norm_num)) (exactly_int (n := 0) (h := by norm_num)) (by norm_num)) (by norm_num)) (by norm_num))
theorem footRay3_den : Exactly (Api.dot footRay3.direction footRay3.direction : F32) ((16 : ℤ) : ℝ) :=
  (int_add32' (int_add32' (int_mul32 (exactly_int (n := 4) (h := by norm_num)) (exactly_int (n := 4) (h := by norm_num)) (by norm_num)) (int_mul32 (exactly_int (n := 0) (h := by norm_num)) (exactly_int (n := 0) (h := by norm_num)) (by norm_num)) (by norm_num)) (int_mul32 (exactly_int (n := 0) (h := by norm_num)) (exactly_int (n := 0) (h := by norm_num)) (by norm_num)) (by norm_num))
theorem footRay3_normal : footRay3.FootNormal footPt3 := by
  have q : IsFinite (footRay3.footParam footPt3) := by
    have := (correct_div footRay3_num.1 footRay3_den.1 (by rw [footRay3_den.2]; norm_num)).1
    refine this.2 ?_
    rw [footRay3_num.2, footRay3_den.2]; exact big32 (by norm_num)
  have w : real ((int32 3 : F32) - int32 1) = 2 := by
    have := (int_sub32' (a := 3) (b := 1) (exactly_int (n := 3) (h := by norm_num)) (exactly_int (n := 1) (h := by norm_num)) (by norm_num)).2; exact this.trans (by norm_num)
  have z : real (int32 0 : F32) = 0 := by rw [(exactly_int (n := 0) (h := by norm_num)).2]; norm_num
  have f : real (int32 4 : F32) = 4 := by rw [(exactly_int (n := 4) (h := by norm_num)).2]; norm_num
  have nm : minNormal F32 ≤ 1 / 2 := by
    show (2 : ℝ) ^ (_ : ℤ) ≤ 1 / 2
    rw [show (1 / 2 : ℝ) = 2 ^ (-1 : ℤ) by norm_num]; exact Fmt.z_le (by decide)
  have nb : ∀ x : ℝ, 1 / 2 ≤ |x| → Normal F32 x := fun x h => .inr (nm.trans h)
  have n0 : ∀ y : ℝ, Normal F32 (real (int32 0 : F32) * y) := fun y => .inl (by rw [z, zero_mul])
  have s0 : Normal F32 (real (int32 0 : F32) ^ 2) := .inl (by rw [z]; norm_num)
  refine ⟨footRay3_num.1, footRay3_den.1, q, ⟨?_, n0 _, n0 _⟩, ⟨?_, s0, s0⟩, ?_⟩
  · refine nb _ ?_
    show 1 / 2 ≤ |real (int32 4 : F32) * real ((int32 3 : F32) - int32 1)|
    rw [w, f]; norm_num
  · refine nb _ ?_
    show 1 / 2 ≤ |real (int32 4 : F32) ^ 2|
    rw [f]; norm_num
  · rw [footRay3_num.2, footRay3_den.2]
    exact nb _ (by norm_num)
theorem footRay3_ne : real footRay3.direction.x ^ 2 + real footRay3.direction.y ^ 2 + real footRay3.direction.z ^ 2 ≠ 0 := by
  show real (int32 4 : F32) ^ 2 + real (int32 0 : F32) ^ 2 + real (int32 0 : F32) ^ 2 ≠ 0
  rw [(exactly_int (n := 4) (h := by norm_num)).2, (exactly_int (n := 0) (h := by norm_num)).2]; norm_num
example := C112_accurate3 footRay3 footPt3 footRay3_normal footRay3_ne
example := C112_point3 footRay3 footPt3 footRay3_normal footRay3_ne
theorem footRay3_finite : AllFinite footRay3 := Ray3.allFinite.2 ⟨Point3.allFinite.2 ⟨(exactly_int (n := 1) (h := by norm_num)).1, (exactly_int (n := 0) (h := by norm_num)).1, (exactly_int (n := 0) (h := by norm_num)).1⟩, Vector3.allFinite.2 ⟨(exactly_int (n := 4) (h := by norm_num)).1, (exactly_int (n := 0) (h := by norm_num)).1, (exactly_int (n := 0) (h := by norm_num)).1⟩⟩
example := C112_box3 footRay3 footPt3 footRay3_finite
example := C112_origin3 footRay3 footRay3_finite
end VecMath
