import Verif.Props.FloatWitness
/-!
# Layer F: ray/box intersection in floating point, false hits
-/

open Classical

namespace VecMath
open Scalar IEEE Fl

section
variable {S : Type} [Scalar S] [IEEE S]

/-- `+∞`. -/
def IsTop (a : S) : Prop := ¬ IsNaN a ∧ val a = ⊤
theorem isTop_infinity : IsTop (infinity : S) := ⟨not_nan_infinity, val_infinity⟩
theorem IsTop.min {a b : S} (ha : IsTop a) (hb : IsTop b) : IsTop (fmin a b) :=
  ⟨fun h => ha.1 (isNaN_min.1 h).1, by rw [val_min ha.1 hb.1, ha.2, hb.2, min_self]⟩
theorem IsTop.max {a b : S} (ha : ¬ IsNaN a) (hb : IsTop b) : IsTop (fmax a b) :=
  ⟨fun h => ha (isNaN_max.1 h).1, by rw [val_max ha hb.1, hb.2, max_top_right]⟩
theorem IsTop.le {a b : S} (ha : ¬ IsNaN a) (hb : IsTop b) : (a ≤? b) = true :=
  le_iff.2 ⟨ha, hb.1, by rw [hb.2]; exact le_top⟩
theorem IsTop.not_lt {a b : S} (hb : IsTop b) : (b <? a) = false := by
  rw [Bool.eq_false_iff]; intro h
  have := (lt_iff.1 h).2.2; rw [hb.2] at this; exact absurd this not_top_lt
/-- Positive over plus zero. -/
theorem IsTop.div_zero {a : S} (ha : IsFinite a) (h : 0 < real a) : IsTop (a / Scalar.zero) := by
  have hd : den (a / Scalar.zero) = .inf (decide (real a < 0) ^^ false) := by
    rw [den_div, Rounding.div_fin _ ha finite_zero,
      if_pos (show (den (Scalar.zero : S)).real = 0 from real_zero), if_neg (show (den a).real ≠ 0 from h.ne'), den_zero]
    have hneg : (den a).neg? = decide (real a < 0) := by
      unfold IsFinite at ha; unfold real at *
      generalize den a = v at *
      rcases v with _ | s | _ | x
      · exact ha.elim
      · exact ha.elim
      · exact absurd h (lt_irrefl _)
      · rfl
    simp [hneg]
  rw [decide_eq_false (by linarith)] at hd
  unfold IsTop IsNaN val; rw [hd]; simp

/-- The ray/box test when every quotient is `+∞`. -/
theorem ray_top2 (b : BoundingBox2 S) (r : Ray2 S)
    (h1 : IsTop ((b.min.x - r.origin.x) / r.direction.x)) (h2 : IsTop ((b.max.x - r.origin.x) / r.direction.x))
    (h3 : IsTop ((b.min.y - r.origin.y) / r.direction.y)) (h4 : IsTop ((b.max.y - r.origin.y) / r.direction.y)) :
    ∃ i : Range S, Api.intersect b r = some i ∧ IsTop i.start ∧ IsTop i.stop := by
  have s1 := IsTop.max (not_nan_zero (S := S)) (h1.min h2)
  have e1 := (isTop_infinity (S := S)).min (IsTop.max h1.1 h2)
  have s2 := IsTop.max s1.1 (h3.min h4)
  have e2 := e1.min (IsTop.max h3.1 h4)
  refine ⟨⟨_, _⟩, ?_, s2, e2⟩
  show BoundingBox2.intersectRay b r = _
  unfold BoundingBox2.intersectRay
  refine (if_neg ?_).trans (if_pos ?_)
  · rw [Bool.not_eq_true]; exact e1.not_lt
  · exact IsTop.le s2.1 e2
/-- The ray/box test when every quotient is `+∞`, 3D. -/
theorem ray_top3 (b : BoundingBox3 S) (r : Ray3 S)
    (h1 : IsTop ((b.min.x - r.origin.x) / r.direction.x)) (h2 : IsTop ((b.max.x - r.origin.x) / r.direction.x))
    (h3 : IsTop ((b.min.y - r.origin.y) / r.direction.y)) (h4 : IsTop ((b.max.y - r.origin.y) / r.direction.y))
    (h5 : IsTop ((b.min.z - r.origin.z) / r.direction.z)) (h6 : IsTop ((b.max.z - r.origin.z) / r.direction.z)) :
    ∃ i : Range S, Api.intersect b r = some i ∧ IsTop i.start ∧ IsTop i.stop := by
  have s1 := IsTop.max (not_nan_zero (S := S)) (h1.min h2)
  have e1 := (isTop_infinity (S := S)).min (IsTop.max h1.1 h2)
  have s2 := IsTop.max s1.1 (h3.min h4)
  have e2 := e1.min (IsTop.max h3.1 h4)
  have s3 := IsTop.max s2.1 (h5.min h6)
  have e3 := e2.min (IsTop.max h5.1 h6)
  refine ⟨⟨_, _⟩, ?_, s3, e3⟩
  show BoundingBox3.intersectRay b r = _
  unfold BoundingBox3.intersectRay
  refine (if_neg ?_).trans ((if_neg ?_).trans (if_pos ?_))
  · rw [Bool.not_eq_true]; exact e1.not_lt
  · rw [Bool.not_eq_true]; exact e2.not_lt
  · exact IsTop.le s3.1 e3

/-- `0 + 0 * t` is zero or NaN. -/
theorem zero_at {t : S} : ¬ (Scalar.one ≤? (Scalar.zero + Scalar.zero * t)) = true := by
  intro h
  have hn := (le_iff.1 h).2.1
  have hv := (le_iff.1 h).2.2
  by_cases ht : IsFinite t
  · have hz := isZero_zero.add (isZero_zero.mul ht)
    rw [hz.1.val, hz.2, val_one] at hv
    exact absurd hv (by norm_num)
  · rcases Val.not_isFin_iff.1 ht with h' | ⟨s, h'⟩
    · exact hn (isNaN_add_right (isNaN_mul_right h'))
    · refine hn (isNaN_add_right ?_)
      unfold IsNaN
      rw [den_mul, h', Rounding.mul_fin_inf _ (finite_zero (S := S)), if_pos (show (den (Scalar.zero : S)).real = 0 from real_zero)]
end

variable {F : Fmt}

theorem one_sub_zero : IsFinite (Scalar.one - Scalar.zero : Fl F) ∧ real (Scalar.one - Scalar.zero : Fl F) = 1 := by
  have h : den (Scalar.one - Scalar.zero : Fl F) = den (Scalar.one : Fl F) := same_sub_zero _
  unfold IsFinite real; rw [h]; exact ⟨finite_one, real_one⟩
theorem big_sub_zero : IsFinite (big F - Scalar.zero) ∧ real (big F - Scalar.zero) = real (big F) := by
  have h : den (big F - Scalar.zero) = den (big F) := same_sub_zero _
  unfold IsFinite real; rw [h]; exact ⟨finite_big, rfl⟩
/-- A huge number over a tiny one overflows. -/
theorem big_div_small : IsTop ((big F - Scalar.zero) / small F) := by
  have h0 := (real_small_pos (F := F)).ne'
  have hb := big_sub_zero (F := F)
  have hq : overflowAt (Fl F) ≤ real (big F) / real (small F) := by
    refine overflow_le.trans ?_
    rw [real_big, real_small, ← zpow_sub₀ (by norm_num)]
    refine Fmt.z_le ?_
    have := bound F; omega
  have hn : ¬ IsFinite ((big F - Scalar.zero) / small F) := by
    intro h
    have := (correct_div hb.1 finite_small h0).1.1 h
    rw [hb.2, abs_of_pos (div_pos real_big_pos real_small_pos)] at this
    linarith
  have hd := den_div_fin hb.1 finite_small h0
  have hfit : ¬ (IEEE.A (Fl F)).fits ((IEEE.A (Fl F)).rnd (real (big F - Scalar.zero) / real (small F))) := by
    intro h; exact hn (by unfold IsFinite; rw [hd]; exact (Rounding.finish_isFin _).2 h)
  rw [Rounding.finish_of_not_fits _ hfit, decide_eq_false] at hd
  · unfold IsTop IsNaN val; rw [hd]; simp
  · rw [hb.2]; exact not_lt.2 (div_pos real_big_pos real_small_pos).le

/-- **C35**: in every binary format there are a finite well-formed box and a finite ray with nonzero
direction, no computed point of which is inside the box, for which an intersection is reported. -/
theorem C35_float_false_hit2 : ∃ (b : BoundingBox2 (Fl F)) (ray : Ray2 (Fl F)) (i : Range (Fl F)),
    AllFinite b ∧ LeAll b.min b.max ∧ AllFinite ray ∧ (ray.direction.y == Scalar.zero) = false ∧
    Api.intersect b ray = some i ∧
    (i.start == infinity) = true ∧ (i.stop == infinity) = true ∧
    ∀ t, b.isInside (ray.at t) = false := by
  have h1 : IsTop ((Scalar.one - Scalar.zero : Fl F) / Scalar.zero) :=
    IsTop.div_zero one_sub_zero.1 (by rw [one_sub_zero.2]; norm_num)
  obtain ⟨i, hi, hs, he⟩ := ray_top2 (⟨⟨Scalar.one, big F⟩, ⟨Scalar.one, big F⟩⟩ : BoundingBox2 (Fl F))
    ⟨⟨Scalar.zero, Scalar.zero⟩, ⟨Scalar.zero, small F⟩⟩ h1 h1 big_div_small big_div_small
  refine ⟨_, _, i, ?_, ?_, ?_, ?_, hi, ?_, ?_, fun t => ?_⟩
  · rw [BoundingBox2.allFinite, Point2.allFinite]
    exact ⟨⟨finite_one, finite_big⟩, finite_one, finite_big⟩
  · rw [Point2.leAll]; exact ⟨le_self not_nan_one, le_self finite_big.not_nan⟩
  · rw [Ray2.allFinite, Point2.allFinite, Vector2.allFinite]
    exact ⟨⟨finite_zero, finite_zero⟩, finite_zero, finite_small⟩
  · exact pos_not_zero finite_small real_small_pos
  · exact beq_iff.2 ⟨hs.1, not_nan_infinity, by rw [hs.2, val_infinity]⟩
  · exact beq_iff.2 ⟨he.1, not_nan_infinity, by rw [he.2, val_infinity]⟩
  · rw [Bool.eq_false_iff]; intro h
    exact zero_at (isInside2_iff.1 h).1.1
/-- **C35**, 3D. -/
theorem C35_float_false_hit3 : ∃ (b : BoundingBox3 (Fl F)) (ray : Ray3 (Fl F)) (i : Range (Fl F)),
    AllFinite b ∧ LeAll b.min b.max ∧ AllFinite ray ∧ (ray.direction.y == Scalar.zero) = false ∧
    Api.intersect b ray = some i ∧
    (i.start == infinity) = true ∧ (i.stop == infinity) = true ∧
    ∀ t, b.isInside (ray.at t) = false := by
  have h1 : IsTop ((Scalar.one - Scalar.zero : Fl F) / Scalar.zero) :=
    IsTop.div_zero one_sub_zero.1 (by rw [one_sub_zero.2]; norm_num)
  obtain ⟨i, hi, hs, he⟩ := ray_top3
    (⟨⟨Scalar.one, big F, Scalar.one⟩, ⟨Scalar.one, big F, Scalar.one⟩⟩ : BoundingBox3 (Fl F))
    ⟨⟨Scalar.zero, Scalar.zero, Scalar.zero⟩, ⟨Scalar.zero, small F, Scalar.zero⟩⟩ h1 h1 big_div_small big_div_small h1 h1
  refine ⟨_, _, i, ?_, ?_, ?_, ?_, hi, ?_, ?_, fun t => ?_⟩
  · rw [BoundingBox3.allFinite, Point3.allFinite]
    exact ⟨⟨finite_one, finite_big, finite_one⟩, finite_one, finite_big, finite_one⟩
  · rw [Point3.leAll]; exact ⟨le_self not_nan_one, le_self finite_big.not_nan, le_self not_nan_one⟩
  · rw [Ray3.allFinite, Point3.allFinite, Vector3.allFinite]
    exact ⟨⟨finite_zero, finite_zero, finite_zero⟩, finite_zero, finite_small, finite_zero⟩
  · exact pos_not_zero finite_small real_small_pos
  · exact beq_iff.2 ⟨hs.1, not_nan_infinity, by rw [hs.2, val_infinity]⟩
  · exact beq_iff.2 ⟨he.1, not_nan_infinity, by rw [he.2, val_infinity]⟩
  · rw [Bool.eq_false_iff]; intro h
    exact zero_at (isInside3_iff.1 h).1.1

end VecMath
