import Verif.Lemmas.Approx
import Verif.Spec.Det
import Verif.Lemmas.FloatSlab
/-!
# Layer F: accuracy of the measures of boxes (C67)
-/

open Classical

namespace VecMath
open Scalar IEEE

variable {S : Type} [Scalar S] [IEEE S] [Binary S]

namespace Approx
variable {k : ℕ} {a b : S} {x A t : ℝ}
theorem diff (h : IsFinite (a - b)) : Approx 1 0 (a - b) (real a - real b) |real a - real b| := by
  refine ⟨le_rfl, ?_⟩
  have := err_sub h
  rw [pow_one, add_sub_cancel_left, add_zero]; exact this
/-- Doubling is exact. -/
theorem double (ha : Approx k t a x A) (h : IsFinite (two * a)) : Approx k (2 * t) (two * a) (2 * x) (2 * A) := by
  have hf := finite_of_mul h
  have e : real (two * a) = 2 * real a := by
    rw [real_mul h, rnd_eq, real_two]
    refine (Binary.F S).rnd_of_has ?_
    obtain ⟨m, e, h1, h2, h3⟩ := isFinite_has hf.2
    refine ⟨m, e + 1, by omega, h2, ?_⟩
    rw [h3, zpow_add_one₀ (by norm_num)]; ring
  refine ⟨?_, ?_⟩
  · rw [abs_mul, abs_two]; exact mul_le_mul_of_nonneg_left ha.1 (by norm_num)
  · rw [e, ← mul_sub, abs_mul, abs_two]
    have := ha.2
    linarith
theorem area {a₁ b₁ a₂ b₂ : S} (h : IsFinite ((a₁ - b₁) * (a₂ - b₂))) :
    Approx 3 (tiny S) ((a₁ - b₁) * (a₂ - b₂)) ((real a₁ - real b₁) * (real a₂ - real b₂))
      (|real a₁ - real b₁| * |real a₂ - real b₂|) := by
  have hf := finite_of_mul h
  refine ((diff hf.1).mul (diff hf.2) h).mono le_rfl (le_of_eq ?_)
  ring
end Approx

omit [Binary S] in
theorem real_mono {a b : S} (ha : IsFinite a) (hb : IsFinite b) (h : (a ≤? b) = true) : real a ≤ real b := by
  have h := (le_iff.1 h).2.2
  rw [ha.val, hb.val, EReal.coe_le_coe_iff] at h
  exact h

theorem center_err {a b : S} (h : IsFinite (a + (b - a) * half)) :
    |real (a + (b - a) * half) - (real a + real b) / 2| ≤
      uro S * |(real a + real b) / 2| + (1 + uro S) * (gam S 2 * (|real b - real a| / 2) + tiny S) := by
  have h1 := finite_of_add h
  have h2 := finite_of_mul h1.2
  have ap := ((Approx.diff h2.1).mul_exact h1.2).2
  rw [real_half] at ap
  have := err_add_of (x := real a) (e := 0) h (by simp) ap
  have e : real a + (real b - real a) * (1 / 2) = (real a + real b) / 2 := by ring
  rw [e] at this
  refine this.trans (le_of_eq ?_)
  rw [show |(1 / 2 : ℝ)| = 1 / 2 by norm_num]
  unfold gam
  ring

/-! ## C67 -/

/-- **C67**, 2D: each extent is the correctly rounded difference. -/
theorem C67_extent2 (b : BoundingBox2 S) (hb : AllFinite b) :
    Correct b.width (b.max.toReal 0 - b.min.toReal 0) ∧ Correct b.height (b.max.toReal 1 - b.min.toReal 1) := by
  rw [BoundingBox2.allFinite, Point2.allFinite, Point2.allFinite] at hb
  exact ⟨correct_sub hb.2.1 hb.1.1, correct_sub hb.2.2 hb.1.2⟩
/-- **C67**, 3D. -/
theorem C67_extent3 (b : BoundingBox3 S) (hb : AllFinite b) :
    Correct b.width (b.max.toReal 0 - b.min.toReal 0) ∧ Correct b.height (b.max.toReal 1 - b.min.toReal 1) ∧
    Correct b.depth (b.max.toReal 2 - b.min.toReal 2) := by
  rw [BoundingBox3.allFinite, Point3.allFinite, Point3.allFinite] at hb
  exact ⟨correct_sub hb.2.1 hb.1.1, correct_sub hb.2.2.1 hb.1.2.1, correct_sub hb.2.2.2 hb.1.2.2⟩

/-- **C67**: a finite area is within three roundings of the exact area, up to one underflow. -/
theorem C67_area (b : BoundingBox2 S) (h : IsFinite b.area) :
    |real b.area - (b.max.toReal 0 - b.min.toReal 0) * (b.max.toReal 1 - b.min.toReal 1)| ≤
      gam S 3 * |(b.max.toReal 0 - b.min.toReal 0) * (b.max.toReal 1 - b.min.toReal 1)| + tiny S := by
  rw [abs_mul]
  exact (Approx.area h).2
/-- **C67**: a finite volume is within five roundings of the exact volume, up to underflow. -/
theorem C67_volume (b : BoundingBox3 S) (h : IsFinite b.volume) :
    |real b.volume - (b.max.toReal 0 - b.min.toReal 0) * (b.max.toReal 1 - b.min.toReal 1) *
        (b.max.toReal 2 - b.min.toReal 2)| ≤
      gam S 5 * |(b.max.toReal 0 - b.min.toReal 0) * (b.max.toReal 1 - b.min.toReal 1) *
        (b.max.toReal 2 - b.min.toReal 2)| +
      ((1 + uro S) ^ 2 * |b.max.toReal 2 - b.min.toReal 2| + 1) * tiny S := by
  rw [abs_mul, abs_mul]
  have hf := finite_of_mul h
  have := ((Approx.area hf.1).mul (Approx.diff hf.2) h).2
  refine this.trans (le_of_eq ?_)
  unfold gam Point3.toReal
  simp
  ring
/-- **C67**: a finite surface area of a well-formed box is within five roundings of the exact one, up to
underflow. -/
theorem C67_surface (b : BoundingBox3 S) (hb : LeAll b.min b.max) (h : IsFinite b.surfaceArea) :
    |real b.surfaceArea - 2 * ((b.max.toReal 0 - b.min.toReal 0) * (b.max.toReal 1 - b.min.toReal 1) +
        (b.max.toReal 0 - b.min.toReal 0) * (b.max.toReal 2 - b.min.toReal 2) +
        (b.max.toReal 1 - b.min.toReal 1) * (b.max.toReal 2 - b.min.toReal 2))| ≤
      gam S 5 * (2 * ((b.max.toReal 0 - b.min.toReal 0) * (b.max.toReal 1 - b.min.toReal 1) +
        (b.max.toReal 0 - b.min.toReal 0) * (b.max.toReal 2 - b.min.toReal 2) +
        (b.max.toReal 1 - b.min.toReal 1) * (b.max.toReal 2 - b.min.toReal 2))) +
      6 * (1 + uro S) ^ 2 * tiny S := by
  have h3 := (finite_of_mul h).2
  have h2 := finite_of_add h3
  have h1 := finite_of_add h2.1
  have t0 := (tiny_pos (S := S)).le
  have hx := finite_of_mul h1.1
  have hz := finite_of_mul h1.2
  have fx := finite_of_sub hx.1
  have fy := finite_of_sub hx.2
  have fz := finite_of_sub hz.2
  rw [Point3.leAll] at hb
  have e := ((Approx.acc t0 (by norm_num) (Approx.acc t0 le_rfl (Approx.area h1.1).start (Approx.area h1.2) h2.1)
    (Approx.area h2.2) h3).double h).2
  have lx : real b.min.x ≤ real b.max.x := real_mono fx.2 fx.1 hb.1
  have ly : real b.min.y ≤ real b.max.y := real_mono fy.2 fy.1 hb.2.1
  have lz : real b.min.z ≤ real b.max.z := real_mono fz.2 fz.1 hb.2.2
  rw [abs_of_nonneg (sub_nonneg.2 lx), abs_of_nonneg (sub_nonneg.2 ly), abs_of_nonneg (sub_nonneg.2 lz)] at e
  refine e.trans (le_of_eq ?_)
  unfold gam Point3.toReal
  simp
  ring

/-- **C67**, 2D: a finite centre is the exact midpoint up to one rounding of it, two roundings of the half extent
and an underflow. -/
theorem C67_center2 (b : BoundingBox2 S) (h : AllFinite b.center) (i : Fin 2) :
    |b.center.toReal i - (b.min.toReal i + b.max.toReal i) / 2| ≤ uro S * |(b.min.toReal i + b.max.toReal i) / 2| +
      (1 + uro S) * (gam S 2 * (|b.max.toReal i - b.min.toReal i| / 2) + tiny S) := by
  rw [Point2.allFinite] at h
  fin_cases i
  · exact center_err h.1
  · exact center_err h.2
/-- **C67**, 3D. -/
theorem C67_center3 (b : BoundingBox3 S) (h : AllFinite b.center) (i : Fin 3) :
    |b.center.toReal i - (b.min.toReal i + b.max.toReal i) / 2| ≤ uro S * |(b.min.toReal i + b.max.toReal i) / 2| +
      (1 + uro S) * (gam S 2 * (|b.max.toReal i - b.min.toReal i| / 2) + tiny S) := by
  rw [Point3.allFinite] at h
  fin_cases i
  · exact center_err h.1
  · exact center_err h.2.1
  · exact center_err h.2.2

end VecMath
