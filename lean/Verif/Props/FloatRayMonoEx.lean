import Verif.Props.FloatRayMono
import Verif.Props.FloatExamples
import Verif.Props.FloatErrorMat
/-! # Layer F: C87 and C88 on concrete data, and what happens between distant points -/

open Classical

namespace VecMath
open Scalar IEEE Fl

theorem nearby_int32 {m n : ℤ} (h1 : m ≤ 2 * n) (h2 : n ≤ 2 * m) (hm : |m| ≤ 16777216 := by norm_num)
    (hn : |n| ≤ 16777216 := by norm_num) : Nearby (int32 m hm) (int32 n hn) := by
  refine ⟨finite_int32, finite_int32, .inl ?_⟩
  rw [real_int32, real_int32]
  exact ⟨by exact_mod_cast h1, by exact_mod_cast h2⟩

/-- from `(4, 5, 6)` to `(7, 9, 4)` -/
example := C87_point3 (⟨int32 4, int32 5, int32 6⟩ : Point3 F32) ⟨int32 7, int32 9, int32 4⟩
  (Point3.nearbyAll.2 ⟨nearby_int32 (by norm_num) (by norm_num), nearby_int32 (by norm_num) (by norm_num),
    nearby_int32 (by norm_num) (by norm_num)⟩)
example := C87_segment2 (⟨int32 4, int32 5⟩ : Point2 F32) ⟨int32 7, int32 9⟩
  (Point2.nearbyAll.2 ⟨nearby_int32 (by norm_num) (by norm_num), nearby_int32 (by norm_num) (by norm_num)⟩) half
  ((le_fin finite_zero finite_half).2 (by rw [real_zero, real_half]; norm_num))
  ((le_fin finite_half finite_one).2 (by rw [real_one, real_half]; norm_num))
example := C87_vector3 (⟨int32 4, int32 5, int32 6⟩ : Vector3 F32) ⟨int32 7, int32 9, int32 4⟩
  (Vector3.nearbyAll.2 ⟨nearby_int32 (by norm_num) (by norm_num), nearby_int32 (by norm_num) (by norm_num),
    nearby_int32 (by norm_num) (by norm_num)⟩)
example := C87_box2 (⟨⟨int32 4, int32 5⟩, ⟨int32 7, int32 9⟩⟩ : BoundingBox2 F32)
  (Point2.nearbyAll.2 ⟨nearby_int32 (by norm_num) (by norm_num), nearby_int32 (by norm_num) (by norm_num)⟩)
/-- the ray from `(4, 5)` along `(3, 4)` between the parameters 1 and 10 -/
example := C88_span2 (⟨p45, v34⟩ : Ray2 F32) (Ray2.allFinite.2 ⟨finite_p45, finite_v34⟩) (int32 1) (int32 7) (int32 10)
  trivial trivial trivial ((le_fin finite_int32 finite_int32).2 (by rw [real_int32, real_int32]; norm_num))
  ((le_fin finite_int32 finite_int32).2 (by rw [real_int32, real_int32]; norm_num))
example := C88_distance2 (⟨p45, v34⟩ : Ray2 F32) (Ray2.allFinite.2 ⟨finite_p45, finite_v34⟩) (int32 1) (int32 7)
  trivial trivial ((le_fin finite_zero finite_int32).2 (by rw [real_zero, real_int32]; norm_num))
  ((le_fin finite_int32 finite_int32).2 (by rw [real_int32, real_int32]; norm_num))

section
variable {F : Fmt}
/-- A number of the format from -1 to -1/2 is a multiple of `2^(-p-1)`. -/
theorem grid_near_one {x : ℝ} (hx : F.Has x) (h : 1 / 2 ≤ |x|) : ∃ k : ℤ, x = k * 2 ^ (-(F.p : ℤ) - 1) := by
  obtain ⟨n, e, he, hn, rfl⟩ := hx
  have hep : -(F.p : ℤ) - 1 ≤ e := by
    by_contra hc
    have h1 : |(n : ℝ) * 2 ^ e| ≤ 2 ^ (F.p : ℤ) * 2 ^ e := by
      rw [abs_mul, abs_of_pos (Fmt.z_pos e)]
      refine mul_le_mul_of_nonneg_right ?_ (Fmt.z_pos e).le
      rw [zpow_natCast]; exact_mod_cast hn
    rw [← Fmt.z_add] at h1
    have h2 : (2 : ℝ) ^ ((F.p : ℤ) + e) ≤ 2 ^ (-2 : ℤ) := Fmt.z_le (by omega)
    norm_num at h2
    have := h.trans (h1.trans h2)
    norm_num at this
  refine ⟨n * 2 ^ (e - (-(F.p : ℤ) - 1)).toNat, ?_⟩
  have : (2 : ℝ) ^ e = 2 ^ (e - (-(F.p : ℤ) - 1)).toNat * 2 ^ (-(F.p : ℤ) - 1) := by
    rw [← zpow_natCast, ← Fmt.z_add]; congr 1; omega
  rw [this]; push_cast; ring
/-- `1 + (small - 1)` is zero. -/
theorem one_small (hF : F.emin + 1 < -(F.p : ℤ) - 1) :
    real ((one : Fl F) + (small F - one)) = 0 := by
  have hs : real (small F) = 2 ^ F.emin := real_small
  have hsmall : (2 : ℝ) ^ F.emin ≤ 1 / 4 := by
    have := Fmt.z_le (show F.emin ≤ -2 from (bound F).1); norm_num at this ⊢; exact this
  have hp := Fmt.z_pos F.emin
  have c := correct_sub (finite_small (F := F)) (finite_one (S := Fl F))
  rw [hs, real_one] at c
  have hfin := c.1.2 (by rw [abs_of_nonpos (by linarith)]; linarith [three_le_overflow (S := Fl F)])
  obtain ⟨hin, near⟩ := c.2 hfin
  have b := near (-1) (by have := inFormat (finite_neg.2 (finite_one (S := Fl F))); rwa [IEEE.real_neg, real_one] at this)
  rw [show (-1 : ℝ) - (2 ^ F.emin - 1) = -2 ^ F.emin by ring, abs_neg, abs_of_pos hp, abs_le] at b
  generalize hx : real (small F - one) = x at *
  obtain ⟨k, hk⟩ := grid_near_one hin.1 (by rw [abs_of_nonpos (by linarith)]; linarith)
  replace hk : x = k * 2 ^ (-(F.p : ℤ) - 1) := hk
  have hq := Fmt.z_pos (-(F.p : ℤ) - 1)
  have h1 : (1 : ℝ) = (2 ^ (F.p + 1) : ℤ) * 2 ^ (-(F.p : ℤ) - 1) := by
    push_cast; rw [← zpow_natCast, ← Fmt.z_add]; norm_num
  have h2 : 1 + x = ((2 ^ (F.p + 1) + k : ℤ) : ℝ) * 2 ^ (-(F.p : ℤ) - 1) := by
    rw [hk]; conv_lhs => rw [h1]
    push_cast; ring
  have h3 : (2 : ℝ) ^ (F.emin + 1) < 2 ^ (-(F.p : ℤ) - 1) := zpow_lt_zpow_right₀ (by norm_num) hF
  rw [zpow_add₀ (by norm_num), zpow_one] at h3
  have h4 : ((2 ^ (F.p + 1) + k : ℤ) : ℝ) = 0 := by
    have a : (0 : ℝ) ≤ ((2 ^ (F.p + 1) + k : ℤ) : ℝ) * 2 ^ (-(F.p : ℤ) - 1) := by rw [← h2]; linarith
    have b : ((2 ^ (F.p + 1) + k : ℤ) : ℝ) * 2 ^ (-(F.p : ℤ) - 1) < 1 * 2 ^ (-(F.p : ℤ) - 1) := by rw [← h2]; linarith
    have a := nonneg_of_mul_nonneg_left a hq
    have b := lt_of_mul_lt_mul_right b hq.le
    have a : 0 ≤ (2 ^ (F.p + 1) + k : ℤ) := by exact_mod_cast a
    have b : (2 ^ (F.p + 1) + k : ℤ) < 1 := by exact_mod_cast b
    have : (2 ^ (F.p + 1) + k : ℤ) = 0 := by omega
    rw [this]; norm_num
  rw [h4, zero_mul] at h2
  have c := correct_add (finite_one (S := Fl F)) hfin
  rw [real_one, hx, h2] at c
  exact (c.exact (by have := inFormat (finite_zero (S := Fl F)); rwa [real_zero] at this)
    (by rw [abs_zero]; linarith [three_le_overflow (S := Fl F)])).2
/-- **C87**: between distant points the way is not exact: from 1 to the smallest positive number the walk ends at 0
(any format whose smallest number is well below the precision, like `f32` and `f64`). -/
theorem C87_distant (hF : F.emin + 1 < -(F.p : ℤ) - 1) : ∃ p q : Point2 (Fl F), AllFinite p ∧ AllFinite q ∧
    (p + (q - p) == q) = false ∧ ((Ray2.new p (q - p)).at one == q) = false := by
  refine ⟨⟨one, one⟩, ⟨small F, small F⟩, Point2.allFinite.2 ⟨finite_one, finite_one⟩,
    Point2.allFinite.2 ⟨finite_small, finite_small⟩, ?_, ?_⟩
  · rw [Bool.eq_false_iff]
    intro h
    have h := num_of_beq (Point2.beq_iff.1 h).1
    have := real_num h
    have hs := real_small_pos (F := F)
    rw [← this] at hs
    exact hs.ne' (one_small hF)
  · rw [Bool.eq_false_iff]
    intro h
    have h := num_of_beq (Point2.beq_iff.1 h).1
    have e := num_add_congr (rfl : num (one : Fl F) = num one) (num_mul_one (small F - one))
    have := real_num (e.symm.trans h)
    have hs := real_small_pos (F := F)
    rw [← this] at hs
    exact hs.ne' (one_small hF)
example := C87_distant (F := binary32) (by decide)
example := C87_distant (F := binary64) (by decide)
end
end VecMath
