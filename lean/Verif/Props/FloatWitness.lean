import Verif.Lemmas.Fl
import Verif.Props.FloatLimits
/-!
# Layer F: concrete data at the ends of the range

For every binary format (in particular `f32` and `f64`): data that refute the exact-arithmetic properties,
and data that meet the hypotheses of the theorems of `FloatLimits`.
-/

open Classical

namespace VecMath
open Scalar IEEE Fl

variable {F : Fmt}

theorem pos_not_zero {a : Fl F} (ha : IsFinite a) (h : 0 < real a) : ((a == Scalar.zero) = false) := by
  rw [Bool.eq_false_iff]
  intro h'
  have := (isZero_iff.2 h').2
  linarith
theorem le_real {a b : Fl F} (ha : IsFinite a) (hb : IsFinite b) : (a ≤? b) = true ↔ real a ≤ real b := by
  rw [le_of_not_nan ha.not_nan hb.not_nan, ha.val, hb.val, EReal.coe_le_coe_iff]

/-! ### C13 -/
example := C13_float_tiny2 (⟨small F, Scalar.zero⟩ : Vector2 (Fl F)) (by rw [Vector2.allFinite]; exact ⟨trivial, trivial⟩)
  small_sq (by simpa [real_zero] using tiny_pos)
example := C13_float_huge3 (⟨Scalar.zero, big F, Scalar.one⟩ : Vector3 (Fl F))
  (by rw [Vector3.allFinite]; exact ⟨trivial, trivial, trivial⟩) (.inr (.inl big_sq))

/-! ### C15 -/

theorem small_sub_zero : IsFinite (small F - Scalar.zero) ∧ real (small F - Scalar.zero) = real (small F) := by
  have h : den (small F - Scalar.zero) = den (small F) := same_sub_zero (small F)
  unfold IsFinite real; rw [h]; exact ⟨finite_small, rfl⟩
theorem zero_sub_zero : IsFinite (Scalar.zero - Scalar.zero : Fl F) ∧ real (Scalar.zero - Scalar.zero : Fl F) = 0 :=
  isZero_zero.sub isZero_zero

/-- **C15**: in every binary format there are distinct finite points at computed distance zero. -/
theorem C15_float_not_separating2 : ∃ p q : Point2 (Fl F), AllFinite p ∧ AllFinite q ∧ (p == q) = false ∧
    (Api.distance p q == Scalar.zero) = true := by
  refine ⟨⟨Scalar.zero, Scalar.zero⟩, ⟨small F, Scalar.zero⟩, ?_, ?_, ?_, ?_⟩
  · rw [Point2.allFinite]; exact ⟨trivial, trivial⟩
  · rw [Point2.allFinite]; exact ⟨trivial, trivial⟩
  · rw [Bool.eq_false_iff]; intro h
    have h1 := beq_symm (Point2.beq_iff.1 h).1
    rw [pos_not_zero finite_small real_small_pos] at h1; exact absurd h1 (by decide)
  · have hx := small_sub_zero (F := F)
    have hy := zero_sub_zero (F := F)
    exact C15_float_tiny2 _ _ hx.1 hy.1 (by rw [hx.2]; exact small_sq) (by rw [hy.2]; simpa using tiny_pos)
/-- **C15**, 3D. -/
theorem C15_float_not_separating3 : ∃ p q : Point3 (Fl F), AllFinite p ∧ AllFinite q ∧ (p == q) = false ∧
    (Api.distance p q == Scalar.zero) = true := by
  refine ⟨⟨Scalar.zero, Scalar.zero, Scalar.zero⟩, ⟨small F, Scalar.zero, Scalar.zero⟩, ?_, ?_, ?_, ?_⟩
  · rw [Point3.allFinite]; exact ⟨trivial, trivial, trivial⟩
  · rw [Point3.allFinite]; exact ⟨trivial, trivial, trivial⟩
  · rw [Bool.eq_false_iff]; intro h
    have h1 := beq_symm (Point3.beq_iff.1 h).1
    rw [pos_not_zero finite_small real_small_pos] at h1; exact absurd h1 (by decide)
  · have hx := small_sub_zero (F := F)
    have hy := zero_sub_zero (F := F)
    exact C15_float_tiny3 _ _ hx.1 hy.1 hy.1 (by rw [hx.2]; exact small_sq) (by rw [hy.2]; simpa using tiny_pos)
      (by rw [hy.2]; simpa using tiny_pos)

/-! ### C31, C32: extents that overflow -/

theorem big_extent : IsInf (big F - -big F) := by
  have hf : IsFinite (-big F) := finite_neg.2 finite_big
  rw [isInf_iff]
  refine ⟨isNaN_sub_finite hf finite_big.not_nan, fun hc => ?_⟩
  have := (correct_sub finite_big hf).1.1 hc
  rw [real_neg, sub_neg_eq_add, ← big_double, abs_of_pos (Fmt.z_pos _)] at this
  exact absurd this (not_lt.2 overflow_le)
theorem big_neg_le : (-big F ≤? big F) = true := by
  rw [le_real (finite_neg.2 finite_big) finite_big, real_neg]
  have := real_big_pos (F := F); linarith
theorem zero_le_zero' : ((Scalar.zero : Fl F) ≤? Scalar.zero) = true := le_self not_nan_zero

/-- A flat box, very wide in `x`, without height. -/
noncomputable def wide2 (F : Fmt) : BoundingBox2 (Fl F) := ⟨⟨-big F, Scalar.zero⟩, ⟨big F, Scalar.zero⟩⟩
noncomputable def wide3 (F : Fmt) : BoundingBox3 (Fl F) :=
  ⟨⟨-big F, Scalar.zero, Scalar.zero⟩, ⟨big F, Scalar.zero, Scalar.zero⟩⟩
theorem wide2_ok : AllFinite (wide2 F) ∧ LeAll (wide2 F).min (wide2 F).max := by
  constructor
  · rw [BoundingBox2.allFinite, Point2.allFinite, Point2.allFinite]
    exact ⟨⟨finite_neg.2 finite_big, finite_zero⟩, finite_big, finite_zero⟩
  · rw [Point2.leAll]; exact ⟨big_neg_le, zero_le_zero'⟩
theorem wide3_ok : AllFinite (wide3 F) ∧ LeAll (wide3 F).min (wide3 F).max := by
  constructor
  · rw [BoundingBox3.allFinite, Point3.allFinite, Point3.allFinite]
    exact ⟨⟨finite_neg.2 finite_big, finite_zero, finite_zero⟩, finite_big, finite_zero, finite_zero⟩
  · rw [Point3.leAll]; exact ⟨big_neg_le, zero_le_zero', zero_le_zero'⟩

/-- **C31**: in every binary format a finite well-formed box can have a NaN area. -/
theorem C31_float_area_nan : ∃ b : BoundingBox2 (Fl F), AllFinite b ∧ LeAll b.min b.max ∧ IsNaN b.area :=
  ⟨wide2 F, wide2_ok.1, wide2_ok.2, big_extent.mul_zero (isZero_zero.sub isZero_zero)⟩
/-- **C31**: in every binary format a finite well-formed box can have a NaN volume and surface area. -/
theorem C31_float_volume_nan : ∃ b : BoundingBox3 (Fl F), AllFinite b ∧ LeAll b.min b.max ∧ IsNaN b.volume ∧
    IsNaN b.surfaceArea := by
  have h : IsNaN ((wide3 F).width * (wide3 F).height) := big_extent.mul_zero (isZero_zero.sub isZero_zero)
  refine ⟨wide3 F, wide3_ok.1, wide3_ok.2, isNaN_mul_left h, ?_⟩
  exact isNaN_mul_right (isNaN_add_left (isNaN_add_left h))

/-- **C32**: in every binary format there is a finite well-formed box whose center lies outside it. -/
theorem C32_float_center_outside2 : ∃ b : BoundingBox2 (Fl F), AllFinite b ∧ LeAll b.min b.max ∧
    b.isInside b.center = false := by
  refine ⟨wide2 F, wide2_ok.1, wide2_ok.2, ?_⟩
  rw [Bool.eq_false_iff, ne_eq, C32_float_iff2 _ wide2_ok.1 wide2_ok.2, Vector2.allFinite]
  exact fun h => big_extent.not_finite h.1
/-- **C32**, 3D. -/
theorem C32_float_center_outside3 : ∃ b : BoundingBox3 (Fl F), AllFinite b ∧ LeAll b.min b.max ∧
    b.isInside b.center = false := by
  refine ⟨wide3 F, wide3_ok.1, wide3_ok.2, ?_⟩
  rw [Bool.eq_false_iff, ne_eq, C32_float_iff3 _ wide3_ok.1 wide3_ok.2, Vector3.allFinite]
  exact fun h => big_extent.not_finite h.1

/-! ### C45 -/

/-- **C45**: in every binary format there is an invertible finite matrix that `inverse` and `try_from`
reject, and one for which the returned inverse is entirely NaN. -/
theorem C45_float_rejected3 : (∃ m : Matrix4x4 (Fl F), AllFinite m ∧ m.toReal.det ≠ 0 ∧ m.inverse = .error .mk ∧
    Transform3.tryFrom m = .error .mk) ∧
    ∃ (m n : Matrix4x4 (Fl F)), AllFinite m ∧ m.inverse = .ok n ∧ AllNaN n := by
  have fin : ∀ s : Fl F, IsFinite s → AllFinite (Matrix4x4.scaleUniform s) := by
    intro s hs
    rw [Matrix4x4.allFinite, forall_lt_16]
    exact ⟨hs, finite_zero, finite_zero, finite_zero, finite_zero, hs, finite_zero, finite_zero, finite_zero,
      finite_zero, hs, finite_zero, finite_zero, finite_zero, finite_zero, finite_one⟩
  constructor
  · obtain ⟨h1, h2, h3⟩ := C45_float_tiny3 (small F) finite_small small_sq
    refine ⟨_, fin _ finite_small, ?_, h1, h2⟩
    rw [h3]; exact (pow_pos real_small_pos 3).ne'
  · obtain ⟨n, h1, h2⟩ := C45_float_huge3 (big F) finite_big big_sq
    exact ⟨_, n, fin _ finite_big, h1, h2⟩
/-- **C45**, 3x3. -/
theorem C45_float_rejected2 : (∃ m : Matrix3x3 (Fl F), AllFinite m ∧ m.toReal.det ≠ 0 ∧ m.inverse = .error .mk ∧
    Transform2.tryFrom m = .error .mk) ∧
    ∃ (m n : Matrix3x3 (Fl F)), AllFinite m ∧ m.inverse = .ok n ∧ ¬ NoNaN n := by
  have fin : ∀ s : Fl F, IsFinite s → AllFinite (Matrix3x3.scaleUniform s) := by
    intro s hs
    rw [Matrix3x3.allFinite, forall_lt_9]
    exact ⟨hs, finite_zero, finite_zero, finite_zero, hs, finite_zero, finite_zero, finite_zero, finite_one⟩
  constructor
  · obtain ⟨h1, h2, h3⟩ := C45_float_tiny2 (small F) finite_small small_sq
    refine ⟨_, fin _ finite_small, ?_, h1, h2⟩
    rw [h3]; exact (pow_pos real_small_pos 2).ne'
  · obtain ⟨n, h1, h2⟩ := C45_float_huge2 (big F) finite_big big_sq
    refine ⟨_, n, fin _ finite_big, h1, fun hn => ?_⟩
    obtain ⟨c, hc, hcn⟩ := h2 .release
    have e : c = n.m[8] := by
      have : (Except.ok c : Except Panic (Fl F)) = .ok n.m[8] := hc.symm
      injection this
    subst e
    exact hn _ (by simp [Comps.comps]) hcn

end VecMath
