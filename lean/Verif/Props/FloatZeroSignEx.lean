import Verif.Props.FloatZeroSign
import Verif.Props.FloatPlatformEx
/-! # C116: the places where the sign of a zero shows, and a case that meets the hypotheses -/

open Classical

namespace VecMath
open Scalar IEEE Relator

section
variable (F : Fmt)

theorem number_zero : SameNumber (zero : Fl F) (negZero F) := by
  rw [sameNumber_iff]; unfold num; rw [den_zero, den_negZero]; rfl
theorem number_refl {S : Type} [Scalar S] [IEEE S] (a : S) : SameNumber a a := sameNumber_iff.2 rfl
theorem den_one_sub : den ((one : Fl F) - zero) = .fin 1 := by
  rw [den_sub, den_one, den_zero]
  have : (Fl.instIEEE (F := F)).A.rnd 1 = 1 := Rounding.rnd_one _
  have h1 : (Fl.instIEEE (F := F)).A.fits 1 := Rounding.fits_mono _ (by norm_num) (Rounding.fits_two _)
  simp [Rounding.sub, Rounding.add, Val.neg, Rounding.finish, Val.real, this, h1]
theorem den_zero_sub : den ((zero : Fl F) - zero) = .fin 0 := by
  rw [den_sub, den_zero]
  simp [Rounding.sub, Rounding.add, Val.neg, Rounding.finish, Val.real, Val.neg?, Val.mkZero]
theorem div_pos_zero {a : Fl F} (h : den a = .fin 1) : den (a / zero) = .inf false := by
  rw [den_div, h, den_zero]; simp [Rounding.div, Val.neg?, Val.real]
theorem div_neg_zero {a : Fl F} (h : den a = .fin 1) : den (a / negZero F) = .inf true := by
  rw [den_div, h, den_negZero]; simp [Rounding.div, Val.neg?, Val.real]
theorem zero_div_pos : IsNaN (((zero : Fl F) - zero) / zero) := by
  unfold IsNaN; rw [den_div, den_zero_sub, den_zero]; simp [Rounding.div, Val.real]
theorem zero_div_neg : IsNaN (((zero : Fl F) - zero) / negZero F) := by
  unfold IsNaN; rw [den_div, den_zero_sub, den_negZero]; simp [Rounding.div, Val.real]
theorem slab_pos : loVal (near zero one zero (zero : Fl F)) = ⊤ ∧ hiVal (far zero one zero (zero : Fl F)) = ⊤ := by
  have h := val_inf (div_pos_zero F (den_one_sub F))
  unfold near far
  rw [loVal_congr (min_nan_left (zero_div_pos F)).num, hiVal_congr (max_nan_left (zero_div_pos F)).num]
  unfold loVal hiVal
  rw [if_neg h.1, if_neg h.1, h.2]; exact ⟨rfl, rfl⟩
theorem slab_neg : hiVal (far zero one zero (negZero F)) = ⊥ := by
  have h := val_inf (div_neg_zero F (den_one_sub F))
  unfold far
  rw [hiVal_congr (max_nan_left (zero_div_neg F)).num]
  unfold hiVal
  rw [if_neg h.1, h.2]; rfl

/-- **C116**, where it fails: whether a ray without direction, from a corner of a box, hits the box depends on the signs of the zeros of its
direction. -/
theorem C116_ray_zero2 : (Api.intersect (⟨⟨zero, zero⟩, ⟨one, one⟩⟩ : BoundingBox2 (Fl F)) (⟨⟨zero, zero⟩, ⟨zero, zero⟩⟩ : Ray2 (Fl F))).isSome = true ∧
    Api.intersect (⟨⟨zero, zero⟩, ⟨one, one⟩⟩ : BoundingBox2 (Fl F)) (⟨⟨zero, zero⟩, ⟨negZero F, negZero F⟩⟩ : Ray2 (Fl F)) = none := by
  have hp := slab_pos F
  have hn := slab_neg F
  constructor
  · have h := (slabs2_iff (near zero one zero (zero : Fl F)) (far zero one zero (zero : Fl F)) (near zero one zero (zero : Fl F))
      (far zero one zero (zero : Fl F))).1 (by rw [hp.1, hp.2]; simp)
    obtain ⟨i, h, -⟩ := h
    show (slabs2 (near zero one zero (zero : Fl F)) (far zero one zero (zero : Fl F)) (near zero one zero (zero : Fl F))
      (far zero one zero (zero : Fl F))).isSome = true
    rw [h]; rfl
  · exact (slabs2_iff (near zero one zero (negZero F)) (far zero one zero (negZero F)) (near zero one zero (negZero F))
      (far zero one zero (negZero F))).2 (by rw [hn]; simp [min_eq_right])
theorem C116_ray_zero3 : (Api.intersect (⟨⟨zero, zero, zero⟩, ⟨one, one, one⟩⟩ : BoundingBox3 (Fl F))
      (⟨⟨zero, zero, zero⟩, ⟨zero, zero, zero⟩⟩ : Ray3 (Fl F))).isSome = true ∧
    Api.intersect (⟨⟨zero, zero, zero⟩, ⟨one, one, one⟩⟩ : BoundingBox3 (Fl F))
      (⟨⟨zero, zero, zero⟩, ⟨negZero F, negZero F, negZero F⟩⟩ : Ray3 (Fl F)) = none := by
  have hp := slab_pos F
  have hn := slab_neg F
  constructor
  · have h := (slabs3_iff (near zero one zero (zero : Fl F)) (far zero one zero (zero : Fl F)) (near zero one zero (zero : Fl F))
      (far zero one zero (zero : Fl F)) (near zero one zero (zero : Fl F)) (far zero one zero (zero : Fl F))).1 (by rw [hp.1, hp.2]; simp)
    obtain ⟨i, h, -⟩ := h
    show (slabs3 (near zero one zero (zero : Fl F)) (far zero one zero (zero : Fl F)) (near zero one zero (zero : Fl F))
      (far zero one zero (zero : Fl F)) (near zero one zero (zero : Fl F)) (far zero one zero (zero : Fl F))).isSome = true
    rw [h]; rfl
  · exact (slabs3_iff (near zero one zero (negZero F)) (far zero one zero (negZero F)) (near zero one zero (negZero F))
      (far zero one zero (negZero F)) (near zero one zero (negZero F)) (far zero one zero (negZero F))).2 (by rw [hn]; simp)
/-- **C116**, where it fails: the inverse of a scaling by zero carries the sign of that zero, as an infinity. -/
theorem C116_scale_zero : den (Transform2.scaleUniform (zero : Fl F)).inverse.m[0] = .inf false ∧
    den (Transform2.scaleUniform (negZero F)).inverse.m[0] = .inf true ∧
    den (Transform3.scaleUniform (zero : Fl F)).inverse.m[0] = .inf false ∧
    den (Transform3.scaleUniform (negZero F)).inverse.m[0] = .inf true :=
  ⟨div_pos_zero F den_one, div_neg_zero F den_one, div_pos_zero F den_one, div_neg_zero F den_one⟩
/-- **C116**, where it fails: a point of weight zero is sent to opposite infinities. -/
theorem C116_weight_zero :
    den ((Matrix3x3.new #v[one, zero, zero, zero, one, zero, zero, zero, zero] : Matrix3x3 (Fl F)) * (⟨one, one⟩ : Point2 (Fl F))).x = .inf false ∧
    den ((Matrix3x3.new #v[one, zero, zero, zero, one, zero, negZero F, negZero F, negZero F] : Matrix3x3 (Fl F)) *
      (⟨one, one⟩ : Point2 (Fl F))).x = .inf true := by
  have r1 : (Fl.instIEEE (F := F)).A.rnd 1 = 1 := Rounding.rnd_one _
  have f1 : (Fl.instIEEE (F := F)).A.fits 1 := Rounding.fits_mono _ (by norm_num) (Rounding.fits_two _)
  have n01 : ¬ (1 : ℝ) < 0 := by norm_num
  have m11 : (A (Fl F)).mul (.fin 1) (.fin 1) = .fin 1 := by simp [Rounding.mul, Rounding.finish, Val.real, r1, f1]
  have m01 : (A (Fl F)).mul (.fin 0) (.fin 1) = .fin 0 := by simp [Rounding.mul, Rounding.finish, Val.real, Val.neg?, Val.mkZero, n01]
  have mn1 : (A (Fl F)).mul .nzero (.fin 1) = .nzero := by simp [Rounding.mul, Rounding.finish, Val.real, Val.neg?, Val.mkZero, n01]
  have s10 : (A (Fl F)).add (.fin 1) (.fin 0) = .fin 1 := by simp [Rounding.add, Rounding.finish, Val.real, r1, f1]
  have s00 : (A (Fl F)).add (.fin 0) (.fin 0) = .fin 0 := by simp [Rounding.add, Rounding.finish, Val.real, Val.neg?, Val.mkZero]
  have snn : (A (Fl F)).add .nzero .nzero = .nzero := by simp [Rounding.add, Rounding.finish, Val.real, Val.neg?, Val.mkZero]
  constructor
  · show den (((one : Fl F) * one + zero * one + zero) / (zero * one + zero * one + zero)) = _
    rw [den_div, den_add, den_add, den_add, den_add, den_mul, den_mul, den_one, den_zero, m11, m01, s10, s10, s00, s00]
    simp [Rounding.div, Val.real, Val.neg?, n01]
  · show den (((one : Fl F) * one + zero * one + zero) / (negZero F * one + negZero F * one + negZero F)) = _
    rw [den_div, den_add, den_add, den_add, den_add, den_mul, den_mul, den_mul, den_one, den_zero, den_negZero, m11, m01, mn1, s10, s10, snn, snn]
    simp [Rounding.div, Val.real, Val.neg?, n01]
end

/-- The hypotheses are met: `(3, 0, 0)` and `(3, -0, 0)` have the same normal form. -/
example : V3 (SameNumber (S := F32) (T := F32)) (Vector3.normalize ⟨int32 3, zero, zero⟩) (Vector3.normalize ⟨int32 3, negZero _, zero⟩) :=
  C116_normalize3 ⟨number_refl _, number_zero _, number_refl _⟩
/-- A view along an axis can be given with zeros of either sign. -/
example : Outcome (T3 (SameNumber (S := F32) (T := F32)))
    (Transform3.lookAt ⟨zero, zero, zero⟩ ⟨zero, zero, one⟩ ⟨zero, one, zero⟩)
    (Transform3.lookAt ⟨zero, negZero _, zero⟩ ⟨zero, zero, one⟩ ⟨negZero _, one, zero⟩) :=
  have ho : P3 SameNumber (⟨zero, zero, zero⟩ : Point3 F32) ⟨zero, negZero _, zero⟩ := ⟨number_refl _, number_zero _, number_refl _⟩
  have ht : P3 SameNumber (⟨zero, zero, one⟩ : Point3 F32) ⟨zero, zero, one⟩ := ⟨number_refl _, number_refl _, number_refl _⟩
  have hu : V3 SameNumber (⟨zero, one, zero⟩ : Vector3 F32) ⟨negZero _, one, zero⟩ := ⟨number_zero _, number_refl _, number_refl _⟩
  C116_lookAt ho ht hu
/-- A ray along the `x` axis from the middle of a face: it enters at distance zero, whatever the sign of the zero in its direction. -/
example (F : Fmt) : ∃ i j, Api.intersect (⟨⟨zero, -one⟩, ⟨one, one⟩⟩ : BoundingBox2 (Fl F)) (⟨⟨zero, zero⟩, ⟨one, zero⟩⟩ : Ray2 (Fl F)) = some i ∧
    Api.intersect (⟨⟨zero, -one⟩, ⟨one, one⟩⟩ : BoundingBox2 (Fl F)) (⟨⟨zero, zero⟩, ⟨one, negZero _⟩⟩ : Ray2 (Fl F)) = some j ∧
    Rg SameNumber i j := by
  have r1 : (Fl.instIEEE (F := F)).A.rnd 1 = 1 := Rounding.rnd_one _
  have rm : (Fl.instIEEE (F := F)).A.rnd (-1) = -1 := by rw [Rounding.rnd_neg, r1]
  have f1 : (Fl.instIEEE (F := F)).A.fits 1 := Rounding.fits_mono _ (by norm_num) (Rounding.fits_two _)
  have fm : (Fl.instIEEE (F := F)).A.fits (-1) := Rounding.fits_mono _ (by norm_num) (Rounding.fits_two _)
  have a1 : den (((zero : Fl F) - zero) / one) = .fin 0 := by
    rw [den_div, den_zero_sub, den_one]; simp [Rounding.div, Rounding.finish, Val.real, Val.neg?, Val.mkZero]
  have a2 : den (((one : Fl F) - zero) / one) = .fin 1 := by
    rw [den_div, den_one_sub, den_one]; simp [Rounding.div, Rounding.finish, Val.real, r1, f1]
  have a3 : den ((-(one : Fl F) - zero) / zero) = .inf true := by
    rw [den_div, den_sub, den_neg, den_one, den_zero]
    simp [Rounding.sub, Rounding.add, Rounding.div, Rounding.finish, Val.real, Val.neg, Val.neg?, rm, fm]
  have a4 : den (((one : Fl F) - zero) / zero) = .inf false := div_pos_zero F (den_one_sub F)
  have v1 : ¬ IsNaN (((zero : Fl F) - zero) / one) ∧ val (((zero : Fl F) - zero) / one) = 0 := by
    unfold IsNaN val; rw [a1]; simp
  have v2 : ¬ IsNaN (((one : Fl F) - zero) / one) ∧ val (((one : Fl F) - zero) / one) = 1 := by
    unfold IsNaN val; rw [a2]; simp
  have v3 := val_inf a3
  have v4 := val_inf a4
  have n1 : loVal (near zero one zero (one : Fl F)) = 0 := by
    unfold loVal near; rw [if_neg fun h => v1.1 (isNaN_min.1 h).1, val_min v1.1 v2.1, v1.2, v2.2]; simp
  have n2 : hiVal (far zero one zero (one : Fl F)) = 1 := by
    unfold hiVal far; rw [if_neg fun h => v1.1 (isNaN_max.1 h).1, val_max v1.1 v2.1, v1.2, v2.2]; simp
  have n3 : loVal (near (-one) one zero (zero : Fl F)) = ⊥ := by
    unfold loVal near; rw [if_neg fun h => v3.1 (isNaN_min.1 h).1, val_min v3.1 v4.1, v3.2, v4.2]; simp
  have n4 : hiVal (far (-one) one zero (zero : Fl F)) = ⊤ := by
    unfold hiVal far; rw [if_neg fun h => v3.1 (isNaN_max.1 h).1, val_max v3.1 v4.1, v3.2, v4.2]; simp
  obtain ⟨i, h, -, -, v, -⟩ := (slabs2_iff (near zero one zero (one : Fl F)) (far zero one zero (one : Fl F)) (near (-one) one zero (zero : Fl F))
    (far (-one) one zero (zero : Fl F))).1 (by rw [n1, n2, n3, n4]; simp)
  obtain ⟨j, h', hr⟩ := C116_ray2 (b := (⟨⟨zero, -one⟩, ⟨one, one⟩⟩ : BoundingBox2 (Fl F))) (c := ⟨⟨zero, -one⟩, ⟨one, one⟩⟩)
    (r := ⟨⟨zero, zero⟩, ⟨one, zero⟩⟩) (q := ⟨⟨zero, zero⟩, ⟨one, negZero _⟩⟩)
    ⟨⟨number_refl _, number_refl _⟩, ⟨number_refl _, number_refl _⟩⟩ ⟨⟨number_refl _, number_refl _⟩, ⟨number_refl _, number_zero _⟩⟩
    (i := i) h (by rw [v, n1, n3]; simp)
  exact ⟨i, j, h, h', hr⟩

end VecMath
