import Verif.Props.FloatExamples2
import Verif.Props.FloatNaN
/-!
# C75: concrete `f32` cases with a NaN
-/

open Classical

namespace VecMath
open Scalar IEEE Fl

/-- A NaN of type `f32`. -/
noncomputable def nan32 : F32 := ⟨.nan, Rounding.ok_nan _⟩
theorem isNaN_nan32 : IsNaN nan32 := rfl

/-- A vector with a NaN in the middle. -/
noncomputable def nanV : Vector3 F32 := ⟨int32 1, nan32, int32 2⟩
/-- A point with a NaN in the middle. -/
noncomputable def nanP : Point3 F32 := ⟨int32 1, nan32, int32 2⟩
theorem nanV_nan : ¬ NoNaN nanV := Vector3.someNaN.2 (.inr (.inl isNaN_nan32))
theorem nanP_nan : ¬ NoNaN nanP := Point3.someNaN.2 (.inr (.inl isNaN_nan32))

example : IsNaN (Api.dot nanV v236 : F32) := C75_dot3 _ _ (.inl nanV_nan)
example : AllNaN nanV.normalize := C75_normalize3 _ nanV_nan
example : ¬ IsNaN (Api.length v236 : F32) := length_v236.1.not_nan
example : IsNaN (Api.distance (Point3.new (int32 1) (int32 2) (int32 3)) nanP : F32) := C75_distance3 _ _ (.inr nanP_nan)
example (m : Matrix4x4 F32) : AllNaN (m * nanP : Point3 F32) := C75_matrix_point3 _ _ nanP_nan
example : Api.shortest v236 nanV = nanV := (C75_relative_length3 _ _ (.inr nanV_nan)).2.2.1

/-- **C75**: `closest` prefers a NaN point to a proper one, if the NaN point is the second candidate. -/
theorem C75_closest_returns_nan : ∃ p a b : Point3 F32, AllFinite p ∧ AllFinite a ∧ ¬ NoNaN b ∧ Api.closest p a b = b :=
  ⟨⟨int32 0, int32 0, int32 0⟩, ⟨int32 1, int32 0, int32 0⟩, nanP,
    Point3.allFinite.2 ⟨trivial, trivial, trivial⟩, Point3.allFinite.2 ⟨trivial, trivial, trivial⟩,
    nanP_nan, (C75_relative_distance3 _ _ _ (.inr (.inr nanP_nan))).2.2.1⟩

/-- A ray far from the unit cube whose direction is NaN. -/
noncomputable def nanRay : Ray3 F32 := ⟨⟨int32 100, int32 100, int32 100⟩, ⟨nan32, nan32, nan32⟩⟩
/-- **C75**: a ray that starts far away and has a NaN direction (what `normalize` of a zero vector yields) is reported to
hit a box. -/
theorem C75_nan_ray_hits : ∃ i : Range F32, Api.intersect (cube3 1 3) nanRay = some i ∧ (i.start == zero) = true ∧
    (i.stop == infinity) = true ∧ AllFinite nanRay.origin ∧ (cube3 1 3).isInside nanRay.origin = false := by
  obtain ⟨i, h1, h2, h3⟩ := C75_ray_all_nan3 (cube3 1 3) nanRay (.inr (.inl isNaN_nan32)) (.inr (.inl isNaN_nan32)) (.inr (.inl isNaN_nan32))
  refine ⟨i, h1, h2, h3, Point3.allFinite.2 ⟨trivial, trivial, trivial⟩, ?_⟩
  rw [Bool.eq_false_iff]
  intro h
  unfold BoundingBox3.isInside at h
  simp only [Bool.and_eq_true] at h
  have := (le_iff.1 h.1.1.1.1.2).2.2
  change val (int32 100) ≤ val (int32 3) at this
  rw [finite_int32.val, finite_int32.val, real_int32, real_int32, EReal.coe_le_coe_iff] at this
  norm_num at this

/-- A box whose upper corner is spoilt. -/
noncomputable def nanBox : BoundingBox2 F32 := ⟨⟨int32 1, int32 1⟩, ⟨nan32, int32 3⟩⟩
theorem nanBox_nan : ¬ NoNaN nanBox := BoundingBox2.someNaN.2 (.inr (Point2.someNaN.2 (.inl isNaN_nan32)))
example (t : Transform2 F32) : SameAll (Transform.transform t nanBox : BoundingBox2 F32).max
    (Transform.transform t nanBox.min : Point2 F32) := (C75_transform_box2 t nanBox nanBox_nan).2
example : (cube2 1 3).overlaps nanBox = false := (C75_overlaps2 _ _ (.inr nanBox_nan)).1
example : Agree (Api.union (cube3 1 3) nanP : BoundingBox3 F32).max.y (int32 3) :=
  ((C75_union_point3 (cube3 1 3) nanP).2.1 isNaN_nan32 (int32_le (by norm_num))).2
example (j k : Fin 3) (a b : Matrix3x3 F32) (h : IsNaN a.m[3 * 1 + 2]) : IsNaN (a * b).m[3 * 1 + j.val] :=
  C75_product_left2 a b 1 j 2 h

end VecMath
