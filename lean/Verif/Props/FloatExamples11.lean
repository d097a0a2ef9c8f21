import Verif.Props.FloatInstance
import Verif.Props.FloatExamples3
import Verif.Props.FloatRange
import Verif.Props.FloatRangeFmt
/-! # Concrete instances for C93: a sheared box -/

open Classical

namespace VecMath
open Scalar IEEE

theorem shearInv_real : shearInv.toReal = !![1, -2, 5; 0, 1, -4; 0, 0, 1] := by
  ext i j
  fin_cases i <;> fin_cases j <;> simp [shearInv, Matrix3x3.toReal, real_int32]
/-- The ray from `(1, 6)` in direction `(3, 1)`. -/
noncomputable def worldRay : Ray2 F32 := ⟨⟨int32 1, int32 6⟩, ⟨int32 3, int32 1⟩⟩
/-- Its image under the inverse of the shear starts at `(-6, 2)` and has direction `(1, 1)`. -/
noncomputable def localRay : Ray2 F32 := Transform.transform shearT.inv worldRay
noncomputable def localBox : BoundingBox2 F32 := ⟨⟨int32 (-7), int32 1⟩, ⟨int32 (-5), int32 3⟩⟩
theorem finite_localRay : AllFinite localRay.origin ∧ AllFinite localRay.direction ∧ real localRay.origin.x = -6 ∧
    real localRay.origin.y = 2 ∧ real localRay.direction.x = 1 ∧ real localRay.direction.y = 1 := by
  have o1 := C68_transform_point2 (e := 0) (f := 0) (K := 5) (M := 5) (N := 6) shearT.inv worldRay.origin finite_shearInv (Point2.allFinite.2 ⟨trivial, trivial⟩)
    (by rw [show shearT.inv.forward = shearInv from rfl, shearInv_real]; rfl)
    (fun i j => grid_shearInv _ _) (fun i => grid_shearInv _ _)
    (by intro i; fin_cases i; exacts [OnGrid.int (n := 1) (by norm_num), OnGrid.int (n := 6) (by norm_num)]) (fits_f32 (by norm_num))
  have d1 := C68_transform_vector2 (e := 0) (f := 0) (M := 5) (N := 6) shearT.inv worldRay.direction finite_shearInv (Vector2.allFinite.2 ⟨trivial, trivial⟩)
    (fun i j => grid_shearInv _ _)
    (by intro i; fin_cases i; exacts [OnGrid.int (n := 3) (by norm_num), OnGrid.int (n := 1) (by norm_num)]) (fits_f32 (by norm_num))
  have o := o1.2
  have d := d1.2
  rw [show shearT.inv.forward = shearInv from rfl, shearInv_real] at o d
  refine ⟨o1.1, d1.1, (o 0).trans ?_, (o 1).trans ?_, (d 0).trans ?_, (d 1).trans ?_⟩ <;>
    simp [worldRay, Point2.toReal, Vector2.toReal, real_int32] <;> norm_num
theorem localRay_finite : RayFinite2 localBox localRay := by
  obtain ⟨h1, h2, h3, h4, h5, h6⟩ := finite_localRay
  refine C86_ray2 (a := 3) (b := 0) localBox localRay ?_ ?_ h2 ?_ (room32 1) (room32 1)
  · rw [BoundingBox2.upToAll, Point2.upToAll, Point2.upToAll]
    refine ⟨⟨⟨trivial, ?_⟩, ⟨trivial, ?_⟩⟩, ⟨⟨trivial, ?_⟩, ⟨trivial, ?_⟩⟩⟩ <;> simp [localBox, real_int32] <;> norm_num
  · rw [Point2.allFinite] at h1
    rw [Point2.upToAll]
    refine ⟨⟨h1.1, ?_⟩, ⟨h1.2, ?_⟩⟩
    · rw [h3]; norm_num
    · rw [h4]; norm_num
  · intro i; right
    fin_cases i
    · show _ ≤ |real localRay.direction.x|; rw [h5]; norm_num
    · show _ ≤ |real localRay.direction.y|; rw [h6]; norm_num
theorem local_hit : ∃ i : Range F32, Api.intersect localBox localRay = some i ∧ (i.start == Scalar.zero) = true := by
  obtain ⟨h1, h2, h3, h4, -⟩ := finite_localRay
  rw [Point2.allFinite] at h1
  refine C36_inside2 localBox localRay h2.noNaN ⟨⟨?_, ?_⟩, ⟨?_, ?_⟩⟩ <;> refine lt_iff.2 ⟨?_, ?_, ?_⟩ <;>
    first
    | exact h1.1.not_nan
    | exact h1.2.not_nan
    | exact finite_int32.not_nan
    | (simp only [localBox]; exact IsFinite.not_nan trivial)
    | (simp only [localBox, h1.1.val, h1.2.val, finite_int32.val, EReal.coe_lt_coe_iff, h3, h4, real_int32]; norm_num)
theorem local_at : AllFinite (localRay.at (int32 0)) := by
  obtain ⟨h1, h2, h3, h4, h5, h6⟩ := finite_localRay
  refine (C68_at2 (e := 0) (f := 0) (K := 6) (M := 1) (N := 0) localRay (int32 0) h1 h2 trivial ?_ ?_ (OnGrid.int (n := 0) (by norm_num)) (fits_f32 (by norm_num))).1
  · intro i; fin_cases i
    · exact (OnGrid.int (n := -6) (by norm_num)).congr (by show _ = real localRay.origin.x; rw [h3]; norm_num)
    · exact (OnGrid.int (n := 2) (by norm_num)).congr (by show _ = real localRay.origin.y; rw [h4]; norm_num)
  · intro i; fin_cases i
    · exact (OnGrid.int (n := 1) (by norm_num)).congr (by show _ = real localRay.direction.x; rw [h5]; norm_num)
    · exact (OnGrid.int (n := 1) (by norm_num)).congr (by show _ = real localRay.direction.y; rw [h6]; norm_num)
example := local_hit.imp fun i h => C93_inside2 shearT finite_shearInv (by rw [show shearT.inverse = shearInv from rfl, shearInv_real]; rfl) localBox
  (Point2.leAll.2 ⟨int32_le (by norm_num), int32_le (by norm_num)⟩) worldRay localRay (Point2.allFinite.2 ⟨trivial, trivial⟩) rfl
  finite_localRay.2.1 localRay_finite i h.1 (int32 0) local_at
end VecMath
