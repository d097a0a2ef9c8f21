import Verif.Spec.Plane
import Verif.Lemmas.Real
import Verif.Props.FloatPlane
/-!
# Culling boxes by planes in exact real arithmetic (layer R): C110

(Generated by tools/gen.)
-/

namespace VecMath
open Scalar IEEE

/-- One dimension: the far end is the middle plus half the length, along the normal. -/
theorem far_center {n lo hi o : Ideal} (hn : IsFinite n) (hl : IsFinite lo) (hh : IsFinite hi) (ho : IsFinite o) :
    IsFinite (n * ((if (zero ≤? n) = true then hi else lo) - o)) ∧ IsFinite (n * (lo + (hi - lo) * half - o)) ∧ IsFinite (Scalar.abs n * (hi - lo)) ∧
    real (n * ((if (zero ≤? n) = true then hi else lo) - o)) = real (n * (lo + (hi - lo) * half - o)) + real (Scalar.abs n * (hi - lo)) * (1 / 2) := by
  have f1 := Ideal.finite_sub hh hl
  have f2 := Ideal.finite_add hl (Ideal.finite_mul f1 finite_half)
  have f3 := Ideal.finite_sub f2 ho
  have f4 : IsFinite (if (zero ≤? n) = true then hi else lo) := by split <;> assumption
  refine ⟨Ideal.finite_mul hn (Ideal.finite_sub f4 ho), Ideal.finite_mul hn f3, Ideal.finite_mul (finite_abs.2 hn) f1, ?_⟩
  rw [Ideal.real_mul hn (Ideal.finite_sub f4 ho), Ideal.real_mul hn f3, Ideal.real_mul (finite_abs.2 hn) f1, real_abs, Ideal.real_sub f4 ho, Ideal.real_sub f2 ho,
    Ideal.real_add hl (Ideal.finite_mul f1 finite_half), Ideal.real_mul f1 finite_half, Ideal.real_sub hh hl, real_half]
  by_cases h : (zero ≤? n) = true
  · rw [if_pos h]
    rw [Ideal.le_real finite_zero hn, real_zero] at h
    rw [abs_of_nonneg h]; ring
  · rw [if_neg h]
    rw [Ideal.le_real finite_zero hn, real_zero, not_le] at h
    rw [abs_of_neg h]; ring

theorem BoundingBox2.corner_far (n : Vector2 Ideal) (b : BoundingBox2 Ideal) (build : Build) :
    b.corner build n.farIndex = .ok ⟨if (zero ≤? n.x) = true then b.max.x else b.min.x, if (zero ≤? n.y) = true then b.max.y else b.min.y⟩ := by
  unfold Vector2.farIndex
  rcases hx : (zero ≤? n.x) with _ | _ <;> rcases hy : (zero ≤? n.y) with _ | _ <;>
    (rw [BoundingBox2.corner_small b build (by decide)]; simp (config := { decide := true }) [Dimension2.pos, *])
/-- **C110** (2D): in exact arithmetic testing the farthest corner and testing the center and the extents are the same test. -/
theorem C110_center2 (n : Vector2 Ideal) (o : Point2 Ideal) (b : BoundingBox2 Ideal) (build : Build) (hn : AllFinite n) (ho : AllFinite o) (hb : AllFinite b.min ∧ AllFinite b.max) :
    b.behind build n o = b.behindCenter n o := by
  rw [Point2.allFinite, Point2.allFinite] at hb
  rw [Vector2.allFinite] at hn
  rw [Point2.allFinite] at ho
  obtain ⟨px, qx, rx, ex⟩ := far_center hn.1 hb.1.1 hb.2.1 ho.1
  obtain ⟨py, qy, ry, ey⟩ := far_center hn.2 hb.1.2 hb.2.2 ho.2
  unfold BoundingBox2.behind
  rw [BoundingBox2.corner_far]
  show ((_ : Ideal) <? zero) = (_ <? zero)
  rw [Bool.eq_iff_iff]
  refine (Ideal.lt_real (Ideal.finite_add px py) finite_zero).trans (Iff.trans ?_ (Ideal.lt_real (Ideal.finite_add (Ideal.finite_add qx qy) (Ideal.finite_mul (Ideal.finite_add rx ry) finite_half)) finite_zero).symm)
  rw [Ideal.real_add (Ideal.finite_add qx qy) (Ideal.finite_mul (Ideal.finite_add rx ry) finite_half), Ideal.real_mul (Ideal.finite_add rx ry) finite_half,
    Ideal.real_add px py, Ideal.real_add qx qy, Ideal.real_add rx ry, real_half]
  have E : ∀ s t : ℝ, s = t → (s < real (zero : Ideal) ↔ t < real (zero : Ideal)) := fun s t h => by rw [h]
  refine E _ _ ?_
  have := congrArg₂ (· + ·) ex ey
  refine this.trans ?_
  ring
theorem BoundingBox3.corner_far (n : Vector3 Ideal) (b : BoundingBox3 Ideal) (build : Build) :
    b.corner build n.farIndex = .ok ⟨if (zero ≤? n.x) = true then b.max.x else b.min.x, if (zero ≤? n.y) = true then b.max.y else b.min.y, if (zero ≤? n.z) = true then b.max.z else b.min.z⟩ := by
  unfold Vector3.farIndex
  rcases hx : (zero ≤? n.x) with _ | _ <;> rcases hy : (zero ≤? n.y) with _ | _ <;> rcases hz : (zero ≤? n.z) with _ | _ <;>
    (rw [BoundingBox3.corner_small b build (by decide)]; simp (config := { decide := true }) [Dimension3.pos, *])
/-- **C110** (3D): in exact arithmetic testing the farthest corner and testing the center and the extents are the same test. -/
theorem C110_center3 (n : Vector3 Ideal) (o : Point3 Ideal) (b : BoundingBox3 Ideal) (build : Build) (hn : AllFinite n) (ho : AllFinite o) (hb : AllFinite b.min ∧ AllFinite b.max) :
    b.behind build n o = b.behindCenter n o := by
  rw [Point3.allFinite, Point3.allFinite] at hb
  rw [Vector3.allFinite] at hn
  rw [Point3.allFinite] at ho
  obtain ⟨px, qx, rx, ex⟩ := far_center hn.1 hb.1.1 hb.2.1 ho.1
  obtain ⟨py, qy, ry, ey⟩ := far_center hn.2.1 hb.1.2.1 hb.2.2.1 ho.2.1
  obtain ⟨pz, qz, rz, ez⟩ := far_center hn.2.2 hb.1.2.2 hb.2.2.2 ho.2.2
  unfold BoundingBox3.behind
  rw [BoundingBox3.corner_far]
  show ((_ : Ideal) <? zero) = (_ <? zero)
  rw [Bool.eq_iff_iff]
  refine (Ideal.lt_real (Ideal.finite_add (Ideal.finite_add px py) pz) finite_zero).trans (Iff.trans ?_ (Ideal.lt_real (Ideal.finite_add (Ideal.finite_add (Ideal.finite_add qx qy) qz) (Ideal.finite_mul (Ideal.finite_add (Ideal.finite_add rx ry) rz) finite_half)) finite_zero).symm)
  rw [Ideal.real_add (Ideal.finite_add (Ideal.finite_add qx qy) qz) (Ideal.finite_mul (Ideal.finite_add (Ideal.finite_add rx ry) rz) finite_half), Ideal.real_mul (Ideal.finite_add (Ideal.finite_add rx ry) rz) finite_half,
    Ideal.real_add (Ideal.finite_add px py) pz, Ideal.real_add px py, Ideal.real_add (Ideal.finite_add qx qy) qz, Ideal.real_add qx qy, Ideal.real_add (Ideal.finite_add rx ry) rz, Ideal.real_add rx ry, real_half]
  have E : ∀ s t : ℝ, s = t → (s < real (zero : Ideal) ↔ t < real (zero : Ideal)) := fun s t h => by rw [h]
  refine E _ _ ?_
  have := congrArg₂ (· + ·) (congrArg₂ (· + ·) ex ey) ez
  refine this.trans ?_
  ring

end VecMath
