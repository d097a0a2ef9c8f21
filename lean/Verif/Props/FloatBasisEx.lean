import Verif.Props.FloatBasis
import Verif.Props.FloatExamples
/-!
# C101: concrete `f32` cases
-/

namespace VecMath
open Scalar IEEE

theorem finite_translate34 : AllFinite (Matrix3x3.translate v34 : Matrix3x3 F32) := by
  have h := Vector2.allFinite.1 finite_v34
  rw [Matrix3x3.allFinite, forall_lt_9]
  mat_simp []
  exact ⟨finite_one, finite_zero, h.1, finite_zero, finite_one, h.2, finite_zero, finite_zero, finite_one⟩
theorem affine_translate34 (b : Build) : (Matrix3x3.translate v34 : Matrix3x3 F32).HasAffineRow b := by
  have z : ((zero : F32) == zero) = true := beq_iff.2 ⟨finite_zero.not_nan, finite_zero.not_nan, rfl⟩
  have o : ((one : F32) == one) = true := beq_iff.2 ⟨finite_one.not_nan, finite_one.not_nan, rfl⟩
  exact ⟨zero, zero, one, by cases b <;> rfl, by cases b <;> rfl, by cases b <;> rfl, z, z, o⟩
/-- The second component of `(3, 4)`; `(3, 4)` as a sum; the third column of a translation; what determines it. -/
example := C101_dot2 v34 finite_v34 .Y
example := C101_sum2 v34 finite_v34
example := C101_sum3 v236 finite_v236
example := C101_cross3 v236 finite_v236
example (b : Build) := C101_columns2 _ finite_translate34 b .X .Y
example (b : Build) := C101_translation2 _ finite_translate34 b (affine_translate34 b) .Y
/-- A different way to write the same translation: as a product with the identity. -/
example (b : Build) (m : Matrix3x3 F32) (hm : AllFinite m) (ha : m.HasAffineRow b)
    (ho : (m * (Point2.origin : Point2 F32) == Matrix3x3.translate v34 * (Point2.origin : Point2 F32)) = true)
    (hd : ∀ d, (m * (Vector2.axis d : Vector2 F32) == Matrix3x3.translate v34 * (Vector2.axis d : Vector2 F32)) = true) :
    (m == Matrix3x3.translate v34) = true :=
  C101_determined2 m _ hm finite_translate34 b ha (affine_translate34 b) ho hd
example (b : Build) : ((Matrix3x3.translate v34 : Matrix3x3 F32) == Matrix3x3.translate v34) = true := by
  refine C101_determined2 _ _ finite_translate34 finite_translate34 b (affine_translate34 b) (affine_translate34 b) ?_ fun d => ?_
  · rw [Point2.beq_iff]
    have h0 := C101_translation2 _ finite_translate34 b (affine_translate34 b) .X
    have h1 := C101_translation2 _ finite_translate34 b (affine_translate34 b) .Y
    obtain ⟨s, -, h0⟩ := h0
    obtain ⟨t, -, h1⟩ := h1
    exact ⟨beq_iff.2 ⟨(beq_iff.1 h0).1, (beq_iff.1 h0).1, rfl⟩, beq_iff.2 ⟨(beq_iff.1 h1).1, (beq_iff.1 h1).1, rfl⟩⟩
  · rw [Vector2.beq_iff]
    obtain ⟨⟨s, -, h0⟩, -⟩ := C101_columns2 _ finite_translate34 b d .X
    obtain ⟨⟨t, -, h1⟩, -⟩ := C101_columns2 _ finite_translate34 b d .Y
    exact ⟨beq_iff.2 ⟨(beq_iff.1 h0).1, (beq_iff.1 h0).1, rfl⟩, beq_iff.2 ⟨(beq_iff.1 h1).1, (beq_iff.1 h1).1, rfl⟩⟩
/-- From `(4, 5)` along the x axis by 3: `(7, 5)`. -/
example := C101_ray2 p45 .X (int32 3) finite_p45 finite_int32 .Y
/-- The y component of `(infinity, 1)` cannot be read with `dot`. -/
example : IsNaN (Api.dot (Vector2.axis .Y : Vector2 F32) (⟨infinity, int32 1⟩ : Vector2 F32) : F32) :=
  C101_infinite2 _ .Y .X (by decide) ⟨false, den_infinity⟩

end VecMath
