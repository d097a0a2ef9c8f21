import Verif.Props.FloatErrorMat
import Verif.Props.FloatMatrix
import Verif.Spec.Det
/-!
# Normals under transformation in floating point (layer F): C106

A client transforms the normal `n` of a surface with the row product `n * &t.inverse`. (Generated by tools/gen.)
-/

namespace VecMath
open Scalar IEEE
section
variable {S : Type} [Scalar S] [IEEE S]

/-- **C106** (2D): transforming a normal by a translation, whatever the offset, leaves it unchanged. -/
theorem C106_float_translate2 (v n : Vector2 S) (hn : AllFinite n) : (n * (Transform2.translate v).inverse == n) = true := by
  show (n * Matrix3x3.translate (-v) == n) = true
  rw [Vector2.allFinite] at hn
  rw [Vector2.beq_iff]
  refine ⟨?_, ?_⟩ <;> refine beq_of_num' ?_ (IsFinite.not_nan (by first | exact hn.1 | exact hn.2 | exact hn.2.1 | exact hn.2.2)) <;>
    mat_simp [] <;> num_simp [hn.1, hn.2]

/-- **C106** (2D): transforming a normal by a scaling multiplies each component by the reciprocal of the factor. -/
theorem C106_float_scale2 (sx sy : S) (n : Vector2 S) (hn : AllFinite n) (hx : IsFinite (recip sx)) (hy : IsFinite (recip sy)) :
    (n * (Transform2.scale sx sy).inverse == Vector2.new (n.x * recip sx) (n.y * recip sy)) = true := by
  show (n * Matrix3x3.scale (recip sx) (recip sy) == Vector2.new (n.x * recip sx) (n.y * recip sy)) = true
  rw [Vector2.allFinite] at hn
  rw [Vector2.beq_iff]
  refine ⟨?_, ?_⟩ <;> refine beq_of_num' ?_ (IEEE.isNaN_mul_finite (by first | exact hn.1 | exact hn.2 | exact hn.2.1 | exact hn.2.2) (by assumption)) <;>
    mat_simp [Vector2.new] <;> num_simp [hn.1, hn.2, hx, hy]

/-- **C106** (2D): transforming a normal by a rotation gives bit for bit the rotated vector. -/
theorem C106_float_rotate2 (n : Vector2 S) (a : S) :
    SameAll (n * (Transform2.rotate a).inverse) (Transform.transform (Transform2.rotate a) n : Vector2 S) := by
  have key : ∀ m : Matrix3x3 S, SameAll (n * m.transpose) (m * n) := by
    intro m
    rw [Vector2.sameAll]
    mat_simp []
    refine ⟨?_, ?_⟩ <;> simp only [Same, den_add, den_mul, Rounding.mul_comm]
  exact key _

/-- **C106** (3D): transforming a normal by a translation, whatever the offset, leaves it unchanged. -/
theorem C106_float_translate3 (v n : Vector3 S) (hn : AllFinite n) : (n * (Transform3.translate v).inverse == n) = true := by
  show (n * Matrix4x4.translate (-v) == n) = true
  rw [Vector3.allFinite] at hn
  rw [Vector3.beq_iff]
  refine ⟨?_, ?_, ?_⟩ <;> refine beq_of_num' ?_ (IsFinite.not_nan (by first | exact hn.1 | exact hn.2 | exact hn.2.1 | exact hn.2.2)) <;>
    mat_simp [] <;> num_simp [hn.1, hn.2.1, hn.2.2]

/-- **C106** (3D): transforming a normal by a scaling multiplies each component by the reciprocal of the factor. -/
theorem C106_float_scale3 (sx sy sz : S) (n : Vector3 S) (hn : AllFinite n) (hx : IsFinite (recip sx)) (hy : IsFinite (recip sy)) (hz : IsFinite (recip sz)) :
    (n * (Transform3.scale sx sy sz).inverse == Vector3.new (n.x * recip sx) (n.y * recip sy) (n.z * recip sz)) = true := by
  show (n * Matrix4x4.scale (recip sx) (recip sy) (recip sz) == Vector3.new (n.x * recip sx) (n.y * recip sy) (n.z * recip sz)) = true
  rw [Vector3.allFinite] at hn
  rw [Vector3.beq_iff]
  refine ⟨?_, ?_, ?_⟩ <;> refine beq_of_num' ?_ (IEEE.isNaN_mul_finite (by first | exact hn.1 | exact hn.2 | exact hn.2.1 | exact hn.2.2) (by assumption)) <;>
    mat_simp [Vector3.new] <;> num_simp [hn.1, hn.2.1, hn.2.2, hx, hy, hz]

/-- **C106** (3D): transforming a normal by a rotation gives bit for bit the rotated vector. -/
theorem C106_float_rotate3 (n : Vector3 S) (a : S) (k : Vector3 S) :
    SameAll (n * (Transform3.rotateX a).inverse) (Transform.transform (Transform3.rotateX a) n : Vector3 S) ∧
    SameAll (n * (Transform3.rotateY a).inverse) (Transform.transform (Transform3.rotateY a) n : Vector3 S) ∧
    SameAll (n * (Transform3.rotateZ a).inverse) (Transform.transform (Transform3.rotateZ a) n : Vector3 S) ∧
    SameAll (n * (Transform3.rotateAxis k a).inverse) (Transform.transform (Transform3.rotateAxis k a) n : Vector3 S) := by
  have key : ∀ m : Matrix4x4 S, SameAll (n * m.transpose) (m * n) := by
    intro m
    rw [Vector3.sameAll]
    mat_simp []
    refine ⟨?_, ?_, ?_⟩ <;> simp only [Same, den_add, den_mul, Rounding.mul_comm]
  exact ⟨key _, key _, key _, key _⟩
end

section
open Classical
variable {S : Type} [Scalar S] [IEEE S] [Binary S]

/-- **C106** (2D): every finite component of a transformed normal is within `(1+u)^2 - 1` of the exact one, relative to
the magnitudes of the products, plus the underflow of the products. -/
theorem C106_float2 (n : Vector2 S) (m : Matrix3x3 S) (h : AllFinite (n * m)) (i : Fin 2) :
    |(n * m).toReal i - ∑ j : Fin 2, n.toReal j * m.toReal j.castSucc i.castSucc| ≤
      ((1 + uro S) ^ 2 - 1) * ∑ j : Fin 2, |n.toReal j * m.toReal j.castSucc i.castSucc| +
        (1 + uro S) * (2 * tiny S) := by
  rw [Vector2.allFinite] at h
  rw [Fin.sum_univ_two, Fin.sum_univ_two]
  fin_cases i
  · exact row2 h.1
  · exact row2 h.2

/-- **C106** (3D): every finite component of a transformed normal is within `(1+u)^3 - 1` of the exact one, relative to
the magnitudes of the products, plus the underflow of the products. -/
theorem C106_float3 (n : Vector3 S) (m : Matrix4x4 S) (h : AllFinite (n * m)) (i : Fin 3) :
    |(n * m).toReal i - ∑ j : Fin 3, n.toReal j * m.toReal j.castSucc i.castSucc| ≤
      ((1 + uro S) ^ 3 - 1) * ∑ j : Fin 3, |n.toReal j * m.toReal j.castSucc i.castSucc| +
        (1 + uro S) ^ 2 * (3 * tiny S) := by
  rw [Vector3.allFinite] at h
  rw [Fin.sum_univ_three, Fin.sum_univ_three]
  fin_cases i
  · exact row3 h.1
  · exact row3 h.2.1
  · exact row3 h.2.2
end

end VecMath
