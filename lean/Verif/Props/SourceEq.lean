import Verif.Rust.Derive
import Verif.Rust.Tactic
/-! # `==` of the crate's types

Generated by `tools/gen/deq.py`. `Src.eq S a b` is what the `#[derive(PartialEq)]` of the source text makes of
`a == b`. -/

namespace VecMath.Rust
open VecMath Scalar
variable {S : Type} [Scalar S]

theorem C81_eq_Vector2 (a b : Vector2 S) : Src.eq S (rep a) (rep b) = some (a == b) := by
  have h : Src.eq S (rep a) (rep b) = some (a.x == b.x && (a.y == b.y)) := by kernel_rfl
  have k : (a == b) = (a.x == b.x && (a.y == b.y)) := by simp only [BEq.beq, Bool.and_assoc]
  rw [h, k]
theorem C81_eq_Vector3 (a b : Vector3 S) : Src.eq S (rep a) (rep b) = some (a == b) := by
  have h : Src.eq S (rep a) (rep b) = some (a.x == b.x && (a.y == b.y && (a.z == b.z))) := by kernel_rfl
  have k : (a == b) = (a.x == b.x && (a.y == b.y && (a.z == b.z))) := by simp only [BEq.beq, Bool.and_assoc]
  rw [h, k]
theorem C81_eq_Point2 (a b : Point2 S) : Src.eq S (rep a) (rep b) = some (a == b) := by
  have h : Src.eq S (rep a) (rep b) = some (a.x == b.x && (a.y == b.y)) := by kernel_rfl
  have k : (a == b) = (a.x == b.x && (a.y == b.y)) := by simp only [BEq.beq, Bool.and_assoc]
  rw [h, k]
theorem C81_eq_Point3 (a b : Point3 S) : Src.eq S (rep a) (rep b) = some (a == b) := by
  have h : Src.eq S (rep a) (rep b) = some (a.x == b.x && (a.y == b.y && (a.z == b.z))) := by kernel_rfl
  have k : (a == b) = (a.x == b.x && (a.y == b.y && (a.z == b.z))) := by simp only [BEq.beq, Bool.and_assoc]
  rw [h, k]
theorem C81_eq_Ray2 (a b : Ray2 S) : Src.eq S (rep a) (rep b) = some (a == b) := by
  have h : Src.eq S (rep a) (rep b) = some ((a.origin.x == b.origin.x && (a.origin.y == b.origin.y)) && (a.direction.x == b.direction.x && (a.direction.y == b.direction.y))) := by kernel_rfl
  have k : (a == b) = ((a.origin.x == b.origin.x && (a.origin.y == b.origin.y)) && (a.direction.x == b.direction.x && (a.direction.y == b.direction.y))) := by simp only [BEq.beq, Bool.and_assoc]
  rw [h, k]
theorem C81_eq_Ray3 (a b : Ray3 S) : Src.eq S (rep a) (rep b) = some (a == b) := by
  have h : Src.eq S (rep a) (rep b) = some ((a.origin.x == b.origin.x && (a.origin.y == b.origin.y && (a.origin.z == b.origin.z))) && (a.direction.x == b.direction.x && (a.direction.y == b.direction.y && (a.direction.z == b.direction.z)))) := by kernel_rfl
  have k : (a == b) = ((a.origin.x == b.origin.x && (a.origin.y == b.origin.y && (a.origin.z == b.origin.z))) && (a.direction.x == b.direction.x && (a.direction.y == b.direction.y && (a.direction.z == b.direction.z)))) := by simp only [BEq.beq, Bool.and_assoc]
  rw [h, k]
theorem C81_eq_BoundingBox2 (a b : BoundingBox2 S) : Src.eq S (rep a) (rep b) = some (a == b) := by
  have h : Src.eq S (rep a) (rep b) = some ((a.min.x == b.min.x && (a.min.y == b.min.y)) && (a.max.x == b.max.x && (a.max.y == b.max.y))) := by kernel_rfl
  have k : (a == b) = ((a.min.x == b.min.x && (a.min.y == b.min.y)) && (a.max.x == b.max.x && (a.max.y == b.max.y))) := by simp only [BEq.beq, Bool.and_assoc]
  rw [h, k]
theorem C81_eq_BoundingBox3 (a b : BoundingBox3 S) : Src.eq S (rep a) (rep b) = some (a == b) := by
  have h : Src.eq S (rep a) (rep b) = some ((a.min.x == b.min.x && (a.min.y == b.min.y && (a.min.z == b.min.z))) && (a.max.x == b.max.x && (a.max.y == b.max.y && (a.max.z == b.max.z)))) := by kernel_rfl
  have k : (a == b) = ((a.min.x == b.min.x && (a.min.y == b.min.y && (a.min.z == b.min.z))) && (a.max.x == b.max.x && (a.max.y == b.max.y && (a.max.z == b.max.z)))) := by simp only [BEq.beq, Bool.and_assoc]
  rw [h, k]
theorem C81_eq_Matrix3x3 (a b : Matrix3x3 S) : Src.eq S (rep a) (rep b) = some (a == b) := by
  have h : Src.eq S (rep a) (rep b) = some (a.m[0] == b.m[0] && (a.m[1] == b.m[1] && (a.m[2] == b.m[2] && (a.m[3] == b.m[3] && (a.m[4] == b.m[4] && (a.m[5] == b.m[5] && (a.m[6] == b.m[6] && (a.m[7] == b.m[7] && (a.m[8] == b.m[8]))))))))) := by kernel_rfl
  have k : (a == b) = (a.m[0] == b.m[0] && (a.m[1] == b.m[1] && (a.m[2] == b.m[2] && (a.m[3] == b.m[3] && (a.m[4] == b.m[4] && (a.m[5] == b.m[5] && (a.m[6] == b.m[6] && (a.m[7] == b.m[7] && (a.m[8] == b.m[8]))))))))) := by simp only [BEq.beq, Bool.and_assoc]
  rw [h, k]
theorem C81_eq_Matrix4x4 (a b : Matrix4x4 S) : Src.eq S (rep a) (rep b) = some (a == b) := by
  have h : Src.eq S (rep a) (rep b) = some (a.m[0] == b.m[0] && (a.m[1] == b.m[1] && (a.m[2] == b.m[2] && (a.m[3] == b.m[3] && (a.m[4] == b.m[4] && (a.m[5] == b.m[5] && (a.m[6] == b.m[6] && (a.m[7] == b.m[7] && (a.m[8] == b.m[8] && (a.m[9] == b.m[9] && (a.m[10] == b.m[10] && (a.m[11] == b.m[11] && (a.m[12] == b.m[12] && (a.m[13] == b.m[13] && (a.m[14] == b.m[14] && (a.m[15] == b.m[15])))))))))))))))) := by kernel_rfl
  have k : (a == b) = (a.m[0] == b.m[0] && (a.m[1] == b.m[1] && (a.m[2] == b.m[2] && (a.m[3] == b.m[3] && (a.m[4] == b.m[4] && (a.m[5] == b.m[5] && (a.m[6] == b.m[6] && (a.m[7] == b.m[7] && (a.m[8] == b.m[8] && (a.m[9] == b.m[9] && (a.m[10] == b.m[10] && (a.m[11] == b.m[11] && (a.m[12] == b.m[12] && (a.m[13] == b.m[13] && (a.m[14] == b.m[14] && (a.m[15] == b.m[15])))))))))))))))) := by simp only [BEq.beq, Bool.and_assoc]
  rw [h, k]
theorem C81_eq_Transform2 (a b : Transform2 S) : Src.eq S (rep a) (rep b) = some (a == b) := by
  have h : Src.eq S (rep a) (rep b) = some ((a.forward.m[0] == b.forward.m[0] && (a.forward.m[1] == b.forward.m[1] && (a.forward.m[2] == b.forward.m[2] && (a.forward.m[3] == b.forward.m[3] && (a.forward.m[4] == b.forward.m[4] && (a.forward.m[5] == b.forward.m[5] && (a.forward.m[6] == b.forward.m[6] && (a.forward.m[7] == b.forward.m[7] && (a.forward.m[8] == b.forward.m[8]))))))))) && (a.inverse.m[0] == b.inverse.m[0] && (a.inverse.m[1] == b.inverse.m[1] && (a.inverse.m[2] == b.inverse.m[2] && (a.inverse.m[3] == b.inverse.m[3] && (a.inverse.m[4] == b.inverse.m[4] && (a.inverse.m[5] == b.inverse.m[5] && (a.inverse.m[6] == b.inverse.m[6] && (a.inverse.m[7] == b.inverse.m[7] && (a.inverse.m[8] == b.inverse.m[8])))))))))) := by kernel_rfl
  have k : (a == b) = ((a.forward.m[0] == b.forward.m[0] && (a.forward.m[1] == b.forward.m[1] && (a.forward.m[2] == b.forward.m[2] && (a.forward.m[3] == b.forward.m[3] && (a.forward.m[4] == b.forward.m[4] && (a.forward.m[5] == b.forward.m[5] && (a.forward.m[6] == b.forward.m[6] && (a.forward.m[7] == b.forward.m[7] && (a.forward.m[8] == b.forward.m[8]))))))))) && (a.inverse.m[0] == b.inverse.m[0] && (a.inverse.m[1] == b.inverse.m[1] && (a.inverse.m[2] == b.inverse.m[2] && (a.inverse.m[3] == b.inverse.m[3] && (a.inverse.m[4] == b.inverse.m[4] && (a.inverse.m[5] == b.inverse.m[5] && (a.inverse.m[6] == b.inverse.m[6] && (a.inverse.m[7] == b.inverse.m[7] && (a.inverse.m[8] == b.inverse.m[8])))))))))) := by simp only [BEq.beq, Bool.and_assoc]
  rw [h, k]
theorem C81_eq_Transform3 (a b : Transform3 S) : Src.eq S (rep a) (rep b) = some (a == b) := by
  have h : Src.eq S (rep a) (rep b) = some ((a.forward.m[0] == b.forward.m[0] && (a.forward.m[1] == b.forward.m[1] && (a.forward.m[2] == b.forward.m[2] && (a.forward.m[3] == b.forward.m[3] && (a.forward.m[4] == b.forward.m[4] && (a.forward.m[5] == b.forward.m[5] && (a.forward.m[6] == b.forward.m[6] && (a.forward.m[7] == b.forward.m[7] && (a.forward.m[8] == b.forward.m[8] && (a.forward.m[9] == b.forward.m[9] && (a.forward.m[10] == b.forward.m[10] && (a.forward.m[11] == b.forward.m[11] && (a.forward.m[12] == b.forward.m[12] && (a.forward.m[13] == b.forward.m[13] && (a.forward.m[14] == b.forward.m[14] && (a.forward.m[15] == b.forward.m[15])))))))))))))))) && (a.inverse.m[0] == b.inverse.m[0] && (a.inverse.m[1] == b.inverse.m[1] && (a.inverse.m[2] == b.inverse.m[2] && (a.inverse.m[3] == b.inverse.m[3] && (a.inverse.m[4] == b.inverse.m[4] && (a.inverse.m[5] == b.inverse.m[5] && (a.inverse.m[6] == b.inverse.m[6] && (a.inverse.m[7] == b.inverse.m[7] && (a.inverse.m[8] == b.inverse.m[8] && (a.inverse.m[9] == b.inverse.m[9] && (a.inverse.m[10] == b.inverse.m[10] && (a.inverse.m[11] == b.inverse.m[11] && (a.inverse.m[12] == b.inverse.m[12] && (a.inverse.m[13] == b.inverse.m[13] && (a.inverse.m[14] == b.inverse.m[14] && (a.inverse.m[15] == b.inverse.m[15]))))))))))))))))) := by kernel_rfl
  have k : (a == b) = ((a.forward.m[0] == b.forward.m[0] && (a.forward.m[1] == b.forward.m[1] && (a.forward.m[2] == b.forward.m[2] && (a.forward.m[3] == b.forward.m[3] && (a.forward.m[4] == b.forward.m[4] && (a.forward.m[5] == b.forward.m[5] && (a.forward.m[6] == b.forward.m[6] && (a.forward.m[7] == b.forward.m[7] && (a.forward.m[8] == b.forward.m[8] && (a.forward.m[9] == b.forward.m[9] && (a.forward.m[10] == b.forward.m[10] && (a.forward.m[11] == b.forward.m[11] && (a.forward.m[12] == b.forward.m[12] && (a.forward.m[13] == b.forward.m[13] && (a.forward.m[14] == b.forward.m[14] && (a.forward.m[15] == b.forward.m[15])))))))))))))))) && (a.inverse.m[0] == b.inverse.m[0] && (a.inverse.m[1] == b.inverse.m[1] && (a.inverse.m[2] == b.inverse.m[2] && (a.inverse.m[3] == b.inverse.m[3] && (a.inverse.m[4] == b.inverse.m[4] && (a.inverse.m[5] == b.inverse.m[5] && (a.inverse.m[6] == b.inverse.m[6] && (a.inverse.m[7] == b.inverse.m[7] && (a.inverse.m[8] == b.inverse.m[8] && (a.inverse.m[9] == b.inverse.m[9] && (a.inverse.m[10] == b.inverse.m[10] && (a.inverse.m[11] == b.inverse.m[11] && (a.inverse.m[12] == b.inverse.m[12] && (a.inverse.m[13] == b.inverse.m[13] && (a.inverse.m[14] == b.inverse.m[14] && (a.inverse.m[15] == b.inverse.m[15]))))))))))))))))) := by simp only [BEq.beq, Bool.and_assoc]
  rw [h, k]
theorem C81_eq_Dimension2 (a b : Dimension2) : Src.eq S (rep a) (rep b) = some (decide (a = b)) := by
  cases a <;> cases b <;> kernel_rfl
theorem C81_eq_Dimension3 (a b : Dimension3) : Src.eq S (rep a) (rep b) = some (decide (a = b)) := by
  cases a <;> cases b <;> kernel_rfl
theorem C81_eq_NonInvertibleMatrixError :
    Src.eq S (.obj (i!"NonInvertibleMatrixError") []) (.obj (i!"NonInvertibleMatrixError") []) = some true := by
  kernel_rfl

end VecMath.Rust
