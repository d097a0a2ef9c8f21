import Verif.Rust.Derive
import Verif.Rust.Tactic
namespace VecMath.Rust
open VecMath Scalar
variable {S : Type} [Scalar S]
theorem C81_eq_Vector2 (a b : Vector2 S) : Src.eq (rep a) (rep b) = some (a == b) := by kernel_rfl
theorem C81_eq_Vector3 (a b : Vector3 S) : Src.eq (rep a) (rep b) = some (a == b) := by
  have h : Src.eq (rep a) (rep b) = some (a.x == b.x && (a.y == b.y && a.z == b.z)) := by kernel_rfl
  rw [h, ← Bool.and_assoc]; rfl
theorem C81_eq_Point2 (a b : Point2 S) : Src.eq (rep a) (rep b) = some (a == b) := by kernel_rfl
theorem C81_eq_Point3 (a b : Point3 S) : Src.eq (rep a) (rep b) = some (a == b) := by
  have h : Src.eq (rep a) (rep b) = some (a.x == b.x && (a.y == b.y && a.z == b.z)) := by kernel_rfl
  rw [h, ← Bool.and_assoc]; rfl
theorem C81_eq_Ray2 (a b : Ray2 S) : Src.eq (rep a) (rep b) = some (a == b) := by kernel_rfl
theorem C81_eq_BoundingBox2 (a b : BoundingBox2 S) : Src.eq (rep a) (rep b) = some (a == b) := by kernel_rfl
theorem C81_eq_Matrix3x3 (a b : Matrix3x3 S) : Src.eq (rep a) (rep b) = some (a == b) := by
  have h : Src.eq (rep a) (rep b) = some (a.m[0] == b.m[0] && (a.m[1] == b.m[1] && (a.m[2] == b.m[2] &&
    (a.m[3] == b.m[3] && (a.m[4] == b.m[4] && (a.m[5] == b.m[5] &&
    (a.m[6] == b.m[6] && (a.m[7] == b.m[7] && a.m[8] == b.m[8])))))))) := by kernel_rfl
  rw [h]; simp only [← Bool.and_assoc]; rfl
theorem C81_eq_Dimension2 (a b : Dimension2) : Src.eq (rep a : Val S) (rep b) = some (decide (a = b)) := by
  cases a <;> cases b <;> kernel_rfl
end VecMath.Rust
