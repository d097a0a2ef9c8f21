import Verif.Rust.Inhabit
/-! # The values of the types declared in the source text are the values of the model

Generated by `tools/gen/typing.py`. -/

namespace VecMath.Rust
open VecMath
variable {S : Type}

/-- The values of the type `Vector2` of the source text are the values of the model. -/
theorem C82_values_Vector2 (p : Prim) (l : List Ty) (v : Val S) :
    Val.Is Src.crate p.id 9 (.path (i!"Vector2") l) v ↔ ∃ a : Vector2 S, v = rep a :=
  ⟨is_Vector2 p l 4 v, fun ⟨a, h⟩ => h ▸ has_Vector2 p l 4 a⟩

/-- The values of the type `Vector3` of the source text are the values of the model. -/
theorem C82_values_Vector3 (p : Prim) (l : List Ty) (v : Val S) :
    Val.Is Src.crate p.id 9 (.path (i!"Vector3") l) v ↔ ∃ a : Vector3 S, v = rep a :=
  ⟨is_Vector3 p l 4 v, fun ⟨a, h⟩ => h ▸ has_Vector3 p l 4 a⟩

/-- The values of the type `Point2` of the source text are the values of the model. -/
theorem C82_values_Point2 (p : Prim) (l : List Ty) (v : Val S) :
    Val.Is Src.crate p.id 9 (.path (i!"Point2") l) v ↔ ∃ a : Point2 S, v = rep a :=
  ⟨is_Point2 p l 4 v, fun ⟨a, h⟩ => h ▸ has_Point2 p l 4 a⟩

/-- The values of the type `Point3` of the source text are the values of the model. -/
theorem C82_values_Point3 (p : Prim) (l : List Ty) (v : Val S) :
    Val.Is Src.crate p.id 9 (.path (i!"Point3") l) v ↔ ∃ a : Point3 S, v = rep a :=
  ⟨is_Point3 p l 4 v, fun ⟨a, h⟩ => h ▸ has_Point3 p l 4 a⟩

/-- The values of the type `Ray2` of the source text are the values of the model. -/
theorem C82_values_Ray2 (p : Prim) (l : List Ty) (v : Val S) :
    Val.Is Src.crate p.id 9 (.path (i!"Ray2") l) v ↔ ∃ a : Ray2 S, v = rep a :=
  ⟨is_Ray2 p l 3 v, fun ⟨a, h⟩ => h ▸ has_Ray2 p l 3 a⟩

/-- The values of the type `Ray3` of the source text are the values of the model. -/
theorem C82_values_Ray3 (p : Prim) (l : List Ty) (v : Val S) :
    Val.Is Src.crate p.id 9 (.path (i!"Ray3") l) v ↔ ∃ a : Ray3 S, v = rep a :=
  ⟨is_Ray3 p l 3 v, fun ⟨a, h⟩ => h ▸ has_Ray3 p l 3 a⟩

/-- The values of the type `BoundingBox2` of the source text are the values of the model. -/
theorem C82_values_BoundingBox2 (p : Prim) (l : List Ty) (v : Val S) :
    Val.Is Src.crate p.id 9 (.path (i!"BoundingBox2") l) v ↔ ∃ a : BoundingBox2 S, v = rep a :=
  ⟨is_BoundingBox2 p l 3 v, fun ⟨a, h⟩ => h ▸ has_BoundingBox2 p l 3 a⟩

/-- The values of the type `BoundingBox3` of the source text are the values of the model. -/
theorem C82_values_BoundingBox3 (p : Prim) (l : List Ty) (v : Val S) :
    Val.Is Src.crate p.id 9 (.path (i!"BoundingBox3") l) v ↔ ∃ a : BoundingBox3 S, v = rep a :=
  ⟨is_BoundingBox3 p l 3 v, fun ⟨a, h⟩ => h ▸ has_BoundingBox3 p l 3 a⟩

/-- The values of the type `Matrix3x3` of the source text are the values of the model. -/
theorem C82_values_Matrix3x3 (p : Prim) (l : List Ty) (v : Val S) :
    Val.Is Src.crate p.id 9 (.path (i!"Matrix3x3") l) v ↔ ∃ a : Matrix3x3 S, v = rep a :=
  ⟨is_Matrix3x3 p l 4 v, fun ⟨a, h⟩ => h ▸ has_Matrix3x3 p l 4 a⟩

/-- The values of the type `Matrix4x4` of the source text are the values of the model. -/
theorem C82_values_Matrix4x4 (p : Prim) (l : List Ty) (v : Val S) :
    Val.Is Src.crate p.id 9 (.path (i!"Matrix4x4") l) v ↔ ∃ a : Matrix4x4 S, v = rep a :=
  ⟨is_Matrix4x4 p l 4 v, fun ⟨a, h⟩ => h ▸ has_Matrix4x4 p l 4 a⟩

/-- The values of the type `Transform2` of the source text are the values of the model. -/
theorem C82_values_Transform2 (p : Prim) (l : List Ty) (v : Val S) :
    Val.Is Src.crate p.id 9 (.path (i!"Transform2") l) v ↔ ∃ a : Transform2 S, v = rep a :=
  ⟨is_Transform2 p l 3 v, fun ⟨a, h⟩ => h ▸ has_Transform2 p l 3 a⟩

/-- The values of the type `Transform3` of the source text are the values of the model. -/
theorem C82_values_Transform3 (p : Prim) (l : List Ty) (v : Val S) :
    Val.Is Src.crate p.id 9 (.path (i!"Transform3") l) v ↔ ∃ a : Transform3 S, v = rep a :=
  ⟨is_Transform3 p l 3 v, fun ⟨a, h⟩ => h ▸ has_Transform3 p l 3 a⟩

/-- The values of the type `Dimension2` of the source text are the values of the model. -/
theorem C82_values_Dimension2 (p : Prim) (l : List Ty) (v : Val S) :
    Val.Is Src.crate p.id 9 (.path (i!"Dimension2") l) v ↔ ∃ a : Dimension2, v = rep a :=
  ⟨is_Dimension2 p l 7 v, fun ⟨a, h⟩ => h ▸ has_Dimension2 p l 7 a⟩

/-- The values of the type `Dimension3` of the source text are the values of the model. -/
theorem C82_values_Dimension3 (p : Prim) (l : List Ty) (v : Val S) :
    Val.Is Src.crate p.id 9 (.path (i!"Dimension3") l) v ↔ ∃ a : Dimension3, v = rep a :=
  ⟨is_Dimension3 p l 7 v, fun ⟨a, h⟩ => h ▸ has_Dimension3 p l 7 a⟩

/-- The values of the type `u32`. -/
theorem C82_values_u32 (p : Prim) (l : List Ty) (v : Val S) :
    Val.Is Src.crate p.id 9 (.path (i!"u32") l) v ↔ ∃ a : UInt32, v = rep a :=
  ⟨is_u32 p l 8 v, fun ⟨a, h⟩ => h ▸ has_u32 p l 8 a⟩

/-- The values of the scalar type. -/
theorem C82_values_S (p : Prim) (l : List Ty) (v : Val S) :
    Val.Is Src.crate p.id 9 (.path (i!"S") l) v ↔ ∃ s : S, v = .sc s :=
  ⟨is_S p l 8 v, fun ⟨s, h⟩ => h ▸ has_S p l 8 s⟩

end VecMath.Rust
