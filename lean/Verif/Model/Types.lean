import Verif.Model.Scalar
/-!
# Data types

The structs of the crate and their derived `PartialEq` (field by field, in declaration order).
-/

namespace VecMath

/-- `struct Vector2<S>` (src/vector2.rs:20-24). -/
@[ext] structure Vector2 (S : Type) where
  x : S
  y : S
  deriving Repr

/-- `struct Vector3<S>` (src/vector3.rs:20-25). -/
@[ext] structure Vector3 (S : Type) where
  x : S
  y : S
  z : S
  deriving Repr

/-- `struct Point2<S>` (src/point2.rs:20-24). -/
@[ext] structure Point2 (S : Type) where
  x : S
  y : S
  deriving Repr

/-- `struct Point3<S>` (src/point3.rs:20-25). -/
@[ext] structure Point3 (S : Type) where
  x : S
  y : S
  z : S
  deriving Repr

/-- `struct Ray2<S>` (src/ray2.rs:18-22). -/
@[ext] structure Ray2 (S : Type) where
  origin : Point2 S
  direction : Vector2 S
  deriving Repr

/-- `struct Ray3<S>` (src/ray3.rs:18-22). -/
@[ext] structure Ray3 (S : Type) where
  origin : Point3 S
  direction : Vector3 S
  deriving Repr

/-- `struct BoundingBox2<S>` (src/boundingbox2.rs:20-24). -/
@[ext] structure BoundingBox2 (S : Type) where
  min : Point2 S
  max : Point2 S
  deriving Repr

/-- `struct BoundingBox3<S>` (src/boundingbox3.rs:20-24). -/
@[ext] structure BoundingBox3 (S : Type) where
  min : Point3 S
  max : Point3 S
  deriving Repr

/-- `struct Matrix3x3<S> { m: [S; 9] }` (src/transform2.rs:21-24). -/
@[ext] structure Matrix3x3 (S : Type) where
  m : Vector S 9
  deriving Repr

/-- `struct Matrix4x4<S> { m: [S; 16] }` (src/transform3.rs:21-24). -/
@[ext] structure Matrix4x4 (S : Type) where
  m : Vector S 16
  deriving Repr

/-- `struct Transform2<S>` (src/transform2.rs:33-37). -/
@[ext] structure Transform2 (S : Type) where
  forward : Matrix3x3 S
  inverse : Matrix3x3 S
  deriving Repr

/-- `struct Transform3<S>` (src/transform3.rs:33-37). -/
@[ext] structure Transform3 (S : Type) where
  forward : Matrix4x4 S
  inverse : Matrix4x4 S
  deriving Repr

/-- `std::ops::Range<S>` (`start..end`), used as a plain pair of bounds. -/
@[ext] structure Range (S : Type) where
  start : S
  stop : S
  deriving Repr

variable {S : Type} [Scalar S]

/-! `#[derive(PartialEq)]` compares the fields with `==` and joins with `&&`. -/

instance : BEq (Vector2 S) := ⟨fun a b => a.x == b.x && a.y == b.y⟩
instance : BEq (Vector3 S) := ⟨fun a b => a.x == b.x && a.y == b.y && a.z == b.z⟩
instance : BEq (Point2 S) := ⟨fun a b => a.x == b.x && a.y == b.y⟩
instance : BEq (Point3 S) := ⟨fun a b => a.x == b.x && a.y == b.y && a.z == b.z⟩
instance : BEq (Ray2 S) := ⟨fun a b => a.origin == b.origin && a.direction == b.direction⟩
instance : BEq (Ray3 S) := ⟨fun a b => a.origin == b.origin && a.direction == b.direction⟩
instance : BEq (BoundingBox2 S) := ⟨fun a b => a.min == b.min && a.max == b.max⟩
instance : BEq (BoundingBox3 S) := ⟨fun a b => a.min == b.min && a.max == b.max⟩
/-- Array equality is elementwise. -/
instance : BEq (Matrix3x3 S) :=
  ⟨fun a b => a.m[0] == b.m[0] && a.m[1] == b.m[1] && a.m[2] == b.m[2] &&
    a.m[3] == b.m[3] && a.m[4] == b.m[4] && a.m[5] == b.m[5] &&
    a.m[6] == b.m[6] && a.m[7] == b.m[7] && a.m[8] == b.m[8]⟩
/-- Array equality is elementwise. -/
instance : BEq (Matrix4x4 S) :=
  ⟨fun a b => a.m[0] == b.m[0] && a.m[1] == b.m[1] && a.m[2] == b.m[2] && a.m[3] == b.m[3] &&
    a.m[4] == b.m[4] && a.m[5] == b.m[5] && a.m[6] == b.m[6] && a.m[7] == b.m[7] &&
    a.m[8] == b.m[8] && a.m[9] == b.m[9] && a.m[10] == b.m[10] && a.m[11] == b.m[11] &&
    a.m[12] == b.m[12] && a.m[13] == b.m[13] && a.m[14] == b.m[14] && a.m[15] == b.m[15]⟩
instance : BEq (Transform2 S) := ⟨fun a b => a.forward == b.forward && a.inverse == b.inverse⟩
instance : BEq (Transform3 S) := ⟨fun a b => a.forward == b.forward && a.inverse == b.inverse⟩

/-- How a Rust function can panic in this crate. -/
inductive Panic
  /-- a failed `debug_assert!` -/
  | debugAssert
  /-- array index out of bounds -/
  | indexOutOfBounds
  deriving DecidableEq, Repr

/-- Build profile: `debug_assert!` and integer-overflow checks are on in `debug`, off in `release`
(Cargo defaults; `Cargo.toml` only sets `lto`). -/
inductive Build | debug | release
  deriving DecidableEq, Repr

end VecMath
