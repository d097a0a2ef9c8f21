import Verif.Rust.Sem
import Verif.Rust.Source
import Verif.Model.Transform2
import Verif.Model.Transform3
/-! # How the values of the model are represented in the evaluator -/

namespace VecMath.Rust
open VecMath
variable {S : Type}

/-- The Rust value of a value of the model. -/
class Rep (S T : Type) where
  rep : T → Val S
export Rep (rep)

instance : Rep S (Vector2 S) := ⟨fun v => .obj (i!"Vector2") [(i!"x", .sc v.x), (i!"y", .sc v.y)]⟩
instance : Rep S (Vector3 S) := ⟨fun v => .obj (i!"Vector3") [(i!"x", .sc v.x), (i!"y", .sc v.y), (i!"z", .sc v.z)]⟩
instance : Rep S (Point2 S) := ⟨fun v => .obj (i!"Point2") [(i!"x", .sc v.x), (i!"y", .sc v.y)]⟩
instance : Rep S (Point3 S) := ⟨fun v => .obj (i!"Point3") [(i!"x", .sc v.x), (i!"y", .sc v.y), (i!"z", .sc v.z)]⟩
instance : Rep S (Ray2 S) := ⟨fun r => .obj (i!"Ray2") [(i!"origin", rep r.origin), (i!"direction", rep r.direction)]⟩
instance : Rep S (Ray3 S) := ⟨fun r => .obj (i!"Ray3") [(i!"origin", rep r.origin), (i!"direction", rep r.direction)]⟩
instance : Rep S (BoundingBox2 S) := ⟨fun b => .obj (i!"BoundingBox2") [(i!"min", rep b.min), (i!"max", rep b.max)]⟩
instance : Rep S (BoundingBox3 S) := ⟨fun b => .obj (i!"BoundingBox3") [(i!"min", rep b.min), (i!"max", rep b.max)]⟩
instance : Rep S (Vector S 9) := ⟨fun m => .arr [.sc m[0], .sc m[1], .sc m[2], .sc m[3], .sc m[4], .sc m[5], .sc m[6],
  .sc m[7], .sc m[8]]⟩
instance : Rep S (Vector S 16) := ⟨fun m => .arr [.sc m[0], .sc m[1], .sc m[2], .sc m[3], .sc m[4], .sc m[5], .sc m[6],
  .sc m[7], .sc m[8], .sc m[9], .sc m[10], .sc m[11], .sc m[12], .sc m[13], .sc m[14], .sc m[15]]⟩
instance : Rep S (Matrix3x3 S) := ⟨fun m => .obj (i!"Matrix3x3") [(i!"m", rep m.m)]⟩
instance : Rep S (Matrix4x4 S) := ⟨fun m => .obj (i!"Matrix4x4") [(i!"m", rep m.m)]⟩
instance : Rep S (Transform2 S) := ⟨fun t => .obj (i!"Transform2") [(i!"forward", rep t.forward), (i!"inverse", rep t.inverse)]⟩
instance : Rep S (Transform3 S) := ⟨fun t => .obj (i!"Transform3") [(i!"forward", rep t.forward), (i!"inverse", rep t.inverse)]⟩
instance : Rep S (Range S) := ⟨fun r => .rng (.sc r.start) (.sc r.stop) false⟩
instance : Rep S Bool := ⟨.bool⟩
/-- A `u32`. -/
instance : Rep S UInt32 := ⟨fun n => .int n.toNat⟩
instance : Rep S Dimension2 := ⟨fun d => .enm (i!"Dimension2") (match d with | .X => i!"X" | .Y => i!"Y")⟩
instance : Rep S Dimension3 := ⟨fun d => .enm (i!"Dimension3") (match d with | .X => i!"X" | .Y => i!"Y" | .Z => i!"Z")⟩
instance {T : Type} [Rep S T] : Rep S (Option T) := ⟨fun o => match o with
  | some v => .obj (i!"Some") [(0, rep v)]
  | none => .obj (i!"None") []⟩
instance {T : Type} [Rep S T] : Rep S (Except NonInvertibleMatrixError T) := ⟨fun r => match r with
  | .ok v => .obj (i!"Ok") [(0, rep v)]
  | .error _ => .obj (i!"Err") [(0, .obj (i!"NonInvertibleMatrixError") [])]⟩

/-- The outcome of a function that may panic; `self` is the final value of its receiver. -/
def outOf {T : Type} (r : Except Panic T) (v self : T → Val S) : Out S := match r with
  | .ok t => .ok (v t) (self t)
  | .error p => .panic p

/-- The two primitive types the crate is a library for. -/
inductive Prim | f32 | f64
def Prim.id : Prim → Ident
  | .f32 => i!"f32"
  | .f64 => i!"f64"

namespace Src
variable (S) [Scalar S]

/-- Call `recv.name(args)`, a method of the crate (the operators are methods too: `a + b` is `a.add(b)`). -/
noncomputable def method (p : Prim) (b : Build) (name : Ident) (recv : Val S) (args : List (Val S)) : Out S :=
  Rust.method Src.crate p.id b name recv args
/-- Call `ty::name(args)`, an associated function of the crate. -/
noncomputable def assoc (p : Prim) (b : Build) (ty name : Ident) (args : List (Val S)) : Out S :=
  Rust.assoc Src.crate p.id b ty name args
/-- Call `name(args)`, a free function of the crate. -/
noncomputable def free (p : Prim) (b : Build) (name : Ident) (args : List (Val S)) : Out S :=
  Rust.free Src.crate p.id b name args

end Src
end VecMath.Rust
