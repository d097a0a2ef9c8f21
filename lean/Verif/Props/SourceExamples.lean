import Verif.Props.SourceTotal
import Verif.Props.SourceValues
import Verif.Props.FloatExamples
/-! # The source text at work: concrete cases for C81 and C82 -/

namespace VecMath.Rust
open VecMath Scalar

/-- `length(vector2f(3.0, 4.0))`, evaluated from the source text in f32, is exactly 5. -/
example (b : Build) : ∃ l : F32, Src.free F32 .f32 b (i!"length") [rep v34] = .ok (.sc l) .unit ∧ Exactly l 5 :=
  ⟨_, C81_length_Vector2 .f32 b v34, length_v34⟩

/-- The crate in the source text has 134 `impl` blocks and 30 free functions, with 312 functions in all. -/
example : Src.crate.impls.length = 134 ∧ Src.crate.fns.length = 30 ∧
    (Src.crate.impls.map fun i => i.fns.length).sum + Src.crate.fns.length = 312 := by
  refine ⟨by kernel_rfl, by kernel_rfl, by kernel_rfl⟩

variable {S : Type} [Scalar S]

/-- The hypothesis of C82 is met: a box and an index are arguments of `corner`, … -/
example (p : Prim) (box : BoundingBox3 S) (i : UInt32) :
    ArgsAre Src.crate p.id [(i!"Self", .path (i!"BoundingBox3") [.path (i!"S") []])]
      [(i!"self", .path (i!"Self") []), (i!"index", .path (i!"u32") [])] [(rep box : Val S), rep i] :=
  ⟨_, _, rfl, has_BoundingBox3 p _ 3 box, _, _, rfl, has_u32 p _ 8 i, rfl⟩

/-- … and the functions that may panic do, when the index is out of range: `corner(8)` in a debug build. -/
example (p : Prim) (box : BoundingBox3 S) :
    Src.method S p .debug (i!"corner") (rep box) [rep (8 : UInt32)] = .panic .debugAssert :=
  C81_BoundingBox3_corner p .debug box 8

end VecMath.Rust
