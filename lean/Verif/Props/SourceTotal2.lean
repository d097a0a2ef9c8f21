import Verif.Rust.Inhabit
import Verif.Rust.Total
import Verif.Props.Source1
import Verif.Props.Source2
import Verif.Props.Source3
import Verif.Props.SourceT2
import Verif.Props.SourceT3
/-! # No function of the source text panics or runs forever, part 2

Generated by `tools/gen/total.py`. -/

namespace VecMath.Rust
open VecMath
variable {S : Type} [Scalar S]

/-- `ScalarConst for f32`: `half` -/
theorem total_2_0 (p : Prim) (b : Build) : FnTotal S p b (Src.impl 2) (Src.fn 2 0) := by
  intro args h
  have e : ArgsAre Src.crate p.id [((i!"Self"), (Src.impl 2).target)] (Src.fn 2 0).params args =
      (args = []) := by kernel_rfl
  rw [e] at h
  obtain rfl := h
  have r : Src.run S p b (headTy Src.crate (Prim.id p) (Src.impl 2).target) (Src.fn 2 0) [] =
      Src.assoc S p b (i!"S") (i!"half") [] := by cases p <;> kernel_rfl
  exact .inl ⟨_, _, r.trans (C81_S_half p b)⟩

/-- `ScalarConst for f32`: `two` -/
theorem total_2_1 (p : Prim) (b : Build) : FnTotal S p b (Src.impl 2) (Src.fn 2 1) := by
  intro args h
  have e : ArgsAre Src.crate p.id [((i!"Self"), (Src.impl 2).target)] (Src.fn 2 1).params args =
      (args = []) := by kernel_rfl
  rw [e] at h
  obtain rfl := h
  have r : Src.run S p b (headTy Src.crate (Prim.id p) (Src.impl 2).target) (Src.fn 2 1) [] =
      Src.assoc S p b (i!"S") (i!"two") [] := by cases p <;> kernel_rfl
  exact .inl ⟨_, _, r.trans (C81_S_two p b)⟩

/-- `Mul<Vector2f> for f32`: `mul` -/
theorem total_23_0 (p : Prim) (b : Build) : FnTotal S p b (Src.impl 23) (Src.fn 23 0) := by
  intro args h
  have e : ArgsAre Src.crate p.id [((i!"Self"), (Src.impl 23).target)] (Src.fn 23 0).params args =
      (∃ v0 r0, args = v0 :: r0 ∧ Val.Is Src.crate p.id 9 (.path (i!"f32") []) v0 ∧ ∃ v1 r1, r0 = v1 :: r1 ∧ Val.Is Src.crate p.id 9 (.path (i!"Vector2f") []) v1 ∧ r1 = []) := by kernel_rfl
  rw [e] at h
  obtain ⟨_, _, rfl, h0, _, _, rfl, h1, rfl⟩ := h
  obtain ⟨rfl, a0, rfl⟩ := is_f32 p _ 8 _ h0
  obtain ⟨-, a1, rfl⟩ := is_Vector2f .f32 _ 3 _ h1
  have r : Src.run S .f32 b (headTy Src.crate (Prim.id .f32) (Src.impl 23).target) (Src.fn 23 0) [.sc a0, rep a1] =
      Src.method S .f32 b (i!"mul") (.sc a0) [rep a1] := by kernel_rfl
  exact .inl ⟨_, _, r.trans (C81_scalar_mul_Vector2 .f32 b a0 a1)⟩

/-- `Vector3<S>`: `new` -/
theorem total_28_0 (p : Prim) (b : Build) : FnTotal S p b (Src.impl 28) (Src.fn 28 0) := by
  intro args h
  have e : ArgsAre Src.crate p.id [((i!"Self"), (Src.impl 28).target)] (Src.fn 28 0).params args =
      (∃ v0 r0, args = v0 :: r0 ∧ Val.Is Src.crate p.id 9 (.path (i!"S") []) v0 ∧ ∃ v1 r1, r0 = v1 :: r1 ∧ Val.Is Src.crate p.id 9 (.path (i!"S") []) v1 ∧ ∃ v2 r2, r1 = v2 :: r2 ∧ Val.Is Src.crate p.id 9 (.path (i!"S") []) v2 ∧ r2 = []) := by kernel_rfl
  rw [e] at h
  obtain ⟨_, _, rfl, h0, _, _, rfl, h1, _, _, rfl, h2, rfl⟩ := h
  obtain ⟨a0, rfl⟩ := is_S p _ 8 _ h0
  obtain ⟨a1, rfl⟩ := is_S p _ 8 _ h1
  obtain ⟨a2, rfl⟩ := is_S p _ 8 _ h2
  have r : Src.run S p b (headTy Src.crate (Prim.id p) (Src.impl 28).target) (Src.fn 28 0) [.sc a0, .sc a1, .sc a2] =
      Src.assoc S p b (i!"Vector3") (i!"new") [.sc a0, .sc a1, .sc a2] := by cases p <;> kernel_rfl
  exact .inl ⟨_, _, r.trans (C81_Vector3_new p b a0 a1 a2)⟩

/-- `Vector3<S>`: `zero` -/
theorem total_28_1 (p : Prim) (b : Build) : FnTotal S p b (Src.impl 28) (Src.fn 28 1) := by
  intro args h
  have e : ArgsAre Src.crate p.id [((i!"Self"), (Src.impl 28).target)] (Src.fn 28 1).params args =
      (args = []) := by kernel_rfl
  rw [e] at h
  obtain rfl := h
  have r : Src.run S p b (headTy Src.crate (Prim.id p) (Src.impl 28).target) (Src.fn 28 1) [] =
      Src.assoc S p b (i!"Vector3") (i!"zero") [] := by cases p <;> kernel_rfl
  exact .inl ⟨_, _, r.trans (C81_Vector3_zero p b)⟩

/-- `Vector3<S>`: `x_axis` -/
theorem total_28_2 (p : Prim) (b : Build) : FnTotal S p b (Src.impl 28) (Src.fn 28 2) := by
  intro args h
  have e : ArgsAre Src.crate p.id [((i!"Self"), (Src.impl 28).target)] (Src.fn 28 2).params args =
      (args = []) := by kernel_rfl
  rw [e] at h
  obtain rfl := h
  have r : Src.run S p b (headTy Src.crate (Prim.id p) (Src.impl 28).target) (Src.fn 28 2) [] =
      Src.assoc S p b (i!"Vector3") (i!"x_axis") [] := by cases p <;> kernel_rfl
  exact .inl ⟨_, _, r.trans (C81_Vector3_x_axis p b)⟩

/-- `Vector3<S>`: `y_axis` -/
theorem total_28_3 (p : Prim) (b : Build) : FnTotal S p b (Src.impl 28) (Src.fn 28 3) := by
  intro args h
  have e : ArgsAre Src.crate p.id [((i!"Self"), (Src.impl 28).target)] (Src.fn 28 3).params args =
      (args = []) := by kernel_rfl
  rw [e] at h
  obtain rfl := h
  have r : Src.run S p b (headTy Src.crate (Prim.id p) (Src.impl 28).target) (Src.fn 28 3) [] =
      Src.assoc S p b (i!"Vector3") (i!"y_axis") [] := by cases p <;> kernel_rfl
  exact .inl ⟨_, _, r.trans (C81_Vector3_y_axis p b)⟩

/-- `Vector3<S>`: `z_axis` -/
theorem total_28_4 (p : Prim) (b : Build) : FnTotal S p b (Src.impl 28) (Src.fn 28 4) := by
  intro args h
  have e : ArgsAre Src.crate p.id [((i!"Self"), (Src.impl 28).target)] (Src.fn 28 4).params args =
      (args = []) := by kernel_rfl
  rw [e] at h
  obtain rfl := h
  have r : Src.run S p b (headTy Src.crate (Prim.id p) (Src.impl 28).target) (Src.fn 28 4) [] =
      Src.assoc S p b (i!"Vector3") (i!"z_axis") [] := by cases p <;> kernel_rfl
  exact .inl ⟨_, _, r.trans (C81_Vector3_z_axis p b)⟩

/-- `Vector3<S>`: `axis` -/
theorem total_28_5 (p : Prim) (b : Build) : FnTotal S p b (Src.impl 28) (Src.fn 28 5) := by
  intro args h
  have e : ArgsAre Src.crate p.id [((i!"Self"), (Src.impl 28).target)] (Src.fn 28 5).params args =
      (∃ v0 r0, args = v0 :: r0 ∧ Val.Is Src.crate p.id 9 (.path (i!"Dimension3") []) v0 ∧ r0 = []) := by kernel_rfl
  rw [e] at h
  obtain ⟨_, _, rfl, h0, rfl⟩ := h
  obtain ⟨a0, rfl⟩ := is_Dimension3 p _ 7 _ h0
  have r : Src.run S p b (headTy Src.crate (Prim.id p) (Src.impl 28).target) (Src.fn 28 5) [rep a0] =
      Src.assoc S p b (i!"Vector3") (i!"axis") [rep a0] := by cases p <;> kernel_rfl
  exact .inl ⟨_, _, r.trans (C81_Vector3_axis p b a0)⟩

/-- `Vector3<S>`: `normalize` -/
theorem total_28_6 (p : Prim) (b : Build) : FnTotal S p b (Src.impl 28) (Src.fn 28 6) := by
  intro args h
  have e : ArgsAre Src.crate p.id [((i!"Self"), (Src.impl 28).target)] (Src.fn 28 6).params args =
      (∃ v0 r0, args = v0 :: r0 ∧ Val.Is Src.crate p.id 9 (.path (i!"Vector3") [.path (i!"S") []]) v0 ∧ r0 = []) := by kernel_rfl
  rw [e] at h
  obtain ⟨_, _, rfl, h0, rfl⟩ := h
  obtain ⟨a0, rfl⟩ := is_Vector3 p _ 4 _ h0
  have r : Src.run S p b (headTy Src.crate (Prim.id p) (Src.impl 28).target) (Src.fn 28 6) [rep a0] =
      Src.method S p b (i!"normalize") (rep a0) [] := by cases p <;> kernel_rfl
  exact .inl ⟨_, _, r.trans (C81_Vector3_normalize p b a0)⟩

/-- `Vector3<S>`: `min_dimension` -/
theorem total_28_7 (p : Prim) (b : Build) : FnTotal S p b (Src.impl 28) (Src.fn 28 7) := by
  intro args h
  have e : ArgsAre Src.crate p.id [((i!"Self"), (Src.impl 28).target)] (Src.fn 28 7).params args =
      (∃ v0 r0, args = v0 :: r0 ∧ Val.Is Src.crate p.id 9 (.path (i!"Vector3") [.path (i!"S") []]) v0 ∧ r0 = []) := by kernel_rfl
  rw [e] at h
  obtain ⟨_, _, rfl, h0, rfl⟩ := h
  obtain ⟨a0, rfl⟩ := is_Vector3 p _ 4 _ h0
  have r : Src.run S p b (headTy Src.crate (Prim.id p) (Src.impl 28).target) (Src.fn 28 7) [rep a0] =
      Src.method S p b (i!"min_dimension") (rep a0) [] := by cases p <;> kernel_rfl
  exact .inl ⟨_, _, r.trans (C81_Vector3_min_dimension p b a0)⟩

/-- `Vector3<S>`: `max_dimension` -/
theorem total_28_8 (p : Prim) (b : Build) : FnTotal S p b (Src.impl 28) (Src.fn 28 8) := by
  intro args h
  have e : ArgsAre Src.crate p.id [((i!"Self"), (Src.impl 28).target)] (Src.fn 28 8).params args =
      (∃ v0 r0, args = v0 :: r0 ∧ Val.Is Src.crate p.id 9 (.path (i!"Vector3") [.path (i!"S") []]) v0 ∧ r0 = []) := by kernel_rfl
  rw [e] at h
  obtain ⟨_, _, rfl, h0, rfl⟩ := h
  obtain ⟨a0, rfl⟩ := is_Vector3 p _ 4 _ h0
  have r : Src.run S p b (headTy Src.crate (Prim.id p) (Src.impl 28).target) (Src.fn 28 8) [rep a0] =
      Src.method S p b (i!"max_dimension") (rep a0) [] := by cases p <;> kernel_rfl
  exact .inl ⟨_, _, r.trans (C81_Vector3_max_dimension p b a0)⟩

/-- `Vector3<S>`: `floor` -/
theorem total_28_9 (p : Prim) (b : Build) : FnTotal S p b (Src.impl 28) (Src.fn 28 9) := by
  intro args h
  have e : ArgsAre Src.crate p.id [((i!"Self"), (Src.impl 28).target)] (Src.fn 28 9).params args =
      (∃ v0 r0, args = v0 :: r0 ∧ Val.Is Src.crate p.id 9 (.path (i!"Vector3") [.path (i!"S") []]) v0 ∧ r0 = []) := by kernel_rfl
  rw [e] at h
  obtain ⟨_, _, rfl, h0, rfl⟩ := h
  obtain ⟨a0, rfl⟩ := is_Vector3 p _ 4 _ h0
  have r : Src.run S p b (headTy Src.crate (Prim.id p) (Src.impl 28).target) (Src.fn 28 9) [rep a0] =
      Src.method S p b (i!"floor") (rep a0) [] := by cases p <;> kernel_rfl
  exact .inl ⟨_, _, r.trans (C81_Vector3_floor p b a0)⟩

/-- `Vector3<S>`: `ceil` -/
theorem total_28_10 (p : Prim) (b : Build) : FnTotal S p b (Src.impl 28) (Src.fn 28 10) := by
  intro args h
  have e : ArgsAre Src.crate p.id [((i!"Self"), (Src.impl 28).target)] (Src.fn 28 10).params args =
      (∃ v0 r0, args = v0 :: r0 ∧ Val.Is Src.crate p.id 9 (.path (i!"Vector3") [.path (i!"S") []]) v0 ∧ r0 = []) := by kernel_rfl
  rw [e] at h
  obtain ⟨_, _, rfl, h0, rfl⟩ := h
  obtain ⟨a0, rfl⟩ := is_Vector3 p _ 4 _ h0
  have r : Src.run S p b (headTy Src.crate (Prim.id p) (Src.impl 28).target) (Src.fn 28 10) [rep a0] =
      Src.method S p b (i!"ceil") (rep a0) [] := by cases p <;> kernel_rfl
  exact .inl ⟨_, _, r.trans (C81_Vector3_ceil p b a0)⟩

/-- `Vector3<S>`: `round` -/
theorem total_28_11 (p : Prim) (b : Build) : FnTotal S p b (Src.impl 28) (Src.fn 28 11) := by
  intro args h
  have e : ArgsAre Src.crate p.id [((i!"Self"), (Src.impl 28).target)] (Src.fn 28 11).params args =
      (∃ v0 r0, args = v0 :: r0 ∧ Val.Is Src.crate p.id 9 (.path (i!"Vector3") [.path (i!"S") []]) v0 ∧ r0 = []) := by kernel_rfl
  rw [e] at h
  obtain ⟨_, _, rfl, h0, rfl⟩ := h
  obtain ⟨a0, rfl⟩ := is_Vector3 p _ 4 _ h0
  have r : Src.run S p b (headTy Src.crate (Prim.id p) (Src.impl 28).target) (Src.fn 28 11) [rep a0] =
      Src.method S p b (i!"round") (rep a0) [] := by cases p <;> kernel_rfl
  exact .inl ⟨_, _, r.trans (C81_Vector3_round p b a0)⟩

/-- `Vector3<S>`: `trunc` -/
theorem total_28_12 (p : Prim) (b : Build) : FnTotal S p b (Src.impl 28) (Src.fn 28 12) := by
  intro args h
  have e : ArgsAre Src.crate p.id [((i!"Self"), (Src.impl 28).target)] (Src.fn 28 12).params args =
      (∃ v0 r0, args = v0 :: r0 ∧ Val.Is Src.crate p.id 9 (.path (i!"Vector3") [.path (i!"S") []]) v0 ∧ r0 = []) := by kernel_rfl
  rw [e] at h
  obtain ⟨_, _, rfl, h0, rfl⟩ := h
  obtain ⟨a0, rfl⟩ := is_Vector3 p _ 4 _ h0
  have r : Src.run S p b (headTy Src.crate (Prim.id p) (Src.impl 28).target) (Src.fn 28 12) [rep a0] =
      Src.method S p b (i!"trunc") (rep a0) [] := by cases p <;> kernel_rfl
  exact .inl ⟨_, _, r.trans (C81_Vector3_trunc p b a0)⟩

/-- `Vector3<S>`: `fract` -/
theorem total_28_13 (p : Prim) (b : Build) : FnTotal S p b (Src.impl 28) (Src.fn 28 13) := by
  intro args h
  have e : ArgsAre Src.crate p.id [((i!"Self"), (Src.impl 28).target)] (Src.fn 28 13).params args =
      (∃ v0 r0, args = v0 :: r0 ∧ Val.Is Src.crate p.id 9 (.path (i!"Vector3") [.path (i!"S") []]) v0 ∧ r0 = []) := by kernel_rfl
  rw [e] at h
  obtain ⟨_, _, rfl, h0, rfl⟩ := h
  obtain ⟨a0, rfl⟩ := is_Vector3 p _ 4 _ h0
  have r : Src.run S p b (headTy Src.crate (Prim.id p) (Src.impl 28).target) (Src.fn 28 13) [rep a0] =
      Src.method S p b (i!"fract") (rep a0) [] := by cases p <;> kernel_rfl
  exact .inl ⟨_, _, r.trans (C81_Vector3_fract p b a0)⟩

/-- `Vector3<S>`: `abs` -/
theorem total_28_14 (p : Prim) (b : Build) : FnTotal S p b (Src.impl 28) (Src.fn 28 14) := by
  intro args h
  have e : ArgsAre Src.crate p.id [((i!"Self"), (Src.impl 28).target)] (Src.fn 28 14).params args =
      (∃ v0 r0, args = v0 :: r0 ∧ Val.Is Src.crate p.id 9 (.path (i!"Vector3") [.path (i!"S") []]) v0 ∧ r0 = []) := by kernel_rfl
  rw [e] at h
  obtain ⟨_, _, rfl, h0, rfl⟩ := h
  obtain ⟨a0, rfl⟩ := is_Vector3 p _ 4 _ h0
  have r : Src.run S p b (headTy Src.crate (Prim.id p) (Src.impl 28).target) (Src.fn 28 14) [rep a0] =
      Src.method S p b (i!"abs") (rep a0) [] := by cases p <;> kernel_rfl
  exact .inl ⟨_, _, r.trans (C81_Vector3_abs p b a0)⟩

/-- `Vector3<S>`: `permute` -/
theorem total_28_15 (p : Prim) (b : Build) : FnTotal S p b (Src.impl 28) (Src.fn 28 15) := by
  intro args h
  have e : ArgsAre Src.crate p.id [((i!"Self"), (Src.impl 28).target)] (Src.fn 28 15).params args =
      (∃ v0 r0, args = v0 :: r0 ∧ Val.Is Src.crate p.id 9 (.path (i!"Vector3") [.path (i!"S") []]) v0 ∧ ∃ v1 r1, r0 = v1 :: r1 ∧ Val.Is Src.crate p.id 9 (.path (i!"Dimension3") []) v1 ∧ ∃ v2 r2, r1 = v2 :: r2 ∧ Val.Is Src.crate p.id 9 (.path (i!"Dimension3") []) v2 ∧ ∃ v3 r3, r2 = v3 :: r3 ∧ Val.Is Src.crate p.id 9 (.path (i!"Dimension3") []) v3 ∧ r3 = []) := by kernel_rfl
  rw [e] at h
  obtain ⟨_, _, rfl, h0, _, _, rfl, h1, _, _, rfl, h2, _, _, rfl, h3, rfl⟩ := h
  obtain ⟨a0, rfl⟩ := is_Vector3 p _ 4 _ h0
  obtain ⟨a1, rfl⟩ := is_Dimension3 p _ 7 _ h1
  obtain ⟨a2, rfl⟩ := is_Dimension3 p _ 7 _ h2
  obtain ⟨a3, rfl⟩ := is_Dimension3 p _ 7 _ h3
  have r : Src.run S p b (headTy Src.crate (Prim.id p) (Src.impl 28).target) (Src.fn 28 15) [rep a0, rep a1, rep a2, rep a3] =
      Src.method S p b (i!"permute") (rep a0) [rep a1, rep a2, rep a3] := by cases p <;> kernel_rfl
  exact .inl ⟨_, _, r.trans (C81_Vector3_permute p b a0 a1 a2 a3)⟩

/-- `Index<Dimension3> for Vector3<S>`: `index` -/
theorem total_29_0 (p : Prim) (b : Build) : FnTotal S p b (Src.impl 29) (Src.fn 29 0) := by
  intro args h
  have e : ArgsAre Src.crate p.id [((i!"Self"), (Src.impl 29).target)] (Src.fn 29 0).params args =
      (∃ v0 r0, args = v0 :: r0 ∧ Val.Is Src.crate p.id 9 (.path (i!"Vector3") [.path (i!"S") []]) v0 ∧ ∃ v1 r1, r0 = v1 :: r1 ∧ Val.Is Src.crate p.id 9 (.path (i!"Dimension3") []) v1 ∧ r1 = []) := by kernel_rfl
  rw [e] at h
  obtain ⟨_, _, rfl, h0, _, _, rfl, h1, rfl⟩ := h
  obtain ⟨a0, rfl⟩ := is_Vector3 p _ 4 _ h0
  obtain ⟨a1, rfl⟩ := is_Dimension3 p _ 7 _ h1
  have r : Src.run S p b (headTy Src.crate (Prim.id p) (Src.impl 29).target) (Src.fn 29 0) [rep a0, rep a1] =
      Src.method S p b (i!"index") (rep a0) [rep a1] := by cases p <;> kernel_rfl
  exact .inl ⟨_, _, r.trans (C81_Vector3_index p b a0 a1)⟩

/-- `IndexMut<Dimension3> for Vector3<S>`: `index_mut` -/
theorem total_30_0 (p : Prim) (b : Build) : FnTotal S p b (Src.impl 30) (Src.fn 30 0) := by
  intro args h
  have e : ArgsAre Src.crate p.id [((i!"Self"), (Src.impl 30).target)] (Src.fn 30 0).params args =
      (∃ v0 r0, args = v0 :: r0 ∧ Val.Is Src.crate p.id 9 (.path (i!"Vector3") [.path (i!"S") []]) v0 ∧ ∃ v1 r1, r0 = v1 :: r1 ∧ Val.Is Src.crate p.id 9 (.path (i!"Dimension3") []) v1 ∧ r1 = []) := by kernel_rfl
  rw [e] at h
  obtain ⟨_, _, rfl, h0, _, _, rfl, h1, rfl⟩ := h
  obtain ⟨a0, rfl⟩ := is_Vector3 p _ 4 _ h0
  obtain ⟨a1, rfl⟩ := is_Dimension3 p _ 7 _ h1
  have r : Src.run S p b (headTy Src.crate (Prim.id p) (Src.impl 30).target) (Src.fn 30 0) [rep a0, rep a1] =
      Src.method S p b (i!"index_mut") (rep a0) [rep a1] := by cases p <;> kernel_rfl
  obtain ⟨pl, h, -⟩ := C81_Vector3_index_mut p b a0 a1
  exact .inl ⟨_, _, r.trans h⟩

/-- `MinMax for Vector3<S>`: `min` -/
theorem total_31_0 (p : Prim) (b : Build) : FnTotal S p b (Src.impl 31) (Src.fn 31 0) := by
  intro args h
  have e : ArgsAre Src.crate p.id [((i!"Self"), (Src.impl 31).target)] (Src.fn 31 0).params args =
      (∃ v0 r0, args = v0 :: r0 ∧ Val.Is Src.crate p.id 9 (.path (i!"Vector3") [.path (i!"S") []]) v0 ∧ ∃ v1 r1, r0 = v1 :: r1 ∧ Val.Is Src.crate p.id 9 (.path (i!"Vector3") [.path (i!"S") []]) v1 ∧ r1 = []) := by kernel_rfl
  rw [e] at h
  obtain ⟨_, _, rfl, h0, _, _, rfl, h1, rfl⟩ := h
  obtain ⟨a0, rfl⟩ := is_Vector3 p _ 4 _ h0
  obtain ⟨a1, rfl⟩ := is_Vector3 p _ 4 _ h1
  have r : Src.run S p b (headTy Src.crate (Prim.id p) (Src.impl 31).target) (Src.fn 31 0) [rep a0, rep a1] =
      Src.method S p b (i!"min") (rep a0) [rep a1] := by cases p <;> kernel_rfl
  exact .inl ⟨_, _, r.trans (C81_Vector3_min p b a0 a1)⟩

/-- `MinMax for Vector3<S>`: `max` -/
theorem total_31_1 (p : Prim) (b : Build) : FnTotal S p b (Src.impl 31) (Src.fn 31 1) := by
  intro args h
  have e : ArgsAre Src.crate p.id [((i!"Self"), (Src.impl 31).target)] (Src.fn 31 1).params args =
      (∃ v0 r0, args = v0 :: r0 ∧ Val.Is Src.crate p.id 9 (.path (i!"Vector3") [.path (i!"S") []]) v0 ∧ ∃ v1 r1, r0 = v1 :: r1 ∧ Val.Is Src.crate p.id 9 (.path (i!"Vector3") [.path (i!"S") []]) v1 ∧ r1 = []) := by kernel_rfl
  rw [e] at h
  obtain ⟨_, _, rfl, h0, _, _, rfl, h1, rfl⟩ := h
  obtain ⟨a0, rfl⟩ := is_Vector3 p _ 4 _ h0
  obtain ⟨a1, rfl⟩ := is_Vector3 p _ 4 _ h1
  have r : Src.run S p b (headTy Src.crate (Prim.id p) (Src.impl 31).target) (Src.fn 31 1) [rep a0, rep a1] =
      Src.method S p b (i!"max") (rep a0) [rep a1] := by cases p <;> kernel_rfl
  exact .inl ⟨_, _, r.trans (C81_Vector3_max p b a0 a1)⟩

/-- `Length for Vector3<S>`: `length` -/
theorem total_32_0 (p : Prim) (b : Build) : FnTotal S p b (Src.impl 32) (Src.fn 32 0) := by
  intro args h
  have e : ArgsAre Src.crate p.id [((i!"Self"), (Src.impl 32).target)] (Src.fn 32 0).params args =
      (∃ v0 r0, args = v0 :: r0 ∧ Val.Is Src.crate p.id 9 (.path (i!"Vector3") [.path (i!"S") []]) v0 ∧ r0 = []) := by kernel_rfl
  rw [e] at h
  obtain ⟨_, _, rfl, h0, rfl⟩ := h
  obtain ⟨a0, rfl⟩ := is_Vector3 p _ 4 _ h0
  have r : Src.run S p b (headTy Src.crate (Prim.id p) (Src.impl 32).target) (Src.fn 32 0) [rep a0] =
      Src.method S p b (i!"length") (rep a0) [] := by cases p <;> kernel_rfl
  exact .inl ⟨_, _, r.trans (C81_Vector3_length p b a0)⟩

/-- `RelativeLength for Vector3<S>`: `is_shorter_than` -/
theorem total_33_0 (p : Prim) (b : Build) : FnTotal S p b (Src.impl 33) (Src.fn 33 0) := by
  intro args h
  have e : ArgsAre Src.crate p.id [((i!"Self"), (Src.impl 33).target)] (Src.fn 33 0).params args =
      (∃ v0 r0, args = v0 :: r0 ∧ Val.Is Src.crate p.id 9 (.path (i!"Vector3") [.path (i!"S") []]) v0 ∧ ∃ v1 r1, r0 = v1 :: r1 ∧ Val.Is Src.crate p.id 9 (.path (i!"Vector3") [.path (i!"S") []]) v1 ∧ r1 = []) := by kernel_rfl
  rw [e] at h
  obtain ⟨_, _, rfl, h0, _, _, rfl, h1, rfl⟩ := h
  obtain ⟨a0, rfl⟩ := is_Vector3 p _ 4 _ h0
  obtain ⟨a1, rfl⟩ := is_Vector3 p _ 4 _ h1
  have r : Src.run S p b (headTy Src.crate (Prim.id p) (Src.impl 33).target) (Src.fn 33 0) [rep a0, rep a1] =
      Src.method S p b (i!"is_shorter_than") (rep a0) [rep a1] := by cases p <;> kernel_rfl
  exact .inl ⟨_, _, r.trans (C81_Vector3_is_shorter_than p b a0 a1)⟩

/-- `RelativeLength for Vector3<S>`: `is_longer_than` -/
theorem total_33_1 (p : Prim) (b : Build) : FnTotal S p b (Src.impl 33) (Src.fn 33 1) := by
  intro args h
  have e : ArgsAre Src.crate p.id [((i!"Self"), (Src.impl 33).target)] (Src.fn 33 1).params args =
      (∃ v0 r0, args = v0 :: r0 ∧ Val.Is Src.crate p.id 9 (.path (i!"Vector3") [.path (i!"S") []]) v0 ∧ ∃ v1 r1, r0 = v1 :: r1 ∧ Val.Is Src.crate p.id 9 (.path (i!"Vector3") [.path (i!"S") []]) v1 ∧ r1 = []) := by kernel_rfl
  rw [e] at h
  obtain ⟨_, _, rfl, h0, _, _, rfl, h1, rfl⟩ := h
  obtain ⟨a0, rfl⟩ := is_Vector3 p _ 4 _ h0
  obtain ⟨a1, rfl⟩ := is_Vector3 p _ 4 _ h1
  have r : Src.run S p b (headTy Src.crate (Prim.id p) (Src.impl 33).target) (Src.fn 33 1) [rep a0, rep a1] =
      Src.method S p b (i!"is_longer_than") (rep a0) [rep a1] := by cases p <;> kernel_rfl
  exact .inl ⟨_, _, r.trans (C81_Vector3_is_longer_than p b a0 a1)⟩

/-- `RelativeLength for Vector3<S>`: `shortest` -/
theorem total_33_2 (p : Prim) (b : Build) : FnTotal S p b (Src.impl 33) (Src.fn 33 2) := by
  intro args h
  have e : ArgsAre Src.crate p.id [((i!"Self"), (Src.impl 33).target)] (Src.fn 33 2).params args =
      (∃ v0 r0, args = v0 :: r0 ∧ Val.Is Src.crate p.id 9 (.path (i!"Vector3") [.path (i!"S") []]) v0 ∧ ∃ v1 r1, r0 = v1 :: r1 ∧ Val.Is Src.crate p.id 9 (.path (i!"Vector3") [.path (i!"S") []]) v1 ∧ r1 = []) := by kernel_rfl
  rw [e] at h
  obtain ⟨_, _, rfl, h0, _, _, rfl, h1, rfl⟩ := h
  obtain ⟨a0, rfl⟩ := is_Vector3 p _ 4 _ h0
  obtain ⟨a1, rfl⟩ := is_Vector3 p _ 4 _ h1
  have r : Src.run S p b (headTy Src.crate (Prim.id p) (Src.impl 33).target) (Src.fn 33 2) [rep a0, rep a1] =
      Src.method S p b (i!"shortest") (rep a0) [rep a1] := by cases p <;> kernel_rfl
  exact .inl ⟨_, _, r.trans (C81_Vector3_shortest p b a0 a1)⟩

/-- `RelativeLength for Vector3<S>`: `longest` -/
theorem total_33_3 (p : Prim) (b : Build) : FnTotal S p b (Src.impl 33) (Src.fn 33 3) := by
  intro args h
  have e : ArgsAre Src.crate p.id [((i!"Self"), (Src.impl 33).target)] (Src.fn 33 3).params args =
      (∃ v0 r0, args = v0 :: r0 ∧ Val.Is Src.crate p.id 9 (.path (i!"Vector3") [.path (i!"S") []]) v0 ∧ ∃ v1 r1, r0 = v1 :: r1 ∧ Val.Is Src.crate p.id 9 (.path (i!"Vector3") [.path (i!"S") []]) v1 ∧ r1 = []) := by kernel_rfl
  rw [e] at h
  obtain ⟨_, _, rfl, h0, _, _, rfl, h1, rfl⟩ := h
  obtain ⟨a0, rfl⟩ := is_Vector3 p _ 4 _ h0
  obtain ⟨a1, rfl⟩ := is_Vector3 p _ 4 _ h1
  have r : Src.run S p b (headTy Src.crate (Prim.id p) (Src.impl 33).target) (Src.fn 33 3) [rep a0, rep a1] =
      Src.method S p b (i!"longest") (rep a0) [rep a1] := by cases p <;> kernel_rfl
  exact .inl ⟨_, _, r.trans (C81_Vector3_longest p b a0 a1)⟩

/-- `DotProduct<Vector3<S>> for Vector3<S>`: `dot` -/
theorem total_34_0 (p : Prim) (b : Build) : FnTotal S p b (Src.impl 34) (Src.fn 34 0) := by
  intro args h
  have e : ArgsAre Src.crate p.id [((i!"Self"), (Src.impl 34).target)] (Src.fn 34 0).params args =
      (∃ v0 r0, args = v0 :: r0 ∧ Val.Is Src.crate p.id 9 (.path (i!"Vector3") [.path (i!"S") []]) v0 ∧ ∃ v1 r1, r0 = v1 :: r1 ∧ Val.Is Src.crate p.id 9 (.path (i!"Vector3") [.path (i!"S") []]) v1 ∧ r1 = []) := by kernel_rfl
  rw [e] at h
  obtain ⟨_, _, rfl, h0, _, _, rfl, h1, rfl⟩ := h
  obtain ⟨a0, rfl⟩ := is_Vector3 p _ 4 _ h0
  obtain ⟨a1, rfl⟩ := is_Vector3 p _ 4 _ h1
  have r : Src.run S p b (headTy Src.crate (Prim.id p) (Src.impl 34).target) (Src.fn 34 0) [rep a0, rep a1] =
      Src.method S p b (i!"dot") (rep a0) [rep a1] := by cases p <;> kernel_rfl
  exact .inl ⟨_, _, r.trans (C81_Vector3_dot p b a0 a1)⟩

/-- `CrossProduct<Vector3<S>> for Vector3<S>`: `cross` -/
theorem total_35_0 (p : Prim) (b : Build) : FnTotal S p b (Src.impl 35) (Src.fn 35 0) := by
  intro args h
  have e : ArgsAre Src.crate p.id [((i!"Self"), (Src.impl 35).target)] (Src.fn 35 0).params args =
      (∃ v0 r0, args = v0 :: r0 ∧ Val.Is Src.crate p.id 9 (.path (i!"Vector3") [.path (i!"S") []]) v0 ∧ ∃ v1 r1, r0 = v1 :: r1 ∧ Val.Is Src.crate p.id 9 (.path (i!"Vector3") [.path (i!"S") []]) v1 ∧ r1 = []) := by kernel_rfl
  rw [e] at h
  obtain ⟨_, _, rfl, h0, _, _, rfl, h1, rfl⟩ := h
  obtain ⟨a0, rfl⟩ := is_Vector3 p _ 4 _ h0
  obtain ⟨a1, rfl⟩ := is_Vector3 p _ 4 _ h1
  have r : Src.run S p b (headTy Src.crate (Prim.id p) (Src.impl 35).target) (Src.fn 35 0) [rep a0, rep a1] =
      Src.method S p b (i!"cross") (rep a0) [rep a1] := by cases p <;> kernel_rfl
  exact .inl ⟨_, _, r.trans (C81_Vector3_cross p b a0 a1)⟩

/-- `Add<Vector3<S>> for Vector3<S>`: `add` -/
theorem total_36_0 (p : Prim) (b : Build) : FnTotal S p b (Src.impl 36) (Src.fn 36 0) := by
  intro args h
  have e : ArgsAre Src.crate p.id [((i!"Self"), (Src.impl 36).target)] (Src.fn 36 0).params args =
      (∃ v0 r0, args = v0 :: r0 ∧ Val.Is Src.crate p.id 9 (.path (i!"Vector3") [.path (i!"S") []]) v0 ∧ ∃ v1 r1, r0 = v1 :: r1 ∧ Val.Is Src.crate p.id 9 (.path (i!"Vector3") [.path (i!"S") []]) v1 ∧ r1 = []) := by kernel_rfl
  rw [e] at h
  obtain ⟨_, _, rfl, h0, _, _, rfl, h1, rfl⟩ := h
  obtain ⟨a0, rfl⟩ := is_Vector3 p _ 4 _ h0
  obtain ⟨a1, rfl⟩ := is_Vector3 p _ 4 _ h1
  have r : Src.run S p b (headTy Src.crate (Prim.id p) (Src.impl 36).target) (Src.fn 36 0) [rep a0, rep a1] =
      Src.method S p b (i!"add") (rep a0) [rep a1] := by cases p <;> kernel_rfl
  exact .inl ⟨_, _, r.trans (C81_Vector3_add p b a0 a1)⟩

/-- `AddAssign<Vector3<S>> for Vector3<S>`: `add_assign` -/
theorem total_37_0 (p : Prim) (b : Build) : FnTotal S p b (Src.impl 37) (Src.fn 37 0) := by
  intro args h
  have e : ArgsAre Src.crate p.id [((i!"Self"), (Src.impl 37).target)] (Src.fn 37 0).params args =
      (∃ v0 r0, args = v0 :: r0 ∧ Val.Is Src.crate p.id 9 (.path (i!"Vector3") [.path (i!"S") []]) v0 ∧ ∃ v1 r1, r0 = v1 :: r1 ∧ Val.Is Src.crate p.id 9 (.path (i!"Vector3") [.path (i!"S") []]) v1 ∧ r1 = []) := by kernel_rfl
  rw [e] at h
  obtain ⟨_, _, rfl, h0, _, _, rfl, h1, rfl⟩ := h
  obtain ⟨a0, rfl⟩ := is_Vector3 p _ 4 _ h0
  obtain ⟨a1, rfl⟩ := is_Vector3 p _ 4 _ h1
  have r : Src.run S p b (headTy Src.crate (Prim.id p) (Src.impl 37).target) (Src.fn 37 0) [rep a0, rep a1] =
      Src.method S p b (i!"add_assign") (rep a0) [rep a1] := by cases p <;> kernel_rfl
  exact .inl ⟨_, _, r.trans (C81_Vector3_add_assign p b a0 a1)⟩

/-- `Sub<Vector3<S>> for Vector3<S>`: `sub` -/
theorem total_38_0 (p : Prim) (b : Build) : FnTotal S p b (Src.impl 38) (Src.fn 38 0) := by
  intro args h
  have e : ArgsAre Src.crate p.id [((i!"Self"), (Src.impl 38).target)] (Src.fn 38 0).params args =
      (∃ v0 r0, args = v0 :: r0 ∧ Val.Is Src.crate p.id 9 (.path (i!"Vector3") [.path (i!"S") []]) v0 ∧ ∃ v1 r1, r0 = v1 :: r1 ∧ Val.Is Src.crate p.id 9 (.path (i!"Vector3") [.path (i!"S") []]) v1 ∧ r1 = []) := by kernel_rfl
  rw [e] at h
  obtain ⟨_, _, rfl, h0, _, _, rfl, h1, rfl⟩ := h
  obtain ⟨a0, rfl⟩ := is_Vector3 p _ 4 _ h0
  obtain ⟨a1, rfl⟩ := is_Vector3 p _ 4 _ h1
  have r : Src.run S p b (headTy Src.crate (Prim.id p) (Src.impl 38).target) (Src.fn 38 0) [rep a0, rep a1] =
      Src.method S p b (i!"sub") (rep a0) [rep a1] := by cases p <;> kernel_rfl
  exact .inl ⟨_, _, r.trans (C81_Vector3_sub p b a0 a1)⟩

/-- `SubAssign<Vector3<S>> for Vector3<S>`: `sub_assign` -/
theorem total_39_0 (p : Prim) (b : Build) : FnTotal S p b (Src.impl 39) (Src.fn 39 0) := by
  intro args h
  have e : ArgsAre Src.crate p.id [((i!"Self"), (Src.impl 39).target)] (Src.fn 39 0).params args =
      (∃ v0 r0, args = v0 :: r0 ∧ Val.Is Src.crate p.id 9 (.path (i!"Vector3") [.path (i!"S") []]) v0 ∧ ∃ v1 r1, r0 = v1 :: r1 ∧ Val.Is Src.crate p.id 9 (.path (i!"Vector3") [.path (i!"S") []]) v1 ∧ r1 = []) := by kernel_rfl
  rw [e] at h
  obtain ⟨_, _, rfl, h0, _, _, rfl, h1, rfl⟩ := h
  obtain ⟨a0, rfl⟩ := is_Vector3 p _ 4 _ h0
  obtain ⟨a1, rfl⟩ := is_Vector3 p _ 4 _ h1
  have r : Src.run S p b (headTy Src.crate (Prim.id p) (Src.impl 39).target) (Src.fn 39 0) [rep a0, rep a1] =
      Src.method S p b (i!"sub_assign") (rep a0) [rep a1] := by cases p <;> kernel_rfl
  exact .inl ⟨_, _, r.trans (C81_Vector3_sub_assign p b a0 a1)⟩

/-- `Neg for Vector3<S>`: `neg` -/
theorem total_40_0 (p : Prim) (b : Build) : FnTotal S p b (Src.impl 40) (Src.fn 40 0) := by
  intro args h
  have e : ArgsAre Src.crate p.id [((i!"Self"), (Src.impl 40).target)] (Src.fn 40 0).params args =
      (∃ v0 r0, args = v0 :: r0 ∧ Val.Is Src.crate p.id 9 (.path (i!"Vector3") [.path (i!"S") []]) v0 ∧ r0 = []) := by kernel_rfl
  rw [e] at h
  obtain ⟨_, _, rfl, h0, rfl⟩ := h
  obtain ⟨a0, rfl⟩ := is_Vector3 p _ 4 _ h0
  have r : Src.run S p b (headTy Src.crate (Prim.id p) (Src.impl 40).target) (Src.fn 40 0) [rep a0] =
      Src.method S p b (i!"neg") (rep a0) [] := by cases p <;> kernel_rfl
  exact .inl ⟨_, _, r.trans (C81_Vector3_neg p b a0)⟩

/-- `Mul<S> for Vector3<S>`: `mul` -/
theorem total_41_0 (p : Prim) (b : Build) : FnTotal S p b (Src.impl 41) (Src.fn 41 0) := by
  intro args h
  have e : ArgsAre Src.crate p.id [((i!"Self"), (Src.impl 41).target)] (Src.fn 41 0).params args =
      (∃ v0 r0, args = v0 :: r0 ∧ Val.Is Src.crate p.id 9 (.path (i!"Vector3") [.path (i!"S") []]) v0 ∧ ∃ v1 r1, r0 = v1 :: r1 ∧ Val.Is Src.crate p.id 9 (.path (i!"S") []) v1 ∧ r1 = []) := by kernel_rfl
  rw [e] at h
  obtain ⟨_, _, rfl, h0, _, _, rfl, h1, rfl⟩ := h
  obtain ⟨a0, rfl⟩ := is_Vector3 p _ 4 _ h0
  obtain ⟨a1, rfl⟩ := is_S p _ 8 _ h1
  have r : Src.run S p b (headTy Src.crate (Prim.id p) (Src.impl 41).target) (Src.fn 41 0) [rep a0, .sc a1] =
      Src.method S p b (i!"mul") (rep a0) [.sc a1] := by cases p <;> kernel_rfl
  exact .inl ⟨_, _, r.trans (C81_Vector3_mul p b a0 a1)⟩

/-- `MulAssign<S> for Vector3<S>`: `mul_assign` -/
theorem total_42_0 (p : Prim) (b : Build) : FnTotal S p b (Src.impl 42) (Src.fn 42 0) := by
  intro args h
  have e : ArgsAre Src.crate p.id [((i!"Self"), (Src.impl 42).target)] (Src.fn 42 0).params args =
      (∃ v0 r0, args = v0 :: r0 ∧ Val.Is Src.crate p.id 9 (.path (i!"Vector3") [.path (i!"S") []]) v0 ∧ ∃ v1 r1, r0 = v1 :: r1 ∧ Val.Is Src.crate p.id 9 (.path (i!"S") []) v1 ∧ r1 = []) := by kernel_rfl
  rw [e] at h
  obtain ⟨_, _, rfl, h0, _, _, rfl, h1, rfl⟩ := h
  obtain ⟨a0, rfl⟩ := is_Vector3 p _ 4 _ h0
  obtain ⟨a1, rfl⟩ := is_S p _ 8 _ h1
  have r : Src.run S p b (headTy Src.crate (Prim.id p) (Src.impl 42).target) (Src.fn 42 0) [rep a0, .sc a1] =
      Src.method S p b (i!"mul_assign") (rep a0) [.sc a1] := by cases p <;> kernel_rfl
  exact .inl ⟨_, _, r.trans (C81_Vector3_mul_assign p b a0 a1)⟩

/-- `Mul<Vector3f> for f32`: `mul` -/
theorem total_43_0 (p : Prim) (b : Build) : FnTotal S p b (Src.impl 43) (Src.fn 43 0) := by
  intro args h
  have e : ArgsAre Src.crate p.id [((i!"Self"), (Src.impl 43).target)] (Src.fn 43 0).params args =
      (∃ v0 r0, args = v0 :: r0 ∧ Val.Is Src.crate p.id 9 (.path (i!"f32") []) v0 ∧ ∃ v1 r1, r0 = v1 :: r1 ∧ Val.Is Src.crate p.id 9 (.path (i!"Vector3f") []) v1 ∧ r1 = []) := by kernel_rfl
  rw [e] at h
  obtain ⟨_, _, rfl, h0, _, _, rfl, h1, rfl⟩ := h
  obtain ⟨rfl, a0, rfl⟩ := is_f32 p _ 8 _ h0
  obtain ⟨-, a1, rfl⟩ := is_Vector3f .f32 _ 3 _ h1
  have r : Src.run S .f32 b (headTy Src.crate (Prim.id .f32) (Src.impl 43).target) (Src.fn 43 0) [.sc a0, rep a1] =
      Src.method S .f32 b (i!"mul") (.sc a0) [rep a1] := by kernel_rfl
  exact .inl ⟨_, _, r.trans (C81_scalar_mul_Vector3 .f32 b a0 a1)⟩

/-- `Mul<Vector3d> for f64`: `mul` -/
theorem total_44_0 (p : Prim) (b : Build) : FnTotal S p b (Src.impl 44) (Src.fn 44 0) := by
  intro args h
  have e : ArgsAre Src.crate p.id [((i!"Self"), (Src.impl 44).target)] (Src.fn 44 0).params args =
      (∃ v0 r0, args = v0 :: r0 ∧ Val.Is Src.crate p.id 9 (.path (i!"f64") []) v0 ∧ ∃ v1 r1, r0 = v1 :: r1 ∧ Val.Is Src.crate p.id 9 (.path (i!"Vector3d") []) v1 ∧ r1 = []) := by kernel_rfl
  rw [e] at h
  obtain ⟨_, _, rfl, h0, _, _, rfl, h1, rfl⟩ := h
  obtain ⟨rfl, a0, rfl⟩ := is_f64 p _ 8 _ h0
  obtain ⟨-, a1, rfl⟩ := is_Vector3d .f64 _ 3 _ h1
  have r : Src.run S .f64 b (headTy Src.crate (Prim.id .f64) (Src.impl 44).target) (Src.fn 44 0) [.sc a0, rep a1] =
      Src.method S .f64 b (i!"mul") (.sc a0) [rep a1] := by kernel_rfl
  exact .inl ⟨_, _, r.trans (C81_scalar_mul_Vector3 .f64 b a0 a1)⟩

/-- `Div<S> for Vector3<S>`: `div` -/
theorem total_45_0 (p : Prim) (b : Build) : FnTotal S p b (Src.impl 45) (Src.fn 45 0) := by
  intro args h
  have e : ArgsAre Src.crate p.id [((i!"Self"), (Src.impl 45).target)] (Src.fn 45 0).params args =
      (∃ v0 r0, args = v0 :: r0 ∧ Val.Is Src.crate p.id 9 (.path (i!"Vector3") [.path (i!"S") []]) v0 ∧ ∃ v1 r1, r0 = v1 :: r1 ∧ Val.Is Src.crate p.id 9 (.path (i!"S") []) v1 ∧ r1 = []) := by kernel_rfl
  rw [e] at h
  obtain ⟨_, _, rfl, h0, _, _, rfl, h1, rfl⟩ := h
  obtain ⟨a0, rfl⟩ := is_Vector3 p _ 4 _ h0
  obtain ⟨a1, rfl⟩ := is_S p _ 8 _ h1
  have r : Src.run S p b (headTy Src.crate (Prim.id p) (Src.impl 45).target) (Src.fn 45 0) [rep a0, .sc a1] =
      Src.method S p b (i!"div") (rep a0) [.sc a1] := by cases p <;> kernel_rfl
  exact .inl ⟨_, _, r.trans (C81_Vector3_div p b a0 a1)⟩

/-- `DivAssign<S> for Vector3<S>`: `div_assign` -/
theorem total_46_0 (p : Prim) (b : Build) : FnTotal S p b (Src.impl 46) (Src.fn 46 0) := by
  intro args h
  have e : ArgsAre Src.crate p.id [((i!"Self"), (Src.impl 46).target)] (Src.fn 46 0).params args =
      (∃ v0 r0, args = v0 :: r0 ∧ Val.Is Src.crate p.id 9 (.path (i!"Vector3") [.path (i!"S") []]) v0 ∧ ∃ v1 r1, r0 = v1 :: r1 ∧ Val.Is Src.crate p.id 9 (.path (i!"S") []) v1 ∧ r1 = []) := by kernel_rfl
  rw [e] at h
  obtain ⟨_, _, rfl, h0, _, _, rfl, h1, rfl⟩ := h
  obtain ⟨a0, rfl⟩ := is_Vector3 p _ 4 _ h0
  obtain ⟨a1, rfl⟩ := is_S p _ 8 _ h1
  have r : Src.run S p b (headTy Src.crate (Prim.id p) (Src.impl 46).target) (Src.fn 46 0) [rep a0, .sc a1] =
      Src.method S p b (i!"div_assign") (rep a0) [.sc a1] := by cases p <;> kernel_rfl
  exact .inl ⟨_, _, r.trans (C81_Vector3_div_assign p b a0 a1)⟩

/-- `From<Point3<S>> for Vector3<S>`: `from` -/
theorem total_47_0 (p : Prim) (b : Build) : FnTotal S p b (Src.impl 47) (Src.fn 47 0) := by
  intro args h
  have e : ArgsAre Src.crate p.id [((i!"Self"), (Src.impl 47).target)] (Src.fn 47 0).params args =
      (∃ v0 r0, args = v0 :: r0 ∧ Val.Is Src.crate p.id 9 (.path (i!"Point3") [.path (i!"S") []]) v0 ∧ r0 = []) := by kernel_rfl
  rw [e] at h
  obtain ⟨_, _, rfl, h0, rfl⟩ := h
  obtain ⟨a0, rfl⟩ := is_Point3 p _ 4 _ h0
  have r : Src.run S p b (headTy Src.crate (Prim.id p) (Src.impl 47).target) (Src.fn 47 0) [rep a0] =
      Src.assoc S p b (i!"Vector3") (i!"from") [rep a0] := by cases p <;> kernel_rfl
  exact .inl ⟨_, _, r.trans (C81_Vector3_from p b a0)⟩

/-- `Mul<Point2f> for f32`: `mul` -/
theorem total_62_0 (p : Prim) (b : Build) : FnTotal S p b (Src.impl 62) (Src.fn 62 0) := by
  intro args h
  have e : ArgsAre Src.crate p.id [((i!"Self"), (Src.impl 62).target)] (Src.fn 62 0).params args =
      (∃ v0 r0, args = v0 :: r0 ∧ Val.Is Src.crate p.id 9 (.path (i!"f32") []) v0 ∧ ∃ v1 r1, r0 = v1 :: r1 ∧ Val.Is Src.crate p.id 9 (.path (i!"Point2f") []) v1 ∧ r1 = []) := by kernel_rfl
  rw [e] at h
  obtain ⟨_, _, rfl, h0, _, _, rfl, h1, rfl⟩ := h
  obtain ⟨rfl, a0, rfl⟩ := is_f32 p _ 8 _ h0
  obtain ⟨-, a1, rfl⟩ := is_Point2f .f32 _ 3 _ h1
  have r : Src.run S .f32 b (headTy Src.crate (Prim.id .f32) (Src.impl 62).target) (Src.fn 62 0) [.sc a0, rep a1] =
      Src.method S .f32 b (i!"mul") (.sc a0) [rep a1] := by kernel_rfl
  exact .inl ⟨_, _, r.trans (C81_scalar_mul_Point2 .f32 b a0 a1)⟩

/-- `Point3<S>`: `new` -/
theorem total_67_0 (p : Prim) (b : Build) : FnTotal S p b (Src.impl 67) (Src.fn 67 0) := by
  intro args h
  have e : ArgsAre Src.crate p.id [((i!"Self"), (Src.impl 67).target)] (Src.fn 67 0).params args =
      (∃ v0 r0, args = v0 :: r0 ∧ Val.Is Src.crate p.id 9 (.path (i!"S") []) v0 ∧ ∃ v1 r1, r0 = v1 :: r1 ∧ Val.Is Src.crate p.id 9 (.path (i!"S") []) v1 ∧ ∃ v2 r2, r1 = v2 :: r2 ∧ Val.Is Src.crate p.id 9 (.path (i!"S") []) v2 ∧ r2 = []) := by kernel_rfl
  rw [e] at h
  obtain ⟨_, _, rfl, h0, _, _, rfl, h1, _, _, rfl, h2, rfl⟩ := h
  obtain ⟨a0, rfl⟩ := is_S p _ 8 _ h0
  obtain ⟨a1, rfl⟩ := is_S p _ 8 _ h1
  obtain ⟨a2, rfl⟩ := is_S p _ 8 _ h2
  have r : Src.run S p b (headTy Src.crate (Prim.id p) (Src.impl 67).target) (Src.fn 67 0) [.sc a0, .sc a1, .sc a2] =
      Src.assoc S p b (i!"Point3") (i!"new") [.sc a0, .sc a1, .sc a2] := by cases p <;> kernel_rfl
  exact .inl ⟨_, _, r.trans (C81_Point3_new p b a0 a1 a2)⟩

/-- `Point3<S>`: `origin` -/
theorem total_67_1 (p : Prim) (b : Build) : FnTotal S p b (Src.impl 67) (Src.fn 67 1) := by
  intro args h
  have e : ArgsAre Src.crate p.id [((i!"Self"), (Src.impl 67).target)] (Src.fn 67 1).params args =
      (args = []) := by kernel_rfl
  rw [e] at h
  obtain rfl := h
  have r : Src.run S p b (headTy Src.crate (Prim.id p) (Src.impl 67).target) (Src.fn 67 1) [] =
      Src.assoc S p b (i!"Point3") (i!"origin") [] := by cases p <;> kernel_rfl
  exact .inl ⟨_, _, r.trans (C81_Point3_origin p b)⟩

/-- `Point3<S>`: `min_dimension` -/
theorem total_67_2 (p : Prim) (b : Build) : FnTotal S p b (Src.impl 67) (Src.fn 67 2) := by
  intro args h
  have e : ArgsAre Src.crate p.id [((i!"Self"), (Src.impl 67).target)] (Src.fn 67 2).params args =
      (∃ v0 r0, args = v0 :: r0 ∧ Val.Is Src.crate p.id 9 (.path (i!"Point3") [.path (i!"S") []]) v0 ∧ r0 = []) := by kernel_rfl
  rw [e] at h
  obtain ⟨_, _, rfl, h0, rfl⟩ := h
  obtain ⟨a0, rfl⟩ := is_Point3 p _ 4 _ h0
  have r : Src.run S p b (headTy Src.crate (Prim.id p) (Src.impl 67).target) (Src.fn 67 2) [rep a0] =
      Src.method S p b (i!"min_dimension") (rep a0) [] := by cases p <;> kernel_rfl
  exact .inl ⟨_, _, r.trans (C81_Point3_min_dimension p b a0)⟩

/-- `Point3<S>`: `max_dimension` -/
theorem total_67_3 (p : Prim) (b : Build) : FnTotal S p b (Src.impl 67) (Src.fn 67 3) := by
  intro args h
  have e : ArgsAre Src.crate p.id [((i!"Self"), (Src.impl 67).target)] (Src.fn 67 3).params args =
      (∃ v0 r0, args = v0 :: r0 ∧ Val.Is Src.crate p.id 9 (.path (i!"Point3") [.path (i!"S") []]) v0 ∧ r0 = []) := by kernel_rfl
  rw [e] at h
  obtain ⟨_, _, rfl, h0, rfl⟩ := h
  obtain ⟨a0, rfl⟩ := is_Point3 p _ 4 _ h0
  have r : Src.run S p b (headTy Src.crate (Prim.id p) (Src.impl 67).target) (Src.fn 67 3) [rep a0] =
      Src.method S p b (i!"max_dimension") (rep a0) [] := by cases p <;> kernel_rfl
  exact .inl ⟨_, _, r.trans (C81_Point3_max_dimension p b a0)⟩

/-- `Point3<S>`: `floor` -/
theorem total_67_4 (p : Prim) (b : Build) : FnTotal S p b (Src.impl 67) (Src.fn 67 4) := by
  intro args h
  have e : ArgsAre Src.crate p.id [((i!"Self"), (Src.impl 67).target)] (Src.fn 67 4).params args =
      (∃ v0 r0, args = v0 :: r0 ∧ Val.Is Src.crate p.id 9 (.path (i!"Point3") [.path (i!"S") []]) v0 ∧ r0 = []) := by kernel_rfl
  rw [e] at h
  obtain ⟨_, _, rfl, h0, rfl⟩ := h
  obtain ⟨a0, rfl⟩ := is_Point3 p _ 4 _ h0
  have r : Src.run S p b (headTy Src.crate (Prim.id p) (Src.impl 67).target) (Src.fn 67 4) [rep a0] =
      Src.method S p b (i!"floor") (rep a0) [] := by cases p <;> kernel_rfl
  exact .inl ⟨_, _, r.trans (C81_Point3_floor p b a0)⟩

/-- `Point3<S>`: `ceil` -/
theorem total_67_5 (p : Prim) (b : Build) : FnTotal S p b (Src.impl 67) (Src.fn 67 5) := by
  intro args h
  have e : ArgsAre Src.crate p.id [((i!"Self"), (Src.impl 67).target)] (Src.fn 67 5).params args =
      (∃ v0 r0, args = v0 :: r0 ∧ Val.Is Src.crate p.id 9 (.path (i!"Point3") [.path (i!"S") []]) v0 ∧ r0 = []) := by kernel_rfl
  rw [e] at h
  obtain ⟨_, _, rfl, h0, rfl⟩ := h
  obtain ⟨a0, rfl⟩ := is_Point3 p _ 4 _ h0
  have r : Src.run S p b (headTy Src.crate (Prim.id p) (Src.impl 67).target) (Src.fn 67 5) [rep a0] =
      Src.method S p b (i!"ceil") (rep a0) [] := by cases p <;> kernel_rfl
  exact .inl ⟨_, _, r.trans (C81_Point3_ceil p b a0)⟩

/-- `Point3<S>`: `round` -/
theorem total_67_6 (p : Prim) (b : Build) : FnTotal S p b (Src.impl 67) (Src.fn 67 6) := by
  intro args h
  have e : ArgsAre Src.crate p.id [((i!"Self"), (Src.impl 67).target)] (Src.fn 67 6).params args =
      (∃ v0 r0, args = v0 :: r0 ∧ Val.Is Src.crate p.id 9 (.path (i!"Point3") [.path (i!"S") []]) v0 ∧ r0 = []) := by kernel_rfl
  rw [e] at h
  obtain ⟨_, _, rfl, h0, rfl⟩ := h
  obtain ⟨a0, rfl⟩ := is_Point3 p _ 4 _ h0
  have r : Src.run S p b (headTy Src.crate (Prim.id p) (Src.impl 67).target) (Src.fn 67 6) [rep a0] =
      Src.method S p b (i!"round") (rep a0) [] := by cases p <;> kernel_rfl
  exact .inl ⟨_, _, r.trans (C81_Point3_round p b a0)⟩

/-- `Point3<S>`: `trunc` -/
theorem total_67_7 (p : Prim) (b : Build) : FnTotal S p b (Src.impl 67) (Src.fn 67 7) := by
  intro args h
  have e : ArgsAre Src.crate p.id [((i!"Self"), (Src.impl 67).target)] (Src.fn 67 7).params args =
      (∃ v0 r0, args = v0 :: r0 ∧ Val.Is Src.crate p.id 9 (.path (i!"Point3") [.path (i!"S") []]) v0 ∧ r0 = []) := by kernel_rfl
  rw [e] at h
  obtain ⟨_, _, rfl, h0, rfl⟩ := h
  obtain ⟨a0, rfl⟩ := is_Point3 p _ 4 _ h0
  have r : Src.run S p b (headTy Src.crate (Prim.id p) (Src.impl 67).target) (Src.fn 67 7) [rep a0] =
      Src.method S p b (i!"trunc") (rep a0) [] := by cases p <;> kernel_rfl
  exact .inl ⟨_, _, r.trans (C81_Point3_trunc p b a0)⟩

/-- `Point3<S>`: `fract` -/
theorem total_67_8 (p : Prim) (b : Build) : FnTotal S p b (Src.impl 67) (Src.fn 67 8) := by
  intro args h
  have e : ArgsAre Src.crate p.id [((i!"Self"), (Src.impl 67).target)] (Src.fn 67 8).params args =
      (∃ v0 r0, args = v0 :: r0 ∧ Val.Is Src.crate p.id 9 (.path (i!"Point3") [.path (i!"S") []]) v0 ∧ r0 = []) := by kernel_rfl
  rw [e] at h
  obtain ⟨_, _, rfl, h0, rfl⟩ := h
  obtain ⟨a0, rfl⟩ := is_Point3 p _ 4 _ h0
  have r : Src.run S p b (headTy Src.crate (Prim.id p) (Src.impl 67).target) (Src.fn 67 8) [rep a0] =
      Src.method S p b (i!"fract") (rep a0) [] := by cases p <;> kernel_rfl
  exact .inl ⟨_, _, r.trans (C81_Point3_fract p b a0)⟩

/-- `Point3<S>`: `abs` -/
theorem total_67_9 (p : Prim) (b : Build) : FnTotal S p b (Src.impl 67) (Src.fn 67 9) := by
  intro args h
  have e : ArgsAre Src.crate p.id [((i!"Self"), (Src.impl 67).target)] (Src.fn 67 9).params args =
      (∃ v0 r0, args = v0 :: r0 ∧ Val.Is Src.crate p.id 9 (.path (i!"Point3") [.path (i!"S") []]) v0 ∧ r0 = []) := by kernel_rfl
  rw [e] at h
  obtain ⟨_, _, rfl, h0, rfl⟩ := h
  obtain ⟨a0, rfl⟩ := is_Point3 p _ 4 _ h0
  have r : Src.run S p b (headTy Src.crate (Prim.id p) (Src.impl 67).target) (Src.fn 67 9) [rep a0] =
      Src.method S p b (i!"abs") (rep a0) [] := by cases p <;> kernel_rfl
  exact .inl ⟨_, _, r.trans (C81_Point3_abs p b a0)⟩

/-- `Point3<S>`: `permute` -/
theorem total_67_10 (p : Prim) (b : Build) : FnTotal S p b (Src.impl 67) (Src.fn 67 10) := by
  intro args h
  have e : ArgsAre Src.crate p.id [((i!"Self"), (Src.impl 67).target)] (Src.fn 67 10).params args =
      (∃ v0 r0, args = v0 :: r0 ∧ Val.Is Src.crate p.id 9 (.path (i!"Point3") [.path (i!"S") []]) v0 ∧ ∃ v1 r1, r0 = v1 :: r1 ∧ Val.Is Src.crate p.id 9 (.path (i!"Dimension3") []) v1 ∧ ∃ v2 r2, r1 = v2 :: r2 ∧ Val.Is Src.crate p.id 9 (.path (i!"Dimension3") []) v2 ∧ ∃ v3 r3, r2 = v3 :: r3 ∧ Val.Is Src.crate p.id 9 (.path (i!"Dimension3") []) v3 ∧ r3 = []) := by kernel_rfl
  rw [e] at h
  obtain ⟨_, _, rfl, h0, _, _, rfl, h1, _, _, rfl, h2, _, _, rfl, h3, rfl⟩ := h
  obtain ⟨a0, rfl⟩ := is_Point3 p _ 4 _ h0
  obtain ⟨a1, rfl⟩ := is_Dimension3 p _ 7 _ h1
  obtain ⟨a2, rfl⟩ := is_Dimension3 p _ 7 _ h2
  obtain ⟨a3, rfl⟩ := is_Dimension3 p _ 7 _ h3
  have r : Src.run S p b (headTy Src.crate (Prim.id p) (Src.impl 67).target) (Src.fn 67 10) [rep a0, rep a1, rep a2, rep a3] =
      Src.method S p b (i!"permute") (rep a0) [rep a1, rep a2, rep a3] := by cases p <;> kernel_rfl
  exact .inl ⟨_, _, r.trans (C81_Point3_permute p b a0 a1 a2 a3)⟩

/-- `Index<Dimension3> for Point3<S>`: `index` -/
theorem total_68_0 (p : Prim) (b : Build) : FnTotal S p b (Src.impl 68) (Src.fn 68 0) := by
  intro args h
  have e : ArgsAre Src.crate p.id [((i!"Self"), (Src.impl 68).target)] (Src.fn 68 0).params args =
      (∃ v0 r0, args = v0 :: r0 ∧ Val.Is Src.crate p.id 9 (.path (i!"Point3") [.path (i!"S") []]) v0 ∧ ∃ v1 r1, r0 = v1 :: r1 ∧ Val.Is Src.crate p.id 9 (.path (i!"Dimension3") []) v1 ∧ r1 = []) := by kernel_rfl
  rw [e] at h
  obtain ⟨_, _, rfl, h0, _, _, rfl, h1, rfl⟩ := h
  obtain ⟨a0, rfl⟩ := is_Point3 p _ 4 _ h0
  obtain ⟨a1, rfl⟩ := is_Dimension3 p _ 7 _ h1
  have r : Src.run S p b (headTy Src.crate (Prim.id p) (Src.impl 68).target) (Src.fn 68 0) [rep a0, rep a1] =
      Src.method S p b (i!"index") (rep a0) [rep a1] := by cases p <;> kernel_rfl
  exact .inl ⟨_, _, r.trans (C81_Point3_index p b a0 a1)⟩

/-- `IndexMut<Dimension3> for Point3<S>`: `index_mut` -/
theorem total_69_0 (p : Prim) (b : Build) : FnTotal S p b (Src.impl 69) (Src.fn 69 0) := by
  intro args h
  have e : ArgsAre Src.crate p.id [((i!"Self"), (Src.impl 69).target)] (Src.fn 69 0).params args =
      (∃ v0 r0, args = v0 :: r0 ∧ Val.Is Src.crate p.id 9 (.path (i!"Point3") [.path (i!"S") []]) v0 ∧ ∃ v1 r1, r0 = v1 :: r1 ∧ Val.Is Src.crate p.id 9 (.path (i!"Dimension3") []) v1 ∧ r1 = []) := by kernel_rfl
  rw [e] at h
  obtain ⟨_, _, rfl, h0, _, _, rfl, h1, rfl⟩ := h
  obtain ⟨a0, rfl⟩ := is_Point3 p _ 4 _ h0
  obtain ⟨a1, rfl⟩ := is_Dimension3 p _ 7 _ h1
  have r : Src.run S p b (headTy Src.crate (Prim.id p) (Src.impl 69).target) (Src.fn 69 0) [rep a0, rep a1] =
      Src.method S p b (i!"index_mut") (rep a0) [rep a1] := by cases p <;> kernel_rfl
  obtain ⟨pl, h, -⟩ := C81_Point3_index_mut p b a0 a1
  exact .inl ⟨_, _, r.trans h⟩

/-- `MinMax for Point3<S>`: `min` -/
theorem total_70_0 (p : Prim) (b : Build) : FnTotal S p b (Src.impl 70) (Src.fn 70 0) := by
  intro args h
  have e : ArgsAre Src.crate p.id [((i!"Self"), (Src.impl 70).target)] (Src.fn 70 0).params args =
      (∃ v0 r0, args = v0 :: r0 ∧ Val.Is Src.crate p.id 9 (.path (i!"Point3") [.path (i!"S") []]) v0 ∧ ∃ v1 r1, r0 = v1 :: r1 ∧ Val.Is Src.crate p.id 9 (.path (i!"Point3") [.path (i!"S") []]) v1 ∧ r1 = []) := by kernel_rfl
  rw [e] at h
  obtain ⟨_, _, rfl, h0, _, _, rfl, h1, rfl⟩ := h
  obtain ⟨a0, rfl⟩ := is_Point3 p _ 4 _ h0
  obtain ⟨a1, rfl⟩ := is_Point3 p _ 4 _ h1
  have r : Src.run S p b (headTy Src.crate (Prim.id p) (Src.impl 70).target) (Src.fn 70 0) [rep a0, rep a1] =
      Src.method S p b (i!"min") (rep a0) [rep a1] := by cases p <;> kernel_rfl
  exact .inl ⟨_, _, r.trans (C81_Point3_min p b a0 a1)⟩

/-- `MinMax for Point3<S>`: `max` -/
theorem total_70_1 (p : Prim) (b : Build) : FnTotal S p b (Src.impl 70) (Src.fn 70 1) := by
  intro args h
  have e : ArgsAre Src.crate p.id [((i!"Self"), (Src.impl 70).target)] (Src.fn 70 1).params args =
      (∃ v0 r0, args = v0 :: r0 ∧ Val.Is Src.crate p.id 9 (.path (i!"Point3") [.path (i!"S") []]) v0 ∧ ∃ v1 r1, r0 = v1 :: r1 ∧ Val.Is Src.crate p.id 9 (.path (i!"Point3") [.path (i!"S") []]) v1 ∧ r1 = []) := by kernel_rfl
  rw [e] at h
  obtain ⟨_, _, rfl, h0, _, _, rfl, h1, rfl⟩ := h
  obtain ⟨a0, rfl⟩ := is_Point3 p _ 4 _ h0
  obtain ⟨a1, rfl⟩ := is_Point3 p _ 4 _ h1
  have r : Src.run S p b (headTy Src.crate (Prim.id p) (Src.impl 70).target) (Src.fn 70 1) [rep a0, rep a1] =
      Src.method S p b (i!"max") (rep a0) [rep a1] := by cases p <;> kernel_rfl
  exact .inl ⟨_, _, r.trans (C81_Point3_max p b a0 a1)⟩

/-- `Distance for Point3<S>`: `distance` -/
theorem total_71_0 (p : Prim) (b : Build) : FnTotal S p b (Src.impl 71) (Src.fn 71 0) := by
  intro args h
  have e : ArgsAre Src.crate p.id [((i!"Self"), (Src.impl 71).target)] (Src.fn 71 0).params args =
      (∃ v0 r0, args = v0 :: r0 ∧ Val.Is Src.crate p.id 9 (.path (i!"Point3") [.path (i!"S") []]) v0 ∧ ∃ v1 r1, r0 = v1 :: r1 ∧ Val.Is Src.crate p.id 9 (.path (i!"Point3") [.path (i!"S") []]) v1 ∧ r1 = []) := by kernel_rfl
  rw [e] at h
  obtain ⟨_, _, rfl, h0, _, _, rfl, h1, rfl⟩ := h
  obtain ⟨a0, rfl⟩ := is_Point3 p _ 4 _ h0
  obtain ⟨a1, rfl⟩ := is_Point3 p _ 4 _ h1
  have r : Src.run S p b (headTy Src.crate (Prim.id p) (Src.impl 71).target) (Src.fn 71 0) [rep a0, rep a1] =
      Src.method S p b (i!"distance") (rep a0) [rep a1] := by cases p <;> kernel_rfl
  exact .inl ⟨_, _, r.trans (C81_Point3_distance p b a0 a1)⟩

/-- `RelativeDistance for Point3<S>`: `is_closer_to` -/
theorem total_72_0 (p : Prim) (b : Build) : FnTotal S p b (Src.impl 72) (Src.fn 72 0) := by
  intro args h
  have e : ArgsAre Src.crate p.id [((i!"Self"), (Src.impl 72).target)] (Src.fn 72 0).params args =
      (∃ v0 r0, args = v0 :: r0 ∧ Val.Is Src.crate p.id 9 (.path (i!"Point3") [.path (i!"S") []]) v0 ∧ ∃ v1 r1, r0 = v1 :: r1 ∧ Val.Is Src.crate p.id 9 (.path (i!"Point3") [.path (i!"S") []]) v1 ∧ ∃ v2 r2, r1 = v2 :: r2 ∧ Val.Is Src.crate p.id 9 (.path (i!"Point3") [.path (i!"S") []]) v2 ∧ r2 = []) := by kernel_rfl
  rw [e] at h
  obtain ⟨_, _, rfl, h0, _, _, rfl, h1, _, _, rfl, h2, rfl⟩ := h
  obtain ⟨a0, rfl⟩ := is_Point3 p _ 4 _ h0
  obtain ⟨a1, rfl⟩ := is_Point3 p _ 4 _ h1
  obtain ⟨a2, rfl⟩ := is_Point3 p _ 4 _ h2
  have r : Src.run S p b (headTy Src.crate (Prim.id p) (Src.impl 72).target) (Src.fn 72 0) [rep a0, rep a1, rep a2] =
      Src.method S p b (i!"is_closer_to") (rep a0) [rep a1, rep a2] := by cases p <;> kernel_rfl
  exact .inl ⟨_, _, r.trans (C81_Point3_is_closer_to p b a0 a1 a2)⟩

/-- `RelativeDistance for Point3<S>`: `is_farther_from` -/
theorem total_72_1 (p : Prim) (b : Build) : FnTotal S p b (Src.impl 72) (Src.fn 72 1) := by
  intro args h
  have e : ArgsAre Src.crate p.id [((i!"Self"), (Src.impl 72).target)] (Src.fn 72 1).params args =
      (∃ v0 r0, args = v0 :: r0 ∧ Val.Is Src.crate p.id 9 (.path (i!"Point3") [.path (i!"S") []]) v0 ∧ ∃ v1 r1, r0 = v1 :: r1 ∧ Val.Is Src.crate p.id 9 (.path (i!"Point3") [.path (i!"S") []]) v1 ∧ ∃ v2 r2, r1 = v2 :: r2 ∧ Val.Is Src.crate p.id 9 (.path (i!"Point3") [.path (i!"S") []]) v2 ∧ r2 = []) := by kernel_rfl
  rw [e] at h
  obtain ⟨_, _, rfl, h0, _, _, rfl, h1, _, _, rfl, h2, rfl⟩ := h
  obtain ⟨a0, rfl⟩ := is_Point3 p _ 4 _ h0
  obtain ⟨a1, rfl⟩ := is_Point3 p _ 4 _ h1
  obtain ⟨a2, rfl⟩ := is_Point3 p _ 4 _ h2
  have r : Src.run S p b (headTy Src.crate (Prim.id p) (Src.impl 72).target) (Src.fn 72 1) [rep a0, rep a1, rep a2] =
      Src.method S p b (i!"is_farther_from") (rep a0) [rep a1, rep a2] := by cases p <;> kernel_rfl
  exact .inl ⟨_, _, r.trans (C81_Point3_is_farther_from p b a0 a1 a2)⟩

/-- `RelativeDistance for Point3<S>`: `closest` -/
theorem total_72_2 (p : Prim) (b : Build) : FnTotal S p b (Src.impl 72) (Src.fn 72 2) := by
  intro args h
  have e : ArgsAre Src.crate p.id [((i!"Self"), (Src.impl 72).target)] (Src.fn 72 2).params args =
      (∃ v0 r0, args = v0 :: r0 ∧ Val.Is Src.crate p.id 9 (.path (i!"Point3") [.path (i!"S") []]) v0 ∧ ∃ v1 r1, r0 = v1 :: r1 ∧ Val.Is Src.crate p.id 9 (.path (i!"Point3") [.path (i!"S") []]) v1 ∧ ∃ v2 r2, r1 = v2 :: r2 ∧ Val.Is Src.crate p.id 9 (.path (i!"Point3") [.path (i!"S") []]) v2 ∧ r2 = []) := by kernel_rfl
  rw [e] at h
  obtain ⟨_, _, rfl, h0, _, _, rfl, h1, _, _, rfl, h2, rfl⟩ := h
  obtain ⟨a0, rfl⟩ := is_Point3 p _ 4 _ h0
  obtain ⟨a1, rfl⟩ := is_Point3 p _ 4 _ h1
  obtain ⟨a2, rfl⟩ := is_Point3 p _ 4 _ h2
  have r : Src.run S p b (headTy Src.crate (Prim.id p) (Src.impl 72).target) (Src.fn 72 2) [rep a0, rep a1, rep a2] =
      Src.method S p b (i!"closest") (rep a0) [rep a1, rep a2] := by cases p <;> kernel_rfl
  exact .inl ⟨_, _, r.trans (C81_Point3_closest p b a0 a1 a2)⟩

/-- `RelativeDistance for Point3<S>`: `farthest` -/
theorem total_72_3 (p : Prim) (b : Build) : FnTotal S p b (Src.impl 72) (Src.fn 72 3) := by
  intro args h
  have e : ArgsAre Src.crate p.id [((i!"Self"), (Src.impl 72).target)] (Src.fn 72 3).params args =
      (∃ v0 r0, args = v0 :: r0 ∧ Val.Is Src.crate p.id 9 (.path (i!"Point3") [.path (i!"S") []]) v0 ∧ ∃ v1 r1, r0 = v1 :: r1 ∧ Val.Is Src.crate p.id 9 (.path (i!"Point3") [.path (i!"S") []]) v1 ∧ ∃ v2 r2, r1 = v2 :: r2 ∧ Val.Is Src.crate p.id 9 (.path (i!"Point3") [.path (i!"S") []]) v2 ∧ r2 = []) := by kernel_rfl
  rw [e] at h
  obtain ⟨_, _, rfl, h0, _, _, rfl, h1, _, _, rfl, h2, rfl⟩ := h
  obtain ⟨a0, rfl⟩ := is_Point3 p _ 4 _ h0
  obtain ⟨a1, rfl⟩ := is_Point3 p _ 4 _ h1
  obtain ⟨a2, rfl⟩ := is_Point3 p _ 4 _ h2
  have r : Src.run S p b (headTy Src.crate (Prim.id p) (Src.impl 72).target) (Src.fn 72 3) [rep a0, rep a1, rep a2] =
      Src.method S p b (i!"farthest") (rep a0) [rep a1, rep a2] := by cases p <;> kernel_rfl
  exact .inl ⟨_, _, r.trans (C81_Point3_farthest p b a0 a1 a2)⟩

/-- `Add<Vector3<S>> for Point3<S>`: `add` -/
theorem total_73_0 (p : Prim) (b : Build) : FnTotal S p b (Src.impl 73) (Src.fn 73 0) := by
  intro args h
  have e : ArgsAre Src.crate p.id [((i!"Self"), (Src.impl 73).target)] (Src.fn 73 0).params args =
      (∃ v0 r0, args = v0 :: r0 ∧ Val.Is Src.crate p.id 9 (.path (i!"Point3") [.path (i!"S") []]) v0 ∧ ∃ v1 r1, r0 = v1 :: r1 ∧ Val.Is Src.crate p.id 9 (.path (i!"Vector3") [.path (i!"S") []]) v1 ∧ r1 = []) := by kernel_rfl
  rw [e] at h
  obtain ⟨_, _, rfl, h0, _, _, rfl, h1, rfl⟩ := h
  obtain ⟨a0, rfl⟩ := is_Point3 p _ 4 _ h0
  obtain ⟨a1, rfl⟩ := is_Vector3 p _ 4 _ h1
  have r : Src.run S p b (headTy Src.crate (Prim.id p) (Src.impl 73).target) (Src.fn 73 0) [rep a0, rep a1] =
      Src.method S p b (i!"add") (rep a0) [rep a1] := by cases p <;> kernel_rfl
  exact .inl ⟨_, _, r.trans (C81_Point3_add p b a0 a1)⟩

/-- `AddAssign<Vector3<S>> for Point3<S>`: `add_assign` -/
theorem total_74_0 (p : Prim) (b : Build) : FnTotal S p b (Src.impl 74) (Src.fn 74 0) := by
  intro args h
  have e : ArgsAre Src.crate p.id [((i!"Self"), (Src.impl 74).target)] (Src.fn 74 0).params args =
      (∃ v0 r0, args = v0 :: r0 ∧ Val.Is Src.crate p.id 9 (.path (i!"Point3") [.path (i!"S") []]) v0 ∧ ∃ v1 r1, r0 = v1 :: r1 ∧ Val.Is Src.crate p.id 9 (.path (i!"Vector3") [.path (i!"S") []]) v1 ∧ r1 = []) := by kernel_rfl
  rw [e] at h
  obtain ⟨_, _, rfl, h0, _, _, rfl, h1, rfl⟩ := h
  obtain ⟨a0, rfl⟩ := is_Point3 p _ 4 _ h0
  obtain ⟨a1, rfl⟩ := is_Vector3 p _ 4 _ h1
  have r : Src.run S p b (headTy Src.crate (Prim.id p) (Src.impl 74).target) (Src.fn 74 0) [rep a0, rep a1] =
      Src.method S p b (i!"add_assign") (rep a0) [rep a1] := by cases p <;> kernel_rfl
  exact .inl ⟨_, _, r.trans (C81_Point3_add_assign p b a0 a1)⟩

/-- `Sub<Vector3<S>> for Point3<S>`: `sub` -/
theorem total_75_0 (p : Prim) (b : Build) : FnTotal S p b (Src.impl 75) (Src.fn 75 0) := by
  intro args h
  have e : ArgsAre Src.crate p.id [((i!"Self"), (Src.impl 75).target)] (Src.fn 75 0).params args =
      (∃ v0 r0, args = v0 :: r0 ∧ Val.Is Src.crate p.id 9 (.path (i!"Point3") [.path (i!"S") []]) v0 ∧ ∃ v1 r1, r0 = v1 :: r1 ∧ Val.Is Src.crate p.id 9 (.path (i!"Vector3") [.path (i!"S") []]) v1 ∧ r1 = []) := by kernel_rfl
  rw [e] at h
  obtain ⟨_, _, rfl, h0, _, _, rfl, h1, rfl⟩ := h
  obtain ⟨a0, rfl⟩ := is_Point3 p _ 4 _ h0
  obtain ⟨a1, rfl⟩ := is_Vector3 p _ 4 _ h1
  have r : Src.run S p b (headTy Src.crate (Prim.id p) (Src.impl 75).target) (Src.fn 75 0) [rep a0, rep a1] =
      Src.method S p b (i!"sub") (rep a0) [rep a1] := by cases p <;> kernel_rfl
  exact .inl ⟨_, _, r.trans (C81_Point3_sub p b a0 a1)⟩

/-- `SubAssign<Vector3<S>> for Point3<S>`: `sub_assign` -/
theorem total_76_0 (p : Prim) (b : Build) : FnTotal S p b (Src.impl 76) (Src.fn 76 0) := by
  intro args h
  have e : ArgsAre Src.crate p.id [((i!"Self"), (Src.impl 76).target)] (Src.fn 76 0).params args =
      (∃ v0 r0, args = v0 :: r0 ∧ Val.Is Src.crate p.id 9 (.path (i!"Point3") [.path (i!"S") []]) v0 ∧ ∃ v1 r1, r0 = v1 :: r1 ∧ Val.Is Src.crate p.id 9 (.path (i!"Vector3") [.path (i!"S") []]) v1 ∧ r1 = []) := by kernel_rfl
  rw [e] at h
  obtain ⟨_, _, rfl, h0, _, _, rfl, h1, rfl⟩ := h
  obtain ⟨a0, rfl⟩ := is_Point3 p _ 4 _ h0
  obtain ⟨a1, rfl⟩ := is_Vector3 p _ 4 _ h1
  have r : Src.run S p b (headTy Src.crate (Prim.id p) (Src.impl 76).target) (Src.fn 76 0) [rep a0, rep a1] =
      Src.method S p b (i!"sub_assign") (rep a0) [rep a1] := by cases p <;> kernel_rfl
  exact .inl ⟨_, _, r.trans (C81_Point3_sub_assign p b a0 a1)⟩

/-- `Sub<Point3<S>> for Point3<S>`: `sub` -/
theorem total_77_0 (p : Prim) (b : Build) : FnTotal S p b (Src.impl 77) (Src.fn 77 0) := by
  intro args h
  have e : ArgsAre Src.crate p.id [((i!"Self"), (Src.impl 77).target)] (Src.fn 77 0).params args =
      (∃ v0 r0, args = v0 :: r0 ∧ Val.Is Src.crate p.id 9 (.path (i!"Point3") [.path (i!"S") []]) v0 ∧ ∃ v1 r1, r0 = v1 :: r1 ∧ Val.Is Src.crate p.id 9 (.path (i!"Point3") [.path (i!"S") []]) v1 ∧ r1 = []) := by kernel_rfl
  rw [e] at h
  obtain ⟨_, _, rfl, h0, _, _, rfl, h1, rfl⟩ := h
  obtain ⟨a0, rfl⟩ := is_Point3 p _ 4 _ h0
  obtain ⟨a1, rfl⟩ := is_Point3 p _ 4 _ h1
  have r : Src.run S p b (headTy Src.crate (Prim.id p) (Src.impl 77).target) (Src.fn 77 0) [rep a0, rep a1] =
      Src.method S p b (i!"sub") (rep a0) [rep a1] := by cases p <;> kernel_rfl
  exact .inl ⟨_, _, r.trans (C81_Point3_sub_point p b a0 a1)⟩

/-- `Neg for Point3<S>`: `neg` -/
theorem total_78_0 (p : Prim) (b : Build) : FnTotal S p b (Src.impl 78) (Src.fn 78 0) := by
  intro args h
  have e : ArgsAre Src.crate p.id [((i!"Self"), (Src.impl 78).target)] (Src.fn 78 0).params args =
      (∃ v0 r0, args = v0 :: r0 ∧ Val.Is Src.crate p.id 9 (.path (i!"Point3") [.path (i!"S") []]) v0 ∧ r0 = []) := by kernel_rfl
  rw [e] at h
  obtain ⟨_, _, rfl, h0, rfl⟩ := h
  obtain ⟨a0, rfl⟩ := is_Point3 p _ 4 _ h0
  have r : Src.run S p b (headTy Src.crate (Prim.id p) (Src.impl 78).target) (Src.fn 78 0) [rep a0] =
      Src.method S p b (i!"neg") (rep a0) [] := by cases p <;> kernel_rfl
  exact .inl ⟨_, _, r.trans (C81_Point3_neg p b a0)⟩

/-- `Mul<S> for Point3<S>`: `mul` -/
theorem total_79_0 (p : Prim) (b : Build) : FnTotal S p b (Src.impl 79) (Src.fn 79 0) := by
  intro args h
  have e : ArgsAre Src.crate p.id [((i!"Self"), (Src.impl 79).target)] (Src.fn 79 0).params args =
      (∃ v0 r0, args = v0 :: r0 ∧ Val.Is Src.crate p.id 9 (.path (i!"Point3") [.path (i!"S") []]) v0 ∧ ∃ v1 r1, r0 = v1 :: r1 ∧ Val.Is Src.crate p.id 9 (.path (i!"S") []) v1 ∧ r1 = []) := by kernel_rfl
  rw [e] at h
  obtain ⟨_, _, rfl, h0, _, _, rfl, h1, rfl⟩ := h
  obtain ⟨a0, rfl⟩ := is_Point3 p _ 4 _ h0
  obtain ⟨a1, rfl⟩ := is_S p _ 8 _ h1
  have r : Src.run S p b (headTy Src.crate (Prim.id p) (Src.impl 79).target) (Src.fn 79 0) [rep a0, .sc a1] =
      Src.method S p b (i!"mul") (rep a0) [.sc a1] := by cases p <;> kernel_rfl
  exact .inl ⟨_, _, r.trans (C81_Point3_mul p b a0 a1)⟩

/-- `MulAssign<S> for Point3<S>`: `mul_assign` -/
theorem total_80_0 (p : Prim) (b : Build) : FnTotal S p b (Src.impl 80) (Src.fn 80 0) := by
  intro args h
  have e : ArgsAre Src.crate p.id [((i!"Self"), (Src.impl 80).target)] (Src.fn 80 0).params args =
      (∃ v0 r0, args = v0 :: r0 ∧ Val.Is Src.crate p.id 9 (.path (i!"Point3") [.path (i!"S") []]) v0 ∧ ∃ v1 r1, r0 = v1 :: r1 ∧ Val.Is Src.crate p.id 9 (.path (i!"S") []) v1 ∧ r1 = []) := by kernel_rfl
  rw [e] at h
  obtain ⟨_, _, rfl, h0, _, _, rfl, h1, rfl⟩ := h
  obtain ⟨a0, rfl⟩ := is_Point3 p _ 4 _ h0
  obtain ⟨a1, rfl⟩ := is_S p _ 8 _ h1
  have r : Src.run S p b (headTy Src.crate (Prim.id p) (Src.impl 80).target) (Src.fn 80 0) [rep a0, .sc a1] =
      Src.method S p b (i!"mul_assign") (rep a0) [.sc a1] := by cases p <;> kernel_rfl
  exact .inl ⟨_, _, r.trans (C81_Point3_mul_assign p b a0 a1)⟩

/-- `Mul<Point3f> for f32`: `mul` -/
theorem total_81_0 (p : Prim) (b : Build) : FnTotal S p b (Src.impl 81) (Src.fn 81 0) := by
  intro args h
  have e : ArgsAre Src.crate p.id [((i!"Self"), (Src.impl 81).target)] (Src.fn 81 0).params args =
      (∃ v0 r0, args = v0 :: r0 ∧ Val.Is Src.crate p.id 9 (.path (i!"f32") []) v0 ∧ ∃ v1 r1, r0 = v1 :: r1 ∧ Val.Is Src.crate p.id 9 (.path (i!"Point3f") []) v1 ∧ r1 = []) := by kernel_rfl
  rw [e] at h
  obtain ⟨_, _, rfl, h0, _, _, rfl, h1, rfl⟩ := h
  obtain ⟨rfl, a0, rfl⟩ := is_f32 p _ 8 _ h0
  obtain ⟨-, a1, rfl⟩ := is_Point3f .f32 _ 3 _ h1
  have r : Src.run S .f32 b (headTy Src.crate (Prim.id .f32) (Src.impl 81).target) (Src.fn 81 0) [.sc a0, rep a1] =
      Src.method S .f32 b (i!"mul") (.sc a0) [rep a1] := by kernel_rfl
  exact .inl ⟨_, _, r.trans (C81_scalar_mul_Point3 .f32 b a0 a1)⟩

/-- `Mul<Point3d> for f64`: `mul` -/
theorem total_82_0 (p : Prim) (b : Build) : FnTotal S p b (Src.impl 82) (Src.fn 82 0) := by
  intro args h
  have e : ArgsAre Src.crate p.id [((i!"Self"), (Src.impl 82).target)] (Src.fn 82 0).params args =
      (∃ v0 r0, args = v0 :: r0 ∧ Val.Is Src.crate p.id 9 (.path (i!"f64") []) v0 ∧ ∃ v1 r1, r0 = v1 :: r1 ∧ Val.Is Src.crate p.id 9 (.path (i!"Point3d") []) v1 ∧ r1 = []) := by kernel_rfl
  rw [e] at h
  obtain ⟨_, _, rfl, h0, _, _, rfl, h1, rfl⟩ := h
  obtain ⟨rfl, a0, rfl⟩ := is_f64 p _ 8 _ h0
  obtain ⟨-, a1, rfl⟩ := is_Point3d .f64 _ 3 _ h1
  have r : Src.run S .f64 b (headTy Src.crate (Prim.id .f64) (Src.impl 82).target) (Src.fn 82 0) [.sc a0, rep a1] =
      Src.method S .f64 b (i!"mul") (.sc a0) [rep a1] := by kernel_rfl
  exact .inl ⟨_, _, r.trans (C81_scalar_mul_Point3 .f64 b a0 a1)⟩

/-- `Div<S> for Point3<S>`: `div` -/
theorem total_83_0 (p : Prim) (b : Build) : FnTotal S p b (Src.impl 83) (Src.fn 83 0) := by
  intro args h
  have e : ArgsAre Src.crate p.id [((i!"Self"), (Src.impl 83).target)] (Src.fn 83 0).params args =
      (∃ v0 r0, args = v0 :: r0 ∧ Val.Is Src.crate p.id 9 (.path (i!"Point3") [.path (i!"S") []]) v0 ∧ ∃ v1 r1, r0 = v1 :: r1 ∧ Val.Is Src.crate p.id 9 (.path (i!"S") []) v1 ∧ r1 = []) := by kernel_rfl
  rw [e] at h
  obtain ⟨_, _, rfl, h0, _, _, rfl, h1, rfl⟩ := h
  obtain ⟨a0, rfl⟩ := is_Point3 p _ 4 _ h0
  obtain ⟨a1, rfl⟩ := is_S p _ 8 _ h1
  have r : Src.run S p b (headTy Src.crate (Prim.id p) (Src.impl 83).target) (Src.fn 83 0) [rep a0, .sc a1] =
      Src.method S p b (i!"div") (rep a0) [.sc a1] := by cases p <;> kernel_rfl
  exact .inl ⟨_, _, r.trans (C81_Point3_div p b a0 a1)⟩

/-- `DivAssign<S> for Point3<S>`: `div_assign` -/
theorem total_84_0 (p : Prim) (b : Build) : FnTotal S p b (Src.impl 84) (Src.fn 84 0) := by
  intro args h
  have e : ArgsAre Src.crate p.id [((i!"Self"), (Src.impl 84).target)] (Src.fn 84 0).params args =
      (∃ v0 r0, args = v0 :: r0 ∧ Val.Is Src.crate p.id 9 (.path (i!"Point3") [.path (i!"S") []]) v0 ∧ ∃ v1 r1, r0 = v1 :: r1 ∧ Val.Is Src.crate p.id 9 (.path (i!"S") []) v1 ∧ r1 = []) := by kernel_rfl
  rw [e] at h
  obtain ⟨_, _, rfl, h0, _, _, rfl, h1, rfl⟩ := h
  obtain ⟨a0, rfl⟩ := is_Point3 p _ 4 _ h0
  obtain ⟨a1, rfl⟩ := is_S p _ 8 _ h1
  have r : Src.run S p b (headTy Src.crate (Prim.id p) (Src.impl 84).target) (Src.fn 84 0) [rep a0, .sc a1] =
      Src.method S p b (i!"div_assign") (rep a0) [.sc a1] := by cases p <;> kernel_rfl
  exact .inl ⟨_, _, r.trans (C81_Point3_div_assign p b a0 a1)⟩

/-- `From<Vector3<S>> for Point3<S>`: `from` -/
theorem total_85_0 (p : Prim) (b : Build) : FnTotal S p b (Src.impl 85) (Src.fn 85 0) := by
  intro args h
  have e : ArgsAre Src.crate p.id [((i!"Self"), (Src.impl 85).target)] (Src.fn 85 0).params args =
      (∃ v0 r0, args = v0 :: r0 ∧ Val.Is Src.crate p.id 9 (.path (i!"Vector3") [.path (i!"S") []]) v0 ∧ r0 = []) := by kernel_rfl
  rw [e] at h
  obtain ⟨_, _, rfl, h0, rfl⟩ := h
  obtain ⟨a0, rfl⟩ := is_Vector3 p _ 4 _ h0
  have r : Src.run S p b (headTy Src.crate (Prim.id p) (Src.impl 85).target) (Src.fn 85 0) [rep a0] =
      Src.assoc S p b (i!"Point3") (i!"from") [rep a0] := by cases p <;> kernel_rfl
  exact .inl ⟨_, _, r.trans (C81_Point3_from p b a0)⟩

/-- `Ray3<S>`: `new` -/
theorem total_87_0 (p : Prim) (b : Build) : FnTotal S p b (Src.impl 87) (Src.fn 87 0) := by
  intro args h
  have e : ArgsAre Src.crate p.id [((i!"Self"), (Src.impl 87).target)] (Src.fn 87 0).params args =
      (∃ v0 r0, args = v0 :: r0 ∧ Val.Is Src.crate p.id 9 (.path (i!"Point3") [.path (i!"S") []]) v0 ∧ ∃ v1 r1, r0 = v1 :: r1 ∧ Val.Is Src.crate p.id 9 (.path (i!"Vector3") [.path (i!"S") []]) v1 ∧ r1 = []) := by kernel_rfl
  rw [e] at h
  obtain ⟨_, _, rfl, h0, _, _, rfl, h1, rfl⟩ := h
  obtain ⟨a0, rfl⟩ := is_Point3 p _ 4 _ h0
  obtain ⟨a1, rfl⟩ := is_Vector3 p _ 4 _ h1
  have r : Src.run S p b (headTy Src.crate (Prim.id p) (Src.impl 87).target) (Src.fn 87 0) [rep a0, rep a1] =
      Src.assoc S p b (i!"Ray3") (i!"new") [rep a0, rep a1] := by cases p <;> kernel_rfl
  exact .inl ⟨_, _, r.trans (C81_Ray3_new p b a0 a1)⟩

/-- `Ray3<S>`: `at` -/
theorem total_87_1 (p : Prim) (b : Build) : FnTotal S p b (Src.impl 87) (Src.fn 87 1) := by
  intro args h
  have e : ArgsAre Src.crate p.id [((i!"Self"), (Src.impl 87).target)] (Src.fn 87 1).params args =
      (∃ v0 r0, args = v0 :: r0 ∧ Val.Is Src.crate p.id 9 (.path (i!"Ray3") [.path (i!"S") []]) v0 ∧ ∃ v1 r1, r0 = v1 :: r1 ∧ Val.Is Src.crate p.id 9 (.path (i!"S") []) v1 ∧ r1 = []) := by kernel_rfl
  rw [e] at h
  obtain ⟨_, _, rfl, h0, _, _, rfl, h1, rfl⟩ := h
  obtain ⟨a0, rfl⟩ := is_Ray3 p _ 3 _ h0
  obtain ⟨a1, rfl⟩ := is_S p _ 8 _ h1
  have r : Src.run S p b (headTy Src.crate (Prim.id p) (Src.impl 87).target) (Src.fn 87 1) [rep a0, .sc a1] =
      Src.method S p b (i!"at") (rep a0) [.sc a1] := by cases p <;> kernel_rfl
  exact .inl ⟨_, _, r.trans (C81_Ray3_at p b a0 a1)⟩

/-- `BoundingBox3<S>`: `new` -/
theorem total_93_0 (p : Prim) (b : Build) : FnTotal S p b (Src.impl 93) (Src.fn 93 0) := by
  intro args h
  have e : ArgsAre Src.crate p.id [((i!"Self"), (Src.impl 93).target)] (Src.fn 93 0).params args =
      (∃ v0 r0, args = v0 :: r0 ∧ Val.Is Src.crate p.id 9 (.path (i!"Point3") [.path (i!"S") []]) v0 ∧ ∃ v1 r1, r0 = v1 :: r1 ∧ Val.Is Src.crate p.id 9 (.path (i!"Point3") [.path (i!"S") []]) v1 ∧ r1 = []) := by kernel_rfl
  rw [e] at h
  obtain ⟨_, _, rfl, h0, _, _, rfl, h1, rfl⟩ := h
  obtain ⟨a0, rfl⟩ := is_Point3 p _ 4 _ h0
  obtain ⟨a1, rfl⟩ := is_Point3 p _ 4 _ h1
  have r : Src.run S p b (headTy Src.crate (Prim.id p) (Src.impl 93).target) (Src.fn 93 0) [rep a0, rep a1] =
      Src.assoc S p b (i!"BoundingBox3") (i!"new") [rep a0, rep a1] := by cases p <;> kernel_rfl
  exact .inl ⟨_, _, r.trans (C81_BoundingBox3_new p b a0 a1)⟩

/-- `BoundingBox3<S>`: `empty` -/
theorem total_93_1 (p : Prim) (b : Build) : FnTotal S p b (Src.impl 93) (Src.fn 93 1) := by
  intro args h
  have e : ArgsAre Src.crate p.id [((i!"Self"), (Src.impl 93).target)] (Src.fn 93 1).params args =
      (args = []) := by kernel_rfl
  rw [e] at h
  obtain rfl := h
  have r : Src.run S p b (headTy Src.crate (Prim.id p) (Src.impl 93).target) (Src.fn 93 1) [] =
      Src.assoc S p b (i!"BoundingBox3") (i!"empty") [] := by cases p <;> kernel_rfl
  exact .inl ⟨_, _, r.trans (C81_BoundingBox3_empty p b)⟩

/-- `BoundingBox3<S>`: `infinite` -/
theorem total_93_2 (p : Prim) (b : Build) : FnTotal S p b (Src.impl 93) (Src.fn 93 2) := by
  intro args h
  have e : ArgsAre Src.crate p.id [((i!"Self"), (Src.impl 93).target)] (Src.fn 93 2).params args =
      (args = []) := by kernel_rfl
  rw [e] at h
  obtain rfl := h
  have r : Src.run S p b (headTy Src.crate (Prim.id p) (Src.impl 93).target) (Src.fn 93 2) [] =
      Src.assoc S p b (i!"BoundingBox3") (i!"infinite") [] := by cases p <;> kernel_rfl
  exact .inl ⟨_, _, r.trans (C81_BoundingBox3_infinite p b)⟩

/-- `BoundingBox3<S>`: `width` -/
theorem total_93_3 (p : Prim) (b : Build) : FnTotal S p b (Src.impl 93) (Src.fn 93 3) := by
  intro args h
  have e : ArgsAre Src.crate p.id [((i!"Self"), (Src.impl 93).target)] (Src.fn 93 3).params args =
      (∃ v0 r0, args = v0 :: r0 ∧ Val.Is Src.crate p.id 9 (.path (i!"BoundingBox3") [.path (i!"S") []]) v0 ∧ r0 = []) := by kernel_rfl
  rw [e] at h
  obtain ⟨_, _, rfl, h0, rfl⟩ := h
  obtain ⟨a0, rfl⟩ := is_BoundingBox3 p _ 3 _ h0
  have r : Src.run S p b (headTy Src.crate (Prim.id p) (Src.impl 93).target) (Src.fn 93 3) [rep a0] =
      Src.method S p b (i!"width") (rep a0) [] := by cases p <;> kernel_rfl
  exact .inl ⟨_, _, r.trans (C81_BoundingBox3_width p b a0)⟩

/-- `BoundingBox3<S>`: `height` -/
theorem total_93_4 (p : Prim) (b : Build) : FnTotal S p b (Src.impl 93) (Src.fn 93 4) := by
  intro args h
  have e : ArgsAre Src.crate p.id [((i!"Self"), (Src.impl 93).target)] (Src.fn 93 4).params args =
      (∃ v0 r0, args = v0 :: r0 ∧ Val.Is Src.crate p.id 9 (.path (i!"BoundingBox3") [.path (i!"S") []]) v0 ∧ r0 = []) := by kernel_rfl
  rw [e] at h
  obtain ⟨_, _, rfl, h0, rfl⟩ := h
  obtain ⟨a0, rfl⟩ := is_BoundingBox3 p _ 3 _ h0
  have r : Src.run S p b (headTy Src.crate (Prim.id p) (Src.impl 93).target) (Src.fn 93 4) [rep a0] =
      Src.method S p b (i!"height") (rep a0) [] := by cases p <;> kernel_rfl
  exact .inl ⟨_, _, r.trans (C81_BoundingBox3_height p b a0)⟩

/-- `BoundingBox3<S>`: `depth` -/
theorem total_93_5 (p : Prim) (b : Build) : FnTotal S p b (Src.impl 93) (Src.fn 93 5) := by
  intro args h
  have e : ArgsAre Src.crate p.id [((i!"Self"), (Src.impl 93).target)] (Src.fn 93 5).params args =
      (∃ v0 r0, args = v0 :: r0 ∧ Val.Is Src.crate p.id 9 (.path (i!"BoundingBox3") [.path (i!"S") []]) v0 ∧ r0 = []) := by kernel_rfl
  rw [e] at h
  obtain ⟨_, _, rfl, h0, rfl⟩ := h
  obtain ⟨a0, rfl⟩ := is_BoundingBox3 p _ 3 _ h0
  have r : Src.run S p b (headTy Src.crate (Prim.id p) (Src.impl 93).target) (Src.fn 93 5) [rep a0] =
      Src.method S p b (i!"depth") (rep a0) [] := by cases p <;> kernel_rfl
  exact .inl ⟨_, _, r.trans (C81_BoundingBox3_depth p b a0)⟩

/-- `BoundingBox3<S>`: `size` -/
theorem total_93_6 (p : Prim) (b : Build) : FnTotal S p b (Src.impl 93) (Src.fn 93 6) := by
  intro args h
  have e : ArgsAre Src.crate p.id [((i!"Self"), (Src.impl 93).target)] (Src.fn 93 6).params args =
      (∃ v0 r0, args = v0 :: r0 ∧ Val.Is Src.crate p.id 9 (.path (i!"BoundingBox3") [.path (i!"S") []]) v0 ∧ r0 = []) := by kernel_rfl
  rw [e] at h
  obtain ⟨_, _, rfl, h0, rfl⟩ := h
  obtain ⟨a0, rfl⟩ := is_BoundingBox3 p _ 3 _ h0
  have r : Src.run S p b (headTy Src.crate (Prim.id p) (Src.impl 93).target) (Src.fn 93 6) [rep a0] =
      Src.method S p b (i!"size") (rep a0) [] := by cases p <;> kernel_rfl
  exact .inl ⟨_, _, r.trans (C81_BoundingBox3_size p b a0)⟩

/-- `BoundingBox3<S>`: `extent` -/
theorem total_93_7 (p : Prim) (b : Build) : FnTotal S p b (Src.impl 93) (Src.fn 93 7) := by
  intro args h
  have e : ArgsAre Src.crate p.id [((i!"Self"), (Src.impl 93).target)] (Src.fn 93 7).params args =
      (∃ v0 r0, args = v0 :: r0 ∧ Val.Is Src.crate p.id 9 (.path (i!"BoundingBox3") [.path (i!"S") []]) v0 ∧ ∃ v1 r1, r0 = v1 :: r1 ∧ Val.Is Src.crate p.id 9 (.path (i!"Dimension3") []) v1 ∧ r1 = []) := by kernel_rfl
  rw [e] at h
  obtain ⟨_, _, rfl, h0, _, _, rfl, h1, rfl⟩ := h
  obtain ⟨a0, rfl⟩ := is_BoundingBox3 p _ 3 _ h0
  obtain ⟨a1, rfl⟩ := is_Dimension3 p _ 7 _ h1
  have r : Src.run S p b (headTy Src.crate (Prim.id p) (Src.impl 93).target) (Src.fn 93 7) [rep a0, rep a1] =
      Src.method S p b (i!"extent") (rep a0) [rep a1] := by cases p <;> kernel_rfl
  exact .inl ⟨_, _, r.trans (C81_BoundingBox3_extent p b a0 a1)⟩

/-- `BoundingBox3<S>`: `min_dimension` -/
theorem total_93_8 (p : Prim) (b : Build) : FnTotal S p b (Src.impl 93) (Src.fn 93 8) := by
  intro args h
  have e : ArgsAre Src.crate p.id [((i!"Self"), (Src.impl 93).target)] (Src.fn 93 8).params args =
      (∃ v0 r0, args = v0 :: r0 ∧ Val.Is Src.crate p.id 9 (.path (i!"BoundingBox3") [.path (i!"S") []]) v0 ∧ r0 = []) := by kernel_rfl
  rw [e] at h
  obtain ⟨_, _, rfl, h0, rfl⟩ := h
  obtain ⟨a0, rfl⟩ := is_BoundingBox3 p _ 3 _ h0
  have r : Src.run S p b (headTy Src.crate (Prim.id p) (Src.impl 93).target) (Src.fn 93 8) [rep a0] =
      Src.method S p b (i!"min_dimension") (rep a0) [] := by cases p <;> kernel_rfl
  exact .inl ⟨_, _, r.trans (C81_BoundingBox3_min_dimension p b a0)⟩

/-- `BoundingBox3<S>`: `max_dimension` -/
theorem total_93_9 (p : Prim) (b : Build) : FnTotal S p b (Src.impl 93) (Src.fn 93 9) := by
  intro args h
  have e : ArgsAre Src.crate p.id [((i!"Self"), (Src.impl 93).target)] (Src.fn 93 9).params args =
      (∃ v0 r0, args = v0 :: r0 ∧ Val.Is Src.crate p.id 9 (.path (i!"BoundingBox3") [.path (i!"S") []]) v0 ∧ r0 = []) := by kernel_rfl
  rw [e] at h
  obtain ⟨_, _, rfl, h0, rfl⟩ := h
  obtain ⟨a0, rfl⟩ := is_BoundingBox3 p _ 3 _ h0
  have r : Src.run S p b (headTy Src.crate (Prim.id p) (Src.impl 93).target) (Src.fn 93 9) [rep a0] =
      Src.method S p b (i!"max_dimension") (rep a0) [] := by cases p <;> kernel_rfl
  exact .inl ⟨_, _, r.trans (C81_BoundingBox3_max_dimension p b a0)⟩

/-- `BoundingBox3<S>`: `surface_area` -/
theorem total_93_10 (p : Prim) (b : Build) : FnTotal S p b (Src.impl 93) (Src.fn 93 10) := by
  intro args h
  have e : ArgsAre Src.crate p.id [((i!"Self"), (Src.impl 93).target)] (Src.fn 93 10).params args =
      (∃ v0 r0, args = v0 :: r0 ∧ Val.Is Src.crate p.id 9 (.path (i!"BoundingBox3") [.path (i!"S") []]) v0 ∧ r0 = []) := by kernel_rfl
  rw [e] at h
  obtain ⟨_, _, rfl, h0, rfl⟩ := h
  obtain ⟨a0, rfl⟩ := is_BoundingBox3 p _ 3 _ h0
  have r : Src.run S p b (headTy Src.crate (Prim.id p) (Src.impl 93).target) (Src.fn 93 10) [rep a0] =
      Src.method S p b (i!"surface_area") (rep a0) [] := by cases p <;> kernel_rfl
  exact .inl ⟨_, _, r.trans (C81_BoundingBox3_surface_area p b a0)⟩

/-- `BoundingBox3<S>`: `volume` -/
theorem total_93_11 (p : Prim) (b : Build) : FnTotal S p b (Src.impl 93) (Src.fn 93 11) := by
  intro args h
  have e : ArgsAre Src.crate p.id [((i!"Self"), (Src.impl 93).target)] (Src.fn 93 11).params args =
      (∃ v0 r0, args = v0 :: r0 ∧ Val.Is Src.crate p.id 9 (.path (i!"BoundingBox3") [.path (i!"S") []]) v0 ∧ r0 = []) := by kernel_rfl
  rw [e] at h
  obtain ⟨_, _, rfl, h0, rfl⟩ := h
  obtain ⟨a0, rfl⟩ := is_BoundingBox3 p _ 3 _ h0
  have r : Src.run S p b (headTy Src.crate (Prim.id p) (Src.impl 93).target) (Src.fn 93 11) [rep a0] =
      Src.method S p b (i!"volume") (rep a0) [] := by cases p <;> kernel_rfl
  exact .inl ⟨_, _, r.trans (C81_BoundingBox3_volume p b a0)⟩

/-- `BoundingBox3<S>`: `center` -/
theorem total_93_12 (p : Prim) (b : Build) : FnTotal S p b (Src.impl 93) (Src.fn 93 12) := by
  intro args h
  have e : ArgsAre Src.crate p.id [((i!"Self"), (Src.impl 93).target)] (Src.fn 93 12).params args =
      (∃ v0 r0, args = v0 :: r0 ∧ Val.Is Src.crate p.id 9 (.path (i!"BoundingBox3") [.path (i!"S") []]) v0 ∧ r0 = []) := by kernel_rfl
  rw [e] at h
  obtain ⟨_, _, rfl, h0, rfl⟩ := h
  obtain ⟨a0, rfl⟩ := is_BoundingBox3 p _ 3 _ h0
  have r : Src.run S p b (headTy Src.crate (Prim.id p) (Src.impl 93).target) (Src.fn 93 12) [rep a0] =
      Src.method S p b (i!"center") (rep a0) [] := by cases p <;> kernel_rfl
  exact .inl ⟨_, _, r.trans (C81_BoundingBox3_center p b a0)⟩

/-- `BoundingBox3<S>`: `corner` -/
theorem total_93_13 (p : Prim) (b : Build) : FnTotal S p b (Src.impl 93) (Src.fn 93 13) := by
  intro args h
  have e : ArgsAre Src.crate p.id [((i!"Self"), (Src.impl 93).target)] (Src.fn 93 13).params args =
      (∃ v0 r0, args = v0 :: r0 ∧ Val.Is Src.crate p.id 9 (.path (i!"BoundingBox3") [.path (i!"S") []]) v0 ∧ ∃ v1 r1, r0 = v1 :: r1 ∧ Val.Is Src.crate p.id 9 (.path (i!"u32") []) v1 ∧ r1 = []) := by kernel_rfl
  rw [e] at h
  obtain ⟨_, _, rfl, h0, _, _, rfl, h1, rfl⟩ := h
  obtain ⟨a0, rfl⟩ := is_BoundingBox3 p _ 3 _ h0
  obtain ⟨a1, rfl⟩ := is_u32 p _ 8 _ h1
  have r : Src.run S p b (headTy Src.crate (Prim.id p) (Src.impl 93).target) (Src.fn 93 13) [rep a0, rep a1] =
      Src.method S p b (i!"corner") (rep a0) [rep a1] := by cases p <;> kernel_rfl
  exact total_outOf _ _ _ (r.trans (C81_BoundingBox3_corner p b a0 a1)) (fun _ => name_mem 93 13 (i!"corner") (by kernel_rfl) (by decide))

/-- `BoundingBox3<S>`: `diagonal` -/
theorem total_93_14 (p : Prim) (b : Build) : FnTotal S p b (Src.impl 93) (Src.fn 93 14) := by
  intro args h
  have e : ArgsAre Src.crate p.id [((i!"Self"), (Src.impl 93).target)] (Src.fn 93 14).params args =
      (∃ v0 r0, args = v0 :: r0 ∧ Val.Is Src.crate p.id 9 (.path (i!"BoundingBox3") [.path (i!"S") []]) v0 ∧ r0 = []) := by kernel_rfl
  rw [e] at h
  obtain ⟨_, _, rfl, h0, rfl⟩ := h
  obtain ⟨a0, rfl⟩ := is_BoundingBox3 p _ 3 _ h0
  have r : Src.run S p b (headTy Src.crate (Prim.id p) (Src.impl 93).target) (Src.fn 93 14) [rep a0] =
      Src.method S p b (i!"diagonal") (rep a0) [] := by cases p <;> kernel_rfl
  exact .inl ⟨_, _, r.trans (C81_BoundingBox3_diagonal p b a0)⟩

/-- `BoundingBox3<S>`: `overlaps` -/
theorem total_93_15 (p : Prim) (b : Build) : FnTotal S p b (Src.impl 93) (Src.fn 93 15) := by
  intro args h
  have e : ArgsAre Src.crate p.id [((i!"Self"), (Src.impl 93).target)] (Src.fn 93 15).params args =
      (∃ v0 r0, args = v0 :: r0 ∧ Val.Is Src.crate p.id 9 (.path (i!"BoundingBox3") [.path (i!"S") []]) v0 ∧ ∃ v1 r1, r0 = v1 :: r1 ∧ Val.Is Src.crate p.id 9 (.path (i!"BoundingBox3") [.path (i!"S") []]) v1 ∧ r1 = []) := by kernel_rfl
  rw [e] at h
  obtain ⟨_, _, rfl, h0, _, _, rfl, h1, rfl⟩ := h
  obtain ⟨a0, rfl⟩ := is_BoundingBox3 p _ 3 _ h0
  obtain ⟨a1, rfl⟩ := is_BoundingBox3 p _ 3 _ h1
  have r : Src.run S p b (headTy Src.crate (Prim.id p) (Src.impl 93).target) (Src.fn 93 15) [rep a0, rep a1] =
      Src.method S p b (i!"overlaps") (rep a0) [rep a1] := by cases p <;> kernel_rfl
  exact .inl ⟨_, _, r.trans (C81_BoundingBox3_overlaps p b a0 a1)⟩

/-- `BoundingBox3<S>`: `is_inside` -/
theorem total_93_16 (p : Prim) (b : Build) : FnTotal S p b (Src.impl 93) (Src.fn 93 16) := by
  intro args h
  have e : ArgsAre Src.crate p.id [((i!"Self"), (Src.impl 93).target)] (Src.fn 93 16).params args =
      (∃ v0 r0, args = v0 :: r0 ∧ Val.Is Src.crate p.id 9 (.path (i!"BoundingBox3") [.path (i!"S") []]) v0 ∧ ∃ v1 r1, r0 = v1 :: r1 ∧ Val.Is Src.crate p.id 9 (.path (i!"Point3") [.path (i!"S") []]) v1 ∧ r1 = []) := by kernel_rfl
  rw [e] at h
  obtain ⟨_, _, rfl, h0, _, _, rfl, h1, rfl⟩ := h
  obtain ⟨a0, rfl⟩ := is_BoundingBox3 p _ 3 _ h0
  obtain ⟨a1, rfl⟩ := is_Point3 p _ 4 _ h1
  have r : Src.run S p b (headTy Src.crate (Prim.id p) (Src.impl 93).target) (Src.fn 93 16) [rep a0, rep a1] =
      Src.method S p b (i!"is_inside") (rep a0) [rep a1] := by cases p <;> kernel_rfl
  exact .inl ⟨_, _, r.trans (C81_BoundingBox3_is_inside p b a0 a1)⟩

/-- `Union<BoundingBox3<S>> for BoundingBox3<S>`: `union` -/
theorem total_94_0 (p : Prim) (b : Build) : FnTotal S p b (Src.impl 94) (Src.fn 94 0) := by
  intro args h
  have e : ArgsAre Src.crate p.id [((i!"Self"), (Src.impl 94).target)] (Src.fn 94 0).params args =
      (∃ v0 r0, args = v0 :: r0 ∧ Val.Is Src.crate p.id 9 (.path (i!"BoundingBox3") [.path (i!"S") []]) v0 ∧ ∃ v1 r1, r0 = v1 :: r1 ∧ Val.Is Src.crate p.id 9 (.path (i!"BoundingBox3") [.path (i!"S") []]) v1 ∧ r1 = []) := by kernel_rfl
  rw [e] at h
  obtain ⟨_, _, rfl, h0, _, _, rfl, h1, rfl⟩ := h
  obtain ⟨a0, rfl⟩ := is_BoundingBox3 p _ 3 _ h0
  obtain ⟨a1, rfl⟩ := is_BoundingBox3 p _ 3 _ h1
  have r : Src.run S p b (headTy Src.crate (Prim.id p) (Src.impl 94).target) (Src.fn 94 0) [rep a0, rep a1] =
      Src.method S p b (i!"union") (rep a0) [rep a1] := by cases p <;> kernel_rfl
  exact .inl ⟨_, _, r.trans (C81_BoundingBox3_union p b a0 a1)⟩

/-- `Union<Point3<S>> for BoundingBox3<S>`: `union` -/
theorem total_95_0 (p : Prim) (b : Build) : FnTotal S p b (Src.impl 95) (Src.fn 95 0) := by
  intro args h
  have e : ArgsAre Src.crate p.id [((i!"Self"), (Src.impl 95).target)] (Src.fn 95 0).params args =
      (∃ v0 r0, args = v0 :: r0 ∧ Val.Is Src.crate p.id 9 (.path (i!"BoundingBox3") [.path (i!"S") []]) v0 ∧ ∃ v1 r1, r0 = v1 :: r1 ∧ Val.Is Src.crate p.id 9 (.path (i!"Point3") [.path (i!"S") []]) v1 ∧ r1 = []) := by kernel_rfl
  rw [e] at h
  obtain ⟨_, _, rfl, h0, _, _, rfl, h1, rfl⟩ := h
  obtain ⟨a0, rfl⟩ := is_BoundingBox3 p _ 3 _ h0
  obtain ⟨a1, rfl⟩ := is_Point3 p _ 4 _ h1
  have r : Src.run S p b (headTy Src.crate (Prim.id p) (Src.impl 95).target) (Src.fn 95 0) [rep a0, rep a1] =
      Src.method S p b (i!"union") (rep a0) [rep a1] := by cases p <;> kernel_rfl
  exact .inl ⟨_, _, r.trans (C81_BoundingBox3_union_point p b a0 a1)⟩

/-- `Intersection<BoundingBox3<S>> for BoundingBox3<S>`: `intersect` -/
theorem total_96_0 (p : Prim) (b : Build) : FnTotal S p b (Src.impl 96) (Src.fn 96 0) := by
  intro args h
  have e : ArgsAre Src.crate p.id [((i!"Self"), (Src.impl 96).target)] (Src.fn 96 0).params args =
      (∃ v0 r0, args = v0 :: r0 ∧ Val.Is Src.crate p.id 9 (.path (i!"BoundingBox3") [.path (i!"S") []]) v0 ∧ ∃ v1 r1, r0 = v1 :: r1 ∧ Val.Is Src.crate p.id 9 (.path (i!"BoundingBox3") [.path (i!"S") []]) v1 ∧ r1 = []) := by kernel_rfl
  rw [e] at h
  obtain ⟨_, _, rfl, h0, _, _, rfl, h1, rfl⟩ := h
  obtain ⟨a0, rfl⟩ := is_BoundingBox3 p _ 3 _ h0
  obtain ⟨a1, rfl⟩ := is_BoundingBox3 p _ 3 _ h1
  have r : Src.run S p b (headTy Src.crate (Prim.id p) (Src.impl 96).target) (Src.fn 96 0) [rep a0, rep a1] =
      Src.method S p b (i!"intersect") (rep a0) [rep a1] := by cases p <;> kernel_rfl
  exact .inl ⟨_, _, r.trans (C81_BoundingBox3_intersect p b a0 a1)⟩

/-- `Intersection<Ray3<S>> for BoundingBox3<S>`: `intersect` -/
theorem total_97_0 (p : Prim) (b : Build) : FnTotal S p b (Src.impl 97) (Src.fn 97 0) := by
  intro args h
  have e : ArgsAre Src.crate p.id [((i!"Self"), (Src.impl 97).target)] (Src.fn 97 0).params args =
      (∃ v0 r0, args = v0 :: r0 ∧ Val.Is Src.crate p.id 9 (.path (i!"BoundingBox3") [.path (i!"S") []]) v0 ∧ ∃ v1 r1, r0 = v1 :: r1 ∧ Val.Is Src.crate p.id 9 (.path (i!"Ray3") [.path (i!"S") []]) v1 ∧ r1 = []) := by kernel_rfl
  rw [e] at h
  obtain ⟨_, _, rfl, h0, _, _, rfl, h1, rfl⟩ := h
  obtain ⟨a0, rfl⟩ := is_BoundingBox3 p _ 3 _ h0
  obtain ⟨a1, rfl⟩ := is_Ray3 p _ 3 _ h1
  have r : Src.run S p b (headTy Src.crate (Prim.id p) (Src.impl 97).target) (Src.fn 97 0) [rep a0, rep a1] =
      Src.method S p b (i!"intersect") (rep a0) [rep a1] := by cases p <;> kernel_rfl
  exact .inl ⟨_, _, r.trans (C81_BoundingBox3_intersect_ray p b a0 a1)⟩

end VecMath.Rust
