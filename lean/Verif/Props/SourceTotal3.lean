import Verif.Rust.Inhabit
import Verif.Rust.Total
import Verif.Props.Source1
import Verif.Props.Source2
import Verif.Props.Source3
import Verif.Props.SourceT2
import Verif.Props.SourceT3
/-! # No function of the source text panics or runs forever, part 3

Generated by `tools/gen/total.py`. -/

namespace VecMath.Rust
open VecMath
variable {S : Type} [Scalar S]

/-- `Matrix3x3<S>`: `new` -/
theorem total_98_0 (p : Prim) (b : Build) : FnTotal S p b (Src.impl 98) (Src.fn 98 0) := by
  intro args h
  have e : ArgsAre Src.crate p.id [((i!"Self"), (Src.impl 98).target)] (Src.fn 98 0).params args =
      (∃ v0 r0, args = v0 :: r0 ∧ Val.Is Src.crate p.id 9 (.arr (.path (i!"S") []) 9) v0 ∧ r0 = []) := by kernel_rfl
  rw [e] at h
  obtain ⟨_, _, rfl, h0, rfl⟩ := h
  obtain ⟨a0, rfl⟩ := is_arr9 p 6 _ h0
  have r : Src.run S p b (headTy Src.crate (Prim.id p) (Src.impl 98).target) (Src.fn 98 0) [rep a0] =
      Src.assoc S p b (i!"Matrix3x3") (i!"new") [rep a0] := by cases p <;> kernel_rfl
  exact .inl ⟨_, _, r.trans (C81_Matrix3x3_new p b a0)⟩

/-- `Matrix3x3<S>`: `identity` -/
theorem total_98_1 (p : Prim) (b : Build) : FnTotal S p b (Src.impl 98) (Src.fn 98 1) := by
  intro args h
  have e : ArgsAre Src.crate p.id [((i!"Self"), (Src.impl 98).target)] (Src.fn 98 1).params args =
      (args = []) := by kernel_rfl
  rw [e] at h
  obtain rfl := h
  have r : Src.run S p b (headTy Src.crate (Prim.id p) (Src.impl 98).target) (Src.fn 98 1) [] =
      Src.assoc S p b (i!"Matrix3x3") (i!"identity") [] := by cases p <;> kernel_rfl
  exact .inl ⟨_, _, r.trans (C81_Matrix3x3_identity p b)⟩

/-- `Matrix3x3<S>`: `translate` -/
theorem total_98_2 (p : Prim) (b : Build) : FnTotal S p b (Src.impl 98) (Src.fn 98 2) := by
  intro args h
  have e : ArgsAre Src.crate p.id [((i!"Self"), (Src.impl 98).target)] (Src.fn 98 2).params args =
      (∃ v0 r0, args = v0 :: r0 ∧ Val.Is Src.crate p.id 9 (.path (i!"Vector2") [.path (i!"S") []]) v0 ∧ r0 = []) := by kernel_rfl
  rw [e] at h
  obtain ⟨_, _, rfl, h0, rfl⟩ := h
  obtain ⟨a0, rfl⟩ := is_Vector2 p _ 4 _ h0
  have r : Src.run S p b (headTy Src.crate (Prim.id p) (Src.impl 98).target) (Src.fn 98 2) [rep a0] =
      Src.assoc S p b (i!"Matrix3x3") (i!"translate") [rep a0] := by cases p <;> kernel_rfl
  exact .inl ⟨_, _, r.trans (C81_Matrix3x3_translate p b a0)⟩

/-- `Matrix3x3<S>`: `rotate` -/
theorem total_98_3 (p : Prim) (b : Build) : FnTotal S p b (Src.impl 98) (Src.fn 98 3) := by
  intro args h
  have e : ArgsAre Src.crate p.id [((i!"Self"), (Src.impl 98).target)] (Src.fn 98 3).params args =
      (∃ v0 r0, args = v0 :: r0 ∧ Val.Is Src.crate p.id 9 (.path (i!"S") []) v0 ∧ r0 = []) := by kernel_rfl
  rw [e] at h
  obtain ⟨_, _, rfl, h0, rfl⟩ := h
  obtain ⟨a0, rfl⟩ := is_S p _ 8 _ h0
  have r : Src.run S p b (headTy Src.crate (Prim.id p) (Src.impl 98).target) (Src.fn 98 3) [.sc a0] =
      Src.assoc S p b (i!"Matrix3x3") (i!"rotate") [.sc a0] := by cases p <;> kernel_rfl
  exact .inl ⟨_, _, r.trans (C81_Matrix3x3_rotate p b a0)⟩

/-- `Matrix3x3<S>`: `scale` -/
theorem total_98_4 (p : Prim) (b : Build) : FnTotal S p b (Src.impl 98) (Src.fn 98 4) := by
  intro args h
  have e : ArgsAre Src.crate p.id [((i!"Self"), (Src.impl 98).target)] (Src.fn 98 4).params args =
      (∃ v0 r0, args = v0 :: r0 ∧ Val.Is Src.crate p.id 9 (.path (i!"S") []) v0 ∧ ∃ v1 r1, r0 = v1 :: r1 ∧ Val.Is Src.crate p.id 9 (.path (i!"S") []) v1 ∧ r1 = []) := by kernel_rfl
  rw [e] at h
  obtain ⟨_, _, rfl, h0, _, _, rfl, h1, rfl⟩ := h
  obtain ⟨a0, rfl⟩ := is_S p _ 8 _ h0
  obtain ⟨a1, rfl⟩ := is_S p _ 8 _ h1
  have r : Src.run S p b (headTy Src.crate (Prim.id p) (Src.impl 98).target) (Src.fn 98 4) [.sc a0, .sc a1] =
      Src.assoc S p b (i!"Matrix3x3") (i!"scale") [.sc a0, .sc a1] := by cases p <;> kernel_rfl
  exact .inl ⟨_, _, r.trans (C81_Matrix3x3_scale p b a0 a1)⟩

/-- `Matrix3x3<S>`: `scale_uniform` -/
theorem total_98_5 (p : Prim) (b : Build) : FnTotal S p b (Src.impl 98) (Src.fn 98 5) := by
  intro args h
  have e : ArgsAre Src.crate p.id [((i!"Self"), (Src.impl 98).target)] (Src.fn 98 5).params args =
      (∃ v0 r0, args = v0 :: r0 ∧ Val.Is Src.crate p.id 9 (.path (i!"S") []) v0 ∧ r0 = []) := by kernel_rfl
  rw [e] at h
  obtain ⟨_, _, rfl, h0, rfl⟩ := h
  obtain ⟨a0, rfl⟩ := is_S p _ 8 _ h0
  have r : Src.run S p b (headTy Src.crate (Prim.id p) (Src.impl 98).target) (Src.fn 98 5) [.sc a0] =
      Src.assoc S p b (i!"Matrix3x3") (i!"scale_uniform") [.sc a0] := by cases p <;> kernel_rfl
  exact .inl ⟨_, _, r.trans (C81_Matrix3x3_scale_uniform p b a0)⟩

/-- `Matrix3x3<S>`: `get` -/
theorem total_98_6 (p : Prim) (b : Build) : FnTotal S p b (Src.impl 98) (Src.fn 98 6) := by
  intro args h
  have e : ArgsAre Src.crate p.id [((i!"Self"), (Src.impl 98).target)] (Src.fn 98 6).params args =
      (∃ v0 r0, args = v0 :: r0 ∧ Val.Is Src.crate p.id 9 (.path (i!"Matrix3x3") [.path (i!"S") []]) v0 ∧ ∃ v1 r1, r0 = v1 :: r1 ∧ Val.Is Src.crate p.id 9 (.path (i!"u32") []) v1 ∧ ∃ v2 r2, r1 = v2 :: r2 ∧ Val.Is Src.crate p.id 9 (.path (i!"u32") []) v2 ∧ r2 = []) := by kernel_rfl
  rw [e] at h
  obtain ⟨_, _, rfl, h0, _, _, rfl, h1, _, _, rfl, h2, rfl⟩ := h
  obtain ⟨a0, rfl⟩ := is_Matrix3x3 p _ 4 _ h0
  obtain ⟨a1, rfl⟩ := is_u32 p _ 8 _ h1
  obtain ⟨a2, rfl⟩ := is_u32 p _ 8 _ h2
  have r : Src.run S p b (headTy Src.crate (Prim.id p) (Src.impl 98).target) (Src.fn 98 6) [rep a0, rep a1, rep a2] =
      Src.method S p b (i!"get") (rep a0) [rep a1, rep a2] := by cases p <;> kernel_rfl
  exact total_outOf _ _ _ (r.trans (C81_Matrix3x3_get p b a0 a1 a2)) (fun _ => name_mem 98 6 (i!"get") (by kernel_rfl) (by decide))

/-- `Matrix3x3<S>`: `get_mut` -/
theorem total_98_7 (p : Prim) (b : Build) : FnTotal S p b (Src.impl 98) (Src.fn 98 7) := by
  intro args h
  have e : ArgsAre Src.crate p.id [((i!"Self"), (Src.impl 98).target)] (Src.fn 98 7).params args =
      (∃ v0 r0, args = v0 :: r0 ∧ Val.Is Src.crate p.id 9 (.path (i!"Matrix3x3") [.path (i!"S") []]) v0 ∧ ∃ v1 r1, r0 = v1 :: r1 ∧ Val.Is Src.crate p.id 9 (.path (i!"u32") []) v1 ∧ ∃ v2 r2, r1 = v2 :: r2 ∧ Val.Is Src.crate p.id 9 (.path (i!"u32") []) v2 ∧ r2 = []) := by kernel_rfl
  rw [e] at h
  obtain ⟨_, _, rfl, h0, _, _, rfl, h1, _, _, rfl, h2, rfl⟩ := h
  obtain ⟨a0, rfl⟩ := is_Matrix3x3 p _ 4 _ h0
  obtain ⟨a1, rfl⟩ := is_u32 p _ 8 _ h1
  obtain ⟨a2, rfl⟩ := is_u32 p _ 8 _ h2
  have r : Src.run S p b (headTy Src.crate (Prim.id p) (Src.impl 98).target) (Src.fn 98 7) [rep a0, rep a1, rep a2] =
      Src.method S p b (i!"get_mut") (rep a0) [rep a1, rep a2] := by cases p <;> kernel_rfl
  rcases C81_Matrix3x3_get_mut p b a0 a1 a2 with ⟨e, h, -⟩ | ⟨pl, h, -⟩
  · exact .inr ⟨name_mem 98 7 (i!"get_mut") (by kernel_rfl) (by decide), e, r.trans h⟩
  · exact .inl ⟨_, _, r.trans h⟩

/-- `Matrix3x3<S>`: `set` -/
theorem total_98_8 (p : Prim) (b : Build) : FnTotal S p b (Src.impl 98) (Src.fn 98 8) := by
  intro args h
  have e : ArgsAre Src.crate p.id [((i!"Self"), (Src.impl 98).target)] (Src.fn 98 8).params args =
      (∃ v0 r0, args = v0 :: r0 ∧ Val.Is Src.crate p.id 9 (.path (i!"Matrix3x3") [.path (i!"S") []]) v0 ∧ ∃ v1 r1, r0 = v1 :: r1 ∧ Val.Is Src.crate p.id 9 (.path (i!"u32") []) v1 ∧ ∃ v2 r2, r1 = v2 :: r2 ∧ Val.Is Src.crate p.id 9 (.path (i!"u32") []) v2 ∧ ∃ v3 r3, r2 = v3 :: r3 ∧ Val.Is Src.crate p.id 9 (.path (i!"S") []) v3 ∧ r3 = []) := by kernel_rfl
  rw [e] at h
  obtain ⟨_, _, rfl, h0, _, _, rfl, h1, _, _, rfl, h2, _, _, rfl, h3, rfl⟩ := h
  obtain ⟨a0, rfl⟩ := is_Matrix3x3 p _ 4 _ h0
  obtain ⟨a1, rfl⟩ := is_u32 p _ 8 _ h1
  obtain ⟨a2, rfl⟩ := is_u32 p _ 8 _ h2
  obtain ⟨a3, rfl⟩ := is_S p _ 8 _ h3
  have r : Src.run S p b (headTy Src.crate (Prim.id p) (Src.impl 98).target) (Src.fn 98 8) [rep a0, rep a1, rep a2, .sc a3] =
      Src.method S p b (i!"set") (rep a0) [rep a1, rep a2, .sc a3] := by cases p <;> kernel_rfl
  exact total_outOf _ _ _ (r.trans (C81_Matrix3x3_set p b a0 a1 a2 a3)) (fun _ => name_mem 98 8 (i!"set") (by kernel_rfl) (by decide))

/-- `Matrix3x3<S>`: `linear_index` -/
theorem total_98_9 (p : Prim) (b : Build) : FnTotal S p b (Src.impl 98) (Src.fn 98 9) := by
  intro args h
  have e : ArgsAre Src.crate p.id [((i!"Self"), (Src.impl 98).target)] (Src.fn 98 9).params args =
      (∃ v0 r0, args = v0 :: r0 ∧ Val.Is Src.crate p.id 9 (.path (i!"u32") []) v0 ∧ ∃ v1 r1, r0 = v1 :: r1 ∧ Val.Is Src.crate p.id 9 (.path (i!"u32") []) v1 ∧ r1 = []) := by kernel_rfl
  rw [e] at h
  obtain ⟨_, _, rfl, h0, _, _, rfl, h1, rfl⟩ := h
  obtain ⟨a0, rfl⟩ := is_u32 p _ 8 _ h0
  obtain ⟨a1, rfl⟩ := is_u32 p _ 8 _ h1
  have r : Src.run S p b (headTy Src.crate (Prim.id p) (Src.impl 98).target) (Src.fn 98 9) [rep a0, rep a1] =
      Src.assoc S p b (i!"Matrix3x3") (i!"linear_index") [rep a0, rep a1] := by cases p <;> kernel_rfl
  exact total_outOf _ _ _ (r.trans (C81_Matrix3x3_linear_index p b a0 a1)) (fun _ => name_mem 98 9 (i!"linear_index") (by kernel_rfl) (by decide))

/-- `Matrix3x3<S>`: `transpose` -/
theorem total_98_10 (p : Prim) (b : Build) : FnTotal S p b (Src.impl 98) (Src.fn 98 10) := by
  intro args h
  have e : ArgsAre Src.crate p.id [((i!"Self"), (Src.impl 98).target)] (Src.fn 98 10).params args =
      (∃ v0 r0, args = v0 :: r0 ∧ Val.Is Src.crate p.id 9 (.path (i!"Matrix3x3") [.path (i!"S") []]) v0 ∧ r0 = []) := by kernel_rfl
  rw [e] at h
  obtain ⟨_, _, rfl, h0, rfl⟩ := h
  obtain ⟨a0, rfl⟩ := is_Matrix3x3 p _ 4 _ h0
  have r : Src.run S p b (headTy Src.crate (Prim.id p) (Src.impl 98).target) (Src.fn 98 10) [rep a0] =
      Src.method S p b (i!"transpose") (rep a0) [] := by cases p <;> kernel_rfl
  exact .inl ⟨_, _, r.trans (C81_Matrix3x3_transpose p b a0)⟩

/-- `Matrix3x3<S>`: `inverse` -/
theorem total_98_11 (p : Prim) (b : Build) : FnTotal S p b (Src.impl 98) (Src.fn 98 11) := by
  intro args h
  have e : ArgsAre Src.crate p.id [((i!"Self"), (Src.impl 98).target)] (Src.fn 98 11).params args =
      (∃ v0 r0, args = v0 :: r0 ∧ Val.Is Src.crate p.id 9 (.path (i!"Matrix3x3") [.path (i!"S") []]) v0 ∧ r0 = []) := by kernel_rfl
  rw [e] at h
  obtain ⟨_, _, rfl, h0, rfl⟩ := h
  obtain ⟨a0, rfl⟩ := is_Matrix3x3 p _ 4 _ h0
  have r : Src.run S p b (headTy Src.crate (Prim.id p) (Src.impl 98).target) (Src.fn 98 11) [rep a0] =
      Src.method S p b (i!"inverse") (rep a0) [] := by cases p <;> kernel_rfl
  exact .inl ⟨_, _, r.trans (C81_Matrix3x3_inverse p b a0)⟩

/-- `Mul<S> for Matrix3x3<S>`: `mul` -/
theorem total_99_0 (p : Prim) (b : Build) : FnTotal S p b (Src.impl 99) (Src.fn 99 0) := by
  intro args h
  have e : ArgsAre Src.crate p.id [((i!"Self"), (Src.impl 99).target)] (Src.fn 99 0).params args =
      (∃ v0 r0, args = v0 :: r0 ∧ Val.Is Src.crate p.id 9 (.path (i!"Matrix3x3") [.path (i!"S") []]) v0 ∧ ∃ v1 r1, r0 = v1 :: r1 ∧ Val.Is Src.crate p.id 9 (.path (i!"S") []) v1 ∧ r1 = []) := by kernel_rfl
  rw [e] at h
  obtain ⟨_, _, rfl, h0, _, _, rfl, h1, rfl⟩ := h
  obtain ⟨a0, rfl⟩ := is_Matrix3x3 p _ 4 _ h0
  obtain ⟨a1, rfl⟩ := is_S p _ 8 _ h1
  have r : Src.run S p b (headTy Src.crate (Prim.id p) (Src.impl 99).target) (Src.fn 99 0) [rep a0, .sc a1] =
      Src.method S p b (i!"mul") (rep a0) [.sc a1] := by cases p <;> kernel_rfl
  exact .inl ⟨_, _, r.trans (C81_Matrix3x3_mul p b a0 a1)⟩

/-- `MulAssign<S> for Matrix3x3<S>`: `mul_assign` -/
theorem total_100_0 (p : Prim) (b : Build) : FnTotal S p b (Src.impl 100) (Src.fn 100 0) := by
  intro args h
  have e : ArgsAre Src.crate p.id [((i!"Self"), (Src.impl 100).target)] (Src.fn 100 0).params args =
      (∃ v0 r0, args = v0 :: r0 ∧ Val.Is Src.crate p.id 9 (.path (i!"Matrix3x3") [.path (i!"S") []]) v0 ∧ ∃ v1 r1, r0 = v1 :: r1 ∧ Val.Is Src.crate p.id 9 (.path (i!"S") []) v1 ∧ r1 = []) := by kernel_rfl
  rw [e] at h
  obtain ⟨_, _, rfl, h0, _, _, rfl, h1, rfl⟩ := h
  obtain ⟨a0, rfl⟩ := is_Matrix3x3 p _ 4 _ h0
  obtain ⟨a1, rfl⟩ := is_S p _ 8 _ h1
  have r : Src.run S p b (headTy Src.crate (Prim.id p) (Src.impl 100).target) (Src.fn 100 0) [rep a0, .sc a1] =
      Src.method S p b (i!"mul_assign") (rep a0) [.sc a1] := by cases p <;> kernel_rfl
  exact .inl ⟨_, _, r.trans (C81_Matrix3x3_mul_assign p b a0 a1)⟩

/-- `Mul<Matrix3x3f> for f32`: `mul` -/
theorem total_101_0 (p : Prim) (b : Build) : FnTotal S p b (Src.impl 101) (Src.fn 101 0) := by
  intro args h
  have e : ArgsAre Src.crate p.id [((i!"Self"), (Src.impl 101).target)] (Src.fn 101 0).params args =
      (∃ v0 r0, args = v0 :: r0 ∧ Val.Is Src.crate p.id 9 (.path (i!"f32") []) v0 ∧ ∃ v1 r1, r0 = v1 :: r1 ∧ Val.Is Src.crate p.id 9 (.path (i!"Matrix3x3f") []) v1 ∧ r1 = []) := by kernel_rfl
  rw [e] at h
  obtain ⟨_, _, rfl, h0, _, _, rfl, h1, rfl⟩ := h
  obtain ⟨rfl, a0, rfl⟩ := is_f32 p _ 8 _ h0
  obtain ⟨-, a1, rfl⟩ := is_Matrix3x3f .f32 _ 3 _ h1
  have r : Src.run S .f32 b (headTy Src.crate (Prim.id .f32) (Src.impl 101).target) (Src.fn 101 0) [.sc a0, rep a1] =
      Src.method S .f32 b (i!"mul") (.sc a0) [rep a1] := by kernel_rfl
  exact .inl ⟨_, _, r.trans (C81_scalar_mul_Matrix3x3 .f32 b a0 a1)⟩

/-- `Mul<Matrix3x3d> for f64`: `mul` -/
theorem total_102_0 (p : Prim) (b : Build) : FnTotal S p b (Src.impl 102) (Src.fn 102 0) := by
  intro args h
  have e : ArgsAre Src.crate p.id [((i!"Self"), (Src.impl 102).target)] (Src.fn 102 0).params args =
      (∃ v0 r0, args = v0 :: r0 ∧ Val.Is Src.crate p.id 9 (.path (i!"f64") []) v0 ∧ ∃ v1 r1, r0 = v1 :: r1 ∧ Val.Is Src.crate p.id 9 (.path (i!"Matrix3x3d") []) v1 ∧ r1 = []) := by kernel_rfl
  rw [e] at h
  obtain ⟨_, _, rfl, h0, _, _, rfl, h1, rfl⟩ := h
  obtain ⟨rfl, a0, rfl⟩ := is_f64 p _ 8 _ h0
  obtain ⟨-, a1, rfl⟩ := is_Matrix3x3d .f64 _ 3 _ h1
  have r : Src.run S .f64 b (headTy Src.crate (Prim.id .f64) (Src.impl 102).target) (Src.fn 102 0) [.sc a0, rep a1] =
      Src.method S .f64 b (i!"mul") (.sc a0) [rep a1] := by kernel_rfl
  exact .inl ⟨_, _, r.trans (C81_scalar_mul_Matrix3x3 .f64 b a0 a1)⟩

/-- `Div<S> for Matrix3x3<S>`: `div` -/
theorem total_103_0 (p : Prim) (b : Build) : FnTotal S p b (Src.impl 103) (Src.fn 103 0) := by
  intro args h
  have e : ArgsAre Src.crate p.id [((i!"Self"), (Src.impl 103).target)] (Src.fn 103 0).params args =
      (∃ v0 r0, args = v0 :: r0 ∧ Val.Is Src.crate p.id 9 (.path (i!"Matrix3x3") [.path (i!"S") []]) v0 ∧ ∃ v1 r1, r0 = v1 :: r1 ∧ Val.Is Src.crate p.id 9 (.path (i!"S") []) v1 ∧ r1 = []) := by kernel_rfl
  rw [e] at h
  obtain ⟨_, _, rfl, h0, _, _, rfl, h1, rfl⟩ := h
  obtain ⟨a0, rfl⟩ := is_Matrix3x3 p _ 4 _ h0
  obtain ⟨a1, rfl⟩ := is_S p _ 8 _ h1
  have r : Src.run S p b (headTy Src.crate (Prim.id p) (Src.impl 103).target) (Src.fn 103 0) [rep a0, .sc a1] =
      Src.method S p b (i!"div") (rep a0) [.sc a1] := by cases p <;> kernel_rfl
  exact .inl ⟨_, _, r.trans (C81_Matrix3x3_div p b a0 a1)⟩

/-- `DivAssign<S> for Matrix3x3<S>`: `div_assign` -/
theorem total_104_0 (p : Prim) (b : Build) : FnTotal S p b (Src.impl 104) (Src.fn 104 0) := by
  intro args h
  have e : ArgsAre Src.crate p.id [((i!"Self"), (Src.impl 104).target)] (Src.fn 104 0).params args =
      (∃ v0 r0, args = v0 :: r0 ∧ Val.Is Src.crate p.id 9 (.path (i!"Matrix3x3") [.path (i!"S") []]) v0 ∧ ∃ v1 r1, r0 = v1 :: r1 ∧ Val.Is Src.crate p.id 9 (.path (i!"S") []) v1 ∧ r1 = []) := by kernel_rfl
  rw [e] at h
  obtain ⟨_, _, rfl, h0, _, _, rfl, h1, rfl⟩ := h
  obtain ⟨a0, rfl⟩ := is_Matrix3x3 p _ 4 _ h0
  obtain ⟨a1, rfl⟩ := is_S p _ 8 _ h1
  have r : Src.run S p b (headTy Src.crate (Prim.id p) (Src.impl 104).target) (Src.fn 104 0) [rep a0, .sc a1] =
      Src.method S p b (i!"div_assign") (rep a0) [.sc a1] := by cases p <;> kernel_rfl
  exact .inl ⟨_, _, r.trans (C81_Matrix3x3_div_assign p b a0 a1)⟩

/-- `Mul<Point2<S>> for Matrix3x3<S>`: `mul` -/
theorem total_105_0 (p : Prim) (b : Build) : FnTotal S p b (Src.impl 105) (Src.fn 105 0) := by
  intro args h
  have e : ArgsAre Src.crate p.id [((i!"Self"), (Src.impl 105).target)] (Src.fn 105 0).params args =
      (∃ v0 r0, args = v0 :: r0 ∧ Val.Is Src.crate p.id 9 (.path (i!"Matrix3x3") [.path (i!"S") []]) v0 ∧ ∃ v1 r1, r0 = v1 :: r1 ∧ Val.Is Src.crate p.id 9 (.path (i!"Point2") [.path (i!"S") []]) v1 ∧ r1 = []) := by kernel_rfl
  rw [e] at h
  obtain ⟨_, _, rfl, h0, _, _, rfl, h1, rfl⟩ := h
  obtain ⟨a0, rfl⟩ := is_Matrix3x3 p _ 4 _ h0
  obtain ⟨a1, rfl⟩ := is_Point2 p _ 4 _ h1
  have r : Src.run S p b (headTy Src.crate (Prim.id p) (Src.impl 105).target) (Src.fn 105 0) [rep a0, rep a1] =
      Src.method S p b (i!"mul") (rep a0) [rep a1] := by cases p <;> kernel_rfl
  exact .inl ⟨_, _, r.trans (C81_Matrix3x3_mul_Point2 p b a0 a1)⟩

/-- `Mul<Matrix3x3<S>> for Point2<S>`: `mul` -/
theorem total_106_0 (p : Prim) (b : Build) : FnTotal S p b (Src.impl 106) (Src.fn 106 0) := by
  intro args h
  have e : ArgsAre Src.crate p.id [((i!"Self"), (Src.impl 106).target)] (Src.fn 106 0).params args =
      (∃ v0 r0, args = v0 :: r0 ∧ Val.Is Src.crate p.id 9 (.path (i!"Point2") [.path (i!"S") []]) v0 ∧ ∃ v1 r1, r0 = v1 :: r1 ∧ Val.Is Src.crate p.id 9 (.path (i!"Matrix3x3") [.path (i!"S") []]) v1 ∧ r1 = []) := by kernel_rfl
  rw [e] at h
  obtain ⟨_, _, rfl, h0, _, _, rfl, h1, rfl⟩ := h
  obtain ⟨a0, rfl⟩ := is_Point2 p _ 4 _ h0
  obtain ⟨a1, rfl⟩ := is_Matrix3x3 p _ 4 _ h1
  have r : Src.run S p b (headTy Src.crate (Prim.id p) (Src.impl 106).target) (Src.fn 106 0) [rep a0, rep a1] =
      Src.method S p b (i!"mul") (rep a0) [rep a1] := by cases p <;> kernel_rfl
  exact .inl ⟨_, _, r.trans (C81_Point2_mul_Matrix3x3 p b a0 a1)⟩

/-- `Mul<Vector2<S>> for Matrix3x3<S>`: `mul` -/
theorem total_107_0 (p : Prim) (b : Build) : FnTotal S p b (Src.impl 107) (Src.fn 107 0) := by
  intro args h
  have e : ArgsAre Src.crate p.id [((i!"Self"), (Src.impl 107).target)] (Src.fn 107 0).params args =
      (∃ v0 r0, args = v0 :: r0 ∧ Val.Is Src.crate p.id 9 (.path (i!"Matrix3x3") [.path (i!"S") []]) v0 ∧ ∃ v1 r1, r0 = v1 :: r1 ∧ Val.Is Src.crate p.id 9 (.path (i!"Vector2") [.path (i!"S") []]) v1 ∧ r1 = []) := by kernel_rfl
  rw [e] at h
  obtain ⟨_, _, rfl, h0, _, _, rfl, h1, rfl⟩ := h
  obtain ⟨a0, rfl⟩ := is_Matrix3x3 p _ 4 _ h0
  obtain ⟨a1, rfl⟩ := is_Vector2 p _ 4 _ h1
  have r : Src.run S p b (headTy Src.crate (Prim.id p) (Src.impl 107).target) (Src.fn 107 0) [rep a0, rep a1] =
      Src.method S p b (i!"mul") (rep a0) [rep a1] := by cases p <;> kernel_rfl
  exact .inl ⟨_, _, r.trans (C81_Matrix3x3_mul_Vector2 p b a0 a1)⟩

/-- `Mul<Matrix3x3<S>> for Vector2<S>`: `mul` -/
theorem total_108_0 (p : Prim) (b : Build) : FnTotal S p b (Src.impl 108) (Src.fn 108 0) := by
  intro args h
  have e : ArgsAre Src.crate p.id [((i!"Self"), (Src.impl 108).target)] (Src.fn 108 0).params args =
      (∃ v0 r0, args = v0 :: r0 ∧ Val.Is Src.crate p.id 9 (.path (i!"Vector2") [.path (i!"S") []]) v0 ∧ ∃ v1 r1, r0 = v1 :: r1 ∧ Val.Is Src.crate p.id 9 (.path (i!"Matrix3x3") [.path (i!"S") []]) v1 ∧ r1 = []) := by kernel_rfl
  rw [e] at h
  obtain ⟨_, _, rfl, h0, _, _, rfl, h1, rfl⟩ := h
  obtain ⟨a0, rfl⟩ := is_Vector2 p _ 4 _ h0
  obtain ⟨a1, rfl⟩ := is_Matrix3x3 p _ 4 _ h1
  have r : Src.run S p b (headTy Src.crate (Prim.id p) (Src.impl 108).target) (Src.fn 108 0) [rep a0, rep a1] =
      Src.method S p b (i!"mul") (rep a0) [rep a1] := by cases p <;> kernel_rfl
  exact .inl ⟨_, _, r.trans (C81_Vector2_mul_Matrix3x3 p b a0 a1)⟩

/-- `Mul<Matrix3x3<S>> for Matrix3x3<S>`: `mul` -/
theorem total_109_0 (p : Prim) (b : Build) : FnTotal S p b (Src.impl 109) (Src.fn 109 0) := by
  intro args h
  have e : ArgsAre Src.crate p.id [((i!"Self"), (Src.impl 109).target)] (Src.fn 109 0).params args =
      (∃ v0 r0, args = v0 :: r0 ∧ Val.Is Src.crate p.id 9 (.path (i!"Matrix3x3") [.path (i!"S") []]) v0 ∧ ∃ v1 r1, r0 = v1 :: r1 ∧ Val.Is Src.crate p.id 9 (.path (i!"Matrix3x3") [.path (i!"S") []]) v1 ∧ r1 = []) := by kernel_rfl
  rw [e] at h
  obtain ⟨_, _, rfl, h0, _, _, rfl, h1, rfl⟩ := h
  obtain ⟨a0, rfl⟩ := is_Matrix3x3 p _ 4 _ h0
  obtain ⟨a1, rfl⟩ := is_Matrix3x3 p _ 4 _ h1
  have r : Src.run S p b (headTy Src.crate (Prim.id p) (Src.impl 109).target) (Src.fn 109 0) [rep a0, rep a1] =
      Src.method S p b (i!"mul") (rep a0) [rep a1] := by cases p <;> kernel_rfl
  exact .inl ⟨_, _, r.trans (C81_Matrix3x3_mul_Matrix3x3 p b a0 a1)⟩

/-- `Transform2<S>`: `new` -/
theorem total_110_0 (p : Prim) (b : Build) : FnTotal S p b (Src.impl 110) (Src.fn 110 0) := by
  intro args h
  have e : ArgsAre Src.crate p.id [((i!"Self"), (Src.impl 110).target)] (Src.fn 110 0).params args =
      (∃ v0 r0, args = v0 :: r0 ∧ Val.Is Src.crate p.id 9 (.path (i!"Matrix3x3") [.path (i!"S") []]) v0 ∧ ∃ v1 r1, r0 = v1 :: r1 ∧ Val.Is Src.crate p.id 9 (.path (i!"Matrix3x3") [.path (i!"S") []]) v1 ∧ r1 = []) := by kernel_rfl
  rw [e] at h
  obtain ⟨_, _, rfl, h0, _, _, rfl, h1, rfl⟩ := h
  obtain ⟨a0, rfl⟩ := is_Matrix3x3 p _ 4 _ h0
  obtain ⟨a1, rfl⟩ := is_Matrix3x3 p _ 4 _ h1
  have r : Src.run S p b (headTy Src.crate (Prim.id p) (Src.impl 110).target) (Src.fn 110 0) [rep a0, rep a1] =
      Src.assoc S p b (i!"Transform2") (i!"new") [rep a0, rep a1] := by cases p <;> kernel_rfl
  exact .inl ⟨_, _, r.trans (C81_Transform2_new p b a0 a1)⟩

/-- `Transform2<S>`: `identity` -/
theorem total_110_1 (p : Prim) (b : Build) : FnTotal S p b (Src.impl 110) (Src.fn 110 1) := by
  intro args h
  have e : ArgsAre Src.crate p.id [((i!"Self"), (Src.impl 110).target)] (Src.fn 110 1).params args =
      (args = []) := by kernel_rfl
  rw [e] at h
  obtain rfl := h
  have r : Src.run S p b (headTy Src.crate (Prim.id p) (Src.impl 110).target) (Src.fn 110 1) [] =
      Src.assoc S p b (i!"Transform2") (i!"identity") [] := by cases p <;> kernel_rfl
  exact .inl ⟨_, _, r.trans (C81_Transform2_identity p b)⟩

/-- `Transform2<S>`: `translate` -/
theorem total_110_2 (p : Prim) (b : Build) : FnTotal S p b (Src.impl 110) (Src.fn 110 2) := by
  intro args h
  have e : ArgsAre Src.crate p.id [((i!"Self"), (Src.impl 110).target)] (Src.fn 110 2).params args =
      (∃ v0 r0, args = v0 :: r0 ∧ Val.Is Src.crate p.id 9 (.path (i!"Vector2") [.path (i!"S") []]) v0 ∧ r0 = []) := by kernel_rfl
  rw [e] at h
  obtain ⟨_, _, rfl, h0, rfl⟩ := h
  obtain ⟨a0, rfl⟩ := is_Vector2 p _ 4 _ h0
  have r : Src.run S p b (headTy Src.crate (Prim.id p) (Src.impl 110).target) (Src.fn 110 2) [rep a0] =
      Src.assoc S p b (i!"Transform2") (i!"translate") [rep a0] := by cases p <;> kernel_rfl
  exact .inl ⟨_, _, r.trans (C81_Transform2_translate p b a0)⟩

/-- `Transform2<S>`: `rotate` -/
theorem total_110_3 (p : Prim) (b : Build) : FnTotal S p b (Src.impl 110) (Src.fn 110 3) := by
  intro args h
  have e : ArgsAre Src.crate p.id [((i!"Self"), (Src.impl 110).target)] (Src.fn 110 3).params args =
      (∃ v0 r0, args = v0 :: r0 ∧ Val.Is Src.crate p.id 9 (.path (i!"S") []) v0 ∧ r0 = []) := by kernel_rfl
  rw [e] at h
  obtain ⟨_, _, rfl, h0, rfl⟩ := h
  obtain ⟨a0, rfl⟩ := is_S p _ 8 _ h0
  have r : Src.run S p b (headTy Src.crate (Prim.id p) (Src.impl 110).target) (Src.fn 110 3) [.sc a0] =
      Src.assoc S p b (i!"Transform2") (i!"rotate") [.sc a0] := by cases p <;> kernel_rfl
  exact .inl ⟨_, _, r.trans (C81_Transform2_rotate p b a0)⟩

/-- `Transform2<S>`: `scale` -/
theorem total_110_4 (p : Prim) (b : Build) : FnTotal S p b (Src.impl 110) (Src.fn 110 4) := by
  intro args h
  have e : ArgsAre Src.crate p.id [((i!"Self"), (Src.impl 110).target)] (Src.fn 110 4).params args =
      (∃ v0 r0, args = v0 :: r0 ∧ Val.Is Src.crate p.id 9 (.path (i!"S") []) v0 ∧ ∃ v1 r1, r0 = v1 :: r1 ∧ Val.Is Src.crate p.id 9 (.path (i!"S") []) v1 ∧ r1 = []) := by kernel_rfl
  rw [e] at h
  obtain ⟨_, _, rfl, h0, _, _, rfl, h1, rfl⟩ := h
  obtain ⟨a0, rfl⟩ := is_S p _ 8 _ h0
  obtain ⟨a1, rfl⟩ := is_S p _ 8 _ h1
  have r : Src.run S p b (headTy Src.crate (Prim.id p) (Src.impl 110).target) (Src.fn 110 4) [.sc a0, .sc a1] =
      Src.assoc S p b (i!"Transform2") (i!"scale") [.sc a0, .sc a1] := by cases p <;> kernel_rfl
  exact .inl ⟨_, _, r.trans (C81_Transform2_scale p b a0 a1)⟩

/-- `Transform2<S>`: `scale_uniform` -/
theorem total_110_5 (p : Prim) (b : Build) : FnTotal S p b (Src.impl 110) (Src.fn 110 5) := by
  intro args h
  have e : ArgsAre Src.crate p.id [((i!"Self"), (Src.impl 110).target)] (Src.fn 110 5).params args =
      (∃ v0 r0, args = v0 :: r0 ∧ Val.Is Src.crate p.id 9 (.path (i!"S") []) v0 ∧ r0 = []) := by kernel_rfl
  rw [e] at h
  obtain ⟨_, _, rfl, h0, rfl⟩ := h
  obtain ⟨a0, rfl⟩ := is_S p _ 8 _ h0
  have r : Src.run S p b (headTy Src.crate (Prim.id p) (Src.impl 110).target) (Src.fn 110 5) [.sc a0] =
      Src.assoc S p b (i!"Transform2") (i!"scale_uniform") [.sc a0] := by cases p <;> kernel_rfl
  exact .inl ⟨_, _, r.trans (C81_Transform2_scale_uniform p b a0)⟩

/-- `Transform2<S>`: `and_then` -/
theorem total_110_6 (p : Prim) (b : Build) : FnTotal S p b (Src.impl 110) (Src.fn 110 6) := by
  intro args h
  have e : ArgsAre Src.crate p.id [((i!"Self"), (Src.impl 110).target)] (Src.fn 110 6).params args =
      (∃ v0 r0, args = v0 :: r0 ∧ Val.Is Src.crate p.id 9 (.path (i!"Transform2") [.path (i!"S") []]) v0 ∧ ∃ v1 r1, r0 = v1 :: r1 ∧ Val.Is Src.crate p.id 9 (.path (i!"Transform2") [.path (i!"S") []]) v1 ∧ r1 = []) := by kernel_rfl
  rw [e] at h
  obtain ⟨_, _, rfl, h0, _, _, rfl, h1, rfl⟩ := h
  obtain ⟨a0, rfl⟩ := is_Transform2 p _ 3 _ h0
  obtain ⟨a1, rfl⟩ := is_Transform2 p _ 3 _ h1
  have r : Src.run S p b (headTy Src.crate (Prim.id p) (Src.impl 110).target) (Src.fn 110 6) [rep a0, rep a1] =
      Src.method S p b (i!"and_then") (rep a0) [rep a1] := by cases p <;> kernel_rfl
  exact .inl ⟨_, _, r.trans (C81_Transform2_and_then p b a0 a1)⟩

/-- `Transform2<S>`: `inverse` -/
theorem total_110_7 (p : Prim) (b : Build) : FnTotal S p b (Src.impl 110) (Src.fn 110 7) := by
  intro args h
  have e : ArgsAre Src.crate p.id [((i!"Self"), (Src.impl 110).target)] (Src.fn 110 7).params args =
      (∃ v0 r0, args = v0 :: r0 ∧ Val.Is Src.crate p.id 9 (.path (i!"Transform2") [.path (i!"S") []]) v0 ∧ r0 = []) := by kernel_rfl
  rw [e] at h
  obtain ⟨_, _, rfl, h0, rfl⟩ := h
  obtain ⟨a0, rfl⟩ := is_Transform2 p _ 3 _ h0
  have r : Src.run S p b (headTy Src.crate (Prim.id p) (Src.impl 110).target) (Src.fn 110 7) [rep a0] =
      Src.method S p b (i!"inverse") (rep a0) [] := by cases p <;> kernel_rfl
  exact .inl ⟨_, _, r.trans (C81_Transform2_inverse p b a0)⟩

/-- `Transform<Point2<S>> for Transform2<S>`: `transform` -/
theorem total_111_0 (p : Prim) (b : Build) : FnTotal S p b (Src.impl 111) (Src.fn 111 0) := by
  intro args h
  have e : ArgsAre Src.crate p.id [((i!"Self"), (Src.impl 111).target)] (Src.fn 111 0).params args =
      (∃ v0 r0, args = v0 :: r0 ∧ Val.Is Src.crate p.id 9 (.path (i!"Transform2") [.path (i!"S") []]) v0 ∧ ∃ v1 r1, r0 = v1 :: r1 ∧ Val.Is Src.crate p.id 9 (.path (i!"Point2") [.path (i!"S") []]) v1 ∧ r1 = []) := by kernel_rfl
  rw [e] at h
  obtain ⟨_, _, rfl, h0, _, _, rfl, h1, rfl⟩ := h
  obtain ⟨a0, rfl⟩ := is_Transform2 p _ 3 _ h0
  obtain ⟨a1, rfl⟩ := is_Point2 p _ 4 _ h1
  have r : Src.run S p b (headTy Src.crate (Prim.id p) (Src.impl 111).target) (Src.fn 111 0) [rep a0, rep a1] =
      Src.method S p b (i!"transform") (rep a0) [rep a1] := by cases p <;> kernel_rfl
  exact .inl ⟨_, _, r.trans (C81_Transform2_transform_Point2 p b a0 a1)⟩

/-- `Transform<Vector2<S>> for Transform2<S>`: `transform` -/
theorem total_112_0 (p : Prim) (b : Build) : FnTotal S p b (Src.impl 112) (Src.fn 112 0) := by
  intro args h
  have e : ArgsAre Src.crate p.id [((i!"Self"), (Src.impl 112).target)] (Src.fn 112 0).params args =
      (∃ v0 r0, args = v0 :: r0 ∧ Val.Is Src.crate p.id 9 (.path (i!"Transform2") [.path (i!"S") []]) v0 ∧ ∃ v1 r1, r0 = v1 :: r1 ∧ Val.Is Src.crate p.id 9 (.path (i!"Vector2") [.path (i!"S") []]) v1 ∧ r1 = []) := by kernel_rfl
  rw [e] at h
  obtain ⟨_, _, rfl, h0, _, _, rfl, h1, rfl⟩ := h
  obtain ⟨a0, rfl⟩ := is_Transform2 p _ 3 _ h0
  obtain ⟨a1, rfl⟩ := is_Vector2 p _ 4 _ h1
  have r : Src.run S p b (headTy Src.crate (Prim.id p) (Src.impl 112).target) (Src.fn 112 0) [rep a0, rep a1] =
      Src.method S p b (i!"transform") (rep a0) [rep a1] := by cases p <;> kernel_rfl
  exact .inl ⟨_, _, r.trans (C81_Transform2_transform_Vector2 p b a0 a1)⟩

/-- `Transform<Ray2<S>> for Transform2<S>`: `transform` -/
theorem total_113_0 (p : Prim) (b : Build) : FnTotal S p b (Src.impl 113) (Src.fn 113 0) := by
  intro args h
  have e : ArgsAre Src.crate p.id [((i!"Self"), (Src.impl 113).target)] (Src.fn 113 0).params args =
      (∃ v0 r0, args = v0 :: r0 ∧ Val.Is Src.crate p.id 9 (.path (i!"Transform2") [.path (i!"S") []]) v0 ∧ ∃ v1 r1, r0 = v1 :: r1 ∧ Val.Is Src.crate p.id 9 (.path (i!"Ray2") [.path (i!"S") []]) v1 ∧ r1 = []) := by kernel_rfl
  rw [e] at h
  obtain ⟨_, _, rfl, h0, _, _, rfl, h1, rfl⟩ := h
  obtain ⟨a0, rfl⟩ := is_Transform2 p _ 3 _ h0
  obtain ⟨a1, rfl⟩ := is_Ray2 p _ 3 _ h1
  have r : Src.run S p b (headTy Src.crate (Prim.id p) (Src.impl 113).target) (Src.fn 113 0) [rep a0, rep a1] =
      Src.method S p b (i!"transform") (rep a0) [rep a1] := by cases p <;> kernel_rfl
  exact .inl ⟨_, _, r.trans (C81_Transform2_transform_Ray2 p b a0 a1)⟩

/-- `Transform<BoundingBox2<S>> for Transform2<S>`: `transform` -/
theorem total_114_0 (p : Prim) (b : Build) : FnTotal S p b (Src.impl 114) (Src.fn 114 0) := by
  intro args h
  have e : ArgsAre Src.crate p.id [((i!"Self"), (Src.impl 114).target)] (Src.fn 114 0).params args =
      (∃ v0 r0, args = v0 :: r0 ∧ Val.Is Src.crate p.id 9 (.path (i!"Transform2") [.path (i!"S") []]) v0 ∧ ∃ v1 r1, r0 = v1 :: r1 ∧ Val.Is Src.crate p.id 9 (.path (i!"BoundingBox2") [.path (i!"S") []]) v1 ∧ r1 = []) := by kernel_rfl
  rw [e] at h
  obtain ⟨_, _, rfl, h0, _, _, rfl, h1, rfl⟩ := h
  obtain ⟨a0, rfl⟩ := is_Transform2 p _ 3 _ h0
  obtain ⟨a1, rfl⟩ := is_BoundingBox2 p _ 3 _ h1
  have r : Src.run S p b (headTy Src.crate (Prim.id p) (Src.impl 114).target) (Src.fn 114 0) [rep a0, rep a1] =
      Src.method S p b (i!"transform") (rep a0) [rep a1] := by cases p <;> kernel_rfl
  exact .inl ⟨_, _, r.trans (C81_Transform2_transform_BoundingBox2 p b a0 a1)⟩

/-- `TryFrom<Matrix3x3<S>> for Transform2<S>`: `try_from` -/
theorem total_115_0 (p : Prim) (b : Build) : FnTotal S p b (Src.impl 115) (Src.fn 115 0) := by
  intro args h
  have e : ArgsAre Src.crate p.id [((i!"Self"), (Src.impl 115).target)] (Src.fn 115 0).params args =
      (∃ v0 r0, args = v0 :: r0 ∧ Val.Is Src.crate p.id 9 (.path (i!"Matrix3x3") [.path (i!"S") []]) v0 ∧ r0 = []) := by kernel_rfl
  rw [e] at h
  obtain ⟨_, _, rfl, h0, rfl⟩ := h
  obtain ⟨a0, rfl⟩ := is_Matrix3x3 p _ 4 _ h0
  have r : Src.run S p b (headTy Src.crate (Prim.id p) (Src.impl 115).target) (Src.fn 115 0) [rep a0] =
      Src.assoc S p b (i!"Transform2") (i!"try_from") [rep a0] := by cases p <;> kernel_rfl
  exact .inl ⟨_, _, r.trans (C81_Transform2_try_from p b a0)⟩

end VecMath.Rust
