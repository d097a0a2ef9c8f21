import Verif.Rust.Inhabit
import Verif.Rust.Total
import Verif.Props.Source1
import Verif.Props.Source2
import Verif.Props.Source3
import Verif.Props.SourceT2
import Verif.Props.SourceT3
/-! # No function of the source text panics or runs forever, part 4

Generated by `tools/gen/total.py`. -/

namespace VecMath.Rust
open VecMath
variable {S : Type} [Scalar S]

/-- `Matrix4x4<S>`: `new` -/
theorem total_116_0 (p : Prim) (b : Build) : FnTotal S p b (Src.impl 116) (Src.fn 116 0) := by
  intro args h
  have e : ArgsAre Src.crate p.id [((i!"Self"), (Src.impl 116).target)] (Src.fn 116 0).params args =
      (∃ v0 r0, args = v0 :: r0 ∧ Val.Is Src.crate p.id 9 (.arr (.path (i!"S") []) 16) v0 ∧ r0 = []) := by kernel_rfl
  rw [e] at h
  obtain ⟨_, _, rfl, h0, rfl⟩ := h
  obtain ⟨a0, rfl⟩ := is_arr16 p 6 _ h0
  have r : Src.run S p b (headTy Src.crate (Prim.id p) (Src.impl 116).target) (Src.fn 116 0) [rep a0] =
      Src.assoc S p b (i!"Matrix4x4") (i!"new") [rep a0] := by cases p <;> kernel_rfl
  exact .inl ⟨_, _, r.trans (C81_Matrix4x4_new p b a0)⟩

/-- `Matrix4x4<S>`: `identity` -/
theorem total_116_1 (p : Prim) (b : Build) : FnTotal S p b (Src.impl 116) (Src.fn 116 1) := by
  intro args h
  have e : ArgsAre Src.crate p.id [((i!"Self"), (Src.impl 116).target)] (Src.fn 116 1).params args =
      (args = []) := by kernel_rfl
  rw [e] at h
  obtain rfl := h
  have r : Src.run S p b (headTy Src.crate (Prim.id p) (Src.impl 116).target) (Src.fn 116 1) [] =
      Src.assoc S p b (i!"Matrix4x4") (i!"identity") [] := by cases p <;> kernel_rfl
  exact .inl ⟨_, _, r.trans (C81_Matrix4x4_identity p b)⟩

/-- `Matrix4x4<S>`: `translate` -/
theorem total_116_2 (p : Prim) (b : Build) : FnTotal S p b (Src.impl 116) (Src.fn 116 2) := by
  intro args h
  have e : ArgsAre Src.crate p.id [((i!"Self"), (Src.impl 116).target)] (Src.fn 116 2).params args =
      (∃ v0 r0, args = v0 :: r0 ∧ Val.Is Src.crate p.id 9 (.path (i!"Vector3") [.path (i!"S") []]) v0 ∧ r0 = []) := by kernel_rfl
  rw [e] at h
  obtain ⟨_, _, rfl, h0, rfl⟩ := h
  obtain ⟨a0, rfl⟩ := is_Vector3 p _ 4 _ h0
  have r : Src.run S p b (headTy Src.crate (Prim.id p) (Src.impl 116).target) (Src.fn 116 2) [rep a0] =
      Src.assoc S p b (i!"Matrix4x4") (i!"translate") [rep a0] := by cases p <;> kernel_rfl
  exact .inl ⟨_, _, r.trans (C81_Matrix4x4_translate p b a0)⟩

/-- `Matrix4x4<S>`: `rotate_x` -/
theorem total_116_3 (p : Prim) (b : Build) : FnTotal S p b (Src.impl 116) (Src.fn 116 3) := by
  intro args h
  have e : ArgsAre Src.crate p.id [((i!"Self"), (Src.impl 116).target)] (Src.fn 116 3).params args =
      (∃ v0 r0, args = v0 :: r0 ∧ Val.Is Src.crate p.id 9 (.path (i!"S") []) v0 ∧ r0 = []) := by kernel_rfl
  rw [e] at h
  obtain ⟨_, _, rfl, h0, rfl⟩ := h
  obtain ⟨a0, rfl⟩ := is_S p _ 8 _ h0
  have r : Src.run S p b (headTy Src.crate (Prim.id p) (Src.impl 116).target) (Src.fn 116 3) [.sc a0] =
      Src.assoc S p b (i!"Matrix4x4") (i!"rotate_x") [.sc a0] := by cases p <;> kernel_rfl
  exact .inl ⟨_, _, r.trans (C81_Matrix4x4_rotate_x p b a0)⟩

/-- `Matrix4x4<S>`: `rotate_y` -/
theorem total_116_4 (p : Prim) (b : Build) : FnTotal S p b (Src.impl 116) (Src.fn 116 4) := by
  intro args h
  have e : ArgsAre Src.crate p.id [((i!"Self"), (Src.impl 116).target)] (Src.fn 116 4).params args =
      (∃ v0 r0, args = v0 :: r0 ∧ Val.Is Src.crate p.id 9 (.path (i!"S") []) v0 ∧ r0 = []) := by kernel_rfl
  rw [e] at h
  obtain ⟨_, _, rfl, h0, rfl⟩ := h
  obtain ⟨a0, rfl⟩ := is_S p _ 8 _ h0
  have r : Src.run S p b (headTy Src.crate (Prim.id p) (Src.impl 116).target) (Src.fn 116 4) [.sc a0] =
      Src.assoc S p b (i!"Matrix4x4") (i!"rotate_y") [.sc a0] := by cases p <;> kernel_rfl
  exact .inl ⟨_, _, r.trans (C81_Matrix4x4_rotate_y p b a0)⟩

/-- `Matrix4x4<S>`: `rotate_z` -/
theorem total_116_5 (p : Prim) (b : Build) : FnTotal S p b (Src.impl 116) (Src.fn 116 5) := by
  intro args h
  have e : ArgsAre Src.crate p.id [((i!"Self"), (Src.impl 116).target)] (Src.fn 116 5).params args =
      (∃ v0 r0, args = v0 :: r0 ∧ Val.Is Src.crate p.id 9 (.path (i!"S") []) v0 ∧ r0 = []) := by kernel_rfl
  rw [e] at h
  obtain ⟨_, _, rfl, h0, rfl⟩ := h
  obtain ⟨a0, rfl⟩ := is_S p _ 8 _ h0
  have r : Src.run S p b (headTy Src.crate (Prim.id p) (Src.impl 116).target) (Src.fn 116 5) [.sc a0] =
      Src.assoc S p b (i!"Matrix4x4") (i!"rotate_z") [.sc a0] := by cases p <;> kernel_rfl
  exact .inl ⟨_, _, r.trans (C81_Matrix4x4_rotate_z p b a0)⟩

/-- `Matrix4x4<S>`: `rotate_axis` -/
theorem total_116_6 (p : Prim) (b : Build) : FnTotal S p b (Src.impl 116) (Src.fn 116 6) := by
  intro args h
  have e : ArgsAre Src.crate p.id [((i!"Self"), (Src.impl 116).target)] (Src.fn 116 6).params args =
      (∃ v0 r0, args = v0 :: r0 ∧ Val.Is Src.crate p.id 9 (.path (i!"Vector3") [.path (i!"S") []]) v0 ∧ ∃ v1 r1, r0 = v1 :: r1 ∧ Val.Is Src.crate p.id 9 (.path (i!"S") []) v1 ∧ r1 = []) := by kernel_rfl
  rw [e] at h
  obtain ⟨_, _, rfl, h0, _, _, rfl, h1, rfl⟩ := h
  obtain ⟨a0, rfl⟩ := is_Vector3 p _ 4 _ h0
  obtain ⟨a1, rfl⟩ := is_S p _ 8 _ h1
  have r : Src.run S p b (headTy Src.crate (Prim.id p) (Src.impl 116).target) (Src.fn 116 6) [rep a0, .sc a1] =
      Src.assoc S p b (i!"Matrix4x4") (i!"rotate_axis") [rep a0, .sc a1] := by cases p <;> kernel_rfl
  exact .inl ⟨_, _, r.trans (C81_Matrix4x4_rotate_axis p b a0 a1)⟩

/-- `Matrix4x4<S>`: `scale` -/
theorem total_116_7 (p : Prim) (b : Build) : FnTotal S p b (Src.impl 116) (Src.fn 116 7) := by
  intro args h
  have e : ArgsAre Src.crate p.id [((i!"Self"), (Src.impl 116).target)] (Src.fn 116 7).params args =
      (∃ v0 r0, args = v0 :: r0 ∧ Val.Is Src.crate p.id 9 (.path (i!"S") []) v0 ∧ ∃ v1 r1, r0 = v1 :: r1 ∧ Val.Is Src.crate p.id 9 (.path (i!"S") []) v1 ∧ ∃ v2 r2, r1 = v2 :: r2 ∧ Val.Is Src.crate p.id 9 (.path (i!"S") []) v2 ∧ r2 = []) := by kernel_rfl
  rw [e] at h
  obtain ⟨_, _, rfl, h0, _, _, rfl, h1, _, _, rfl, h2, rfl⟩ := h
  obtain ⟨a0, rfl⟩ := is_S p _ 8 _ h0
  obtain ⟨a1, rfl⟩ := is_S p _ 8 _ h1
  obtain ⟨a2, rfl⟩ := is_S p _ 8 _ h2
  have r : Src.run S p b (headTy Src.crate (Prim.id p) (Src.impl 116).target) (Src.fn 116 7) [.sc a0, .sc a1, .sc a2] =
      Src.assoc S p b (i!"Matrix4x4") (i!"scale") [.sc a0, .sc a1, .sc a2] := by cases p <;> kernel_rfl
  exact .inl ⟨_, _, r.trans (C81_Matrix4x4_scale p b a0 a1 a2)⟩

/-- `Matrix4x4<S>`: `scale_uniform` -/
theorem total_116_8 (p : Prim) (b : Build) : FnTotal S p b (Src.impl 116) (Src.fn 116 8) := by
  intro args h
  have e : ArgsAre Src.crate p.id [((i!"Self"), (Src.impl 116).target)] (Src.fn 116 8).params args =
      (∃ v0 r0, args = v0 :: r0 ∧ Val.Is Src.crate p.id 9 (.path (i!"S") []) v0 ∧ r0 = []) := by kernel_rfl
  rw [e] at h
  obtain ⟨_, _, rfl, h0, rfl⟩ := h
  obtain ⟨a0, rfl⟩ := is_S p _ 8 _ h0
  have r : Src.run S p b (headTy Src.crate (Prim.id p) (Src.impl 116).target) (Src.fn 116 8) [.sc a0] =
      Src.assoc S p b (i!"Matrix4x4") (i!"scale_uniform") [.sc a0] := by cases p <;> kernel_rfl
  exact .inl ⟨_, _, r.trans (C81_Matrix4x4_scale_uniform p b a0)⟩

/-- `Matrix4x4<S>`: `inverse_look_at` -/
theorem total_116_9 (p : Prim) (b : Build) : FnTotal S p b (Src.impl 116) (Src.fn 116 9) := by
  intro args h
  have e : ArgsAre Src.crate p.id [((i!"Self"), (Src.impl 116).target)] (Src.fn 116 9).params args =
      (∃ v0 r0, args = v0 :: r0 ∧ Val.Is Src.crate p.id 9 (.path (i!"Point3") [.path (i!"S") []]) v0 ∧ ∃ v1 r1, r0 = v1 :: r1 ∧ Val.Is Src.crate p.id 9 (.path (i!"Point3") [.path (i!"S") []]) v1 ∧ ∃ v2 r2, r1 = v2 :: r2 ∧ Val.Is Src.crate p.id 9 (.path (i!"Vector3") [.path (i!"S") []]) v2 ∧ r2 = []) := by kernel_rfl
  rw [e] at h
  obtain ⟨_, _, rfl, h0, _, _, rfl, h1, _, _, rfl, h2, rfl⟩ := h
  obtain ⟨a0, rfl⟩ := is_Point3 p _ 4 _ h0
  obtain ⟨a1, rfl⟩ := is_Point3 p _ 4 _ h1
  obtain ⟨a2, rfl⟩ := is_Vector3 p _ 4 _ h2
  have r : Src.run S p b (headTy Src.crate (Prim.id p) (Src.impl 116).target) (Src.fn 116 9) [rep a0, rep a1, rep a2] =
      Src.assoc S p b (i!"Matrix4x4") (i!"inverse_look_at") [rep a0, rep a1, rep a2] := by cases p <;> kernel_rfl
  exact .inl ⟨_, _, r.trans (C81_Matrix4x4_inverse_look_at p b a0 a1 a2)⟩

/-- `Matrix4x4<S>`: `get` -/
theorem total_116_10 (p : Prim) (b : Build) : FnTotal S p b (Src.impl 116) (Src.fn 116 10) := by
  intro args h
  have e : ArgsAre Src.crate p.id [((i!"Self"), (Src.impl 116).target)] (Src.fn 116 10).params args =
      (∃ v0 r0, args = v0 :: r0 ∧ Val.Is Src.crate p.id 9 (.path (i!"Matrix4x4") [.path (i!"S") []]) v0 ∧ ∃ v1 r1, r0 = v1 :: r1 ∧ Val.Is Src.crate p.id 9 (.path (i!"u32") []) v1 ∧ ∃ v2 r2, r1 = v2 :: r2 ∧ Val.Is Src.crate p.id 9 (.path (i!"u32") []) v2 ∧ r2 = []) := by kernel_rfl
  rw [e] at h
  obtain ⟨_, _, rfl, h0, _, _, rfl, h1, _, _, rfl, h2, rfl⟩ := h
  obtain ⟨a0, rfl⟩ := is_Matrix4x4 p _ 4 _ h0
  obtain ⟨a1, rfl⟩ := is_u32 p _ 8 _ h1
  obtain ⟨a2, rfl⟩ := is_u32 p _ 8 _ h2
  have r : Src.run S p b (headTy Src.crate (Prim.id p) (Src.impl 116).target) (Src.fn 116 10) [rep a0, rep a1, rep a2] =
      Src.method S p b (i!"get") (rep a0) [rep a1, rep a2] := by cases p <;> kernel_rfl
  exact total_outOf _ _ _ (r.trans (C81_Matrix4x4_get p b a0 a1 a2)) (fun _ => name_mem 116 10 (i!"get") (by kernel_rfl) (by decide))

/-- `Matrix4x4<S>`: `get_mut` -/
theorem total_116_11 (p : Prim) (b : Build) : FnTotal S p b (Src.impl 116) (Src.fn 116 11) := by
  intro args h
  have e : ArgsAre Src.crate p.id [((i!"Self"), (Src.impl 116).target)] (Src.fn 116 11).params args =
      (∃ v0 r0, args = v0 :: r0 ∧ Val.Is Src.crate p.id 9 (.path (i!"Matrix4x4") [.path (i!"S") []]) v0 ∧ ∃ v1 r1, r0 = v1 :: r1 ∧ Val.Is Src.crate p.id 9 (.path (i!"u32") []) v1 ∧ ∃ v2 r2, r1 = v2 :: r2 ∧ Val.Is Src.crate p.id 9 (.path (i!"u32") []) v2 ∧ r2 = []) := by kernel_rfl
  rw [e] at h
  obtain ⟨_, _, rfl, h0, _, _, rfl, h1, _, _, rfl, h2, rfl⟩ := h
  obtain ⟨a0, rfl⟩ := is_Matrix4x4 p _ 4 _ h0
  obtain ⟨a1, rfl⟩ := is_u32 p _ 8 _ h1
  obtain ⟨a2, rfl⟩ := is_u32 p _ 8 _ h2
  have r : Src.run S p b (headTy Src.crate (Prim.id p) (Src.impl 116).target) (Src.fn 116 11) [rep a0, rep a1, rep a2] =
      Src.method S p b (i!"get_mut") (rep a0) [rep a1, rep a2] := by cases p <;> kernel_rfl
  rcases C81_Matrix4x4_get_mut p b a0 a1 a2 with ⟨e, h, -⟩ | ⟨pl, h, -⟩
  · exact .inr ⟨name_mem 116 11 (i!"get_mut") (by kernel_rfl) (by decide), e, r.trans h⟩
  · exact .inl ⟨_, _, r.trans h⟩

/-- `Matrix4x4<S>`: `set` -/
theorem total_116_12 (p : Prim) (b : Build) : FnTotal S p b (Src.impl 116) (Src.fn 116 12) := by
  intro args h
  have e : ArgsAre Src.crate p.id [((i!"Self"), (Src.impl 116).target)] (Src.fn 116 12).params args =
      (∃ v0 r0, args = v0 :: r0 ∧ Val.Is Src.crate p.id 9 (.path (i!"Matrix4x4") [.path (i!"S") []]) v0 ∧ ∃ v1 r1, r0 = v1 :: r1 ∧ Val.Is Src.crate p.id 9 (.path (i!"u32") []) v1 ∧ ∃ v2 r2, r1 = v2 :: r2 ∧ Val.Is Src.crate p.id 9 (.path (i!"u32") []) v2 ∧ ∃ v3 r3, r2 = v3 :: r3 ∧ Val.Is Src.crate p.id 9 (.path (i!"S") []) v3 ∧ r3 = []) := by kernel_rfl
  rw [e] at h
  obtain ⟨_, _, rfl, h0, _, _, rfl, h1, _, _, rfl, h2, _, _, rfl, h3, rfl⟩ := h
  obtain ⟨a0, rfl⟩ := is_Matrix4x4 p _ 4 _ h0
  obtain ⟨a1, rfl⟩ := is_u32 p _ 8 _ h1
  obtain ⟨a2, rfl⟩ := is_u32 p _ 8 _ h2
  obtain ⟨a3, rfl⟩ := is_S p _ 8 _ h3
  have r : Src.run S p b (headTy Src.crate (Prim.id p) (Src.impl 116).target) (Src.fn 116 12) [rep a0, rep a1, rep a2, .sc a3] =
      Src.method S p b (i!"set") (rep a0) [rep a1, rep a2, .sc a3] := by cases p <;> kernel_rfl
  exact total_outOf _ _ _ (r.trans (C81_Matrix4x4_set p b a0 a1 a2 a3)) (fun _ => name_mem 116 12 (i!"set") (by kernel_rfl) (by decide))

/-- `Matrix4x4<S>`: `linear_index` -/
theorem total_116_13 (p : Prim) (b : Build) : FnTotal S p b (Src.impl 116) (Src.fn 116 13) := by
  intro args h
  have e : ArgsAre Src.crate p.id [((i!"Self"), (Src.impl 116).target)] (Src.fn 116 13).params args =
      (∃ v0 r0, args = v0 :: r0 ∧ Val.Is Src.crate p.id 9 (.path (i!"u32") []) v0 ∧ ∃ v1 r1, r0 = v1 :: r1 ∧ Val.Is Src.crate p.id 9 (.path (i!"u32") []) v1 ∧ r1 = []) := by kernel_rfl
  rw [e] at h
  obtain ⟨_, _, rfl, h0, _, _, rfl, h1, rfl⟩ := h
  obtain ⟨a0, rfl⟩ := is_u32 p _ 8 _ h0
  obtain ⟨a1, rfl⟩ := is_u32 p _ 8 _ h1
  have r : Src.run S p b (headTy Src.crate (Prim.id p) (Src.impl 116).target) (Src.fn 116 13) [rep a0, rep a1] =
      Src.assoc S p b (i!"Matrix4x4") (i!"linear_index") [rep a0, rep a1] := by cases p <;> kernel_rfl
  exact total_outOf _ _ _ (r.trans (C81_Matrix4x4_linear_index p b a0 a1)) (fun _ => name_mem 116 13 (i!"linear_index") (by kernel_rfl) (by decide))

/-- `Matrix4x4<S>`: `transpose` -/
theorem total_116_14 (p : Prim) (b : Build) : FnTotal S p b (Src.impl 116) (Src.fn 116 14) := by
  intro args h
  have e : ArgsAre Src.crate p.id [((i!"Self"), (Src.impl 116).target)] (Src.fn 116 14).params args =
      (∃ v0 r0, args = v0 :: r0 ∧ Val.Is Src.crate p.id 9 (.path (i!"Matrix4x4") [.path (i!"S") []]) v0 ∧ r0 = []) := by kernel_rfl
  rw [e] at h
  obtain ⟨_, _, rfl, h0, rfl⟩ := h
  obtain ⟨a0, rfl⟩ := is_Matrix4x4 p _ 4 _ h0
  have r : Src.run S p b (headTy Src.crate (Prim.id p) (Src.impl 116).target) (Src.fn 116 14) [rep a0] =
      Src.method S p b (i!"transpose") (rep a0) [] := by cases p <;> kernel_rfl
  exact .inl ⟨_, _, r.trans (C81_Matrix4x4_transpose p b a0)⟩

/-- `Matrix4x4<S>`: `inverse` -/
theorem total_116_15 (p : Prim) (b : Build) : FnTotal S p b (Src.impl 116) (Src.fn 116 15) := by
  intro args h
  have e : ArgsAre Src.crate p.id [((i!"Self"), (Src.impl 116).target)] (Src.fn 116 15).params args =
      (∃ v0 r0, args = v0 :: r0 ∧ Val.Is Src.crate p.id 9 (.path (i!"Matrix4x4") [.path (i!"S") []]) v0 ∧ r0 = []) := by kernel_rfl
  rw [e] at h
  obtain ⟨_, _, rfl, h0, rfl⟩ := h
  obtain ⟨a0, rfl⟩ := is_Matrix4x4 p _ 4 _ h0
  have r : Src.run S p b (headTy Src.crate (Prim.id p) (Src.impl 116).target) (Src.fn 116 15) [rep a0] =
      Src.method S p b (i!"inverse") (rep a0) [] := by cases p <;> kernel_rfl
  exact .inl ⟨_, _, r.trans (C81_Matrix4x4_inverse p b a0)⟩

/-- `Mul<S> for Matrix4x4<S>`: `mul` -/
theorem total_117_0 (p : Prim) (b : Build) : FnTotal S p b (Src.impl 117) (Src.fn 117 0) := by
  intro args h
  have e : ArgsAre Src.crate p.id [((i!"Self"), (Src.impl 117).target)] (Src.fn 117 0).params args =
      (∃ v0 r0, args = v0 :: r0 ∧ Val.Is Src.crate p.id 9 (.path (i!"Matrix4x4") [.path (i!"S") []]) v0 ∧ ∃ v1 r1, r0 = v1 :: r1 ∧ Val.Is Src.crate p.id 9 (.path (i!"S") []) v1 ∧ r1 = []) := by kernel_rfl
  rw [e] at h
  obtain ⟨_, _, rfl, h0, _, _, rfl, h1, rfl⟩ := h
  obtain ⟨a0, rfl⟩ := is_Matrix4x4 p _ 4 _ h0
  obtain ⟨a1, rfl⟩ := is_S p _ 8 _ h1
  have r : Src.run S p b (headTy Src.crate (Prim.id p) (Src.impl 117).target) (Src.fn 117 0) [rep a0, .sc a1] =
      Src.method S p b (i!"mul") (rep a0) [.sc a1] := by cases p <;> kernel_rfl
  exact .inl ⟨_, _, r.trans (C81_Matrix4x4_mul p b a0 a1)⟩

/-- `MulAssign<S> for Matrix4x4<S>`: `mul_assign` -/
theorem total_118_0 (p : Prim) (b : Build) : FnTotal S p b (Src.impl 118) (Src.fn 118 0) := by
  intro args h
  have e : ArgsAre Src.crate p.id [((i!"Self"), (Src.impl 118).target)] (Src.fn 118 0).params args =
      (∃ v0 r0, args = v0 :: r0 ∧ Val.Is Src.crate p.id 9 (.path (i!"Matrix4x4") [.path (i!"S") []]) v0 ∧ ∃ v1 r1, r0 = v1 :: r1 ∧ Val.Is Src.crate p.id 9 (.path (i!"S") []) v1 ∧ r1 = []) := by kernel_rfl
  rw [e] at h
  obtain ⟨_, _, rfl, h0, _, _, rfl, h1, rfl⟩ := h
  obtain ⟨a0, rfl⟩ := is_Matrix4x4 p _ 4 _ h0
  obtain ⟨a1, rfl⟩ := is_S p _ 8 _ h1
  have r : Src.run S p b (headTy Src.crate (Prim.id p) (Src.impl 118).target) (Src.fn 118 0) [rep a0, .sc a1] =
      Src.method S p b (i!"mul_assign") (rep a0) [.sc a1] := by cases p <;> kernel_rfl
  exact .inl ⟨_, _, r.trans (C81_Matrix4x4_mul_assign p b a0 a1)⟩

/-- `Mul<Matrix4x4f> for f32`: `mul` -/
theorem total_119_0 (p : Prim) (b : Build) : FnTotal S p b (Src.impl 119) (Src.fn 119 0) := by
  intro args h
  have e : ArgsAre Src.crate p.id [((i!"Self"), (Src.impl 119).target)] (Src.fn 119 0).params args =
      (∃ v0 r0, args = v0 :: r0 ∧ Val.Is Src.crate p.id 9 (.path (i!"f32") []) v0 ∧ ∃ v1 r1, r0 = v1 :: r1 ∧ Val.Is Src.crate p.id 9 (.path (i!"Matrix4x4f") []) v1 ∧ r1 = []) := by kernel_rfl
  rw [e] at h
  obtain ⟨_, _, rfl, h0, _, _, rfl, h1, rfl⟩ := h
  obtain ⟨rfl, a0, rfl⟩ := is_f32 p _ 8 _ h0
  obtain ⟨-, a1, rfl⟩ := is_Matrix4x4f .f32 _ 3 _ h1
  have r : Src.run S .f32 b (headTy Src.crate (Prim.id .f32) (Src.impl 119).target) (Src.fn 119 0) [.sc a0, rep a1] =
      Src.method S .f32 b (i!"mul") (.sc a0) [rep a1] := by kernel_rfl
  exact .inl ⟨_, _, r.trans (C81_scalar_mul_Matrix4x4 .f32 b a0 a1)⟩

/-- `Mul<Matrix4x4d> for f64`: `mul` -/
theorem total_120_0 (p : Prim) (b : Build) : FnTotal S p b (Src.impl 120) (Src.fn 120 0) := by
  intro args h
  have e : ArgsAre Src.crate p.id [((i!"Self"), (Src.impl 120).target)] (Src.fn 120 0).params args =
      (∃ v0 r0, args = v0 :: r0 ∧ Val.Is Src.crate p.id 9 (.path (i!"f64") []) v0 ∧ ∃ v1 r1, r0 = v1 :: r1 ∧ Val.Is Src.crate p.id 9 (.path (i!"Matrix4x4d") []) v1 ∧ r1 = []) := by kernel_rfl
  rw [e] at h
  obtain ⟨_, _, rfl, h0, _, _, rfl, h1, rfl⟩ := h
  obtain ⟨rfl, a0, rfl⟩ := is_f64 p _ 8 _ h0
  obtain ⟨-, a1, rfl⟩ := is_Matrix4x4d .f64 _ 3 _ h1
  have r : Src.run S .f64 b (headTy Src.crate (Prim.id .f64) (Src.impl 120).target) (Src.fn 120 0) [.sc a0, rep a1] =
      Src.method S .f64 b (i!"mul") (.sc a0) [rep a1] := by kernel_rfl
  exact .inl ⟨_, _, r.trans (C81_scalar_mul_Matrix4x4 .f64 b a0 a1)⟩

/-- `Div<S> for Matrix4x4<S>`: `div` -/
theorem total_121_0 (p : Prim) (b : Build) : FnTotal S p b (Src.impl 121) (Src.fn 121 0) := by
  intro args h
  have e : ArgsAre Src.crate p.id [((i!"Self"), (Src.impl 121).target)] (Src.fn 121 0).params args =
      (∃ v0 r0, args = v0 :: r0 ∧ Val.Is Src.crate p.id 9 (.path (i!"Matrix4x4") [.path (i!"S") []]) v0 ∧ ∃ v1 r1, r0 = v1 :: r1 ∧ Val.Is Src.crate p.id 9 (.path (i!"S") []) v1 ∧ r1 = []) := by kernel_rfl
  rw [e] at h
  obtain ⟨_, _, rfl, h0, _, _, rfl, h1, rfl⟩ := h
  obtain ⟨a0, rfl⟩ := is_Matrix4x4 p _ 4 _ h0
  obtain ⟨a1, rfl⟩ := is_S p _ 8 _ h1
  have r : Src.run S p b (headTy Src.crate (Prim.id p) (Src.impl 121).target) (Src.fn 121 0) [rep a0, .sc a1] =
      Src.method S p b (i!"div") (rep a0) [.sc a1] := by cases p <;> kernel_rfl
  exact .inl ⟨_, _, r.trans (C81_Matrix4x4_div p b a0 a1)⟩

/-- `DivAssign<S> for Matrix4x4<S>`: `div_assign` -/
theorem total_122_0 (p : Prim) (b : Build) : FnTotal S p b (Src.impl 122) (Src.fn 122 0) := by
  intro args h
  have e : ArgsAre Src.crate p.id [((i!"Self"), (Src.impl 122).target)] (Src.fn 122 0).params args =
      (∃ v0 r0, args = v0 :: r0 ∧ Val.Is Src.crate p.id 9 (.path (i!"Matrix4x4") [.path (i!"S") []]) v0 ∧ ∃ v1 r1, r0 = v1 :: r1 ∧ Val.Is Src.crate p.id 9 (.path (i!"S") []) v1 ∧ r1 = []) := by kernel_rfl
  rw [e] at h
  obtain ⟨_, _, rfl, h0, _, _, rfl, h1, rfl⟩ := h
  obtain ⟨a0, rfl⟩ := is_Matrix4x4 p _ 4 _ h0
  obtain ⟨a1, rfl⟩ := is_S p _ 8 _ h1
  have r : Src.run S p b (headTy Src.crate (Prim.id p) (Src.impl 122).target) (Src.fn 122 0) [rep a0, .sc a1] =
      Src.method S p b (i!"div_assign") (rep a0) [.sc a1] := by cases p <;> kernel_rfl
  exact .inl ⟨_, _, r.trans (C81_Matrix4x4_div_assign p b a0 a1)⟩

/-- `Mul<Point3<S>> for Matrix4x4<S>`: `mul` -/
theorem total_123_0 (p : Prim) (b : Build) : FnTotal S p b (Src.impl 123) (Src.fn 123 0) := by
  intro args h
  have e : ArgsAre Src.crate p.id [((i!"Self"), (Src.impl 123).target)] (Src.fn 123 0).params args =
      (∃ v0 r0, args = v0 :: r0 ∧ Val.Is Src.crate p.id 9 (.path (i!"Matrix4x4") [.path (i!"S") []]) v0 ∧ ∃ v1 r1, r0 = v1 :: r1 ∧ Val.Is Src.crate p.id 9 (.path (i!"Point3") [.path (i!"S") []]) v1 ∧ r1 = []) := by kernel_rfl
  rw [e] at h
  obtain ⟨_, _, rfl, h0, _, _, rfl, h1, rfl⟩ := h
  obtain ⟨a0, rfl⟩ := is_Matrix4x4 p _ 4 _ h0
  obtain ⟨a1, rfl⟩ := is_Point3 p _ 4 _ h1
  have r : Src.run S p b (headTy Src.crate (Prim.id p) (Src.impl 123).target) (Src.fn 123 0) [rep a0, rep a1] =
      Src.method S p b (i!"mul") (rep a0) [rep a1] := by cases p <;> kernel_rfl
  exact .inl ⟨_, _, r.trans (C81_Matrix4x4_mul_Point3 p b a0 a1)⟩

/-- `Mul<Matrix4x4<S>> for Point3<S>`: `mul` -/
theorem total_124_0 (p : Prim) (b : Build) : FnTotal S p b (Src.impl 124) (Src.fn 124 0) := by
  intro args h
  have e : ArgsAre Src.crate p.id [((i!"Self"), (Src.impl 124).target)] (Src.fn 124 0).params args =
      (∃ v0 r0, args = v0 :: r0 ∧ Val.Is Src.crate p.id 9 (.path (i!"Point3") [.path (i!"S") []]) v0 ∧ ∃ v1 r1, r0 = v1 :: r1 ∧ Val.Is Src.crate p.id 9 (.path (i!"Matrix4x4") [.path (i!"S") []]) v1 ∧ r1 = []) := by kernel_rfl
  rw [e] at h
  obtain ⟨_, _, rfl, h0, _, _, rfl, h1, rfl⟩ := h
  obtain ⟨a0, rfl⟩ := is_Point3 p _ 4 _ h0
  obtain ⟨a1, rfl⟩ := is_Matrix4x4 p _ 4 _ h1
  have r : Src.run S p b (headTy Src.crate (Prim.id p) (Src.impl 124).target) (Src.fn 124 0) [rep a0, rep a1] =
      Src.method S p b (i!"mul") (rep a0) [rep a1] := by cases p <;> kernel_rfl
  exact .inl ⟨_, _, r.trans (C81_Point3_mul_Matrix4x4 p b a0 a1)⟩

/-- `Mul<Vector3<S>> for Matrix4x4<S>`: `mul` -/
theorem total_125_0 (p : Prim) (b : Build) : FnTotal S p b (Src.impl 125) (Src.fn 125 0) := by
  intro args h
  have e : ArgsAre Src.crate p.id [((i!"Self"), (Src.impl 125).target)] (Src.fn 125 0).params args =
      (∃ v0 r0, args = v0 :: r0 ∧ Val.Is Src.crate p.id 9 (.path (i!"Matrix4x4") [.path (i!"S") []]) v0 ∧ ∃ v1 r1, r0 = v1 :: r1 ∧ Val.Is Src.crate p.id 9 (.path (i!"Vector3") [.path (i!"S") []]) v1 ∧ r1 = []) := by kernel_rfl
  rw [e] at h
  obtain ⟨_, _, rfl, h0, _, _, rfl, h1, rfl⟩ := h
  obtain ⟨a0, rfl⟩ := is_Matrix4x4 p _ 4 _ h0
  obtain ⟨a1, rfl⟩ := is_Vector3 p _ 4 _ h1
  have r : Src.run S p b (headTy Src.crate (Prim.id p) (Src.impl 125).target) (Src.fn 125 0) [rep a0, rep a1] =
      Src.method S p b (i!"mul") (rep a0) [rep a1] := by cases p <;> kernel_rfl
  exact .inl ⟨_, _, r.trans (C81_Matrix4x4_mul_Vector3 p b a0 a1)⟩

/-- `Mul<Matrix4x4<S>> for Vector3<S>`: `mul` -/
theorem total_126_0 (p : Prim) (b : Build) : FnTotal S p b (Src.impl 126) (Src.fn 126 0) := by
  intro args h
  have e : ArgsAre Src.crate p.id [((i!"Self"), (Src.impl 126).target)] (Src.fn 126 0).params args =
      (∃ v0 r0, args = v0 :: r0 ∧ Val.Is Src.crate p.id 9 (.path (i!"Vector3") [.path (i!"S") []]) v0 ∧ ∃ v1 r1, r0 = v1 :: r1 ∧ Val.Is Src.crate p.id 9 (.path (i!"Matrix4x4") [.path (i!"S") []]) v1 ∧ r1 = []) := by kernel_rfl
  rw [e] at h
  obtain ⟨_, _, rfl, h0, _, _, rfl, h1, rfl⟩ := h
  obtain ⟨a0, rfl⟩ := is_Vector3 p _ 4 _ h0
  obtain ⟨a1, rfl⟩ := is_Matrix4x4 p _ 4 _ h1
  have r : Src.run S p b (headTy Src.crate (Prim.id p) (Src.impl 126).target) (Src.fn 126 0) [rep a0, rep a1] =
      Src.method S p b (i!"mul") (rep a0) [rep a1] := by cases p <;> kernel_rfl
  exact .inl ⟨_, _, r.trans (C81_Vector3_mul_Matrix4x4 p b a0 a1)⟩

/-- `Mul<Matrix4x4<S>> for Matrix4x4<S>`: `mul` -/
theorem total_127_0 (p : Prim) (b : Build) : FnTotal S p b (Src.impl 127) (Src.fn 127 0) := by
  intro args h
  have e : ArgsAre Src.crate p.id [((i!"Self"), (Src.impl 127).target)] (Src.fn 127 0).params args =
      (∃ v0 r0, args = v0 :: r0 ∧ Val.Is Src.crate p.id 9 (.path (i!"Matrix4x4") [.path (i!"S") []]) v0 ∧ ∃ v1 r1, r0 = v1 :: r1 ∧ Val.Is Src.crate p.id 9 (.path (i!"Matrix4x4") [.path (i!"S") []]) v1 ∧ r1 = []) := by kernel_rfl
  rw [e] at h
  obtain ⟨_, _, rfl, h0, _, _, rfl, h1, rfl⟩ := h
  obtain ⟨a0, rfl⟩ := is_Matrix4x4 p _ 4 _ h0
  obtain ⟨a1, rfl⟩ := is_Matrix4x4 p _ 4 _ h1
  have r : Src.run S p b (headTy Src.crate (Prim.id p) (Src.impl 127).target) (Src.fn 127 0) [rep a0, rep a1] =
      Src.method S p b (i!"mul") (rep a0) [rep a1] := by cases p <;> kernel_rfl
  exact .inl ⟨_, _, r.trans (C81_Matrix4x4_mul_Matrix4x4 p b a0 a1)⟩

/-- `Transform3<S>`: `new` -/
theorem total_128_0 (p : Prim) (b : Build) : FnTotal S p b (Src.impl 128) (Src.fn 128 0) := by
  intro args h
  have e : ArgsAre Src.crate p.id [((i!"Self"), (Src.impl 128).target)] (Src.fn 128 0).params args =
      (∃ v0 r0, args = v0 :: r0 ∧ Val.Is Src.crate p.id 9 (.path (i!"Matrix4x4") [.path (i!"S") []]) v0 ∧ ∃ v1 r1, r0 = v1 :: r1 ∧ Val.Is Src.crate p.id 9 (.path (i!"Matrix4x4") [.path (i!"S") []]) v1 ∧ r1 = []) := by kernel_rfl
  rw [e] at h
  obtain ⟨_, _, rfl, h0, _, _, rfl, h1, rfl⟩ := h
  obtain ⟨a0, rfl⟩ := is_Matrix4x4 p _ 4 _ h0
  obtain ⟨a1, rfl⟩ := is_Matrix4x4 p _ 4 _ h1
  have r : Src.run S p b (headTy Src.crate (Prim.id p) (Src.impl 128).target) (Src.fn 128 0) [rep a0, rep a1] =
      Src.assoc S p b (i!"Transform3") (i!"new") [rep a0, rep a1] := by cases p <;> kernel_rfl
  exact .inl ⟨_, _, r.trans (C81_Transform3_new p b a0 a1)⟩

/-- `Transform3<S>`: `identity` -/
theorem total_128_1 (p : Prim) (b : Build) : FnTotal S p b (Src.impl 128) (Src.fn 128 1) := by
  intro args h
  have e : ArgsAre Src.crate p.id [((i!"Self"), (Src.impl 128).target)] (Src.fn 128 1).params args =
      (args = []) := by kernel_rfl
  rw [e] at h
  obtain rfl := h
  have r : Src.run S p b (headTy Src.crate (Prim.id p) (Src.impl 128).target) (Src.fn 128 1) [] =
      Src.assoc S p b (i!"Transform3") (i!"identity") [] := by cases p <;> kernel_rfl
  exact .inl ⟨_, _, r.trans (C81_Transform3_identity p b)⟩

/-- `Transform3<S>`: `translate` -/
theorem total_128_2 (p : Prim) (b : Build) : FnTotal S p b (Src.impl 128) (Src.fn 128 2) := by
  intro args h
  have e : ArgsAre Src.crate p.id [((i!"Self"), (Src.impl 128).target)] (Src.fn 128 2).params args =
      (∃ v0 r0, args = v0 :: r0 ∧ Val.Is Src.crate p.id 9 (.path (i!"Vector3") [.path (i!"S") []]) v0 ∧ r0 = []) := by kernel_rfl
  rw [e] at h
  obtain ⟨_, _, rfl, h0, rfl⟩ := h
  obtain ⟨a0, rfl⟩ := is_Vector3 p _ 4 _ h0
  have r : Src.run S p b (headTy Src.crate (Prim.id p) (Src.impl 128).target) (Src.fn 128 2) [rep a0] =
      Src.assoc S p b (i!"Transform3") (i!"translate") [rep a0] := by cases p <;> kernel_rfl
  exact .inl ⟨_, _, r.trans (C81_Transform3_translate p b a0)⟩

/-- `Transform3<S>`: `rotate_x` -/
theorem total_128_3 (p : Prim) (b : Build) : FnTotal S p b (Src.impl 128) (Src.fn 128 3) := by
  intro args h
  have e : ArgsAre Src.crate p.id [((i!"Self"), (Src.impl 128).target)] (Src.fn 128 3).params args =
      (∃ v0 r0, args = v0 :: r0 ∧ Val.Is Src.crate p.id 9 (.path (i!"S") []) v0 ∧ r0 = []) := by kernel_rfl
  rw [e] at h
  obtain ⟨_, _, rfl, h0, rfl⟩ := h
  obtain ⟨a0, rfl⟩ := is_S p _ 8 _ h0
  have r : Src.run S p b (headTy Src.crate (Prim.id p) (Src.impl 128).target) (Src.fn 128 3) [.sc a0] =
      Src.assoc S p b (i!"Transform3") (i!"rotate_x") [.sc a0] := by cases p <;> kernel_rfl
  exact .inl ⟨_, _, r.trans (C81_Transform3_rotate_x p b a0)⟩

/-- `Transform3<S>`: `rotate_y` -/
theorem total_128_4 (p : Prim) (b : Build) : FnTotal S p b (Src.impl 128) (Src.fn 128 4) := by
  intro args h
  have e : ArgsAre Src.crate p.id [((i!"Self"), (Src.impl 128).target)] (Src.fn 128 4).params args =
      (∃ v0 r0, args = v0 :: r0 ∧ Val.Is Src.crate p.id 9 (.path (i!"S") []) v0 ∧ r0 = []) := by kernel_rfl
  rw [e] at h
  obtain ⟨_, _, rfl, h0, rfl⟩ := h
  obtain ⟨a0, rfl⟩ := is_S p _ 8 _ h0
  have r : Src.run S p b (headTy Src.crate (Prim.id p) (Src.impl 128).target) (Src.fn 128 4) [.sc a0] =
      Src.assoc S p b (i!"Transform3") (i!"rotate_y") [.sc a0] := by cases p <;> kernel_rfl
  exact .inl ⟨_, _, r.trans (C81_Transform3_rotate_y p b a0)⟩

/-- `Transform3<S>`: `rotate_z` -/
theorem total_128_5 (p : Prim) (b : Build) : FnTotal S p b (Src.impl 128) (Src.fn 128 5) := by
  intro args h
  have e : ArgsAre Src.crate p.id [((i!"Self"), (Src.impl 128).target)] (Src.fn 128 5).params args =
      (∃ v0 r0, args = v0 :: r0 ∧ Val.Is Src.crate p.id 9 (.path (i!"S") []) v0 ∧ r0 = []) := by kernel_rfl
  rw [e] at h
  obtain ⟨_, _, rfl, h0, rfl⟩ := h
  obtain ⟨a0, rfl⟩ := is_S p _ 8 _ h0
  have r : Src.run S p b (headTy Src.crate (Prim.id p) (Src.impl 128).target) (Src.fn 128 5) [.sc a0] =
      Src.assoc S p b (i!"Transform3") (i!"rotate_z") [.sc a0] := by cases p <;> kernel_rfl
  exact .inl ⟨_, _, r.trans (C81_Transform3_rotate_z p b a0)⟩

/-- `Transform3<S>`: `rotate_axis` -/
theorem total_128_6 (p : Prim) (b : Build) : FnTotal S p b (Src.impl 128) (Src.fn 128 6) := by
  intro args h
  have e : ArgsAre Src.crate p.id [((i!"Self"), (Src.impl 128).target)] (Src.fn 128 6).params args =
      (∃ v0 r0, args = v0 :: r0 ∧ Val.Is Src.crate p.id 9 (.path (i!"Vector3") [.path (i!"S") []]) v0 ∧ ∃ v1 r1, r0 = v1 :: r1 ∧ Val.Is Src.crate p.id 9 (.path (i!"S") []) v1 ∧ r1 = []) := by kernel_rfl
  rw [e] at h
  obtain ⟨_, _, rfl, h0, _, _, rfl, h1, rfl⟩ := h
  obtain ⟨a0, rfl⟩ := is_Vector3 p _ 4 _ h0
  obtain ⟨a1, rfl⟩ := is_S p _ 8 _ h1
  have r : Src.run S p b (headTy Src.crate (Prim.id p) (Src.impl 128).target) (Src.fn 128 6) [rep a0, .sc a1] =
      Src.assoc S p b (i!"Transform3") (i!"rotate_axis") [rep a0, .sc a1] := by cases p <;> kernel_rfl
  exact .inl ⟨_, _, r.trans (C81_Transform3_rotate_axis p b a0 a1)⟩

/-- `Transform3<S>`: `scale` -/
theorem total_128_7 (p : Prim) (b : Build) : FnTotal S p b (Src.impl 128) (Src.fn 128 7) := by
  intro args h
  have e : ArgsAre Src.crate p.id [((i!"Self"), (Src.impl 128).target)] (Src.fn 128 7).params args =
      (∃ v0 r0, args = v0 :: r0 ∧ Val.Is Src.crate p.id 9 (.path (i!"S") []) v0 ∧ ∃ v1 r1, r0 = v1 :: r1 ∧ Val.Is Src.crate p.id 9 (.path (i!"S") []) v1 ∧ ∃ v2 r2, r1 = v2 :: r2 ∧ Val.Is Src.crate p.id 9 (.path (i!"S") []) v2 ∧ r2 = []) := by kernel_rfl
  rw [e] at h
  obtain ⟨_, _, rfl, h0, _, _, rfl, h1, _, _, rfl, h2, rfl⟩ := h
  obtain ⟨a0, rfl⟩ := is_S p _ 8 _ h0
  obtain ⟨a1, rfl⟩ := is_S p _ 8 _ h1
  obtain ⟨a2, rfl⟩ := is_S p _ 8 _ h2
  have r : Src.run S p b (headTy Src.crate (Prim.id p) (Src.impl 128).target) (Src.fn 128 7) [.sc a0, .sc a1, .sc a2] =
      Src.assoc S p b (i!"Transform3") (i!"scale") [.sc a0, .sc a1, .sc a2] := by cases p <;> kernel_rfl
  exact .inl ⟨_, _, r.trans (C81_Transform3_scale p b a0 a1 a2)⟩

/-- `Transform3<S>`: `scale_uniform` -/
theorem total_128_8 (p : Prim) (b : Build) : FnTotal S p b (Src.impl 128) (Src.fn 128 8) := by
  intro args h
  have e : ArgsAre Src.crate p.id [((i!"Self"), (Src.impl 128).target)] (Src.fn 128 8).params args =
      (∃ v0 r0, args = v0 :: r0 ∧ Val.Is Src.crate p.id 9 (.path (i!"S") []) v0 ∧ r0 = []) := by kernel_rfl
  rw [e] at h
  obtain ⟨_, _, rfl, h0, rfl⟩ := h
  obtain ⟨a0, rfl⟩ := is_S p _ 8 _ h0
  have r : Src.run S p b (headTy Src.crate (Prim.id p) (Src.impl 128).target) (Src.fn 128 8) [.sc a0] =
      Src.assoc S p b (i!"Transform3") (i!"scale_uniform") [.sc a0] := by cases p <;> kernel_rfl
  exact .inl ⟨_, _, r.trans (C81_Transform3_scale_uniform p b a0)⟩

/-- `Transform3<S>`: `look_at` -/
theorem total_128_9 (p : Prim) (b : Build) : FnTotal S p b (Src.impl 128) (Src.fn 128 9) := by
  intro args h
  have e : ArgsAre Src.crate p.id [((i!"Self"), (Src.impl 128).target)] (Src.fn 128 9).params args =
      (∃ v0 r0, args = v0 :: r0 ∧ Val.Is Src.crate p.id 9 (.path (i!"Point3") [.path (i!"S") []]) v0 ∧ ∃ v1 r1, r0 = v1 :: r1 ∧ Val.Is Src.crate p.id 9 (.path (i!"Point3") [.path (i!"S") []]) v1 ∧ ∃ v2 r2, r1 = v2 :: r2 ∧ Val.Is Src.crate p.id 9 (.path (i!"Vector3") [.path (i!"S") []]) v2 ∧ r2 = []) := by kernel_rfl
  rw [e] at h
  obtain ⟨_, _, rfl, h0, _, _, rfl, h1, _, _, rfl, h2, rfl⟩ := h
  obtain ⟨a0, rfl⟩ := is_Point3 p _ 4 _ h0
  obtain ⟨a1, rfl⟩ := is_Point3 p _ 4 _ h1
  obtain ⟨a2, rfl⟩ := is_Vector3 p _ 4 _ h2
  have r : Src.run S p b (headTy Src.crate (Prim.id p) (Src.impl 128).target) (Src.fn 128 9) [rep a0, rep a1, rep a2] =
      Src.assoc S p b (i!"Transform3") (i!"look_at") [rep a0, rep a1, rep a2] := by cases p <;> kernel_rfl
  exact .inl ⟨_, _, r.trans (C81_Transform3_look_at p b a0 a1 a2)⟩

/-- `Transform3<S>`: `and_then` -/
theorem total_128_10 (p : Prim) (b : Build) : FnTotal S p b (Src.impl 128) (Src.fn 128 10) := by
  intro args h
  have e : ArgsAre Src.crate p.id [((i!"Self"), (Src.impl 128).target)] (Src.fn 128 10).params args =
      (∃ v0 r0, args = v0 :: r0 ∧ Val.Is Src.crate p.id 9 (.path (i!"Transform3") [.path (i!"S") []]) v0 ∧ ∃ v1 r1, r0 = v1 :: r1 ∧ Val.Is Src.crate p.id 9 (.path (i!"Transform3") [.path (i!"S") []]) v1 ∧ r1 = []) := by kernel_rfl
  rw [e] at h
  obtain ⟨_, _, rfl, h0, _, _, rfl, h1, rfl⟩ := h
  obtain ⟨a0, rfl⟩ := is_Transform3 p _ 3 _ h0
  obtain ⟨a1, rfl⟩ := is_Transform3 p _ 3 _ h1
  have r : Src.run S p b (headTy Src.crate (Prim.id p) (Src.impl 128).target) (Src.fn 128 10) [rep a0, rep a1] =
      Src.method S p b (i!"and_then") (rep a0) [rep a1] := by cases p <;> kernel_rfl
  exact .inl ⟨_, _, r.trans (C81_Transform3_and_then p b a0 a1)⟩

/-- `Transform3<S>`: `inverse` -/
theorem total_128_11 (p : Prim) (b : Build) : FnTotal S p b (Src.impl 128) (Src.fn 128 11) := by
  intro args h
  have e : ArgsAre Src.crate p.id [((i!"Self"), (Src.impl 128).target)] (Src.fn 128 11).params args =
      (∃ v0 r0, args = v0 :: r0 ∧ Val.Is Src.crate p.id 9 (.path (i!"Transform3") [.path (i!"S") []]) v0 ∧ r0 = []) := by kernel_rfl
  rw [e] at h
  obtain ⟨_, _, rfl, h0, rfl⟩ := h
  obtain ⟨a0, rfl⟩ := is_Transform3 p _ 3 _ h0
  have r : Src.run S p b (headTy Src.crate (Prim.id p) (Src.impl 128).target) (Src.fn 128 11) [rep a0] =
      Src.method S p b (i!"inverse") (rep a0) [] := by cases p <;> kernel_rfl
  exact .inl ⟨_, _, r.trans (C81_Transform3_inverse p b a0)⟩

/-- `Transform<Point3<S>> for Transform3<S>`: `transform` -/
theorem total_129_0 (p : Prim) (b : Build) : FnTotal S p b (Src.impl 129) (Src.fn 129 0) := by
  intro args h
  have e : ArgsAre Src.crate p.id [((i!"Self"), (Src.impl 129).target)] (Src.fn 129 0).params args =
      (∃ v0 r0, args = v0 :: r0 ∧ Val.Is Src.crate p.id 9 (.path (i!"Transform3") [.path (i!"S") []]) v0 ∧ ∃ v1 r1, r0 = v1 :: r1 ∧ Val.Is Src.crate p.id 9 (.path (i!"Point3") [.path (i!"S") []]) v1 ∧ r1 = []) := by kernel_rfl
  rw [e] at h
  obtain ⟨_, _, rfl, h0, _, _, rfl, h1, rfl⟩ := h
  obtain ⟨a0, rfl⟩ := is_Transform3 p _ 3 _ h0
  obtain ⟨a1, rfl⟩ := is_Point3 p _ 4 _ h1
  have r : Src.run S p b (headTy Src.crate (Prim.id p) (Src.impl 129).target) (Src.fn 129 0) [rep a0, rep a1] =
      Src.method S p b (i!"transform") (rep a0) [rep a1] := by cases p <;> kernel_rfl
  exact .inl ⟨_, _, r.trans (C81_Transform3_transform_Point3 p b a0 a1)⟩

/-- `Transform<Vector3<S>> for Transform3<S>`: `transform` -/
theorem total_130_0 (p : Prim) (b : Build) : FnTotal S p b (Src.impl 130) (Src.fn 130 0) := by
  intro args h
  have e : ArgsAre Src.crate p.id [((i!"Self"), (Src.impl 130).target)] (Src.fn 130 0).params args =
      (∃ v0 r0, args = v0 :: r0 ∧ Val.Is Src.crate p.id 9 (.path (i!"Transform3") [.path (i!"S") []]) v0 ∧ ∃ v1 r1, r0 = v1 :: r1 ∧ Val.Is Src.crate p.id 9 (.path (i!"Vector3") [.path (i!"S") []]) v1 ∧ r1 = []) := by kernel_rfl
  rw [e] at h
  obtain ⟨_, _, rfl, h0, _, _, rfl, h1, rfl⟩ := h
  obtain ⟨a0, rfl⟩ := is_Transform3 p _ 3 _ h0
  obtain ⟨a1, rfl⟩ := is_Vector3 p _ 4 _ h1
  have r : Src.run S p b (headTy Src.crate (Prim.id p) (Src.impl 130).target) (Src.fn 130 0) [rep a0, rep a1] =
      Src.method S p b (i!"transform") (rep a0) [rep a1] := by cases p <;> kernel_rfl
  exact .inl ⟨_, _, r.trans (C81_Transform3_transform_Vector3 p b a0 a1)⟩

/-- `Transform<Ray3<S>> for Transform3<S>`: `transform` -/
theorem total_131_0 (p : Prim) (b : Build) : FnTotal S p b (Src.impl 131) (Src.fn 131 0) := by
  intro args h
  have e : ArgsAre Src.crate p.id [((i!"Self"), (Src.impl 131).target)] (Src.fn 131 0).params args =
      (∃ v0 r0, args = v0 :: r0 ∧ Val.Is Src.crate p.id 9 (.path (i!"Transform3") [.path (i!"S") []]) v0 ∧ ∃ v1 r1, r0 = v1 :: r1 ∧ Val.Is Src.crate p.id 9 (.path (i!"Ray3") [.path (i!"S") []]) v1 ∧ r1 = []) := by kernel_rfl
  rw [e] at h
  obtain ⟨_, _, rfl, h0, _, _, rfl, h1, rfl⟩ := h
  obtain ⟨a0, rfl⟩ := is_Transform3 p _ 3 _ h0
  obtain ⟨a1, rfl⟩ := is_Ray3 p _ 3 _ h1
  have r : Src.run S p b (headTy Src.crate (Prim.id p) (Src.impl 131).target) (Src.fn 131 0) [rep a0, rep a1] =
      Src.method S p b (i!"transform") (rep a0) [rep a1] := by cases p <;> kernel_rfl
  exact .inl ⟨_, _, r.trans (C81_Transform3_transform_Ray3 p b a0 a1)⟩

/-- `Transform<BoundingBox3<S>> for Transform3<S>`: `transform` -/
theorem total_132_0 (p : Prim) (b : Build) : FnTotal S p b (Src.impl 132) (Src.fn 132 0) := by
  intro args h
  have e : ArgsAre Src.crate p.id [((i!"Self"), (Src.impl 132).target)] (Src.fn 132 0).params args =
      (∃ v0 r0, args = v0 :: r0 ∧ Val.Is Src.crate p.id 9 (.path (i!"Transform3") [.path (i!"S") []]) v0 ∧ ∃ v1 r1, r0 = v1 :: r1 ∧ Val.Is Src.crate p.id 9 (.path (i!"BoundingBox3") [.path (i!"S") []]) v1 ∧ r1 = []) := by kernel_rfl
  rw [e] at h
  obtain ⟨_, _, rfl, h0, _, _, rfl, h1, rfl⟩ := h
  obtain ⟨a0, rfl⟩ := is_Transform3 p _ 3 _ h0
  obtain ⟨a1, rfl⟩ := is_BoundingBox3 p _ 3 _ h1
  have r : Src.run S p b (headTy Src.crate (Prim.id p) (Src.impl 132).target) (Src.fn 132 0) [rep a0, rep a1] =
      Src.method S p b (i!"transform") (rep a0) [rep a1] := by cases p <;> kernel_rfl
  exact .inl ⟨_, _, r.trans (C81_Transform3_transform_BoundingBox3 p b a0 a1)⟩

/-- `TryFrom<Matrix4x4<S>> for Transform3<S>`: `try_from` -/
theorem total_133_0 (p : Prim) (b : Build) : FnTotal S p b (Src.impl 133) (Src.fn 133 0) := by
  intro args h
  have e : ArgsAre Src.crate p.id [((i!"Self"), (Src.impl 133).target)] (Src.fn 133 0).params args =
      (∃ v0 r0, args = v0 :: r0 ∧ Val.Is Src.crate p.id 9 (.path (i!"Matrix4x4") [.path (i!"S") []]) v0 ∧ r0 = []) := by kernel_rfl
  rw [e] at h
  obtain ⟨_, _, rfl, h0, rfl⟩ := h
  obtain ⟨a0, rfl⟩ := is_Matrix4x4 p _ 4 _ h0
  have r : Src.run S p b (headTy Src.crate (Prim.id p) (Src.impl 133).target) (Src.fn 133 0) [rep a0] =
      Src.assoc S p b (i!"Transform3") (i!"try_from") [rep a0] := by cases p <;> kernel_rfl
  exact .inl ⟨_, _, r.trans (C81_Transform3_try_from p b a0)⟩

end VecMath.Rust
