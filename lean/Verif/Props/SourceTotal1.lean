import Verif.Rust.Inhabit
import Verif.Rust.Total
import Verif.Props.Source1
import Verif.Props.Source2
import Verif.Props.Source3
import Verif.Props.SourceT2
import Verif.Props.SourceT3
/-! # No function of the source text panics or runs forever, part 1

Generated by `tools/gen/total.py`. -/

namespace VecMath.Rust
open VecMath
variable {S : Type} [Scalar S]

/-- `ScalarConst for f64`: `half` -/
theorem total_3_0 (p : Prim) (b : Build) : FnTotal S p b (Src.impl 3) (Src.fn 3 0) := by
  intro args h
  have e : ArgsAre Src.crate p.id [((i!"Self"), (Src.impl 3).target)] (Src.fn 3 0).params args =
      (args = []) := by kernel_rfl
  rw [e] at h
  obtain rfl := h
  have r : Src.run S p b (headTy Src.crate (Prim.id p) (Src.impl 3).target) (Src.fn 3 0) [] =
      Src.assoc S p b (i!"S") (i!"half") [] := by cases p <;> kernel_rfl
  exact .inl ⟨_, _, r.trans (C81_S_half p b)⟩

/-- `ScalarConst for f64`: `two` -/
theorem total_3_1 (p : Prim) (b : Build) : FnTotal S p b (Src.impl 3) (Src.fn 3 1) := by
  intro args h
  have e : ArgsAre Src.crate p.id [((i!"Self"), (Src.impl 3).target)] (Src.fn 3 1).params args =
      (args = []) := by kernel_rfl
  rw [e] at h
  obtain rfl := h
  have r : Src.run S p b (headTy Src.crate (Prim.id p) (Src.impl 3).target) (Src.fn 3 1) [] =
      Src.assoc S p b (i!"S") (i!"two") [] := by cases p <;> kernel_rfl
  exact .inl ⟨_, _, r.trans (C81_S_two p b)⟩

/-- `MinMax for S`: `min` -/
theorem total_4_0 (p : Prim) (b : Build) : FnTotal S p b (Src.impl 4) (Src.fn 4 0) := by
  intro args h
  have e : ArgsAre Src.crate p.id [((i!"Self"), (Src.impl 4).target)] (Src.fn 4 0).params args =
      (∃ v0 r0, args = v0 :: r0 ∧ Val.Is Src.crate p.id 9 (.path (i!"S") []) v0 ∧ ∃ v1 r1, r0 = v1 :: r1 ∧ Val.Is Src.crate p.id 9 (.path (i!"S") []) v1 ∧ r1 = []) := by kernel_rfl
  rw [e] at h
  obtain ⟨_, _, rfl, h0, _, _, rfl, h1, rfl⟩ := h
  obtain ⟨a0, rfl⟩ := is_S p _ 8 _ h0
  obtain ⟨a1, rfl⟩ := is_S p _ 8 _ h1
  exact .inl ⟨.sc (Scalar.fmin a0 a1), .sc a0, by cases p <;> kernel_rfl⟩

/-- `MinMax for S`: `max` -/
theorem total_4_1 (p : Prim) (b : Build) : FnTotal S p b (Src.impl 4) (Src.fn 4 1) := by
  intro args h
  have e : ArgsAre Src.crate p.id [((i!"Self"), (Src.impl 4).target)] (Src.fn 4 1).params args =
      (∃ v0 r0, args = v0 :: r0 ∧ Val.Is Src.crate p.id 9 (.path (i!"S") []) v0 ∧ ∃ v1 r1, r0 = v1 :: r1 ∧ Val.Is Src.crate p.id 9 (.path (i!"S") []) v1 ∧ r1 = []) := by kernel_rfl
  rw [e] at h
  obtain ⟨_, _, rfl, h0, _, _, rfl, h1, rfl⟩ := h
  obtain ⟨a0, rfl⟩ := is_S p _ 8 _ h0
  obtain ⟨a1, rfl⟩ := is_S p _ 8 _ h1
  exact .inl ⟨.sc (Scalar.fmax a0 a1), .sc a0, by cases p <;> kernel_rfl⟩

/-- `Length for S`: `length` -/
theorem total_5_0 (p : Prim) (b : Build) : FnTotal S p b (Src.impl 5) (Src.fn 5 0) := by
  intro args h
  have e : ArgsAre Src.crate p.id [((i!"Self"), (Src.impl 5).target)] (Src.fn 5 0).params args =
      (∃ v0 r0, args = v0 :: r0 ∧ Val.Is Src.crate p.id 9 (.path (i!"S") []) v0 ∧ r0 = []) := by kernel_rfl
  rw [e] at h
  obtain ⟨_, _, rfl, h0, rfl⟩ := h
  obtain ⟨a0, rfl⟩ := is_S p _ 8 _ h0
  have r : Src.run S p b (headTy Src.crate (Prim.id p) (Src.impl 5).target) (Src.fn 5 0) [.sc a0] =
      Src.method S p b (i!"length") (.sc a0) [] := by cases p <;> kernel_rfl
  exact .inl ⟨_, _, r.trans (C81_S_length p b a0)⟩

/-- `RelativeLength for S`: `is_shorter_than` -/
theorem total_6_0 (p : Prim) (b : Build) : FnTotal S p b (Src.impl 6) (Src.fn 6 0) := by
  intro args h
  have e : ArgsAre Src.crate p.id [((i!"Self"), (Src.impl 6).target)] (Src.fn 6 0).params args =
      (∃ v0 r0, args = v0 :: r0 ∧ Val.Is Src.crate p.id 9 (.path (i!"S") []) v0 ∧ ∃ v1 r1, r0 = v1 :: r1 ∧ Val.Is Src.crate p.id 9 (.path (i!"S") []) v1 ∧ r1 = []) := by kernel_rfl
  rw [e] at h
  obtain ⟨_, _, rfl, h0, _, _, rfl, h1, rfl⟩ := h
  obtain ⟨a0, rfl⟩ := is_S p _ 8 _ h0
  obtain ⟨a1, rfl⟩ := is_S p _ 8 _ h1
  have r : Src.run S p b (headTy Src.crate (Prim.id p) (Src.impl 6).target) (Src.fn 6 0) [.sc a0, .sc a1] =
      Src.method S p b (i!"is_shorter_than") (.sc a0) [.sc a1] := by cases p <;> kernel_rfl
  exact .inl ⟨_, _, r.trans (C81_S_is_shorter_than p b a0 a1)⟩

/-- `RelativeLength for S`: `is_longer_than` -/
theorem total_6_1 (p : Prim) (b : Build) : FnTotal S p b (Src.impl 6) (Src.fn 6 1) := by
  intro args h
  have e : ArgsAre Src.crate p.id [((i!"Self"), (Src.impl 6).target)] (Src.fn 6 1).params args =
      (∃ v0 r0, args = v0 :: r0 ∧ Val.Is Src.crate p.id 9 (.path (i!"S") []) v0 ∧ ∃ v1 r1, r0 = v1 :: r1 ∧ Val.Is Src.crate p.id 9 (.path (i!"S") []) v1 ∧ r1 = []) := by kernel_rfl
  rw [e] at h
  obtain ⟨_, _, rfl, h0, _, _, rfl, h1, rfl⟩ := h
  obtain ⟨a0, rfl⟩ := is_S p _ 8 _ h0
  obtain ⟨a1, rfl⟩ := is_S p _ 8 _ h1
  have r : Src.run S p b (headTy Src.crate (Prim.id p) (Src.impl 6).target) (Src.fn 6 1) [.sc a0, .sc a1] =
      Src.method S p b (i!"is_longer_than") (.sc a0) [.sc a1] := by cases p <;> kernel_rfl
  exact .inl ⟨_, _, r.trans (C81_S_is_longer_than p b a0 a1)⟩

/-- `RelativeLength for S`: `shortest` -/
theorem total_6_2 (p : Prim) (b : Build) : FnTotal S p b (Src.impl 6) (Src.fn 6 2) := by
  intro args h
  have e : ArgsAre Src.crate p.id [((i!"Self"), (Src.impl 6).target)] (Src.fn 6 2).params args =
      (∃ v0 r0, args = v0 :: r0 ∧ Val.Is Src.crate p.id 9 (.path (i!"S") []) v0 ∧ ∃ v1 r1, r0 = v1 :: r1 ∧ Val.Is Src.crate p.id 9 (.path (i!"S") []) v1 ∧ r1 = []) := by kernel_rfl
  rw [e] at h
  obtain ⟨_, _, rfl, h0, _, _, rfl, h1, rfl⟩ := h
  obtain ⟨a0, rfl⟩ := is_S p _ 8 _ h0
  obtain ⟨a1, rfl⟩ := is_S p _ 8 _ h1
  have r : Src.run S p b (headTy Src.crate (Prim.id p) (Src.impl 6).target) (Src.fn 6 2) [.sc a0, .sc a1] =
      Src.method S p b (i!"shortest") (.sc a0) [.sc a1] := by cases p <;> kernel_rfl
  exact .inl ⟨_, _, r.trans (C81_S_shortest p b a0 a1)⟩

/-- `RelativeLength for S`: `longest` -/
theorem total_6_3 (p : Prim) (b : Build) : FnTotal S p b (Src.impl 6) (Src.fn 6 3) := by
  intro args h
  have e : ArgsAre Src.crate p.id [((i!"Self"), (Src.impl 6).target)] (Src.fn 6 3).params args =
      (∃ v0 r0, args = v0 :: r0 ∧ Val.Is Src.crate p.id 9 (.path (i!"S") []) v0 ∧ ∃ v1 r1, r0 = v1 :: r1 ∧ Val.Is Src.crate p.id 9 (.path (i!"S") []) v1 ∧ r1 = []) := by kernel_rfl
  rw [e] at h
  obtain ⟨_, _, rfl, h0, _, _, rfl, h1, rfl⟩ := h
  obtain ⟨a0, rfl⟩ := is_S p _ 8 _ h0
  obtain ⟨a1, rfl⟩ := is_S p _ 8 _ h1
  have r : Src.run S p b (headTy Src.crate (Prim.id p) (Src.impl 6).target) (Src.fn 6 3) [.sc a0, .sc a1] =
      Src.method S p b (i!"longest") (.sc a0) [.sc a1] := by cases p <;> kernel_rfl
  exact .inl ⟨_, _, r.trans (C81_S_longest p b a0 a1)⟩

/-- `Distance for S`: `distance` -/
theorem total_7_0 (p : Prim) (b : Build) : FnTotal S p b (Src.impl 7) (Src.fn 7 0) := by
  intro args h
  have e : ArgsAre Src.crate p.id [((i!"Self"), (Src.impl 7).target)] (Src.fn 7 0).params args =
      (∃ v0 r0, args = v0 :: r0 ∧ Val.Is Src.crate p.id 9 (.path (i!"S") []) v0 ∧ ∃ v1 r1, r0 = v1 :: r1 ∧ Val.Is Src.crate p.id 9 (.path (i!"S") []) v1 ∧ r1 = []) := by kernel_rfl
  rw [e] at h
  obtain ⟨_, _, rfl, h0, _, _, rfl, h1, rfl⟩ := h
  obtain ⟨a0, rfl⟩ := is_S p _ 8 _ h0
  obtain ⟨a1, rfl⟩ := is_S p _ 8 _ h1
  have r : Src.run S p b (headTy Src.crate (Prim.id p) (Src.impl 7).target) (Src.fn 7 0) [.sc a0, .sc a1] =
      Src.method S p b (i!"distance") (.sc a0) [.sc a1] := by cases p <;> kernel_rfl
  exact .inl ⟨_, _, r.trans (C81_S_distance p b a0 a1)⟩

/-- `RelativeDistance for S`: `is_closer_to` -/
theorem total_8_0 (p : Prim) (b : Build) : FnTotal S p b (Src.impl 8) (Src.fn 8 0) := by
  intro args h
  have e : ArgsAre Src.crate p.id [((i!"Self"), (Src.impl 8).target)] (Src.fn 8 0).params args =
      (∃ v0 r0, args = v0 :: r0 ∧ Val.Is Src.crate p.id 9 (.path (i!"S") []) v0 ∧ ∃ v1 r1, r0 = v1 :: r1 ∧ Val.Is Src.crate p.id 9 (.path (i!"S") []) v1 ∧ ∃ v2 r2, r1 = v2 :: r2 ∧ Val.Is Src.crate p.id 9 (.path (i!"S") []) v2 ∧ r2 = []) := by kernel_rfl
  rw [e] at h
  obtain ⟨_, _, rfl, h0, _, _, rfl, h1, _, _, rfl, h2, rfl⟩ := h
  obtain ⟨a0, rfl⟩ := is_S p _ 8 _ h0
  obtain ⟨a1, rfl⟩ := is_S p _ 8 _ h1
  obtain ⟨a2, rfl⟩ := is_S p _ 8 _ h2
  have r : Src.run S p b (headTy Src.crate (Prim.id p) (Src.impl 8).target) (Src.fn 8 0) [.sc a0, .sc a1, .sc a2] =
      Src.method S p b (i!"is_closer_to") (.sc a0) [.sc a1, .sc a2] := by cases p <;> kernel_rfl
  exact .inl ⟨_, _, r.trans (C81_S_is_closer_to p b a0 a1 a2)⟩

/-- `RelativeDistance for S`: `is_farther_from` -/
theorem total_8_1 (p : Prim) (b : Build) : FnTotal S p b (Src.impl 8) (Src.fn 8 1) := by
  intro args h
  have e : ArgsAre Src.crate p.id [((i!"Self"), (Src.impl 8).target)] (Src.fn 8 1).params args =
      (∃ v0 r0, args = v0 :: r0 ∧ Val.Is Src.crate p.id 9 (.path (i!"S") []) v0 ∧ ∃ v1 r1, r0 = v1 :: r1 ∧ Val.Is Src.crate p.id 9 (.path (i!"S") []) v1 ∧ ∃ v2 r2, r1 = v2 :: r2 ∧ Val.Is Src.crate p.id 9 (.path (i!"S") []) v2 ∧ r2 = []) := by kernel_rfl
  rw [e] at h
  obtain ⟨_, _, rfl, h0, _, _, rfl, h1, _, _, rfl, h2, rfl⟩ := h
  obtain ⟨a0, rfl⟩ := is_S p _ 8 _ h0
  obtain ⟨a1, rfl⟩ := is_S p _ 8 _ h1
  obtain ⟨a2, rfl⟩ := is_S p _ 8 _ h2
  have r : Src.run S p b (headTy Src.crate (Prim.id p) (Src.impl 8).target) (Src.fn 8 1) [.sc a0, .sc a1, .sc a2] =
      Src.method S p b (i!"is_farther_from") (.sc a0) [.sc a1, .sc a2] := by cases p <;> kernel_rfl
  exact .inl ⟨_, _, r.trans (C81_S_is_farther_from p b a0 a1 a2)⟩

/-- `RelativeDistance for S`: `closest` -/
theorem total_8_2 (p : Prim) (b : Build) : FnTotal S p b (Src.impl 8) (Src.fn 8 2) := by
  intro args h
  have e : ArgsAre Src.crate p.id [((i!"Self"), (Src.impl 8).target)] (Src.fn 8 2).params args =
      (∃ v0 r0, args = v0 :: r0 ∧ Val.Is Src.crate p.id 9 (.path (i!"S") []) v0 ∧ ∃ v1 r1, r0 = v1 :: r1 ∧ Val.Is Src.crate p.id 9 (.path (i!"S") []) v1 ∧ ∃ v2 r2, r1 = v2 :: r2 ∧ Val.Is Src.crate p.id 9 (.path (i!"S") []) v2 ∧ r2 = []) := by kernel_rfl
  rw [e] at h
  obtain ⟨_, _, rfl, h0, _, _, rfl, h1, _, _, rfl, h2, rfl⟩ := h
  obtain ⟨a0, rfl⟩ := is_S p _ 8 _ h0
  obtain ⟨a1, rfl⟩ := is_S p _ 8 _ h1
  obtain ⟨a2, rfl⟩ := is_S p _ 8 _ h2
  have r : Src.run S p b (headTy Src.crate (Prim.id p) (Src.impl 8).target) (Src.fn 8 2) [.sc a0, .sc a1, .sc a2] =
      Src.method S p b (i!"closest") (.sc a0) [.sc a1, .sc a2] := by cases p <;> kernel_rfl
  exact .inl ⟨_, _, r.trans (C81_S_closest p b a0 a1 a2)⟩

/-- `RelativeDistance for S`: `farthest` -/
theorem total_8_3 (p : Prim) (b : Build) : FnTotal S p b (Src.impl 8) (Src.fn 8 3) := by
  intro args h
  have e : ArgsAre Src.crate p.id [((i!"Self"), (Src.impl 8).target)] (Src.fn 8 3).params args =
      (∃ v0 r0, args = v0 :: r0 ∧ Val.Is Src.crate p.id 9 (.path (i!"S") []) v0 ∧ ∃ v1 r1, r0 = v1 :: r1 ∧ Val.Is Src.crate p.id 9 (.path (i!"S") []) v1 ∧ ∃ v2 r2, r1 = v2 :: r2 ∧ Val.Is Src.crate p.id 9 (.path (i!"S") []) v2 ∧ r2 = []) := by kernel_rfl
  rw [e] at h
  obtain ⟨_, _, rfl, h0, _, _, rfl, h1, _, _, rfl, h2, rfl⟩ := h
  obtain ⟨a0, rfl⟩ := is_S p _ 8 _ h0
  obtain ⟨a1, rfl⟩ := is_S p _ 8 _ h1
  obtain ⟨a2, rfl⟩ := is_S p _ 8 _ h2
  have r : Src.run S p b (headTy Src.crate (Prim.id p) (Src.impl 8).target) (Src.fn 8 3) [.sc a0, .sc a1, .sc a2] =
      Src.method S p b (i!"farthest") (.sc a0) [.sc a1, .sc a2] := by cases p <;> kernel_rfl
  exact .inl ⟨_, _, r.trans (C81_S_farthest p b a0 a1 a2)⟩

/-- `Vector2<S>`: `new` -/
theorem total_9_0 (p : Prim) (b : Build) : FnTotal S p b (Src.impl 9) (Src.fn 9 0) := by
  intro args h
  have e : ArgsAre Src.crate p.id [((i!"Self"), (Src.impl 9).target)] (Src.fn 9 0).params args =
      (∃ v0 r0, args = v0 :: r0 ∧ Val.Is Src.crate p.id 9 (.path (i!"S") []) v0 ∧ ∃ v1 r1, r0 = v1 :: r1 ∧ Val.Is Src.crate p.id 9 (.path (i!"S") []) v1 ∧ r1 = []) := by kernel_rfl
  rw [e] at h
  obtain ⟨_, _, rfl, h0, _, _, rfl, h1, rfl⟩ := h
  obtain ⟨a0, rfl⟩ := is_S p _ 8 _ h0
  obtain ⟨a1, rfl⟩ := is_S p _ 8 _ h1
  have r : Src.run S p b (headTy Src.crate (Prim.id p) (Src.impl 9).target) (Src.fn 9 0) [.sc a0, .sc a1] =
      Src.assoc S p b (i!"Vector2") (i!"new") [.sc a0, .sc a1] := by cases p <;> kernel_rfl
  exact .inl ⟨_, _, r.trans (C81_Vector2_new p b a0 a1)⟩

/-- `Vector2<S>`: `zero` -/
theorem total_9_1 (p : Prim) (b : Build) : FnTotal S p b (Src.impl 9) (Src.fn 9 1) := by
  intro args h
  have e : ArgsAre Src.crate p.id [((i!"Self"), (Src.impl 9).target)] (Src.fn 9 1).params args =
      (args = []) := by kernel_rfl
  rw [e] at h
  obtain rfl := h
  have r : Src.run S p b (headTy Src.crate (Prim.id p) (Src.impl 9).target) (Src.fn 9 1) [] =
      Src.assoc S p b (i!"Vector2") (i!"zero") [] := by cases p <;> kernel_rfl
  exact .inl ⟨_, _, r.trans (C81_Vector2_zero p b)⟩

/-- `Vector2<S>`: `x_axis` -/
theorem total_9_2 (p : Prim) (b : Build) : FnTotal S p b (Src.impl 9) (Src.fn 9 2) := by
  intro args h
  have e : ArgsAre Src.crate p.id [((i!"Self"), (Src.impl 9).target)] (Src.fn 9 2).params args =
      (args = []) := by kernel_rfl
  rw [e] at h
  obtain rfl := h
  have r : Src.run S p b (headTy Src.crate (Prim.id p) (Src.impl 9).target) (Src.fn 9 2) [] =
      Src.assoc S p b (i!"Vector2") (i!"x_axis") [] := by cases p <;> kernel_rfl
  exact .inl ⟨_, _, r.trans (C81_Vector2_x_axis p b)⟩

/-- `Vector2<S>`: `y_axis` -/
theorem total_9_3 (p : Prim) (b : Build) : FnTotal S p b (Src.impl 9) (Src.fn 9 3) := by
  intro args h
  have e : ArgsAre Src.crate p.id [((i!"Self"), (Src.impl 9).target)] (Src.fn 9 3).params args =
      (args = []) := by kernel_rfl
  rw [e] at h
  obtain rfl := h
  have r : Src.run S p b (headTy Src.crate (Prim.id p) (Src.impl 9).target) (Src.fn 9 3) [] =
      Src.assoc S p b (i!"Vector2") (i!"y_axis") [] := by cases p <;> kernel_rfl
  exact .inl ⟨_, _, r.trans (C81_Vector2_y_axis p b)⟩

/-- `Vector2<S>`: `axis` -/
theorem total_9_4 (p : Prim) (b : Build) : FnTotal S p b (Src.impl 9) (Src.fn 9 4) := by
  intro args h
  have e : ArgsAre Src.crate p.id [((i!"Self"), (Src.impl 9).target)] (Src.fn 9 4).params args =
      (∃ v0 r0, args = v0 :: r0 ∧ Val.Is Src.crate p.id 9 (.path (i!"Dimension2") []) v0 ∧ r0 = []) := by kernel_rfl
  rw [e] at h
  obtain ⟨_, _, rfl, h0, rfl⟩ := h
  obtain ⟨a0, rfl⟩ := is_Dimension2 p _ 7 _ h0
  have r : Src.run S p b (headTy Src.crate (Prim.id p) (Src.impl 9).target) (Src.fn 9 4) [rep a0] =
      Src.assoc S p b (i!"Vector2") (i!"axis") [rep a0] := by cases p <;> kernel_rfl
  exact .inl ⟨_, _, r.trans (C81_Vector2_axis p b a0)⟩

/-- `Vector2<S>`: `normalize` -/
theorem total_9_5 (p : Prim) (b : Build) : FnTotal S p b (Src.impl 9) (Src.fn 9 5) := by
  intro args h
  have e : ArgsAre Src.crate p.id [((i!"Self"), (Src.impl 9).target)] (Src.fn 9 5).params args =
      (∃ v0 r0, args = v0 :: r0 ∧ Val.Is Src.crate p.id 9 (.path (i!"Vector2") [.path (i!"S") []]) v0 ∧ r0 = []) := by kernel_rfl
  rw [e] at h
  obtain ⟨_, _, rfl, h0, rfl⟩ := h
  obtain ⟨a0, rfl⟩ := is_Vector2 p _ 4 _ h0
  have r : Src.run S p b (headTy Src.crate (Prim.id p) (Src.impl 9).target) (Src.fn 9 5) [rep a0] =
      Src.method S p b (i!"normalize") (rep a0) [] := by cases p <;> kernel_rfl
  exact .inl ⟨_, _, r.trans (C81_Vector2_normalize p b a0)⟩

/-- `Vector2<S>`: `min_dimension` -/
theorem total_9_6 (p : Prim) (b : Build) : FnTotal S p b (Src.impl 9) (Src.fn 9 6) := by
  intro args h
  have e : ArgsAre Src.crate p.id [((i!"Self"), (Src.impl 9).target)] (Src.fn 9 6).params args =
      (∃ v0 r0, args = v0 :: r0 ∧ Val.Is Src.crate p.id 9 (.path (i!"Vector2") [.path (i!"S") []]) v0 ∧ r0 = []) := by kernel_rfl
  rw [e] at h
  obtain ⟨_, _, rfl, h0, rfl⟩ := h
  obtain ⟨a0, rfl⟩ := is_Vector2 p _ 4 _ h0
  have r : Src.run S p b (headTy Src.crate (Prim.id p) (Src.impl 9).target) (Src.fn 9 6) [rep a0] =
      Src.method S p b (i!"min_dimension") (rep a0) [] := by cases p <;> kernel_rfl
  exact .inl ⟨_, _, r.trans (C81_Vector2_min_dimension p b a0)⟩

/-- `Vector2<S>`: `max_dimension` -/
theorem total_9_7 (p : Prim) (b : Build) : FnTotal S p b (Src.impl 9) (Src.fn 9 7) := by
  intro args h
  have e : ArgsAre Src.crate p.id [((i!"Self"), (Src.impl 9).target)] (Src.fn 9 7).params args =
      (∃ v0 r0, args = v0 :: r0 ∧ Val.Is Src.crate p.id 9 (.path (i!"Vector2") [.path (i!"S") []]) v0 ∧ r0 = []) := by kernel_rfl
  rw [e] at h
  obtain ⟨_, _, rfl, h0, rfl⟩ := h
  obtain ⟨a0, rfl⟩ := is_Vector2 p _ 4 _ h0
  have r : Src.run S p b (headTy Src.crate (Prim.id p) (Src.impl 9).target) (Src.fn 9 7) [rep a0] =
      Src.method S p b (i!"max_dimension") (rep a0) [] := by cases p <;> kernel_rfl
  exact .inl ⟨_, _, r.trans (C81_Vector2_max_dimension p b a0)⟩

/-- `Vector2<S>`: `floor` -/
theorem total_9_8 (p : Prim) (b : Build) : FnTotal S p b (Src.impl 9) (Src.fn 9 8) := by
  intro args h
  have e : ArgsAre Src.crate p.id [((i!"Self"), (Src.impl 9).target)] (Src.fn 9 8).params args =
      (∃ v0 r0, args = v0 :: r0 ∧ Val.Is Src.crate p.id 9 (.path (i!"Vector2") [.path (i!"S") []]) v0 ∧ r0 = []) := by kernel_rfl
  rw [e] at h
  obtain ⟨_, _, rfl, h0, rfl⟩ := h
  obtain ⟨a0, rfl⟩ := is_Vector2 p _ 4 _ h0
  have r : Src.run S p b (headTy Src.crate (Prim.id p) (Src.impl 9).target) (Src.fn 9 8) [rep a0] =
      Src.method S p b (i!"floor") (rep a0) [] := by cases p <;> kernel_rfl
  exact .inl ⟨_, _, r.trans (C81_Vector2_floor p b a0)⟩

/-- `Vector2<S>`: `ceil` -/
theorem total_9_9 (p : Prim) (b : Build) : FnTotal S p b (Src.impl 9) (Src.fn 9 9) := by
  intro args h
  have e : ArgsAre Src.crate p.id [((i!"Self"), (Src.impl 9).target)] (Src.fn 9 9).params args =
      (∃ v0 r0, args = v0 :: r0 ∧ Val.Is Src.crate p.id 9 (.path (i!"Vector2") [.path (i!"S") []]) v0 ∧ r0 = []) := by kernel_rfl
  rw [e] at h
  obtain ⟨_, _, rfl, h0, rfl⟩ := h
  obtain ⟨a0, rfl⟩ := is_Vector2 p _ 4 _ h0
  have r : Src.run S p b (headTy Src.crate (Prim.id p) (Src.impl 9).target) (Src.fn 9 9) [rep a0] =
      Src.method S p b (i!"ceil") (rep a0) [] := by cases p <;> kernel_rfl
  exact .inl ⟨_, _, r.trans (C81_Vector2_ceil p b a0)⟩

/-- `Vector2<S>`: `round` -/
theorem total_9_10 (p : Prim) (b : Build) : FnTotal S p b (Src.impl 9) (Src.fn 9 10) := by
  intro args h
  have e : ArgsAre Src.crate p.id [((i!"Self"), (Src.impl 9).target)] (Src.fn 9 10).params args =
      (∃ v0 r0, args = v0 :: r0 ∧ Val.Is Src.crate p.id 9 (.path (i!"Vector2") [.path (i!"S") []]) v0 ∧ r0 = []) := by kernel_rfl
  rw [e] at h
  obtain ⟨_, _, rfl, h0, rfl⟩ := h
  obtain ⟨a0, rfl⟩ := is_Vector2 p _ 4 _ h0
  have r : Src.run S p b (headTy Src.crate (Prim.id p) (Src.impl 9).target) (Src.fn 9 10) [rep a0] =
      Src.method S p b (i!"round") (rep a0) [] := by cases p <;> kernel_rfl
  exact .inl ⟨_, _, r.trans (C81_Vector2_round p b a0)⟩

/-- `Vector2<S>`: `trunc` -/
theorem total_9_11 (p : Prim) (b : Build) : FnTotal S p b (Src.impl 9) (Src.fn 9 11) := by
  intro args h
  have e : ArgsAre Src.crate p.id [((i!"Self"), (Src.impl 9).target)] (Src.fn 9 11).params args =
      (∃ v0 r0, args = v0 :: r0 ∧ Val.Is Src.crate p.id 9 (.path (i!"Vector2") [.path (i!"S") []]) v0 ∧ r0 = []) := by kernel_rfl
  rw [e] at h
  obtain ⟨_, _, rfl, h0, rfl⟩ := h
  obtain ⟨a0, rfl⟩ := is_Vector2 p _ 4 _ h0
  have r : Src.run S p b (headTy Src.crate (Prim.id p) (Src.impl 9).target) (Src.fn 9 11) [rep a0] =
      Src.method S p b (i!"trunc") (rep a0) [] := by cases p <;> kernel_rfl
  exact .inl ⟨_, _, r.trans (C81_Vector2_trunc p b a0)⟩

/-- `Vector2<S>`: `fract` -/
theorem total_9_12 (p : Prim) (b : Build) : FnTotal S p b (Src.impl 9) (Src.fn 9 12) := by
  intro args h
  have e : ArgsAre Src.crate p.id [((i!"Self"), (Src.impl 9).target)] (Src.fn 9 12).params args =
      (∃ v0 r0, args = v0 :: r0 ∧ Val.Is Src.crate p.id 9 (.path (i!"Vector2") [.path (i!"S") []]) v0 ∧ r0 = []) := by kernel_rfl
  rw [e] at h
  obtain ⟨_, _, rfl, h0, rfl⟩ := h
  obtain ⟨a0, rfl⟩ := is_Vector2 p _ 4 _ h0
  have r : Src.run S p b (headTy Src.crate (Prim.id p) (Src.impl 9).target) (Src.fn 9 12) [rep a0] =
      Src.method S p b (i!"fract") (rep a0) [] := by cases p <;> kernel_rfl
  exact .inl ⟨_, _, r.trans (C81_Vector2_fract p b a0)⟩

/-- `Vector2<S>`: `abs` -/
theorem total_9_13 (p : Prim) (b : Build) : FnTotal S p b (Src.impl 9) (Src.fn 9 13) := by
  intro args h
  have e : ArgsAre Src.crate p.id [((i!"Self"), (Src.impl 9).target)] (Src.fn 9 13).params args =
      (∃ v0 r0, args = v0 :: r0 ∧ Val.Is Src.crate p.id 9 (.path (i!"Vector2") [.path (i!"S") []]) v0 ∧ r0 = []) := by kernel_rfl
  rw [e] at h
  obtain ⟨_, _, rfl, h0, rfl⟩ := h
  obtain ⟨a0, rfl⟩ := is_Vector2 p _ 4 _ h0
  have r : Src.run S p b (headTy Src.crate (Prim.id p) (Src.impl 9).target) (Src.fn 9 13) [rep a0] =
      Src.method S p b (i!"abs") (rep a0) [] := by cases p <;> kernel_rfl
  exact .inl ⟨_, _, r.trans (C81_Vector2_abs p b a0)⟩

/-- `Vector2<S>`: `permute` -/
theorem total_9_14 (p : Prim) (b : Build) : FnTotal S p b (Src.impl 9) (Src.fn 9 14) := by
  intro args h
  have e : ArgsAre Src.crate p.id [((i!"Self"), (Src.impl 9).target)] (Src.fn 9 14).params args =
      (∃ v0 r0, args = v0 :: r0 ∧ Val.Is Src.crate p.id 9 (.path (i!"Vector2") [.path (i!"S") []]) v0 ∧ ∃ v1 r1, r0 = v1 :: r1 ∧ Val.Is Src.crate p.id 9 (.path (i!"Dimension2") []) v1 ∧ ∃ v2 r2, r1 = v2 :: r2 ∧ Val.Is Src.crate p.id 9 (.path (i!"Dimension2") []) v2 ∧ r2 = []) := by kernel_rfl
  rw [e] at h
  obtain ⟨_, _, rfl, h0, _, _, rfl, h1, _, _, rfl, h2, rfl⟩ := h
  obtain ⟨a0, rfl⟩ := is_Vector2 p _ 4 _ h0
  obtain ⟨a1, rfl⟩ := is_Dimension2 p _ 7 _ h1
  obtain ⟨a2, rfl⟩ := is_Dimension2 p _ 7 _ h2
  have r : Src.run S p b (headTy Src.crate (Prim.id p) (Src.impl 9).target) (Src.fn 9 14) [rep a0, rep a1, rep a2] =
      Src.method S p b (i!"permute") (rep a0) [rep a1, rep a2] := by cases p <;> kernel_rfl
  exact .inl ⟨_, _, r.trans (C81_Vector2_permute p b a0 a1 a2)⟩

/-- `Index<Dimension2> for Vector2<S>`: `index` -/
theorem total_10_0 (p : Prim) (b : Build) : FnTotal S p b (Src.impl 10) (Src.fn 10 0) := by
  intro args h
  have e : ArgsAre Src.crate p.id [((i!"Self"), (Src.impl 10).target)] (Src.fn 10 0).params args =
      (∃ v0 r0, args = v0 :: r0 ∧ Val.Is Src.crate p.id 9 (.path (i!"Vector2") [.path (i!"S") []]) v0 ∧ ∃ v1 r1, r0 = v1 :: r1 ∧ Val.Is Src.crate p.id 9 (.path (i!"Dimension2") []) v1 ∧ r1 = []) := by kernel_rfl
  rw [e] at h
  obtain ⟨_, _, rfl, h0, _, _, rfl, h1, rfl⟩ := h
  obtain ⟨a0, rfl⟩ := is_Vector2 p _ 4 _ h0
  obtain ⟨a1, rfl⟩ := is_Dimension2 p _ 7 _ h1
  have r : Src.run S p b (headTy Src.crate (Prim.id p) (Src.impl 10).target) (Src.fn 10 0) [rep a0, rep a1] =
      Src.method S p b (i!"index") (rep a0) [rep a1] := by cases p <;> kernel_rfl
  exact .inl ⟨_, _, r.trans (C81_Vector2_index p b a0 a1)⟩

/-- `IndexMut<Dimension2> for Vector2<S>`: `index_mut` -/
theorem total_11_0 (p : Prim) (b : Build) : FnTotal S p b (Src.impl 11) (Src.fn 11 0) := by
  intro args h
  have e : ArgsAre Src.crate p.id [((i!"Self"), (Src.impl 11).target)] (Src.fn 11 0).params args =
      (∃ v0 r0, args = v0 :: r0 ∧ Val.Is Src.crate p.id 9 (.path (i!"Vector2") [.path (i!"S") []]) v0 ∧ ∃ v1 r1, r0 = v1 :: r1 ∧ Val.Is Src.crate p.id 9 (.path (i!"Dimension2") []) v1 ∧ r1 = []) := by kernel_rfl
  rw [e] at h
  obtain ⟨_, _, rfl, h0, _, _, rfl, h1, rfl⟩ := h
  obtain ⟨a0, rfl⟩ := is_Vector2 p _ 4 _ h0
  obtain ⟨a1, rfl⟩ := is_Dimension2 p _ 7 _ h1
  have r : Src.run S p b (headTy Src.crate (Prim.id p) (Src.impl 11).target) (Src.fn 11 0) [rep a0, rep a1] =
      Src.method S p b (i!"index_mut") (rep a0) [rep a1] := by cases p <;> kernel_rfl
  obtain ⟨pl, h, -⟩ := C81_Vector2_index_mut p b a0 a1
  exact .inl ⟨_, _, r.trans h⟩

/-- `MinMax for Vector2<S>`: `min` -/
theorem total_12_0 (p : Prim) (b : Build) : FnTotal S p b (Src.impl 12) (Src.fn 12 0) := by
  intro args h
  have e : ArgsAre Src.crate p.id [((i!"Self"), (Src.impl 12).target)] (Src.fn 12 0).params args =
      (∃ v0 r0, args = v0 :: r0 ∧ Val.Is Src.crate p.id 9 (.path (i!"Vector2") [.path (i!"S") []]) v0 ∧ ∃ v1 r1, r0 = v1 :: r1 ∧ Val.Is Src.crate p.id 9 (.path (i!"Vector2") [.path (i!"S") []]) v1 ∧ r1 = []) := by kernel_rfl
  rw [e] at h
  obtain ⟨_, _, rfl, h0, _, _, rfl, h1, rfl⟩ := h
  obtain ⟨a0, rfl⟩ := is_Vector2 p _ 4 _ h0
  obtain ⟨a1, rfl⟩ := is_Vector2 p _ 4 _ h1
  have r : Src.run S p b (headTy Src.crate (Prim.id p) (Src.impl 12).target) (Src.fn 12 0) [rep a0, rep a1] =
      Src.method S p b (i!"min") (rep a0) [rep a1] := by cases p <;> kernel_rfl
  exact .inl ⟨_, _, r.trans (C81_Vector2_min p b a0 a1)⟩

/-- `MinMax for Vector2<S>`: `max` -/
theorem total_12_1 (p : Prim) (b : Build) : FnTotal S p b (Src.impl 12) (Src.fn 12 1) := by
  intro args h
  have e : ArgsAre Src.crate p.id [((i!"Self"), (Src.impl 12).target)] (Src.fn 12 1).params args =
      (∃ v0 r0, args = v0 :: r0 ∧ Val.Is Src.crate p.id 9 (.path (i!"Vector2") [.path (i!"S") []]) v0 ∧ ∃ v1 r1, r0 = v1 :: r1 ∧ Val.Is Src.crate p.id 9 (.path (i!"Vector2") [.path (i!"S") []]) v1 ∧ r1 = []) := by kernel_rfl
  rw [e] at h
  obtain ⟨_, _, rfl, h0, _, _, rfl, h1, rfl⟩ := h
  obtain ⟨a0, rfl⟩ := is_Vector2 p _ 4 _ h0
  obtain ⟨a1, rfl⟩ := is_Vector2 p _ 4 _ h1
  have r : Src.run S p b (headTy Src.crate (Prim.id p) (Src.impl 12).target) (Src.fn 12 1) [rep a0, rep a1] =
      Src.method S p b (i!"max") (rep a0) [rep a1] := by cases p <;> kernel_rfl
  exact .inl ⟨_, _, r.trans (C81_Vector2_max p b a0 a1)⟩

/-- `Length for Vector2<S>`: `length` -/
theorem total_13_0 (p : Prim) (b : Build) : FnTotal S p b (Src.impl 13) (Src.fn 13 0) := by
  intro args h
  have e : ArgsAre Src.crate p.id [((i!"Self"), (Src.impl 13).target)] (Src.fn 13 0).params args =
      (∃ v0 r0, args = v0 :: r0 ∧ Val.Is Src.crate p.id 9 (.path (i!"Vector2") [.path (i!"S") []]) v0 ∧ r0 = []) := by kernel_rfl
  rw [e] at h
  obtain ⟨_, _, rfl, h0, rfl⟩ := h
  obtain ⟨a0, rfl⟩ := is_Vector2 p _ 4 _ h0
  have r : Src.run S p b (headTy Src.crate (Prim.id p) (Src.impl 13).target) (Src.fn 13 0) [rep a0] =
      Src.method S p b (i!"length") (rep a0) [] := by cases p <;> kernel_rfl
  exact .inl ⟨_, _, r.trans (C81_Vector2_length p b a0)⟩

/-- `RelativeLength for Vector2<S>`: `is_shorter_than` -/
theorem total_14_0 (p : Prim) (b : Build) : FnTotal S p b (Src.impl 14) (Src.fn 14 0) := by
  intro args h
  have e : ArgsAre Src.crate p.id [((i!"Self"), (Src.impl 14).target)] (Src.fn 14 0).params args =
      (∃ v0 r0, args = v0 :: r0 ∧ Val.Is Src.crate p.id 9 (.path (i!"Vector2") [.path (i!"S") []]) v0 ∧ ∃ v1 r1, r0 = v1 :: r1 ∧ Val.Is Src.crate p.id 9 (.path (i!"Vector2") [.path (i!"S") []]) v1 ∧ r1 = []) := by kernel_rfl
  rw [e] at h
  obtain ⟨_, _, rfl, h0, _, _, rfl, h1, rfl⟩ := h
  obtain ⟨a0, rfl⟩ := is_Vector2 p _ 4 _ h0
  obtain ⟨a1, rfl⟩ := is_Vector2 p _ 4 _ h1
  have r : Src.run S p b (headTy Src.crate (Prim.id p) (Src.impl 14).target) (Src.fn 14 0) [rep a0, rep a1] =
      Src.method S p b (i!"is_shorter_than") (rep a0) [rep a1] := by cases p <;> kernel_rfl
  exact .inl ⟨_, _, r.trans (C81_Vector2_is_shorter_than p b a0 a1)⟩

/-- `RelativeLength for Vector2<S>`: `is_longer_than` -/
theorem total_14_1 (p : Prim) (b : Build) : FnTotal S p b (Src.impl 14) (Src.fn 14 1) := by
  intro args h
  have e : ArgsAre Src.crate p.id [((i!"Self"), (Src.impl 14).target)] (Src.fn 14 1).params args =
      (∃ v0 r0, args = v0 :: r0 ∧ Val.Is Src.crate p.id 9 (.path (i!"Vector2") [.path (i!"S") []]) v0 ∧ ∃ v1 r1, r0 = v1 :: r1 ∧ Val.Is Src.crate p.id 9 (.path (i!"Vector2") [.path (i!"S") []]) v1 ∧ r1 = []) := by kernel_rfl
  rw [e] at h
  obtain ⟨_, _, rfl, h0, _, _, rfl, h1, rfl⟩ := h
  obtain ⟨a0, rfl⟩ := is_Vector2 p _ 4 _ h0
  obtain ⟨a1, rfl⟩ := is_Vector2 p _ 4 _ h1
  have r : Src.run S p b (headTy Src.crate (Prim.id p) (Src.impl 14).target) (Src.fn 14 1) [rep a0, rep a1] =
      Src.method S p b (i!"is_longer_than") (rep a0) [rep a1] := by cases p <;> kernel_rfl
  exact .inl ⟨_, _, r.trans (C81_Vector2_is_longer_than p b a0 a1)⟩

/-- `RelativeLength for Vector2<S>`: `shortest` -/
theorem total_14_2 (p : Prim) (b : Build) : FnTotal S p b (Src.impl 14) (Src.fn 14 2) := by
  intro args h
  have e : ArgsAre Src.crate p.id [((i!"Self"), (Src.impl 14).target)] (Src.fn 14 2).params args =
      (∃ v0 r0, args = v0 :: r0 ∧ Val.Is Src.crate p.id 9 (.path (i!"Vector2") [.path (i!"S") []]) v0 ∧ ∃ v1 r1, r0 = v1 :: r1 ∧ Val.Is Src.crate p.id 9 (.path (i!"Vector2") [.path (i!"S") []]) v1 ∧ r1 = []) := by kernel_rfl
  rw [e] at h
  obtain ⟨_, _, rfl, h0, _, _, rfl, h1, rfl⟩ := h
  obtain ⟨a0, rfl⟩ := is_Vector2 p _ 4 _ h0
  obtain ⟨a1, rfl⟩ := is_Vector2 p _ 4 _ h1
  have r : Src.run S p b (headTy Src.crate (Prim.id p) (Src.impl 14).target) (Src.fn 14 2) [rep a0, rep a1] =
      Src.method S p b (i!"shortest") (rep a0) [rep a1] := by cases p <;> kernel_rfl
  exact .inl ⟨_, _, r.trans (C81_Vector2_shortest p b a0 a1)⟩

/-- `RelativeLength for Vector2<S>`: `longest` -/
theorem total_14_3 (p : Prim) (b : Build) : FnTotal S p b (Src.impl 14) (Src.fn 14 3) := by
  intro args h
  have e : ArgsAre Src.crate p.id [((i!"Self"), (Src.impl 14).target)] (Src.fn 14 3).params args =
      (∃ v0 r0, args = v0 :: r0 ∧ Val.Is Src.crate p.id 9 (.path (i!"Vector2") [.path (i!"S") []]) v0 ∧ ∃ v1 r1, r0 = v1 :: r1 ∧ Val.Is Src.crate p.id 9 (.path (i!"Vector2") [.path (i!"S") []]) v1 ∧ r1 = []) := by kernel_rfl
  rw [e] at h
  obtain ⟨_, _, rfl, h0, _, _, rfl, h1, rfl⟩ := h
  obtain ⟨a0, rfl⟩ := is_Vector2 p _ 4 _ h0
  obtain ⟨a1, rfl⟩ := is_Vector2 p _ 4 _ h1
  have r : Src.run S p b (headTy Src.crate (Prim.id p) (Src.impl 14).target) (Src.fn 14 3) [rep a0, rep a1] =
      Src.method S p b (i!"longest") (rep a0) [rep a1] := by cases p <;> kernel_rfl
  exact .inl ⟨_, _, r.trans (C81_Vector2_longest p b a0 a1)⟩

/-- `DotProduct<Vector2<S>> for Vector2<S>`: `dot` -/
theorem total_15_0 (p : Prim) (b : Build) : FnTotal S p b (Src.impl 15) (Src.fn 15 0) := by
  intro args h
  have e : ArgsAre Src.crate p.id [((i!"Self"), (Src.impl 15).target)] (Src.fn 15 0).params args =
      (∃ v0 r0, args = v0 :: r0 ∧ Val.Is Src.crate p.id 9 (.path (i!"Vector2") [.path (i!"S") []]) v0 ∧ ∃ v1 r1, r0 = v1 :: r1 ∧ Val.Is Src.crate p.id 9 (.path (i!"Vector2") [.path (i!"S") []]) v1 ∧ r1 = []) := by kernel_rfl
  rw [e] at h
  obtain ⟨_, _, rfl, h0, _, _, rfl, h1, rfl⟩ := h
  obtain ⟨a0, rfl⟩ := is_Vector2 p _ 4 _ h0
  obtain ⟨a1, rfl⟩ := is_Vector2 p _ 4 _ h1
  have r : Src.run S p b (headTy Src.crate (Prim.id p) (Src.impl 15).target) (Src.fn 15 0) [rep a0, rep a1] =
      Src.method S p b (i!"dot") (rep a0) [rep a1] := by cases p <;> kernel_rfl
  exact .inl ⟨_, _, r.trans (C81_Vector2_dot p b a0 a1)⟩

/-- `Add<Vector2<S>> for Vector2<S>`: `add` -/
theorem total_16_0 (p : Prim) (b : Build) : FnTotal S p b (Src.impl 16) (Src.fn 16 0) := by
  intro args h
  have e : ArgsAre Src.crate p.id [((i!"Self"), (Src.impl 16).target)] (Src.fn 16 0).params args =
      (∃ v0 r0, args = v0 :: r0 ∧ Val.Is Src.crate p.id 9 (.path (i!"Vector2") [.path (i!"S") []]) v0 ∧ ∃ v1 r1, r0 = v1 :: r1 ∧ Val.Is Src.crate p.id 9 (.path (i!"Vector2") [.path (i!"S") []]) v1 ∧ r1 = []) := by kernel_rfl
  rw [e] at h
  obtain ⟨_, _, rfl, h0, _, _, rfl, h1, rfl⟩ := h
  obtain ⟨a0, rfl⟩ := is_Vector2 p _ 4 _ h0
  obtain ⟨a1, rfl⟩ := is_Vector2 p _ 4 _ h1
  have r : Src.run S p b (headTy Src.crate (Prim.id p) (Src.impl 16).target) (Src.fn 16 0) [rep a0, rep a1] =
      Src.method S p b (i!"add") (rep a0) [rep a1] := by cases p <;> kernel_rfl
  exact .inl ⟨_, _, r.trans (C81_Vector2_add p b a0 a1)⟩

/-- `AddAssign<Vector2<S>> for Vector2<S>`: `add_assign` -/
theorem total_17_0 (p : Prim) (b : Build) : FnTotal S p b (Src.impl 17) (Src.fn 17 0) := by
  intro args h
  have e : ArgsAre Src.crate p.id [((i!"Self"), (Src.impl 17).target)] (Src.fn 17 0).params args =
      (∃ v0 r0, args = v0 :: r0 ∧ Val.Is Src.crate p.id 9 (.path (i!"Vector2") [.path (i!"S") []]) v0 ∧ ∃ v1 r1, r0 = v1 :: r1 ∧ Val.Is Src.crate p.id 9 (.path (i!"Vector2") [.path (i!"S") []]) v1 ∧ r1 = []) := by kernel_rfl
  rw [e] at h
  obtain ⟨_, _, rfl, h0, _, _, rfl, h1, rfl⟩ := h
  obtain ⟨a0, rfl⟩ := is_Vector2 p _ 4 _ h0
  obtain ⟨a1, rfl⟩ := is_Vector2 p _ 4 _ h1
  have r : Src.run S p b (headTy Src.crate (Prim.id p) (Src.impl 17).target) (Src.fn 17 0) [rep a0, rep a1] =
      Src.method S p b (i!"add_assign") (rep a0) [rep a1] := by cases p <;> kernel_rfl
  exact .inl ⟨_, _, r.trans (C81_Vector2_add_assign p b a0 a1)⟩

/-- `Sub<Vector2<S>> for Vector2<S>`: `sub` -/
theorem total_18_0 (p : Prim) (b : Build) : FnTotal S p b (Src.impl 18) (Src.fn 18 0) := by
  intro args h
  have e : ArgsAre Src.crate p.id [((i!"Self"), (Src.impl 18).target)] (Src.fn 18 0).params args =
      (∃ v0 r0, args = v0 :: r0 ∧ Val.Is Src.crate p.id 9 (.path (i!"Vector2") [.path (i!"S") []]) v0 ∧ ∃ v1 r1, r0 = v1 :: r1 ∧ Val.Is Src.crate p.id 9 (.path (i!"Vector2") [.path (i!"S") []]) v1 ∧ r1 = []) := by kernel_rfl
  rw [e] at h
  obtain ⟨_, _, rfl, h0, _, _, rfl, h1, rfl⟩ := h
  obtain ⟨a0, rfl⟩ := is_Vector2 p _ 4 _ h0
  obtain ⟨a1, rfl⟩ := is_Vector2 p _ 4 _ h1
  have r : Src.run S p b (headTy Src.crate (Prim.id p) (Src.impl 18).target) (Src.fn 18 0) [rep a0, rep a1] =
      Src.method S p b (i!"sub") (rep a0) [rep a1] := by cases p <;> kernel_rfl
  exact .inl ⟨_, _, r.trans (C81_Vector2_sub p b a0 a1)⟩

/-- `SubAssign<Vector2<S>> for Vector2<S>`: `sub_assign` -/
theorem total_19_0 (p : Prim) (b : Build) : FnTotal S p b (Src.impl 19) (Src.fn 19 0) := by
  intro args h
  have e : ArgsAre Src.crate p.id [((i!"Self"), (Src.impl 19).target)] (Src.fn 19 0).params args =
      (∃ v0 r0, args = v0 :: r0 ∧ Val.Is Src.crate p.id 9 (.path (i!"Vector2") [.path (i!"S") []]) v0 ∧ ∃ v1 r1, r0 = v1 :: r1 ∧ Val.Is Src.crate p.id 9 (.path (i!"Vector2") [.path (i!"S") []]) v1 ∧ r1 = []) := by kernel_rfl
  rw [e] at h
  obtain ⟨_, _, rfl, h0, _, _, rfl, h1, rfl⟩ := h
  obtain ⟨a0, rfl⟩ := is_Vector2 p _ 4 _ h0
  obtain ⟨a1, rfl⟩ := is_Vector2 p _ 4 _ h1
  have r : Src.run S p b (headTy Src.crate (Prim.id p) (Src.impl 19).target) (Src.fn 19 0) [rep a0, rep a1] =
      Src.method S p b (i!"sub_assign") (rep a0) [rep a1] := by cases p <;> kernel_rfl
  exact .inl ⟨_, _, r.trans (C81_Vector2_sub_assign p b a0 a1)⟩

/-- `Neg for Vector2<S>`: `neg` -/
theorem total_20_0 (p : Prim) (b : Build) : FnTotal S p b (Src.impl 20) (Src.fn 20 0) := by
  intro args h
  have e : ArgsAre Src.crate p.id [((i!"Self"), (Src.impl 20).target)] (Src.fn 20 0).params args =
      (∃ v0 r0, args = v0 :: r0 ∧ Val.Is Src.crate p.id 9 (.path (i!"Vector2") [.path (i!"S") []]) v0 ∧ r0 = []) := by kernel_rfl
  rw [e] at h
  obtain ⟨_, _, rfl, h0, rfl⟩ := h
  obtain ⟨a0, rfl⟩ := is_Vector2 p _ 4 _ h0
  have r : Src.run S p b (headTy Src.crate (Prim.id p) (Src.impl 20).target) (Src.fn 20 0) [rep a0] =
      Src.method S p b (i!"neg") (rep a0) [] := by cases p <;> kernel_rfl
  exact .inl ⟨_, _, r.trans (C81_Vector2_neg p b a0)⟩

/-- `Mul<S> for Vector2<S>`: `mul` -/
theorem total_21_0 (p : Prim) (b : Build) : FnTotal S p b (Src.impl 21) (Src.fn 21 0) := by
  intro args h
  have e : ArgsAre Src.crate p.id [((i!"Self"), (Src.impl 21).target)] (Src.fn 21 0).params args =
      (∃ v0 r0, args = v0 :: r0 ∧ Val.Is Src.crate p.id 9 (.path (i!"Vector2") [.path (i!"S") []]) v0 ∧ ∃ v1 r1, r0 = v1 :: r1 ∧ Val.Is Src.crate p.id 9 (.path (i!"S") []) v1 ∧ r1 = []) := by kernel_rfl
  rw [e] at h
  obtain ⟨_, _, rfl, h0, _, _, rfl, h1, rfl⟩ := h
  obtain ⟨a0, rfl⟩ := is_Vector2 p _ 4 _ h0
  obtain ⟨a1, rfl⟩ := is_S p _ 8 _ h1
  have r : Src.run S p b (headTy Src.crate (Prim.id p) (Src.impl 21).target) (Src.fn 21 0) [rep a0, .sc a1] =
      Src.method S p b (i!"mul") (rep a0) [.sc a1] := by cases p <;> kernel_rfl
  exact .inl ⟨_, _, r.trans (C81_Vector2_mul p b a0 a1)⟩

/-- `MulAssign<S> for Vector2<S>`: `mul_assign` -/
theorem total_22_0 (p : Prim) (b : Build) : FnTotal S p b (Src.impl 22) (Src.fn 22 0) := by
  intro args h
  have e : ArgsAre Src.crate p.id [((i!"Self"), (Src.impl 22).target)] (Src.fn 22 0).params args =
      (∃ v0 r0, args = v0 :: r0 ∧ Val.Is Src.crate p.id 9 (.path (i!"Vector2") [.path (i!"S") []]) v0 ∧ ∃ v1 r1, r0 = v1 :: r1 ∧ Val.Is Src.crate p.id 9 (.path (i!"S") []) v1 ∧ r1 = []) := by kernel_rfl
  rw [e] at h
  obtain ⟨_, _, rfl, h0, _, _, rfl, h1, rfl⟩ := h
  obtain ⟨a0, rfl⟩ := is_Vector2 p _ 4 _ h0
  obtain ⟨a1, rfl⟩ := is_S p _ 8 _ h1
  have r : Src.run S p b (headTy Src.crate (Prim.id p) (Src.impl 22).target) (Src.fn 22 0) [rep a0, .sc a1] =
      Src.method S p b (i!"mul_assign") (rep a0) [.sc a1] := by cases p <;> kernel_rfl
  exact .inl ⟨_, _, r.trans (C81_Vector2_mul_assign p b a0 a1)⟩

/-- `Mul<Vector2d> for f64`: `mul` -/
theorem total_24_0 (p : Prim) (b : Build) : FnTotal S p b (Src.impl 24) (Src.fn 24 0) := by
  intro args h
  have e : ArgsAre Src.crate p.id [((i!"Self"), (Src.impl 24).target)] (Src.fn 24 0).params args =
      (∃ v0 r0, args = v0 :: r0 ∧ Val.Is Src.crate p.id 9 (.path (i!"f64") []) v0 ∧ ∃ v1 r1, r0 = v1 :: r1 ∧ Val.Is Src.crate p.id 9 (.path (i!"Vector2d") []) v1 ∧ r1 = []) := by kernel_rfl
  rw [e] at h
  obtain ⟨_, _, rfl, h0, _, _, rfl, h1, rfl⟩ := h
  obtain ⟨rfl, a0, rfl⟩ := is_f64 p _ 8 _ h0
  obtain ⟨-, a1, rfl⟩ := is_Vector2d .f64 _ 3 _ h1
  have r : Src.run S .f64 b (headTy Src.crate (Prim.id .f64) (Src.impl 24).target) (Src.fn 24 0) [.sc a0, rep a1] =
      Src.method S .f64 b (i!"mul") (.sc a0) [rep a1] := by kernel_rfl
  exact .inl ⟨_, _, r.trans (C81_scalar_mul_Vector2 .f64 b a0 a1)⟩

/-- `Div<S> for Vector2<S>`: `div` -/
theorem total_25_0 (p : Prim) (b : Build) : FnTotal S p b (Src.impl 25) (Src.fn 25 0) := by
  intro args h
  have e : ArgsAre Src.crate p.id [((i!"Self"), (Src.impl 25).target)] (Src.fn 25 0).params args =
      (∃ v0 r0, args = v0 :: r0 ∧ Val.Is Src.crate p.id 9 (.path (i!"Vector2") [.path (i!"S") []]) v0 ∧ ∃ v1 r1, r0 = v1 :: r1 ∧ Val.Is Src.crate p.id 9 (.path (i!"S") []) v1 ∧ r1 = []) := by kernel_rfl
  rw [e] at h
  obtain ⟨_, _, rfl, h0, _, _, rfl, h1, rfl⟩ := h
  obtain ⟨a0, rfl⟩ := is_Vector2 p _ 4 _ h0
  obtain ⟨a1, rfl⟩ := is_S p _ 8 _ h1
  have r : Src.run S p b (headTy Src.crate (Prim.id p) (Src.impl 25).target) (Src.fn 25 0) [rep a0, .sc a1] =
      Src.method S p b (i!"div") (rep a0) [.sc a1] := by cases p <;> kernel_rfl
  exact .inl ⟨_, _, r.trans (C81_Vector2_div p b a0 a1)⟩

/-- `DivAssign<S> for Vector2<S>`: `div_assign` -/
theorem total_26_0 (p : Prim) (b : Build) : FnTotal S p b (Src.impl 26) (Src.fn 26 0) := by
  intro args h
  have e : ArgsAre Src.crate p.id [((i!"Self"), (Src.impl 26).target)] (Src.fn 26 0).params args =
      (∃ v0 r0, args = v0 :: r0 ∧ Val.Is Src.crate p.id 9 (.path (i!"Vector2") [.path (i!"S") []]) v0 ∧ ∃ v1 r1, r0 = v1 :: r1 ∧ Val.Is Src.crate p.id 9 (.path (i!"S") []) v1 ∧ r1 = []) := by kernel_rfl
  rw [e] at h
  obtain ⟨_, _, rfl, h0, _, _, rfl, h1, rfl⟩ := h
  obtain ⟨a0, rfl⟩ := is_Vector2 p _ 4 _ h0
  obtain ⟨a1, rfl⟩ := is_S p _ 8 _ h1
  have r : Src.run S p b (headTy Src.crate (Prim.id p) (Src.impl 26).target) (Src.fn 26 0) [rep a0, .sc a1] =
      Src.method S p b (i!"div_assign") (rep a0) [.sc a1] := by cases p <;> kernel_rfl
  exact .inl ⟨_, _, r.trans (C81_Vector2_div_assign p b a0 a1)⟩

/-- `From<Point2<S>> for Vector2<S>`: `from` -/
theorem total_27_0 (p : Prim) (b : Build) : FnTotal S p b (Src.impl 27) (Src.fn 27 0) := by
  intro args h
  have e : ArgsAre Src.crate p.id [((i!"Self"), (Src.impl 27).target)] (Src.fn 27 0).params args =
      (∃ v0 r0, args = v0 :: r0 ∧ Val.Is Src.crate p.id 9 (.path (i!"Point2") [.path (i!"S") []]) v0 ∧ r0 = []) := by kernel_rfl
  rw [e] at h
  obtain ⟨_, _, rfl, h0, rfl⟩ := h
  obtain ⟨a0, rfl⟩ := is_Point2 p _ 4 _ h0
  have r : Src.run S p b (headTy Src.crate (Prim.id p) (Src.impl 27).target) (Src.fn 27 0) [rep a0] =
      Src.assoc S p b (i!"Vector2") (i!"from") [rep a0] := by cases p <;> kernel_rfl
  exact .inl ⟨_, _, r.trans (C81_Vector2_from p b a0)⟩

/-- `Point2<S>`: `new` -/
theorem total_48_0 (p : Prim) (b : Build) : FnTotal S p b (Src.impl 48) (Src.fn 48 0) := by
  intro args h
  have e : ArgsAre Src.crate p.id [((i!"Self"), (Src.impl 48).target)] (Src.fn 48 0).params args =
      (∃ v0 r0, args = v0 :: r0 ∧ Val.Is Src.crate p.id 9 (.path (i!"S") []) v0 ∧ ∃ v1 r1, r0 = v1 :: r1 ∧ Val.Is Src.crate p.id 9 (.path (i!"S") []) v1 ∧ r1 = []) := by kernel_rfl
  rw [e] at h
  obtain ⟨_, _, rfl, h0, _, _, rfl, h1, rfl⟩ := h
  obtain ⟨a0, rfl⟩ := is_S p _ 8 _ h0
  obtain ⟨a1, rfl⟩ := is_S p _ 8 _ h1
  have r : Src.run S p b (headTy Src.crate (Prim.id p) (Src.impl 48).target) (Src.fn 48 0) [.sc a0, .sc a1] =
      Src.assoc S p b (i!"Point2") (i!"new") [.sc a0, .sc a1] := by cases p <;> kernel_rfl
  exact .inl ⟨_, _, r.trans (C81_Point2_new p b a0 a1)⟩

/-- `Point2<S>`: `origin` -/
theorem total_48_1 (p : Prim) (b : Build) : FnTotal S p b (Src.impl 48) (Src.fn 48 1) := by
  intro args h
  have e : ArgsAre Src.crate p.id [((i!"Self"), (Src.impl 48).target)] (Src.fn 48 1).params args =
      (args = []) := by kernel_rfl
  rw [e] at h
  obtain rfl := h
  have r : Src.run S p b (headTy Src.crate (Prim.id p) (Src.impl 48).target) (Src.fn 48 1) [] =
      Src.assoc S p b (i!"Point2") (i!"origin") [] := by cases p <;> kernel_rfl
  exact .inl ⟨_, _, r.trans (C81_Point2_origin p b)⟩

/-- `Point2<S>`: `min_dimension` -/
theorem total_48_2 (p : Prim) (b : Build) : FnTotal S p b (Src.impl 48) (Src.fn 48 2) := by
  intro args h
  have e : ArgsAre Src.crate p.id [((i!"Self"), (Src.impl 48).target)] (Src.fn 48 2).params args =
      (∃ v0 r0, args = v0 :: r0 ∧ Val.Is Src.crate p.id 9 (.path (i!"Point2") [.path (i!"S") []]) v0 ∧ r0 = []) := by kernel_rfl
  rw [e] at h
  obtain ⟨_, _, rfl, h0, rfl⟩ := h
  obtain ⟨a0, rfl⟩ := is_Point2 p _ 4 _ h0
  have r : Src.run S p b (headTy Src.crate (Prim.id p) (Src.impl 48).target) (Src.fn 48 2) [rep a0] =
      Src.method S p b (i!"min_dimension") (rep a0) [] := by cases p <;> kernel_rfl
  exact .inl ⟨_, _, r.trans (C81_Point2_min_dimension p b a0)⟩

/-- `Point2<S>`: `max_dimension` -/
theorem total_48_3 (p : Prim) (b : Build) : FnTotal S p b (Src.impl 48) (Src.fn 48 3) := by
  intro args h
  have e : ArgsAre Src.crate p.id [((i!"Self"), (Src.impl 48).target)] (Src.fn 48 3).params args =
      (∃ v0 r0, args = v0 :: r0 ∧ Val.Is Src.crate p.id 9 (.path (i!"Point2") [.path (i!"S") []]) v0 ∧ r0 = []) := by kernel_rfl
  rw [e] at h
  obtain ⟨_, _, rfl, h0, rfl⟩ := h
  obtain ⟨a0, rfl⟩ := is_Point2 p _ 4 _ h0
  have r : Src.run S p b (headTy Src.crate (Prim.id p) (Src.impl 48).target) (Src.fn 48 3) [rep a0] =
      Src.method S p b (i!"max_dimension") (rep a0) [] := by cases p <;> kernel_rfl
  exact .inl ⟨_, _, r.trans (C81_Point2_max_dimension p b a0)⟩

/-- `Point2<S>`: `floor` -/
theorem total_48_4 (p : Prim) (b : Build) : FnTotal S p b (Src.impl 48) (Src.fn 48 4) := by
  intro args h
  have e : ArgsAre Src.crate p.id [((i!"Self"), (Src.impl 48).target)] (Src.fn 48 4).params args =
      (∃ v0 r0, args = v0 :: r0 ∧ Val.Is Src.crate p.id 9 (.path (i!"Point2") [.path (i!"S") []]) v0 ∧ r0 = []) := by kernel_rfl
  rw [e] at h
  obtain ⟨_, _, rfl, h0, rfl⟩ := h
  obtain ⟨a0, rfl⟩ := is_Point2 p _ 4 _ h0
  have r : Src.run S p b (headTy Src.crate (Prim.id p) (Src.impl 48).target) (Src.fn 48 4) [rep a0] =
      Src.method S p b (i!"floor") (rep a0) [] := by cases p <;> kernel_rfl
  exact .inl ⟨_, _, r.trans (C81_Point2_floor p b a0)⟩

/-- `Point2<S>`: `ceil` -/
theorem total_48_5 (p : Prim) (b : Build) : FnTotal S p b (Src.impl 48) (Src.fn 48 5) := by
  intro args h
  have e : ArgsAre Src.crate p.id [((i!"Self"), (Src.impl 48).target)] (Src.fn 48 5).params args =
      (∃ v0 r0, args = v0 :: r0 ∧ Val.Is Src.crate p.id 9 (.path (i!"Point2") [.path (i!"S") []]) v0 ∧ r0 = []) := by kernel_rfl
  rw [e] at h
  obtain ⟨_, _, rfl, h0, rfl⟩ := h
  obtain ⟨a0, rfl⟩ := is_Point2 p _ 4 _ h0
  have r : Src.run S p b (headTy Src.crate (Prim.id p) (Src.impl 48).target) (Src.fn 48 5) [rep a0] =
      Src.method S p b (i!"ceil") (rep a0) [] := by cases p <;> kernel_rfl
  exact .inl ⟨_, _, r.trans (C81_Point2_ceil p b a0)⟩

/-- `Point2<S>`: `round` -/
theorem total_48_6 (p : Prim) (b : Build) : FnTotal S p b (Src.impl 48) (Src.fn 48 6) := by
  intro args h
  have e : ArgsAre Src.crate p.id [((i!"Self"), (Src.impl 48).target)] (Src.fn 48 6).params args =
      (∃ v0 r0, args = v0 :: r0 ∧ Val.Is Src.crate p.id 9 (.path (i!"Point2") [.path (i!"S") []]) v0 ∧ r0 = []) := by kernel_rfl
  rw [e] at h
  obtain ⟨_, _, rfl, h0, rfl⟩ := h
  obtain ⟨a0, rfl⟩ := is_Point2 p _ 4 _ h0
  have r : Src.run S p b (headTy Src.crate (Prim.id p) (Src.impl 48).target) (Src.fn 48 6) [rep a0] =
      Src.method S p b (i!"round") (rep a0) [] := by cases p <;> kernel_rfl
  exact .inl ⟨_, _, r.trans (C81_Point2_round p b a0)⟩

/-- `Point2<S>`: `trunc` -/
theorem total_48_7 (p : Prim) (b : Build) : FnTotal S p b (Src.impl 48) (Src.fn 48 7) := by
  intro args h
  have e : ArgsAre Src.crate p.id [((i!"Self"), (Src.impl 48).target)] (Src.fn 48 7).params args =
      (∃ v0 r0, args = v0 :: r0 ∧ Val.Is Src.crate p.id 9 (.path (i!"Point2") [.path (i!"S") []]) v0 ∧ r0 = []) := by kernel_rfl
  rw [e] at h
  obtain ⟨_, _, rfl, h0, rfl⟩ := h
  obtain ⟨a0, rfl⟩ := is_Point2 p _ 4 _ h0
  have r : Src.run S p b (headTy Src.crate (Prim.id p) (Src.impl 48).target) (Src.fn 48 7) [rep a0] =
      Src.method S p b (i!"trunc") (rep a0) [] := by cases p <;> kernel_rfl
  exact .inl ⟨_, _, r.trans (C81_Point2_trunc p b a0)⟩

/-- `Point2<S>`: `fract` -/
theorem total_48_8 (p : Prim) (b : Build) : FnTotal S p b (Src.impl 48) (Src.fn 48 8) := by
  intro args h
  have e : ArgsAre Src.crate p.id [((i!"Self"), (Src.impl 48).target)] (Src.fn 48 8).params args =
      (∃ v0 r0, args = v0 :: r0 ∧ Val.Is Src.crate p.id 9 (.path (i!"Point2") [.path (i!"S") []]) v0 ∧ r0 = []) := by kernel_rfl
  rw [e] at h
  obtain ⟨_, _, rfl, h0, rfl⟩ := h
  obtain ⟨a0, rfl⟩ := is_Point2 p _ 4 _ h0
  have r : Src.run S p b (headTy Src.crate (Prim.id p) (Src.impl 48).target) (Src.fn 48 8) [rep a0] =
      Src.method S p b (i!"fract") (rep a0) [] := by cases p <;> kernel_rfl
  exact .inl ⟨_, _, r.trans (C81_Point2_fract p b a0)⟩

/-- `Point2<S>`: `abs` -/
theorem total_48_9 (p : Prim) (b : Build) : FnTotal S p b (Src.impl 48) (Src.fn 48 9) := by
  intro args h
  have e : ArgsAre Src.crate p.id [((i!"Self"), (Src.impl 48).target)] (Src.fn 48 9).params args =
      (∃ v0 r0, args = v0 :: r0 ∧ Val.Is Src.crate p.id 9 (.path (i!"Point2") [.path (i!"S") []]) v0 ∧ r0 = []) := by kernel_rfl
  rw [e] at h
  obtain ⟨_, _, rfl, h0, rfl⟩ := h
  obtain ⟨a0, rfl⟩ := is_Point2 p _ 4 _ h0
  have r : Src.run S p b (headTy Src.crate (Prim.id p) (Src.impl 48).target) (Src.fn 48 9) [rep a0] =
      Src.method S p b (i!"abs") (rep a0) [] := by cases p <;> kernel_rfl
  exact .inl ⟨_, _, r.trans (C81_Point2_abs p b a0)⟩

/-- `Point2<S>`: `permute` -/
theorem total_48_10 (p : Prim) (b : Build) : FnTotal S p b (Src.impl 48) (Src.fn 48 10) := by
  intro args h
  have e : ArgsAre Src.crate p.id [((i!"Self"), (Src.impl 48).target)] (Src.fn 48 10).params args =
      (∃ v0 r0, args = v0 :: r0 ∧ Val.Is Src.crate p.id 9 (.path (i!"Point2") [.path (i!"S") []]) v0 ∧ ∃ v1 r1, r0 = v1 :: r1 ∧ Val.Is Src.crate p.id 9 (.path (i!"Dimension2") []) v1 ∧ ∃ v2 r2, r1 = v2 :: r2 ∧ Val.Is Src.crate p.id 9 (.path (i!"Dimension2") []) v2 ∧ r2 = []) := by kernel_rfl
  rw [e] at h
  obtain ⟨_, _, rfl, h0, _, _, rfl, h1, _, _, rfl, h2, rfl⟩ := h
  obtain ⟨a0, rfl⟩ := is_Point2 p _ 4 _ h0
  obtain ⟨a1, rfl⟩ := is_Dimension2 p _ 7 _ h1
  obtain ⟨a2, rfl⟩ := is_Dimension2 p _ 7 _ h2
  have r : Src.run S p b (headTy Src.crate (Prim.id p) (Src.impl 48).target) (Src.fn 48 10) [rep a0, rep a1, rep a2] =
      Src.method S p b (i!"permute") (rep a0) [rep a1, rep a2] := by cases p <;> kernel_rfl
  exact .inl ⟨_, _, r.trans (C81_Point2_permute p b a0 a1 a2)⟩

/-- `Index<Dimension2> for Point2<S>`: `index` -/
theorem total_49_0 (p : Prim) (b : Build) : FnTotal S p b (Src.impl 49) (Src.fn 49 0) := by
  intro args h
  have e : ArgsAre Src.crate p.id [((i!"Self"), (Src.impl 49).target)] (Src.fn 49 0).params args =
      (∃ v0 r0, args = v0 :: r0 ∧ Val.Is Src.crate p.id 9 (.path (i!"Point2") [.path (i!"S") []]) v0 ∧ ∃ v1 r1, r0 = v1 :: r1 ∧ Val.Is Src.crate p.id 9 (.path (i!"Dimension2") []) v1 ∧ r1 = []) := by kernel_rfl
  rw [e] at h
  obtain ⟨_, _, rfl, h0, _, _, rfl, h1, rfl⟩ := h
  obtain ⟨a0, rfl⟩ := is_Point2 p _ 4 _ h0
  obtain ⟨a1, rfl⟩ := is_Dimension2 p _ 7 _ h1
  have r : Src.run S p b (headTy Src.crate (Prim.id p) (Src.impl 49).target) (Src.fn 49 0) [rep a0, rep a1] =
      Src.method S p b (i!"index") (rep a0) [rep a1] := by cases p <;> kernel_rfl
  exact .inl ⟨_, _, r.trans (C81_Point2_index p b a0 a1)⟩

/-- `IndexMut<Dimension2> for Point2<S>`: `index_mut` -/
theorem total_50_0 (p : Prim) (b : Build) : FnTotal S p b (Src.impl 50) (Src.fn 50 0) := by
  intro args h
  have e : ArgsAre Src.crate p.id [((i!"Self"), (Src.impl 50).target)] (Src.fn 50 0).params args =
      (∃ v0 r0, args = v0 :: r0 ∧ Val.Is Src.crate p.id 9 (.path (i!"Point2") [.path (i!"S") []]) v0 ∧ ∃ v1 r1, r0 = v1 :: r1 ∧ Val.Is Src.crate p.id 9 (.path (i!"Dimension2") []) v1 ∧ r1 = []) := by kernel_rfl
  rw [e] at h
  obtain ⟨_, _, rfl, h0, _, _, rfl, h1, rfl⟩ := h
  obtain ⟨a0, rfl⟩ := is_Point2 p _ 4 _ h0
  obtain ⟨a1, rfl⟩ := is_Dimension2 p _ 7 _ h1
  have r : Src.run S p b (headTy Src.crate (Prim.id p) (Src.impl 50).target) (Src.fn 50 0) [rep a0, rep a1] =
      Src.method S p b (i!"index_mut") (rep a0) [rep a1] := by cases p <;> kernel_rfl
  obtain ⟨pl, h, -⟩ := C81_Point2_index_mut p b a0 a1
  exact .inl ⟨_, _, r.trans h⟩

/-- `MinMax for Point2<S>`: `min` -/
theorem total_51_0 (p : Prim) (b : Build) : FnTotal S p b (Src.impl 51) (Src.fn 51 0) := by
  intro args h
  have e : ArgsAre Src.crate p.id [((i!"Self"), (Src.impl 51).target)] (Src.fn 51 0).params args =
      (∃ v0 r0, args = v0 :: r0 ∧ Val.Is Src.crate p.id 9 (.path (i!"Point2") [.path (i!"S") []]) v0 ∧ ∃ v1 r1, r0 = v1 :: r1 ∧ Val.Is Src.crate p.id 9 (.path (i!"Point2") [.path (i!"S") []]) v1 ∧ r1 = []) := by kernel_rfl
  rw [e] at h
  obtain ⟨_, _, rfl, h0, _, _, rfl, h1, rfl⟩ := h
  obtain ⟨a0, rfl⟩ := is_Point2 p _ 4 _ h0
  obtain ⟨a1, rfl⟩ := is_Point2 p _ 4 _ h1
  have r : Src.run S p b (headTy Src.crate (Prim.id p) (Src.impl 51).target) (Src.fn 51 0) [rep a0, rep a1] =
      Src.method S p b (i!"min") (rep a0) [rep a1] := by cases p <;> kernel_rfl
  exact .inl ⟨_, _, r.trans (C81_Point2_min p b a0 a1)⟩

/-- `MinMax for Point2<S>`: `max` -/
theorem total_51_1 (p : Prim) (b : Build) : FnTotal S p b (Src.impl 51) (Src.fn 51 1) := by
  intro args h
  have e : ArgsAre Src.crate p.id [((i!"Self"), (Src.impl 51).target)] (Src.fn 51 1).params args =
      (∃ v0 r0, args = v0 :: r0 ∧ Val.Is Src.crate p.id 9 (.path (i!"Point2") [.path (i!"S") []]) v0 ∧ ∃ v1 r1, r0 = v1 :: r1 ∧ Val.Is Src.crate p.id 9 (.path (i!"Point2") [.path (i!"S") []]) v1 ∧ r1 = []) := by kernel_rfl
  rw [e] at h
  obtain ⟨_, _, rfl, h0, _, _, rfl, h1, rfl⟩ := h
  obtain ⟨a0, rfl⟩ := is_Point2 p _ 4 _ h0
  obtain ⟨a1, rfl⟩ := is_Point2 p _ 4 _ h1
  have r : Src.run S p b (headTy Src.crate (Prim.id p) (Src.impl 51).target) (Src.fn 51 1) [rep a0, rep a1] =
      Src.method S p b (i!"max") (rep a0) [rep a1] := by cases p <;> kernel_rfl
  exact .inl ⟨_, _, r.trans (C81_Point2_max p b a0 a1)⟩

/-- `Distance for Point2<S>`: `distance` -/
theorem total_52_0 (p : Prim) (b : Build) : FnTotal S p b (Src.impl 52) (Src.fn 52 0) := by
  intro args h
  have e : ArgsAre Src.crate p.id [((i!"Self"), (Src.impl 52).target)] (Src.fn 52 0).params args =
      (∃ v0 r0, args = v0 :: r0 ∧ Val.Is Src.crate p.id 9 (.path (i!"Point2") [.path (i!"S") []]) v0 ∧ ∃ v1 r1, r0 = v1 :: r1 ∧ Val.Is Src.crate p.id 9 (.path (i!"Point2") [.path (i!"S") []]) v1 ∧ r1 = []) := by kernel_rfl
  rw [e] at h
  obtain ⟨_, _, rfl, h0, _, _, rfl, h1, rfl⟩ := h
  obtain ⟨a0, rfl⟩ := is_Point2 p _ 4 _ h0
  obtain ⟨a1, rfl⟩ := is_Point2 p _ 4 _ h1
  have r : Src.run S p b (headTy Src.crate (Prim.id p) (Src.impl 52).target) (Src.fn 52 0) [rep a0, rep a1] =
      Src.method S p b (i!"distance") (rep a0) [rep a1] := by cases p <;> kernel_rfl
  exact .inl ⟨_, _, r.trans (C81_Point2_distance p b a0 a1)⟩

/-- `RelativeDistance for Point2<S>`: `is_closer_to` -/
theorem total_53_0 (p : Prim) (b : Build) : FnTotal S p b (Src.impl 53) (Src.fn 53 0) := by
  intro args h
  have e : ArgsAre Src.crate p.id [((i!"Self"), (Src.impl 53).target)] (Src.fn 53 0).params args =
      (∃ v0 r0, args = v0 :: r0 ∧ Val.Is Src.crate p.id 9 (.path (i!"Point2") [.path (i!"S") []]) v0 ∧ ∃ v1 r1, r0 = v1 :: r1 ∧ Val.Is Src.crate p.id 9 (.path (i!"Point2") [.path (i!"S") []]) v1 ∧ ∃ v2 r2, r1 = v2 :: r2 ∧ Val.Is Src.crate p.id 9 (.path (i!"Point2") [.path (i!"S") []]) v2 ∧ r2 = []) := by kernel_rfl
  rw [e] at h
  obtain ⟨_, _, rfl, h0, _, _, rfl, h1, _, _, rfl, h2, rfl⟩ := h
  obtain ⟨a0, rfl⟩ := is_Point2 p _ 4 _ h0
  obtain ⟨a1, rfl⟩ := is_Point2 p _ 4 _ h1
  obtain ⟨a2, rfl⟩ := is_Point2 p _ 4 _ h2
  have r : Src.run S p b (headTy Src.crate (Prim.id p) (Src.impl 53).target) (Src.fn 53 0) [rep a0, rep a1, rep a2] =
      Src.method S p b (i!"is_closer_to") (rep a0) [rep a1, rep a2] := by cases p <;> kernel_rfl
  exact .inl ⟨_, _, r.trans (C81_Point2_is_closer_to p b a0 a1 a2)⟩

/-- `RelativeDistance for Point2<S>`: `is_farther_from` -/
theorem total_53_1 (p : Prim) (b : Build) : FnTotal S p b (Src.impl 53) (Src.fn 53 1) := by
  intro args h
  have e : ArgsAre Src.crate p.id [((i!"Self"), (Src.impl 53).target)] (Src.fn 53 1).params args =
      (∃ v0 r0, args = v0 :: r0 ∧ Val.Is Src.crate p.id 9 (.path (i!"Point2") [.path (i!"S") []]) v0 ∧ ∃ v1 r1, r0 = v1 :: r1 ∧ Val.Is Src.crate p.id 9 (.path (i!"Point2") [.path (i!"S") []]) v1 ∧ ∃ v2 r2, r1 = v2 :: r2 ∧ Val.Is Src.crate p.id 9 (.path (i!"Point2") [.path (i!"S") []]) v2 ∧ r2 = []) := by kernel_rfl
  rw [e] at h
  obtain ⟨_, _, rfl, h0, _, _, rfl, h1, _, _, rfl, h2, rfl⟩ := h
  obtain ⟨a0, rfl⟩ := is_Point2 p _ 4 _ h0
  obtain ⟨a1, rfl⟩ := is_Point2 p _ 4 _ h1
  obtain ⟨a2, rfl⟩ := is_Point2 p _ 4 _ h2
  have r : Src.run S p b (headTy Src.crate (Prim.id p) (Src.impl 53).target) (Src.fn 53 1) [rep a0, rep a1, rep a2] =
      Src.method S p b (i!"is_farther_from") (rep a0) [rep a1, rep a2] := by cases p <;> kernel_rfl
  exact .inl ⟨_, _, r.trans (C81_Point2_is_farther_from p b a0 a1 a2)⟩

/-- `RelativeDistance for Point2<S>`: `closest` -/
theorem total_53_2 (p : Prim) (b : Build) : FnTotal S p b (Src.impl 53) (Src.fn 53 2) := by
  intro args h
  have e : ArgsAre Src.crate p.id [((i!"Self"), (Src.impl 53).target)] (Src.fn 53 2).params args =
      (∃ v0 r0, args = v0 :: r0 ∧ Val.Is Src.crate p.id 9 (.path (i!"Point2") [.path (i!"S") []]) v0 ∧ ∃ v1 r1, r0 = v1 :: r1 ∧ Val.Is Src.crate p.id 9 (.path (i!"Point2") [.path (i!"S") []]) v1 ∧ ∃ v2 r2, r1 = v2 :: r2 ∧ Val.Is Src.crate p.id 9 (.path (i!"Point2") [.path (i!"S") []]) v2 ∧ r2 = []) := by kernel_rfl
  rw [e] at h
  obtain ⟨_, _, rfl, h0, _, _, rfl, h1, _, _, rfl, h2, rfl⟩ := h
  obtain ⟨a0, rfl⟩ := is_Point2 p _ 4 _ h0
  obtain ⟨a1, rfl⟩ := is_Point2 p _ 4 _ h1
  obtain ⟨a2, rfl⟩ := is_Point2 p _ 4 _ h2
  have r : Src.run S p b (headTy Src.crate (Prim.id p) (Src.impl 53).target) (Src.fn 53 2) [rep a0, rep a1, rep a2] =
      Src.method S p b (i!"closest") (rep a0) [rep a1, rep a2] := by cases p <;> kernel_rfl
  exact .inl ⟨_, _, r.trans (C81_Point2_closest p b a0 a1 a2)⟩

/-- `RelativeDistance for Point2<S>`: `farthest` -/
theorem total_53_3 (p : Prim) (b : Build) : FnTotal S p b (Src.impl 53) (Src.fn 53 3) := by
  intro args h
  have e : ArgsAre Src.crate p.id [((i!"Self"), (Src.impl 53).target)] (Src.fn 53 3).params args =
      (∃ v0 r0, args = v0 :: r0 ∧ Val.Is Src.crate p.id 9 (.path (i!"Point2") [.path (i!"S") []]) v0 ∧ ∃ v1 r1, r0 = v1 :: r1 ∧ Val.Is Src.crate p.id 9 (.path (i!"Point2") [.path (i!"S") []]) v1 ∧ ∃ v2 r2, r1 = v2 :: r2 ∧ Val.Is Src.crate p.id 9 (.path (i!"Point2") [.path (i!"S") []]) v2 ∧ r2 = []) := by kernel_rfl
  rw [e] at h
  obtain ⟨_, _, rfl, h0, _, _, rfl, h1, _, _, rfl, h2, rfl⟩ := h
  obtain ⟨a0, rfl⟩ := is_Point2 p _ 4 _ h0
  obtain ⟨a1, rfl⟩ := is_Point2 p _ 4 _ h1
  obtain ⟨a2, rfl⟩ := is_Point2 p _ 4 _ h2
  have r : Src.run S p b (headTy Src.crate (Prim.id p) (Src.impl 53).target) (Src.fn 53 3) [rep a0, rep a1, rep a2] =
      Src.method S p b (i!"farthest") (rep a0) [rep a1, rep a2] := by cases p <;> kernel_rfl
  exact .inl ⟨_, _, r.trans (C81_Point2_farthest p b a0 a1 a2)⟩

/-- `Add<Vector2<S>> for Point2<S>`: `add` -/
theorem total_54_0 (p : Prim) (b : Build) : FnTotal S p b (Src.impl 54) (Src.fn 54 0) := by
  intro args h
  have e : ArgsAre Src.crate p.id [((i!"Self"), (Src.impl 54).target)] (Src.fn 54 0).params args =
      (∃ v0 r0, args = v0 :: r0 ∧ Val.Is Src.crate p.id 9 (.path (i!"Point2") [.path (i!"S") []]) v0 ∧ ∃ v1 r1, r0 = v1 :: r1 ∧ Val.Is Src.crate p.id 9 (.path (i!"Vector2") [.path (i!"S") []]) v1 ∧ r1 = []) := by kernel_rfl
  rw [e] at h
  obtain ⟨_, _, rfl, h0, _, _, rfl, h1, rfl⟩ := h
  obtain ⟨a0, rfl⟩ := is_Point2 p _ 4 _ h0
  obtain ⟨a1, rfl⟩ := is_Vector2 p _ 4 _ h1
  have r : Src.run S p b (headTy Src.crate (Prim.id p) (Src.impl 54).target) (Src.fn 54 0) [rep a0, rep a1] =
      Src.method S p b (i!"add") (rep a0) [rep a1] := by cases p <;> kernel_rfl
  exact .inl ⟨_, _, r.trans (C81_Point2_add p b a0 a1)⟩

/-- `AddAssign<Vector2<S>> for Point2<S>`: `add_assign` -/
theorem total_55_0 (p : Prim) (b : Build) : FnTotal S p b (Src.impl 55) (Src.fn 55 0) := by
  intro args h
  have e : ArgsAre Src.crate p.id [((i!"Self"), (Src.impl 55).target)] (Src.fn 55 0).params args =
      (∃ v0 r0, args = v0 :: r0 ∧ Val.Is Src.crate p.id 9 (.path (i!"Point2") [.path (i!"S") []]) v0 ∧ ∃ v1 r1, r0 = v1 :: r1 ∧ Val.Is Src.crate p.id 9 (.path (i!"Vector2") [.path (i!"S") []]) v1 ∧ r1 = []) := by kernel_rfl
  rw [e] at h
  obtain ⟨_, _, rfl, h0, _, _, rfl, h1, rfl⟩ := h
  obtain ⟨a0, rfl⟩ := is_Point2 p _ 4 _ h0
  obtain ⟨a1, rfl⟩ := is_Vector2 p _ 4 _ h1
  have r : Src.run S p b (headTy Src.crate (Prim.id p) (Src.impl 55).target) (Src.fn 55 0) [rep a0, rep a1] =
      Src.method S p b (i!"add_assign") (rep a0) [rep a1] := by cases p <;> kernel_rfl
  exact .inl ⟨_, _, r.trans (C81_Point2_add_assign p b a0 a1)⟩

/-- `Sub<Vector2<S>> for Point2<S>`: `sub` -/
theorem total_56_0 (p : Prim) (b : Build) : FnTotal S p b (Src.impl 56) (Src.fn 56 0) := by
  intro args h
  have e : ArgsAre Src.crate p.id [((i!"Self"), (Src.impl 56).target)] (Src.fn 56 0).params args =
      (∃ v0 r0, args = v0 :: r0 ∧ Val.Is Src.crate p.id 9 (.path (i!"Point2") [.path (i!"S") []]) v0 ∧ ∃ v1 r1, r0 = v1 :: r1 ∧ Val.Is Src.crate p.id 9 (.path (i!"Vector2") [.path (i!"S") []]) v1 ∧ r1 = []) := by kernel_rfl
  rw [e] at h
  obtain ⟨_, _, rfl, h0, _, _, rfl, h1, rfl⟩ := h
  obtain ⟨a0, rfl⟩ := is_Point2 p _ 4 _ h0
  obtain ⟨a1, rfl⟩ := is_Vector2 p _ 4 _ h1
  have r : Src.run S p b (headTy Src.crate (Prim.id p) (Src.impl 56).target) (Src.fn 56 0) [rep a0, rep a1] =
      Src.method S p b (i!"sub") (rep a0) [rep a1] := by cases p <;> kernel_rfl
  exact .inl ⟨_, _, r.trans (C81_Point2_sub p b a0 a1)⟩

/-- `SubAssign<Vector2<S>> for Point2<S>`: `sub_assign` -/
theorem total_57_0 (p : Prim) (b : Build) : FnTotal S p b (Src.impl 57) (Src.fn 57 0) := by
  intro args h
  have e : ArgsAre Src.crate p.id [((i!"Self"), (Src.impl 57).target)] (Src.fn 57 0).params args =
      (∃ v0 r0, args = v0 :: r0 ∧ Val.Is Src.crate p.id 9 (.path (i!"Point2") [.path (i!"S") []]) v0 ∧ ∃ v1 r1, r0 = v1 :: r1 ∧ Val.Is Src.crate p.id 9 (.path (i!"Vector2") [.path (i!"S") []]) v1 ∧ r1 = []) := by kernel_rfl
  rw [e] at h
  obtain ⟨_, _, rfl, h0, _, _, rfl, h1, rfl⟩ := h
  obtain ⟨a0, rfl⟩ := is_Point2 p _ 4 _ h0
  obtain ⟨a1, rfl⟩ := is_Vector2 p _ 4 _ h1
  have r : Src.run S p b (headTy Src.crate (Prim.id p) (Src.impl 57).target) (Src.fn 57 0) [rep a0, rep a1] =
      Src.method S p b (i!"sub_assign") (rep a0) [rep a1] := by cases p <;> kernel_rfl
  exact .inl ⟨_, _, r.trans (C81_Point2_sub_assign p b a0 a1)⟩

/-- `Sub<Point2<S>> for Point2<S>`: `sub` -/
theorem total_58_0 (p : Prim) (b : Build) : FnTotal S p b (Src.impl 58) (Src.fn 58 0) := by
  intro args h
  have e : ArgsAre Src.crate p.id [((i!"Self"), (Src.impl 58).target)] (Src.fn 58 0).params args =
      (∃ v0 r0, args = v0 :: r0 ∧ Val.Is Src.crate p.id 9 (.path (i!"Point2") [.path (i!"S") []]) v0 ∧ ∃ v1 r1, r0 = v1 :: r1 ∧ Val.Is Src.crate p.id 9 (.path (i!"Point2") [.path (i!"S") []]) v1 ∧ r1 = []) := by kernel_rfl
  rw [e] at h
  obtain ⟨_, _, rfl, h0, _, _, rfl, h1, rfl⟩ := h
  obtain ⟨a0, rfl⟩ := is_Point2 p _ 4 _ h0
  obtain ⟨a1, rfl⟩ := is_Point2 p _ 4 _ h1
  have r : Src.run S p b (headTy Src.crate (Prim.id p) (Src.impl 58).target) (Src.fn 58 0) [rep a0, rep a1] =
      Src.method S p b (i!"sub") (rep a0) [rep a1] := by cases p <;> kernel_rfl
  exact .inl ⟨_, _, r.trans (C81_Point2_sub_point p b a0 a1)⟩

/-- `Neg for Point2<S>`: `neg` -/
theorem total_59_0 (p : Prim) (b : Build) : FnTotal S p b (Src.impl 59) (Src.fn 59 0) := by
  intro args h
  have e : ArgsAre Src.crate p.id [((i!"Self"), (Src.impl 59).target)] (Src.fn 59 0).params args =
      (∃ v0 r0, args = v0 :: r0 ∧ Val.Is Src.crate p.id 9 (.path (i!"Point2") [.path (i!"S") []]) v0 ∧ r0 = []) := by kernel_rfl
  rw [e] at h
  obtain ⟨_, _, rfl, h0, rfl⟩ := h
  obtain ⟨a0, rfl⟩ := is_Point2 p _ 4 _ h0
  have r : Src.run S p b (headTy Src.crate (Prim.id p) (Src.impl 59).target) (Src.fn 59 0) [rep a0] =
      Src.method S p b (i!"neg") (rep a0) [] := by cases p <;> kernel_rfl
  exact .inl ⟨_, _, r.trans (C81_Point2_neg p b a0)⟩

/-- `Mul<S> for Point2<S>`: `mul` -/
theorem total_60_0 (p : Prim) (b : Build) : FnTotal S p b (Src.impl 60) (Src.fn 60 0) := by
  intro args h
  have e : ArgsAre Src.crate p.id [((i!"Self"), (Src.impl 60).target)] (Src.fn 60 0).params args =
      (∃ v0 r0, args = v0 :: r0 ∧ Val.Is Src.crate p.id 9 (.path (i!"Point2") [.path (i!"S") []]) v0 ∧ ∃ v1 r1, r0 = v1 :: r1 ∧ Val.Is Src.crate p.id 9 (.path (i!"S") []) v1 ∧ r1 = []) := by kernel_rfl
  rw [e] at h
  obtain ⟨_, _, rfl, h0, _, _, rfl, h1, rfl⟩ := h
  obtain ⟨a0, rfl⟩ := is_Point2 p _ 4 _ h0
  obtain ⟨a1, rfl⟩ := is_S p _ 8 _ h1
  have r : Src.run S p b (headTy Src.crate (Prim.id p) (Src.impl 60).target) (Src.fn 60 0) [rep a0, .sc a1] =
      Src.method S p b (i!"mul") (rep a0) [.sc a1] := by cases p <;> kernel_rfl
  exact .inl ⟨_, _, r.trans (C81_Point2_mul p b a0 a1)⟩

/-- `MulAssign<S> for Point2<S>`: `mul_assign` -/
theorem total_61_0 (p : Prim) (b : Build) : FnTotal S p b (Src.impl 61) (Src.fn 61 0) := by
  intro args h
  have e : ArgsAre Src.crate p.id [((i!"Self"), (Src.impl 61).target)] (Src.fn 61 0).params args =
      (∃ v0 r0, args = v0 :: r0 ∧ Val.Is Src.crate p.id 9 (.path (i!"Point2") [.path (i!"S") []]) v0 ∧ ∃ v1 r1, r0 = v1 :: r1 ∧ Val.Is Src.crate p.id 9 (.path (i!"S") []) v1 ∧ r1 = []) := by kernel_rfl
  rw [e] at h
  obtain ⟨_, _, rfl, h0, _, _, rfl, h1, rfl⟩ := h
  obtain ⟨a0, rfl⟩ := is_Point2 p _ 4 _ h0
  obtain ⟨a1, rfl⟩ := is_S p _ 8 _ h1
  have r : Src.run S p b (headTy Src.crate (Prim.id p) (Src.impl 61).target) (Src.fn 61 0) [rep a0, .sc a1] =
      Src.method S p b (i!"mul_assign") (rep a0) [.sc a1] := by cases p <;> kernel_rfl
  exact .inl ⟨_, _, r.trans (C81_Point2_mul_assign p b a0 a1)⟩

/-- `Mul<Point2d> for f64`: `mul` -/
theorem total_63_0 (p : Prim) (b : Build) : FnTotal S p b (Src.impl 63) (Src.fn 63 0) := by
  intro args h
  have e : ArgsAre Src.crate p.id [((i!"Self"), (Src.impl 63).target)] (Src.fn 63 0).params args =
      (∃ v0 r0, args = v0 :: r0 ∧ Val.Is Src.crate p.id 9 (.path (i!"f64") []) v0 ∧ ∃ v1 r1, r0 = v1 :: r1 ∧ Val.Is Src.crate p.id 9 (.path (i!"Point2d") []) v1 ∧ r1 = []) := by kernel_rfl
  rw [e] at h
  obtain ⟨_, _, rfl, h0, _, _, rfl, h1, rfl⟩ := h
  obtain ⟨rfl, a0, rfl⟩ := is_f64 p _ 8 _ h0
  obtain ⟨-, a1, rfl⟩ := is_Point2d .f64 _ 3 _ h1
  have r : Src.run S .f64 b (headTy Src.crate (Prim.id .f64) (Src.impl 63).target) (Src.fn 63 0) [.sc a0, rep a1] =
      Src.method S .f64 b (i!"mul") (.sc a0) [rep a1] := by kernel_rfl
  exact .inl ⟨_, _, r.trans (C81_scalar_mul_Point2 .f64 b a0 a1)⟩

/-- `Div<S> for Point2<S>`: `div` -/
theorem total_64_0 (p : Prim) (b : Build) : FnTotal S p b (Src.impl 64) (Src.fn 64 0) := by
  intro args h
  have e : ArgsAre Src.crate p.id [((i!"Self"), (Src.impl 64).target)] (Src.fn 64 0).params args =
      (∃ v0 r0, args = v0 :: r0 ∧ Val.Is Src.crate p.id 9 (.path (i!"Point2") [.path (i!"S") []]) v0 ∧ ∃ v1 r1, r0 = v1 :: r1 ∧ Val.Is Src.crate p.id 9 (.path (i!"S") []) v1 ∧ r1 = []) := by kernel_rfl
  rw [e] at h
  obtain ⟨_, _, rfl, h0, _, _, rfl, h1, rfl⟩ := h
  obtain ⟨a0, rfl⟩ := is_Point2 p _ 4 _ h0
  obtain ⟨a1, rfl⟩ := is_S p _ 8 _ h1
  have r : Src.run S p b (headTy Src.crate (Prim.id p) (Src.impl 64).target) (Src.fn 64 0) [rep a0, .sc a1] =
      Src.method S p b (i!"div") (rep a0) [.sc a1] := by cases p <;> kernel_rfl
  exact .inl ⟨_, _, r.trans (C81_Point2_div p b a0 a1)⟩

/-- `DivAssign<S> for Point2<S>`: `div_assign` -/
theorem total_65_0 (p : Prim) (b : Build) : FnTotal S p b (Src.impl 65) (Src.fn 65 0) := by
  intro args h
  have e : ArgsAre Src.crate p.id [((i!"Self"), (Src.impl 65).target)] (Src.fn 65 0).params args =
      (∃ v0 r0, args = v0 :: r0 ∧ Val.Is Src.crate p.id 9 (.path (i!"Point2") [.path (i!"S") []]) v0 ∧ ∃ v1 r1, r0 = v1 :: r1 ∧ Val.Is Src.crate p.id 9 (.path (i!"S") []) v1 ∧ r1 = []) := by kernel_rfl
  rw [e] at h
  obtain ⟨_, _, rfl, h0, _, _, rfl, h1, rfl⟩ := h
  obtain ⟨a0, rfl⟩ := is_Point2 p _ 4 _ h0
  obtain ⟨a1, rfl⟩ := is_S p _ 8 _ h1
  have r : Src.run S p b (headTy Src.crate (Prim.id p) (Src.impl 65).target) (Src.fn 65 0) [rep a0, .sc a1] =
      Src.method S p b (i!"div_assign") (rep a0) [.sc a1] := by cases p <;> kernel_rfl
  exact .inl ⟨_, _, r.trans (C81_Point2_div_assign p b a0 a1)⟩

/-- `From<Vector2<S>> for Point2<S>`: `from` -/
theorem total_66_0 (p : Prim) (b : Build) : FnTotal S p b (Src.impl 66) (Src.fn 66 0) := by
  intro args h
  have e : ArgsAre Src.crate p.id [((i!"Self"), (Src.impl 66).target)] (Src.fn 66 0).params args =
      (∃ v0 r0, args = v0 :: r0 ∧ Val.Is Src.crate p.id 9 (.path (i!"Vector2") [.path (i!"S") []]) v0 ∧ r0 = []) := by kernel_rfl
  rw [e] at h
  obtain ⟨_, _, rfl, h0, rfl⟩ := h
  obtain ⟨a0, rfl⟩ := is_Vector2 p _ 4 _ h0
  have r : Src.run S p b (headTy Src.crate (Prim.id p) (Src.impl 66).target) (Src.fn 66 0) [rep a0] =
      Src.assoc S p b (i!"Point2") (i!"from") [rep a0] := by cases p <;> kernel_rfl
  exact .inl ⟨_, _, r.trans (C81_Point2_from p b a0)⟩

/-- `Ray2<S>`: `new` -/
theorem total_86_0 (p : Prim) (b : Build) : FnTotal S p b (Src.impl 86) (Src.fn 86 0) := by
  intro args h
  have e : ArgsAre Src.crate p.id [((i!"Self"), (Src.impl 86).target)] (Src.fn 86 0).params args =
      (∃ v0 r0, args = v0 :: r0 ∧ Val.Is Src.crate p.id 9 (.path (i!"Point2") [.path (i!"S") []]) v0 ∧ ∃ v1 r1, r0 = v1 :: r1 ∧ Val.Is Src.crate p.id 9 (.path (i!"Vector2") [.path (i!"S") []]) v1 ∧ r1 = []) := by kernel_rfl
  rw [e] at h
  obtain ⟨_, _, rfl, h0, _, _, rfl, h1, rfl⟩ := h
  obtain ⟨a0, rfl⟩ := is_Point2 p _ 4 _ h0
  obtain ⟨a1, rfl⟩ := is_Vector2 p _ 4 _ h1
  have r : Src.run S p b (headTy Src.crate (Prim.id p) (Src.impl 86).target) (Src.fn 86 0) [rep a0, rep a1] =
      Src.assoc S p b (i!"Ray2") (i!"new") [rep a0, rep a1] := by cases p <;> kernel_rfl
  exact .inl ⟨_, _, r.trans (C81_Ray2_new p b a0 a1)⟩

/-- `Ray2<S>`: `at` -/
theorem total_86_1 (p : Prim) (b : Build) : FnTotal S p b (Src.impl 86) (Src.fn 86 1) := by
  intro args h
  have e : ArgsAre Src.crate p.id [((i!"Self"), (Src.impl 86).target)] (Src.fn 86 1).params args =
      (∃ v0 r0, args = v0 :: r0 ∧ Val.Is Src.crate p.id 9 (.path (i!"Ray2") [.path (i!"S") []]) v0 ∧ ∃ v1 r1, r0 = v1 :: r1 ∧ Val.Is Src.crate p.id 9 (.path (i!"S") []) v1 ∧ r1 = []) := by kernel_rfl
  rw [e] at h
  obtain ⟨_, _, rfl, h0, _, _, rfl, h1, rfl⟩ := h
  obtain ⟨a0, rfl⟩ := is_Ray2 p _ 3 _ h0
  obtain ⟨a1, rfl⟩ := is_S p _ 8 _ h1
  have r : Src.run S p b (headTy Src.crate (Prim.id p) (Src.impl 86).target) (Src.fn 86 1) [rep a0, .sc a1] =
      Src.method S p b (i!"at") (rep a0) [.sc a1] := by cases p <;> kernel_rfl
  exact .inl ⟨_, _, r.trans (C81_Ray2_at p b a0 a1)⟩

/-- `BoundingBox2<S>`: `new` -/
theorem total_88_0 (p : Prim) (b : Build) : FnTotal S p b (Src.impl 88) (Src.fn 88 0) := by
  intro args h
  have e : ArgsAre Src.crate p.id [((i!"Self"), (Src.impl 88).target)] (Src.fn 88 0).params args =
      (∃ v0 r0, args = v0 :: r0 ∧ Val.Is Src.crate p.id 9 (.path (i!"Point2") [.path (i!"S") []]) v0 ∧ ∃ v1 r1, r0 = v1 :: r1 ∧ Val.Is Src.crate p.id 9 (.path (i!"Point2") [.path (i!"S") []]) v1 ∧ r1 = []) := by kernel_rfl
  rw [e] at h
  obtain ⟨_, _, rfl, h0, _, _, rfl, h1, rfl⟩ := h
  obtain ⟨a0, rfl⟩ := is_Point2 p _ 4 _ h0
  obtain ⟨a1, rfl⟩ := is_Point2 p _ 4 _ h1
  have r : Src.run S p b (headTy Src.crate (Prim.id p) (Src.impl 88).target) (Src.fn 88 0) [rep a0, rep a1] =
      Src.assoc S p b (i!"BoundingBox2") (i!"new") [rep a0, rep a1] := by cases p <;> kernel_rfl
  exact .inl ⟨_, _, r.trans (C81_BoundingBox2_new p b a0 a1)⟩

/-- `BoundingBox2<S>`: `empty` -/
theorem total_88_1 (p : Prim) (b : Build) : FnTotal S p b (Src.impl 88) (Src.fn 88 1) := by
  intro args h
  have e : ArgsAre Src.crate p.id [((i!"Self"), (Src.impl 88).target)] (Src.fn 88 1).params args =
      (args = []) := by kernel_rfl
  rw [e] at h
  obtain rfl := h
  have r : Src.run S p b (headTy Src.crate (Prim.id p) (Src.impl 88).target) (Src.fn 88 1) [] =
      Src.assoc S p b (i!"BoundingBox2") (i!"empty") [] := by cases p <;> kernel_rfl
  exact .inl ⟨_, _, r.trans (C81_BoundingBox2_empty p b)⟩

/-- `BoundingBox2<S>`: `infinite` -/
theorem total_88_2 (p : Prim) (b : Build) : FnTotal S p b (Src.impl 88) (Src.fn 88 2) := by
  intro args h
  have e : ArgsAre Src.crate p.id [((i!"Self"), (Src.impl 88).target)] (Src.fn 88 2).params args =
      (args = []) := by kernel_rfl
  rw [e] at h
  obtain rfl := h
  have r : Src.run S p b (headTy Src.crate (Prim.id p) (Src.impl 88).target) (Src.fn 88 2) [] =
      Src.assoc S p b (i!"BoundingBox2") (i!"infinite") [] := by cases p <;> kernel_rfl
  exact .inl ⟨_, _, r.trans (C81_BoundingBox2_infinite p b)⟩

/-- `BoundingBox2<S>`: `width` -/
theorem total_88_3 (p : Prim) (b : Build) : FnTotal S p b (Src.impl 88) (Src.fn 88 3) := by
  intro args h
  have e : ArgsAre Src.crate p.id [((i!"Self"), (Src.impl 88).target)] (Src.fn 88 3).params args =
      (∃ v0 r0, args = v0 :: r0 ∧ Val.Is Src.crate p.id 9 (.path (i!"BoundingBox2") [.path (i!"S") []]) v0 ∧ r0 = []) := by kernel_rfl
  rw [e] at h
  obtain ⟨_, _, rfl, h0, rfl⟩ := h
  obtain ⟨a0, rfl⟩ := is_BoundingBox2 p _ 3 _ h0
  have r : Src.run S p b (headTy Src.crate (Prim.id p) (Src.impl 88).target) (Src.fn 88 3) [rep a0] =
      Src.method S p b (i!"width") (rep a0) [] := by cases p <;> kernel_rfl
  exact .inl ⟨_, _, r.trans (C81_BoundingBox2_width p b a0)⟩

/-- `BoundingBox2<S>`: `height` -/
theorem total_88_4 (p : Prim) (b : Build) : FnTotal S p b (Src.impl 88) (Src.fn 88 4) := by
  intro args h
  have e : ArgsAre Src.crate p.id [((i!"Self"), (Src.impl 88).target)] (Src.fn 88 4).params args =
      (∃ v0 r0, args = v0 :: r0 ∧ Val.Is Src.crate p.id 9 (.path (i!"BoundingBox2") [.path (i!"S") []]) v0 ∧ r0 = []) := by kernel_rfl
  rw [e] at h
  obtain ⟨_, _, rfl, h0, rfl⟩ := h
  obtain ⟨a0, rfl⟩ := is_BoundingBox2 p _ 3 _ h0
  have r : Src.run S p b (headTy Src.crate (Prim.id p) (Src.impl 88).target) (Src.fn 88 4) [rep a0] =
      Src.method S p b (i!"height") (rep a0) [] := by cases p <;> kernel_rfl
  exact .inl ⟨_, _, r.trans (C81_BoundingBox2_height p b a0)⟩

/-- `BoundingBox2<S>`: `size` -/
theorem total_88_5 (p : Prim) (b : Build) : FnTotal S p b (Src.impl 88) (Src.fn 88 5) := by
  intro args h
  have e : ArgsAre Src.crate p.id [((i!"Self"), (Src.impl 88).target)] (Src.fn 88 5).params args =
      (∃ v0 r0, args = v0 :: r0 ∧ Val.Is Src.crate p.id 9 (.path (i!"BoundingBox2") [.path (i!"S") []]) v0 ∧ r0 = []) := by kernel_rfl
  rw [e] at h
  obtain ⟨_, _, rfl, h0, rfl⟩ := h
  obtain ⟨a0, rfl⟩ := is_BoundingBox2 p _ 3 _ h0
  have r : Src.run S p b (headTy Src.crate (Prim.id p) (Src.impl 88).target) (Src.fn 88 5) [rep a0] =
      Src.method S p b (i!"size") (rep a0) [] := by cases p <;> kernel_rfl
  exact .inl ⟨_, _, r.trans (C81_BoundingBox2_size p b a0)⟩

/-- `BoundingBox2<S>`: `extent` -/
theorem total_88_6 (p : Prim) (b : Build) : FnTotal S p b (Src.impl 88) (Src.fn 88 6) := by
  intro args h
  have e : ArgsAre Src.crate p.id [((i!"Self"), (Src.impl 88).target)] (Src.fn 88 6).params args =
      (∃ v0 r0, args = v0 :: r0 ∧ Val.Is Src.crate p.id 9 (.path (i!"BoundingBox2") [.path (i!"S") []]) v0 ∧ ∃ v1 r1, r0 = v1 :: r1 ∧ Val.Is Src.crate p.id 9 (.path (i!"Dimension2") []) v1 ∧ r1 = []) := by kernel_rfl
  rw [e] at h
  obtain ⟨_, _, rfl, h0, _, _, rfl, h1, rfl⟩ := h
  obtain ⟨a0, rfl⟩ := is_BoundingBox2 p _ 3 _ h0
  obtain ⟨a1, rfl⟩ := is_Dimension2 p _ 7 _ h1
  have r : Src.run S p b (headTy Src.crate (Prim.id p) (Src.impl 88).target) (Src.fn 88 6) [rep a0, rep a1] =
      Src.method S p b (i!"extent") (rep a0) [rep a1] := by cases p <;> kernel_rfl
  exact .inl ⟨_, _, r.trans (C81_BoundingBox2_extent p b a0 a1)⟩

/-- `BoundingBox2<S>`: `min_dimension` -/
theorem total_88_7 (p : Prim) (b : Build) : FnTotal S p b (Src.impl 88) (Src.fn 88 7) := by
  intro args h
  have e : ArgsAre Src.crate p.id [((i!"Self"), (Src.impl 88).target)] (Src.fn 88 7).params args =
      (∃ v0 r0, args = v0 :: r0 ∧ Val.Is Src.crate p.id 9 (.path (i!"BoundingBox2") [.path (i!"S") []]) v0 ∧ r0 = []) := by kernel_rfl
  rw [e] at h
  obtain ⟨_, _, rfl, h0, rfl⟩ := h
  obtain ⟨a0, rfl⟩ := is_BoundingBox2 p _ 3 _ h0
  have r : Src.run S p b (headTy Src.crate (Prim.id p) (Src.impl 88).target) (Src.fn 88 7) [rep a0] =
      Src.method S p b (i!"min_dimension") (rep a0) [] := by cases p <;> kernel_rfl
  exact .inl ⟨_, _, r.trans (C81_BoundingBox2_min_dimension p b a0)⟩

/-- `BoundingBox2<S>`: `max_dimension` -/
theorem total_88_8 (p : Prim) (b : Build) : FnTotal S p b (Src.impl 88) (Src.fn 88 8) := by
  intro args h
  have e : ArgsAre Src.crate p.id [((i!"Self"), (Src.impl 88).target)] (Src.fn 88 8).params args =
      (∃ v0 r0, args = v0 :: r0 ∧ Val.Is Src.crate p.id 9 (.path (i!"BoundingBox2") [.path (i!"S") []]) v0 ∧ r0 = []) := by kernel_rfl
  rw [e] at h
  obtain ⟨_, _, rfl, h0, rfl⟩ := h
  obtain ⟨a0, rfl⟩ := is_BoundingBox2 p _ 3 _ h0
  have r : Src.run S p b (headTy Src.crate (Prim.id p) (Src.impl 88).target) (Src.fn 88 8) [rep a0] =
      Src.method S p b (i!"max_dimension") (rep a0) [] := by cases p <;> kernel_rfl
  exact .inl ⟨_, _, r.trans (C81_BoundingBox2_max_dimension p b a0)⟩

/-- `BoundingBox2<S>`: `area` -/
theorem total_88_9 (p : Prim) (b : Build) : FnTotal S p b (Src.impl 88) (Src.fn 88 9) := by
  intro args h
  have e : ArgsAre Src.crate p.id [((i!"Self"), (Src.impl 88).target)] (Src.fn 88 9).params args =
      (∃ v0 r0, args = v0 :: r0 ∧ Val.Is Src.crate p.id 9 (.path (i!"BoundingBox2") [.path (i!"S") []]) v0 ∧ r0 = []) := by kernel_rfl
  rw [e] at h
  obtain ⟨_, _, rfl, h0, rfl⟩ := h
  obtain ⟨a0, rfl⟩ := is_BoundingBox2 p _ 3 _ h0
  have r : Src.run S p b (headTy Src.crate (Prim.id p) (Src.impl 88).target) (Src.fn 88 9) [rep a0] =
      Src.method S p b (i!"area") (rep a0) [] := by cases p <;> kernel_rfl
  exact .inl ⟨_, _, r.trans (C81_BoundingBox2_area p b a0)⟩

/-- `BoundingBox2<S>`: `center` -/
theorem total_88_10 (p : Prim) (b : Build) : FnTotal S p b (Src.impl 88) (Src.fn 88 10) := by
  intro args h
  have e : ArgsAre Src.crate p.id [((i!"Self"), (Src.impl 88).target)] (Src.fn 88 10).params args =
      (∃ v0 r0, args = v0 :: r0 ∧ Val.Is Src.crate p.id 9 (.path (i!"BoundingBox2") [.path (i!"S") []]) v0 ∧ r0 = []) := by kernel_rfl
  rw [e] at h
  obtain ⟨_, _, rfl, h0, rfl⟩ := h
  obtain ⟨a0, rfl⟩ := is_BoundingBox2 p _ 3 _ h0
  have r : Src.run S p b (headTy Src.crate (Prim.id p) (Src.impl 88).target) (Src.fn 88 10) [rep a0] =
      Src.method S p b (i!"center") (rep a0) [] := by cases p <;> kernel_rfl
  exact .inl ⟨_, _, r.trans (C81_BoundingBox2_center p b a0)⟩

/-- `BoundingBox2<S>`: `corner` -/
theorem total_88_11 (p : Prim) (b : Build) : FnTotal S p b (Src.impl 88) (Src.fn 88 11) := by
  intro args h
  have e : ArgsAre Src.crate p.id [((i!"Self"), (Src.impl 88).target)] (Src.fn 88 11).params args =
      (∃ v0 r0, args = v0 :: r0 ∧ Val.Is Src.crate p.id 9 (.path (i!"BoundingBox2") [.path (i!"S") []]) v0 ∧ ∃ v1 r1, r0 = v1 :: r1 ∧ Val.Is Src.crate p.id 9 (.path (i!"u32") []) v1 ∧ r1 = []) := by kernel_rfl
  rw [e] at h
  obtain ⟨_, _, rfl, h0, _, _, rfl, h1, rfl⟩ := h
  obtain ⟨a0, rfl⟩ := is_BoundingBox2 p _ 3 _ h0
  obtain ⟨a1, rfl⟩ := is_u32 p _ 8 _ h1
  have r : Src.run S p b (headTy Src.crate (Prim.id p) (Src.impl 88).target) (Src.fn 88 11) [rep a0, rep a1] =
      Src.method S p b (i!"corner") (rep a0) [rep a1] := by cases p <;> kernel_rfl
  exact total_outOf _ _ _ (r.trans (C81_BoundingBox2_corner p b a0 a1)) (fun _ => name_mem 88 11 (i!"corner") (by kernel_rfl) (by decide))

/-- `BoundingBox2<S>`: `diagonal` -/
theorem total_88_12 (p : Prim) (b : Build) : FnTotal S p b (Src.impl 88) (Src.fn 88 12) := by
  intro args h
  have e : ArgsAre Src.crate p.id [((i!"Self"), (Src.impl 88).target)] (Src.fn 88 12).params args =
      (∃ v0 r0, args = v0 :: r0 ∧ Val.Is Src.crate p.id 9 (.path (i!"BoundingBox2") [.path (i!"S") []]) v0 ∧ r0 = []) := by kernel_rfl
  rw [e] at h
  obtain ⟨_, _, rfl, h0, rfl⟩ := h
  obtain ⟨a0, rfl⟩ := is_BoundingBox2 p _ 3 _ h0
  have r : Src.run S p b (headTy Src.crate (Prim.id p) (Src.impl 88).target) (Src.fn 88 12) [rep a0] =
      Src.method S p b (i!"diagonal") (rep a0) [] := by cases p <;> kernel_rfl
  exact .inl ⟨_, _, r.trans (C81_BoundingBox2_diagonal p b a0)⟩

/-- `BoundingBox2<S>`: `overlaps` -/
theorem total_88_13 (p : Prim) (b : Build) : FnTotal S p b (Src.impl 88) (Src.fn 88 13) := by
  intro args h
  have e : ArgsAre Src.crate p.id [((i!"Self"), (Src.impl 88).target)] (Src.fn 88 13).params args =
      (∃ v0 r0, args = v0 :: r0 ∧ Val.Is Src.crate p.id 9 (.path (i!"BoundingBox2") [.path (i!"S") []]) v0 ∧ ∃ v1 r1, r0 = v1 :: r1 ∧ Val.Is Src.crate p.id 9 (.path (i!"BoundingBox2") [.path (i!"S") []]) v1 ∧ r1 = []) := by kernel_rfl
  rw [e] at h
  obtain ⟨_, _, rfl, h0, _, _, rfl, h1, rfl⟩ := h
  obtain ⟨a0, rfl⟩ := is_BoundingBox2 p _ 3 _ h0
  obtain ⟨a1, rfl⟩ := is_BoundingBox2 p _ 3 _ h1
  have r : Src.run S p b (headTy Src.crate (Prim.id p) (Src.impl 88).target) (Src.fn 88 13) [rep a0, rep a1] =
      Src.method S p b (i!"overlaps") (rep a0) [rep a1] := by cases p <;> kernel_rfl
  exact .inl ⟨_, _, r.trans (C81_BoundingBox2_overlaps p b a0 a1)⟩

/-- `BoundingBox2<S>`: `is_inside` -/
theorem total_88_14 (p : Prim) (b : Build) : FnTotal S p b (Src.impl 88) (Src.fn 88 14) := by
  intro args h
  have e : ArgsAre Src.crate p.id [((i!"Self"), (Src.impl 88).target)] (Src.fn 88 14).params args =
      (∃ v0 r0, args = v0 :: r0 ∧ Val.Is Src.crate p.id 9 (.path (i!"BoundingBox2") [.path (i!"S") []]) v0 ∧ ∃ v1 r1, r0 = v1 :: r1 ∧ Val.Is Src.crate p.id 9 (.path (i!"Point2") [.path (i!"S") []]) v1 ∧ r1 = []) := by kernel_rfl
  rw [e] at h
  obtain ⟨_, _, rfl, h0, _, _, rfl, h1, rfl⟩ := h
  obtain ⟨a0, rfl⟩ := is_BoundingBox2 p _ 3 _ h0
  obtain ⟨a1, rfl⟩ := is_Point2 p _ 4 _ h1
  have r : Src.run S p b (headTy Src.crate (Prim.id p) (Src.impl 88).target) (Src.fn 88 14) [rep a0, rep a1] =
      Src.method S p b (i!"is_inside") (rep a0) [rep a1] := by cases p <;> kernel_rfl
  exact .inl ⟨_, _, r.trans (C81_BoundingBox2_is_inside p b a0 a1)⟩

/-- `Union<BoundingBox2<S>> for BoundingBox2<S>`: `union` -/
theorem total_89_0 (p : Prim) (b : Build) : FnTotal S p b (Src.impl 89) (Src.fn 89 0) := by
  intro args h
  have e : ArgsAre Src.crate p.id [((i!"Self"), (Src.impl 89).target)] (Src.fn 89 0).params args =
      (∃ v0 r0, args = v0 :: r0 ∧ Val.Is Src.crate p.id 9 (.path (i!"BoundingBox2") [.path (i!"S") []]) v0 ∧ ∃ v1 r1, r0 = v1 :: r1 ∧ Val.Is Src.crate p.id 9 (.path (i!"BoundingBox2") [.path (i!"S") []]) v1 ∧ r1 = []) := by kernel_rfl
  rw [e] at h
  obtain ⟨_, _, rfl, h0, _, _, rfl, h1, rfl⟩ := h
  obtain ⟨a0, rfl⟩ := is_BoundingBox2 p _ 3 _ h0
  obtain ⟨a1, rfl⟩ := is_BoundingBox2 p _ 3 _ h1
  have r : Src.run S p b (headTy Src.crate (Prim.id p) (Src.impl 89).target) (Src.fn 89 0) [rep a0, rep a1] =
      Src.method S p b (i!"union") (rep a0) [rep a1] := by cases p <;> kernel_rfl
  exact .inl ⟨_, _, r.trans (C81_BoundingBox2_union p b a0 a1)⟩

/-- `Union<Point2<S>> for BoundingBox2<S>`: `union` -/
theorem total_90_0 (p : Prim) (b : Build) : FnTotal S p b (Src.impl 90) (Src.fn 90 0) := by
  intro args h
  have e : ArgsAre Src.crate p.id [((i!"Self"), (Src.impl 90).target)] (Src.fn 90 0).params args =
      (∃ v0 r0, args = v0 :: r0 ∧ Val.Is Src.crate p.id 9 (.path (i!"BoundingBox2") [.path (i!"S") []]) v0 ∧ ∃ v1 r1, r0 = v1 :: r1 ∧ Val.Is Src.crate p.id 9 (.path (i!"Point2") [.path (i!"S") []]) v1 ∧ r1 = []) := by kernel_rfl
  rw [e] at h
  obtain ⟨_, _, rfl, h0, _, _, rfl, h1, rfl⟩ := h
  obtain ⟨a0, rfl⟩ := is_BoundingBox2 p _ 3 _ h0
  obtain ⟨a1, rfl⟩ := is_Point2 p _ 4 _ h1
  have r : Src.run S p b (headTy Src.crate (Prim.id p) (Src.impl 90).target) (Src.fn 90 0) [rep a0, rep a1] =
      Src.method S p b (i!"union") (rep a0) [rep a1] := by cases p <;> kernel_rfl
  exact .inl ⟨_, _, r.trans (C81_BoundingBox2_union_point p b a0 a1)⟩

/-- `Intersection<BoundingBox2<S>> for BoundingBox2<S>`: `intersect` -/
theorem total_91_0 (p : Prim) (b : Build) : FnTotal S p b (Src.impl 91) (Src.fn 91 0) := by
  intro args h
  have e : ArgsAre Src.crate p.id [((i!"Self"), (Src.impl 91).target)] (Src.fn 91 0).params args =
      (∃ v0 r0, args = v0 :: r0 ∧ Val.Is Src.crate p.id 9 (.path (i!"BoundingBox2") [.path (i!"S") []]) v0 ∧ ∃ v1 r1, r0 = v1 :: r1 ∧ Val.Is Src.crate p.id 9 (.path (i!"BoundingBox2") [.path (i!"S") []]) v1 ∧ r1 = []) := by kernel_rfl
  rw [e] at h
  obtain ⟨_, _, rfl, h0, _, _, rfl, h1, rfl⟩ := h
  obtain ⟨a0, rfl⟩ := is_BoundingBox2 p _ 3 _ h0
  obtain ⟨a1, rfl⟩ := is_BoundingBox2 p _ 3 _ h1
  have r : Src.run S p b (headTy Src.crate (Prim.id p) (Src.impl 91).target) (Src.fn 91 0) [rep a0, rep a1] =
      Src.method S p b (i!"intersect") (rep a0) [rep a1] := by cases p <;> kernel_rfl
  exact .inl ⟨_, _, r.trans (C81_BoundingBox2_intersect p b a0 a1)⟩

/-- `Intersection<Ray2<S>> for BoundingBox2<S>`: `intersect` -/
theorem total_92_0 (p : Prim) (b : Build) : FnTotal S p b (Src.impl 92) (Src.fn 92 0) := by
  intro args h
  have e : ArgsAre Src.crate p.id [((i!"Self"), (Src.impl 92).target)] (Src.fn 92 0).params args =
      (∃ v0 r0, args = v0 :: r0 ∧ Val.Is Src.crate p.id 9 (.path (i!"BoundingBox2") [.path (i!"S") []]) v0 ∧ ∃ v1 r1, r0 = v1 :: r1 ∧ Val.Is Src.crate p.id 9 (.path (i!"Ray2") [.path (i!"S") []]) v1 ∧ r1 = []) := by kernel_rfl
  rw [e] at h
  obtain ⟨_, _, rfl, h0, _, _, rfl, h1, rfl⟩ := h
  obtain ⟨a0, rfl⟩ := is_BoundingBox2 p _ 3 _ h0
  obtain ⟨a1, rfl⟩ := is_Ray2 p _ 3 _ h1
  have r : Src.run S p b (headTy Src.crate (Prim.id p) (Src.impl 92).target) (Src.fn 92 0) [rep a0, rep a1] =
      Src.method S p b (i!"intersect") (rep a0) [rep a1] := by cases p <;> kernel_rfl
  exact .inl ⟨_, _, r.trans (C81_BoundingBox2_intersect_ray p b a0 a1)⟩

end VecMath.Rust
