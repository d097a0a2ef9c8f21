import Verif.Props.SourceTotal1
import Verif.Props.SourceTotal2
import Verif.Props.SourceTotal3
import Verif.Props.SourceTotal4
/-! # No function of the source text panics or runs forever

Generated by `tools/gen/total.py`. -/

namespace VecMath.Rust
open VecMath
variable {S : Type} [Scalar S]

/-! ## Free functions -/

theorem free_0_4 (p : Prim) (b : Build) (args : List (Val S))
    (h : ArgsAre Src.crate p.id [((i!"T"), (.path (i!"S") []))] (Src.freeFn 0).params args) :
    ∃ v, Src.free S p b (Src.freeFn 0).name args = .ok v .unit := by
  have e : ArgsAre Src.crate p.id [((i!"T"), (.path (i!"S") []))] (Src.freeFn 0).params args =
      (∃ v0 r0, args = v0 :: r0 ∧ Val.Is Src.crate p.id 9 (.path (i!"S") []) v0 ∧ ∃ v1 r1, r0 = v1 :: r1 ∧ Val.Is Src.crate p.id 9 (.path (i!"S") []) v1 ∧ r1 = []) := by kernel_rfl
  rw [e] at h
  obtain ⟨_, _, rfl, h0, _, _, rfl, h1, rfl⟩ := h
  obtain ⟨a0, rfl⟩ := is_S p _ 8 _ h0
  obtain ⟨a1, rfl⟩ := is_S p _ 8 _ h1
  have n : (Src.freeFn 0).name = (i!"min") := by kernel_rfl
  rw [n]
  exact ⟨_, C81_min_S p b a0 a1⟩

theorem free_0_12 (p : Prim) (b : Build) (args : List (Val S))
    (h : ArgsAre Src.crate p.id [((i!"T"), (.path (i!"Vector2") [.path (i!"S") []]))] (Src.freeFn 0).params args) :
    ∃ v, Src.free S p b (Src.freeFn 0).name args = .ok v .unit := by
  have e : ArgsAre Src.crate p.id [((i!"T"), (.path (i!"Vector2") [.path (i!"S") []]))] (Src.freeFn 0).params args =
      (∃ v0 r0, args = v0 :: r0 ∧ Val.Is Src.crate p.id 9 (.path (i!"Vector2") [.path (i!"S") []]) v0 ∧ ∃ v1 r1, r0 = v1 :: r1 ∧ Val.Is Src.crate p.id 9 (.path (i!"Vector2") [.path (i!"S") []]) v1 ∧ r1 = []) := by kernel_rfl
  rw [e] at h
  obtain ⟨_, _, rfl, h0, _, _, rfl, h1, rfl⟩ := h
  obtain ⟨a0, rfl⟩ := is_Vector2 p _ 4 _ h0
  obtain ⟨a1, rfl⟩ := is_Vector2 p _ 4 _ h1
  have n : (Src.freeFn 0).name = (i!"min") := by kernel_rfl
  rw [n]
  exact ⟨_, C81_min_Vector2 p b a0 a1⟩

theorem free_0_31 (p : Prim) (b : Build) (args : List (Val S))
    (h : ArgsAre Src.crate p.id [((i!"T"), (.path (i!"Vector3") [.path (i!"S") []]))] (Src.freeFn 0).params args) :
    ∃ v, Src.free S p b (Src.freeFn 0).name args = .ok v .unit := by
  have e : ArgsAre Src.crate p.id [((i!"T"), (.path (i!"Vector3") [.path (i!"S") []]))] (Src.freeFn 0).params args =
      (∃ v0 r0, args = v0 :: r0 ∧ Val.Is Src.crate p.id 9 (.path (i!"Vector3") [.path (i!"S") []]) v0 ∧ ∃ v1 r1, r0 = v1 :: r1 ∧ Val.Is Src.crate p.id 9 (.path (i!"Vector3") [.path (i!"S") []]) v1 ∧ r1 = []) := by kernel_rfl
  rw [e] at h
  obtain ⟨_, _, rfl, h0, _, _, rfl, h1, rfl⟩ := h
  obtain ⟨a0, rfl⟩ := is_Vector3 p _ 4 _ h0
  obtain ⟨a1, rfl⟩ := is_Vector3 p _ 4 _ h1
  have n : (Src.freeFn 0).name = (i!"min") := by kernel_rfl
  rw [n]
  exact ⟨_, C81_min_Vector3 p b a0 a1⟩

theorem free_0_51 (p : Prim) (b : Build) (args : List (Val S))
    (h : ArgsAre Src.crate p.id [((i!"T"), (.path (i!"Point2") [.path (i!"S") []]))] (Src.freeFn 0).params args) :
    ∃ v, Src.free S p b (Src.freeFn 0).name args = .ok v .unit := by
  have e : ArgsAre Src.crate p.id [((i!"T"), (.path (i!"Point2") [.path (i!"S") []]))] (Src.freeFn 0).params args =
      (∃ v0 r0, args = v0 :: r0 ∧ Val.Is Src.crate p.id 9 (.path (i!"Point2") [.path (i!"S") []]) v0 ∧ ∃ v1 r1, r0 = v1 :: r1 ∧ Val.Is Src.crate p.id 9 (.path (i!"Point2") [.path (i!"S") []]) v1 ∧ r1 = []) := by kernel_rfl
  rw [e] at h
  obtain ⟨_, _, rfl, h0, _, _, rfl, h1, rfl⟩ := h
  obtain ⟨a0, rfl⟩ := is_Point2 p _ 4 _ h0
  obtain ⟨a1, rfl⟩ := is_Point2 p _ 4 _ h1
  have n : (Src.freeFn 0).name = (i!"min") := by kernel_rfl
  rw [n]
  exact ⟨_, C81_min_Point2 p b a0 a1⟩

theorem free_0_70 (p : Prim) (b : Build) (args : List (Val S))
    (h : ArgsAre Src.crate p.id [((i!"T"), (.path (i!"Point3") [.path (i!"S") []]))] (Src.freeFn 0).params args) :
    ∃ v, Src.free S p b (Src.freeFn 0).name args = .ok v .unit := by
  have e : ArgsAre Src.crate p.id [((i!"T"), (.path (i!"Point3") [.path (i!"S") []]))] (Src.freeFn 0).params args =
      (∃ v0 r0, args = v0 :: r0 ∧ Val.Is Src.crate p.id 9 (.path (i!"Point3") [.path (i!"S") []]) v0 ∧ ∃ v1 r1, r0 = v1 :: r1 ∧ Val.Is Src.crate p.id 9 (.path (i!"Point3") [.path (i!"S") []]) v1 ∧ r1 = []) := by kernel_rfl
  rw [e] at h
  obtain ⟨_, _, rfl, h0, _, _, rfl, h1, rfl⟩ := h
  obtain ⟨a0, rfl⟩ := is_Point3 p _ 4 _ h0
  obtain ⟨a1, rfl⟩ := is_Point3 p _ 4 _ h1
  have n : (Src.freeFn 0).name = (i!"min") := by kernel_rfl
  rw [n]
  exact ⟨_, C81_min_Point3 p b a0 a1⟩

theorem free_0 (p : Prim) (b : Build) : FreeTotal S p b (Src.freeFn 0) := by
  intro tv htv args h
  have e : TyArgs (Src.freeFn 0) tv = (∃ i ∈ Src.crate.impls, ∃ l, i.trait = some ((i!"MinMax"), l) ∧
      tv = ((i!"T"), i.target) :: l.map fun u => ((i!"U"), u)) := by kernel_rfl
  rw [e] at htv
  have c := tyArgs_cases (i!"MinMax") _ tv htv
  have d : List.filterMap (tyArgsOf (i!"MinMax")) Src.crate.impls = [[((i!"T"), (.path (i!"S") []))], [((i!"T"), (.path (i!"Vector2") [.path (i!"S") []]))], [((i!"T"), (.path (i!"Vector3") [.path (i!"S") []]))], [((i!"T"), (.path (i!"Point2") [.path (i!"S") []]))], [((i!"T"), (.path (i!"Point3") [.path (i!"S") []]))]] := by kernel_rfl
  rw [d] at c
  simp only [List.mem_cons, List.not_mem_nil, or_false] at c
  rcases c with rfl | rfl | rfl | rfl | rfl
  · exact free_0_4 p b args h
  · exact free_0_12 p b args h
  · exact free_0_31 p b args h
  · exact free_0_51 p b args h
  · exact free_0_70 p b args h

theorem free_1_4 (p : Prim) (b : Build) (args : List (Val S))
    (h : ArgsAre Src.crate p.id [((i!"T"), (.path (i!"S") []))] (Src.freeFn 1).params args) :
    ∃ v, Src.free S p b (Src.freeFn 1).name args = .ok v .unit := by
  have e : ArgsAre Src.crate p.id [((i!"T"), (.path (i!"S") []))] (Src.freeFn 1).params args =
      (∃ v0 r0, args = v0 :: r0 ∧ Val.Is Src.crate p.id 9 (.path (i!"S") []) v0 ∧ ∃ v1 r1, r0 = v1 :: r1 ∧ Val.Is Src.crate p.id 9 (.path (i!"S") []) v1 ∧ r1 = []) := by kernel_rfl
  rw [e] at h
  obtain ⟨_, _, rfl, h0, _, _, rfl, h1, rfl⟩ := h
  obtain ⟨a0, rfl⟩ := is_S p _ 8 _ h0
  obtain ⟨a1, rfl⟩ := is_S p _ 8 _ h1
  have n : (Src.freeFn 1).name = (i!"max") := by kernel_rfl
  rw [n]
  exact ⟨_, C81_max_S p b a0 a1⟩

theorem free_1_12 (p : Prim) (b : Build) (args : List (Val S))
    (h : ArgsAre Src.crate p.id [((i!"T"), (.path (i!"Vector2") [.path (i!"S") []]))] (Src.freeFn 1).params args) :
    ∃ v, Src.free S p b (Src.freeFn 1).name args = .ok v .unit := by
  have e : ArgsAre Src.crate p.id [((i!"T"), (.path (i!"Vector2") [.path (i!"S") []]))] (Src.freeFn 1).params args =
      (∃ v0 r0, args = v0 :: r0 ∧ Val.Is Src.crate p.id 9 (.path (i!"Vector2") [.path (i!"S") []]) v0 ∧ ∃ v1 r1, r0 = v1 :: r1 ∧ Val.Is Src.crate p.id 9 (.path (i!"Vector2") [.path (i!"S") []]) v1 ∧ r1 = []) := by kernel_rfl
  rw [e] at h
  obtain ⟨_, _, rfl, h0, _, _, rfl, h1, rfl⟩ := h
  obtain ⟨a0, rfl⟩ := is_Vector2 p _ 4 _ h0
  obtain ⟨a1, rfl⟩ := is_Vector2 p _ 4 _ h1
  have n : (Src.freeFn 1).name = (i!"max") := by kernel_rfl
  rw [n]
  exact ⟨_, C81_max_Vector2 p b a0 a1⟩

theorem free_1_31 (p : Prim) (b : Build) (args : List (Val S))
    (h : ArgsAre Src.crate p.id [((i!"T"), (.path (i!"Vector3") [.path (i!"S") []]))] (Src.freeFn 1).params args) :
    ∃ v, Src.free S p b (Src.freeFn 1).name args = .ok v .unit := by
  have e : ArgsAre Src.crate p.id [((i!"T"), (.path (i!"Vector3") [.path (i!"S") []]))] (Src.freeFn 1).params args =
      (∃ v0 r0, args = v0 :: r0 ∧ Val.Is Src.crate p.id 9 (.path (i!"Vector3") [.path (i!"S") []]) v0 ∧ ∃ v1 r1, r0 = v1 :: r1 ∧ Val.Is Src.crate p.id 9 (.path (i!"Vector3") [.path (i!"S") []]) v1 ∧ r1 = []) := by kernel_rfl
  rw [e] at h
  obtain ⟨_, _, rfl, h0, _, _, rfl, h1, rfl⟩ := h
  obtain ⟨a0, rfl⟩ := is_Vector3 p _ 4 _ h0
  obtain ⟨a1, rfl⟩ := is_Vector3 p _ 4 _ h1
  have n : (Src.freeFn 1).name = (i!"max") := by kernel_rfl
  rw [n]
  exact ⟨_, C81_max_Vector3 p b a0 a1⟩

theorem free_1_51 (p : Prim) (b : Build) (args : List (Val S))
    (h : ArgsAre Src.crate p.id [((i!"T"), (.path (i!"Point2") [.path (i!"S") []]))] (Src.freeFn 1).params args) :
    ∃ v, Src.free S p b (Src.freeFn 1).name args = .ok v .unit := by
  have e : ArgsAre Src.crate p.id [((i!"T"), (.path (i!"Point2") [.path (i!"S") []]))] (Src.freeFn 1).params args =
      (∃ v0 r0, args = v0 :: r0 ∧ Val.Is Src.crate p.id 9 (.path (i!"Point2") [.path (i!"S") []]) v0 ∧ ∃ v1 r1, r0 = v1 :: r1 ∧ Val.Is Src.crate p.id 9 (.path (i!"Point2") [.path (i!"S") []]) v1 ∧ r1 = []) := by kernel_rfl
  rw [e] at h
  obtain ⟨_, _, rfl, h0, _, _, rfl, h1, rfl⟩ := h
  obtain ⟨a0, rfl⟩ := is_Point2 p _ 4 _ h0
  obtain ⟨a1, rfl⟩ := is_Point2 p _ 4 _ h1
  have n : (Src.freeFn 1).name = (i!"max") := by kernel_rfl
  rw [n]
  exact ⟨_, C81_max_Point2 p b a0 a1⟩

theorem free_1_70 (p : Prim) (b : Build) (args : List (Val S))
    (h : ArgsAre Src.crate p.id [((i!"T"), (.path (i!"Point3") [.path (i!"S") []]))] (Src.freeFn 1).params args) :
    ∃ v, Src.free S p b (Src.freeFn 1).name args = .ok v .unit := by
  have e : ArgsAre Src.crate p.id [((i!"T"), (.path (i!"Point3") [.path (i!"S") []]))] (Src.freeFn 1).params args =
      (∃ v0 r0, args = v0 :: r0 ∧ Val.Is Src.crate p.id 9 (.path (i!"Point3") [.path (i!"S") []]) v0 ∧ ∃ v1 r1, r0 = v1 :: r1 ∧ Val.Is Src.crate p.id 9 (.path (i!"Point3") [.path (i!"S") []]) v1 ∧ r1 = []) := by kernel_rfl
  rw [e] at h
  obtain ⟨_, _, rfl, h0, _, _, rfl, h1, rfl⟩ := h
  obtain ⟨a0, rfl⟩ := is_Point3 p _ 4 _ h0
  obtain ⟨a1, rfl⟩ := is_Point3 p _ 4 _ h1
  have n : (Src.freeFn 1).name = (i!"max") := by kernel_rfl
  rw [n]
  exact ⟨_, C81_max_Point3 p b a0 a1⟩

theorem free_1 (p : Prim) (b : Build) : FreeTotal S p b (Src.freeFn 1) := by
  intro tv htv args h
  have e : TyArgs (Src.freeFn 1) tv = (∃ i ∈ Src.crate.impls, ∃ l, i.trait = some ((i!"MinMax"), l) ∧
      tv = ((i!"T"), i.target) :: l.map fun u => ((i!"U"), u)) := by kernel_rfl
  rw [e] at htv
  have c := tyArgs_cases (i!"MinMax") _ tv htv
  have d : List.filterMap (tyArgsOf (i!"MinMax")) Src.crate.impls = [[((i!"T"), (.path (i!"S") []))], [((i!"T"), (.path (i!"Vector2") [.path (i!"S") []]))], [((i!"T"), (.path (i!"Vector3") [.path (i!"S") []]))], [((i!"T"), (.path (i!"Point2") [.path (i!"S") []]))], [((i!"T"), (.path (i!"Point3") [.path (i!"S") []]))]] := by kernel_rfl
  rw [d] at c
  simp only [List.mem_cons, List.not_mem_nil, or_false] at c
  rcases c with rfl | rfl | rfl | rfl | rfl
  · exact free_1_4 p b args h
  · exact free_1_12 p b args h
  · exact free_1_31 p b args h
  · exact free_1_51 p b args h
  · exact free_1_70 p b args h

theorem free_2_15 (p : Prim) (b : Build) (args : List (Val S))
    (h : ArgsAre Src.crate p.id [((i!"T"), (.path (i!"Vector2") [.path (i!"S") []])), ((i!"U"), (.path (i!"Vector2") [.path (i!"S") []]))] (Src.freeFn 2).params args) :
    ∃ v, Src.free S p b (Src.freeFn 2).name args = .ok v .unit := by
  have e : ArgsAre Src.crate p.id [((i!"T"), (.path (i!"Vector2") [.path (i!"S") []])), ((i!"U"), (.path (i!"Vector2") [.path (i!"S") []]))] (Src.freeFn 2).params args =
      (∃ v0 r0, args = v0 :: r0 ∧ Val.Is Src.crate p.id 9 (.path (i!"Vector2") [.path (i!"S") []]) v0 ∧ ∃ v1 r1, r0 = v1 :: r1 ∧ Val.Is Src.crate p.id 9 (.path (i!"Vector2") [.path (i!"S") []]) v1 ∧ r1 = []) := by kernel_rfl
  rw [e] at h
  obtain ⟨_, _, rfl, h0, _, _, rfl, h1, rfl⟩ := h
  obtain ⟨a0, rfl⟩ := is_Vector2 p _ 4 _ h0
  obtain ⟨a1, rfl⟩ := is_Vector2 p _ 4 _ h1
  have n : (Src.freeFn 2).name = (i!"dot") := by kernel_rfl
  rw [n]
  exact ⟨_, C81_dot_Vector2 p b a0 a1⟩

theorem free_2_34 (p : Prim) (b : Build) (args : List (Val S))
    (h : ArgsAre Src.crate p.id [((i!"T"), (.path (i!"Vector3") [.path (i!"S") []])), ((i!"U"), (.path (i!"Vector3") [.path (i!"S") []]))] (Src.freeFn 2).params args) :
    ∃ v, Src.free S p b (Src.freeFn 2).name args = .ok v .unit := by
  have e : ArgsAre Src.crate p.id [((i!"T"), (.path (i!"Vector3") [.path (i!"S") []])), ((i!"U"), (.path (i!"Vector3") [.path (i!"S") []]))] (Src.freeFn 2).params args =
      (∃ v0 r0, args = v0 :: r0 ∧ Val.Is Src.crate p.id 9 (.path (i!"Vector3") [.path (i!"S") []]) v0 ∧ ∃ v1 r1, r0 = v1 :: r1 ∧ Val.Is Src.crate p.id 9 (.path (i!"Vector3") [.path (i!"S") []]) v1 ∧ r1 = []) := by kernel_rfl
  rw [e] at h
  obtain ⟨_, _, rfl, h0, _, _, rfl, h1, rfl⟩ := h
  obtain ⟨a0, rfl⟩ := is_Vector3 p _ 4 _ h0
  obtain ⟨a1, rfl⟩ := is_Vector3 p _ 4 _ h1
  have n : (Src.freeFn 2).name = (i!"dot") := by kernel_rfl
  rw [n]
  exact ⟨_, C81_dot_Vector3 p b a0 a1⟩

theorem free_2 (p : Prim) (b : Build) : FreeTotal S p b (Src.freeFn 2) := by
  intro tv htv args h
  have e : TyArgs (Src.freeFn 2) tv = (∃ i ∈ Src.crate.impls, ∃ l, i.trait = some ((i!"DotProduct"), l) ∧
      tv = ((i!"T"), i.target) :: l.map fun u => ((i!"U"), u)) := by kernel_rfl
  rw [e] at htv
  have c := tyArgs_cases (i!"DotProduct") _ tv htv
  have d : List.filterMap (tyArgsOf (i!"DotProduct")) Src.crate.impls = [[((i!"T"), (.path (i!"Vector2") [.path (i!"S") []])), ((i!"U"), (.path (i!"Vector2") [.path (i!"S") []]))], [((i!"T"), (.path (i!"Vector3") [.path (i!"S") []])), ((i!"U"), (.path (i!"Vector3") [.path (i!"S") []]))]] := by kernel_rfl
  rw [d] at c
  simp only [List.mem_cons, List.not_mem_nil, or_false] at c
  rcases c with rfl | rfl
  · exact free_2_15 p b args h
  · exact free_2_34 p b args h

theorem free_3_35 (p : Prim) (b : Build) (args : List (Val S))
    (h : ArgsAre Src.crate p.id [((i!"T"), (.path (i!"Vector3") [.path (i!"S") []])), ((i!"U"), (.path (i!"Vector3") [.path (i!"S") []]))] (Src.freeFn 3).params args) :
    ∃ v, Src.free S p b (Src.freeFn 3).name args = .ok v .unit := by
  have e : ArgsAre Src.crate p.id [((i!"T"), (.path (i!"Vector3") [.path (i!"S") []])), ((i!"U"), (.path (i!"Vector3") [.path (i!"S") []]))] (Src.freeFn 3).params args =
      (∃ v0 r0, args = v0 :: r0 ∧ Val.Is Src.crate p.id 9 (.path (i!"Vector3") [.path (i!"S") []]) v0 ∧ ∃ v1 r1, r0 = v1 :: r1 ∧ Val.Is Src.crate p.id 9 (.path (i!"Vector3") [.path (i!"S") []]) v1 ∧ r1 = []) := by kernel_rfl
  rw [e] at h
  obtain ⟨_, _, rfl, h0, _, _, rfl, h1, rfl⟩ := h
  obtain ⟨a0, rfl⟩ := is_Vector3 p _ 4 _ h0
  obtain ⟨a1, rfl⟩ := is_Vector3 p _ 4 _ h1
  have n : (Src.freeFn 3).name = (i!"cross") := by kernel_rfl
  rw [n]
  exact ⟨_, C81_cross_Vector3 p b a0 a1⟩

theorem free_3 (p : Prim) (b : Build) : FreeTotal S p b (Src.freeFn 3) := by
  intro tv htv args h
  have e : TyArgs (Src.freeFn 3) tv = (∃ i ∈ Src.crate.impls, ∃ l, i.trait = some ((i!"CrossProduct"), l) ∧
      tv = ((i!"T"), i.target) :: l.map fun u => ((i!"U"), u)) := by kernel_rfl
  rw [e] at htv
  have c := tyArgs_cases (i!"CrossProduct") _ tv htv
  have d : List.filterMap (tyArgsOf (i!"CrossProduct")) Src.crate.impls = [[((i!"T"), (.path (i!"Vector3") [.path (i!"S") []])), ((i!"U"), (.path (i!"Vector3") [.path (i!"S") []]))]] := by kernel_rfl
  rw [d] at c
  simp only [List.mem_cons, List.not_mem_nil, or_false] at c
  rcases c with rfl
  · exact free_3_35 p b args h

theorem free_4_5 (p : Prim) (b : Build) (args : List (Val S))
    (h : ArgsAre Src.crate p.id [((i!"T"), (.path (i!"S") []))] (Src.freeFn 4).params args) :
    ∃ v, Src.free S p b (Src.freeFn 4).name args = .ok v .unit := by
  have e : ArgsAre Src.crate p.id [((i!"T"), (.path (i!"S") []))] (Src.freeFn 4).params args =
      (∃ v0 r0, args = v0 :: r0 ∧ Val.Is Src.crate p.id 9 (.path (i!"S") []) v0 ∧ r0 = []) := by kernel_rfl
  rw [e] at h
  obtain ⟨_, _, rfl, h0, rfl⟩ := h
  obtain ⟨a0, rfl⟩ := is_S p _ 8 _ h0
  have n : (Src.freeFn 4).name = (i!"length") := by kernel_rfl
  rw [n]
  exact ⟨_, C81_length_S p b a0⟩

theorem free_4_13 (p : Prim) (b : Build) (args : List (Val S))
    (h : ArgsAre Src.crate p.id [((i!"T"), (.path (i!"Vector2") [.path (i!"S") []]))] (Src.freeFn 4).params args) :
    ∃ v, Src.free S p b (Src.freeFn 4).name args = .ok v .unit := by
  have e : ArgsAre Src.crate p.id [((i!"T"), (.path (i!"Vector2") [.path (i!"S") []]))] (Src.freeFn 4).params args =
      (∃ v0 r0, args = v0 :: r0 ∧ Val.Is Src.crate p.id 9 (.path (i!"Vector2") [.path (i!"S") []]) v0 ∧ r0 = []) := by kernel_rfl
  rw [e] at h
  obtain ⟨_, _, rfl, h0, rfl⟩ := h
  obtain ⟨a0, rfl⟩ := is_Vector2 p _ 4 _ h0
  have n : (Src.freeFn 4).name = (i!"length") := by kernel_rfl
  rw [n]
  exact ⟨_, C81_length_Vector2 p b a0⟩

theorem free_4_32 (p : Prim) (b : Build) (args : List (Val S))
    (h : ArgsAre Src.crate p.id [((i!"T"), (.path (i!"Vector3") [.path (i!"S") []]))] (Src.freeFn 4).params args) :
    ∃ v, Src.free S p b (Src.freeFn 4).name args = .ok v .unit := by
  have e : ArgsAre Src.crate p.id [((i!"T"), (.path (i!"Vector3") [.path (i!"S") []]))] (Src.freeFn 4).params args =
      (∃ v0 r0, args = v0 :: r0 ∧ Val.Is Src.crate p.id 9 (.path (i!"Vector3") [.path (i!"S") []]) v0 ∧ r0 = []) := by kernel_rfl
  rw [e] at h
  obtain ⟨_, _, rfl, h0, rfl⟩ := h
  obtain ⟨a0, rfl⟩ := is_Vector3 p _ 4 _ h0
  have n : (Src.freeFn 4).name = (i!"length") := by kernel_rfl
  rw [n]
  exact ⟨_, C81_length_Vector3 p b a0⟩

theorem free_4 (p : Prim) (b : Build) : FreeTotal S p b (Src.freeFn 4) := by
  intro tv htv args h
  have e : TyArgs (Src.freeFn 4) tv = (∃ i ∈ Src.crate.impls, ∃ l, i.trait = some ((i!"Length"), l) ∧
      tv = ((i!"T"), i.target) :: l.map fun u => ((i!"U"), u)) := by kernel_rfl
  rw [e] at htv
  have c := tyArgs_cases (i!"Length") _ tv htv
  have d : List.filterMap (tyArgsOf (i!"Length")) Src.crate.impls = [[((i!"T"), (.path (i!"S") []))], [((i!"T"), (.path (i!"Vector2") [.path (i!"S") []]))], [((i!"T"), (.path (i!"Vector3") [.path (i!"S") []]))]] := by kernel_rfl
  rw [d] at c
  simp only [List.mem_cons, List.not_mem_nil, or_false] at c
  rcases c with rfl | rfl | rfl
  · exact free_4_5 p b args h
  · exact free_4_13 p b args h
  · exact free_4_32 p b args h

theorem free_5_6 (p : Prim) (b : Build) (args : List (Val S))
    (h : ArgsAre Src.crate p.id [((i!"T"), (.path (i!"S") []))] (Src.freeFn 5).params args) :
    ∃ v, Src.free S p b (Src.freeFn 5).name args = .ok v .unit := by
  have e : ArgsAre Src.crate p.id [((i!"T"), (.path (i!"S") []))] (Src.freeFn 5).params args =
      (∃ v0 r0, args = v0 :: r0 ∧ Val.Is Src.crate p.id 9 (.path (i!"S") []) v0 ∧ ∃ v1 r1, r0 = v1 :: r1 ∧ Val.Is Src.crate p.id 9 (.path (i!"S") []) v1 ∧ r1 = []) := by kernel_rfl
  rw [e] at h
  obtain ⟨_, _, rfl, h0, _, _, rfl, h1, rfl⟩ := h
  obtain ⟨a0, rfl⟩ := is_S p _ 8 _ h0
  obtain ⟨a1, rfl⟩ := is_S p _ 8 _ h1
  have n : (Src.freeFn 5).name = (i!"shortest") := by kernel_rfl
  rw [n]
  exact ⟨_, C81_shortest_S p b a0 a1⟩

theorem free_5_14 (p : Prim) (b : Build) (args : List (Val S))
    (h : ArgsAre Src.crate p.id [((i!"T"), (.path (i!"Vector2") [.path (i!"S") []]))] (Src.freeFn 5).params args) :
    ∃ v, Src.free S p b (Src.freeFn 5).name args = .ok v .unit := by
  have e : ArgsAre Src.crate p.id [((i!"T"), (.path (i!"Vector2") [.path (i!"S") []]))] (Src.freeFn 5).params args =
      (∃ v0 r0, args = v0 :: r0 ∧ Val.Is Src.crate p.id 9 (.path (i!"Vector2") [.path (i!"S") []]) v0 ∧ ∃ v1 r1, r0 = v1 :: r1 ∧ Val.Is Src.crate p.id 9 (.path (i!"Vector2") [.path (i!"S") []]) v1 ∧ r1 = []) := by kernel_rfl
  rw [e] at h
  obtain ⟨_, _, rfl, h0, _, _, rfl, h1, rfl⟩ := h
  obtain ⟨a0, rfl⟩ := is_Vector2 p _ 4 _ h0
  obtain ⟨a1, rfl⟩ := is_Vector2 p _ 4 _ h1
  have n : (Src.freeFn 5).name = (i!"shortest") := by kernel_rfl
  rw [n]
  exact ⟨_, C81_shortest_Vector2 p b a0 a1⟩

theorem free_5_33 (p : Prim) (b : Build) (args : List (Val S))
    (h : ArgsAre Src.crate p.id [((i!"T"), (.path (i!"Vector3") [.path (i!"S") []]))] (Src.freeFn 5).params args) :
    ∃ v, Src.free S p b (Src.freeFn 5).name args = .ok v .unit := by
  have e : ArgsAre Src.crate p.id [((i!"T"), (.path (i!"Vector3") [.path (i!"S") []]))] (Src.freeFn 5).params args =
      (∃ v0 r0, args = v0 :: r0 ∧ Val.Is Src.crate p.id 9 (.path (i!"Vector3") [.path (i!"S") []]) v0 ∧ ∃ v1 r1, r0 = v1 :: r1 ∧ Val.Is Src.crate p.id 9 (.path (i!"Vector3") [.path (i!"S") []]) v1 ∧ r1 = []) := by kernel_rfl
  rw [e] at h
  obtain ⟨_, _, rfl, h0, _, _, rfl, h1, rfl⟩ := h
  obtain ⟨a0, rfl⟩ := is_Vector3 p _ 4 _ h0
  obtain ⟨a1, rfl⟩ := is_Vector3 p _ 4 _ h1
  have n : (Src.freeFn 5).name = (i!"shortest") := by kernel_rfl
  rw [n]
  exact ⟨_, C81_shortest_Vector3 p b a0 a1⟩

theorem free_5 (p : Prim) (b : Build) : FreeTotal S p b (Src.freeFn 5) := by
  intro tv htv args h
  have e : TyArgs (Src.freeFn 5) tv = (∃ i ∈ Src.crate.impls, ∃ l, i.trait = some ((i!"RelativeLength"), l) ∧
      tv = ((i!"T"), i.target) :: l.map fun u => ((i!"U"), u)) := by kernel_rfl
  rw [e] at htv
  have c := tyArgs_cases (i!"RelativeLength") _ tv htv
  have d : List.filterMap (tyArgsOf (i!"RelativeLength")) Src.crate.impls = [[((i!"T"), (.path (i!"S") []))], [((i!"T"), (.path (i!"Vector2") [.path (i!"S") []]))], [((i!"T"), (.path (i!"Vector3") [.path (i!"S") []]))]] := by kernel_rfl
  rw [d] at c
  simp only [List.mem_cons, List.not_mem_nil, or_false] at c
  rcases c with rfl | rfl | rfl
  · exact free_5_6 p b args h
  · exact free_5_14 p b args h
  · exact free_5_33 p b args h

theorem free_6_6 (p : Prim) (b : Build) (args : List (Val S))
    (h : ArgsAre Src.crate p.id [((i!"T"), (.path (i!"S") []))] (Src.freeFn 6).params args) :
    ∃ v, Src.free S p b (Src.freeFn 6).name args = .ok v .unit := by
  have e : ArgsAre Src.crate p.id [((i!"T"), (.path (i!"S") []))] (Src.freeFn 6).params args =
      (∃ v0 r0, args = v0 :: r0 ∧ Val.Is Src.crate p.id 9 (.path (i!"S") []) v0 ∧ ∃ v1 r1, r0 = v1 :: r1 ∧ Val.Is Src.crate p.id 9 (.path (i!"S") []) v1 ∧ r1 = []) := by kernel_rfl
  rw [e] at h
  obtain ⟨_, _, rfl, h0, _, _, rfl, h1, rfl⟩ := h
  obtain ⟨a0, rfl⟩ := is_S p _ 8 _ h0
  obtain ⟨a1, rfl⟩ := is_S p _ 8 _ h1
  have n : (Src.freeFn 6).name = (i!"longest") := by kernel_rfl
  rw [n]
  exact ⟨_, C81_longest_S p b a0 a1⟩

theorem free_6_14 (p : Prim) (b : Build) (args : List (Val S))
    (h : ArgsAre Src.crate p.id [((i!"T"), (.path (i!"Vector2") [.path (i!"S") []]))] (Src.freeFn 6).params args) :
    ∃ v, Src.free S p b (Src.freeFn 6).name args = .ok v .unit := by
  have e : ArgsAre Src.crate p.id [((i!"T"), (.path (i!"Vector2") [.path (i!"S") []]))] (Src.freeFn 6).params args =
      (∃ v0 r0, args = v0 :: r0 ∧ Val.Is Src.crate p.id 9 (.path (i!"Vector2") [.path (i!"S") []]) v0 ∧ ∃ v1 r1, r0 = v1 :: r1 ∧ Val.Is Src.crate p.id 9 (.path (i!"Vector2") [.path (i!"S") []]) v1 ∧ r1 = []) := by kernel_rfl
  rw [e] at h
  obtain ⟨_, _, rfl, h0, _, _, rfl, h1, rfl⟩ := h
  obtain ⟨a0, rfl⟩ := is_Vector2 p _ 4 _ h0
  obtain ⟨a1, rfl⟩ := is_Vector2 p _ 4 _ h1
  have n : (Src.freeFn 6).name = (i!"longest") := by kernel_rfl
  rw [n]
  exact ⟨_, C81_longest_Vector2 p b a0 a1⟩

theorem free_6_33 (p : Prim) (b : Build) (args : List (Val S))
    (h : ArgsAre Src.crate p.id [((i!"T"), (.path (i!"Vector3") [.path (i!"S") []]))] (Src.freeFn 6).params args) :
    ∃ v, Src.free S p b (Src.freeFn 6).name args = .ok v .unit := by
  have e : ArgsAre Src.crate p.id [((i!"T"), (.path (i!"Vector3") [.path (i!"S") []]))] (Src.freeFn 6).params args =
      (∃ v0 r0, args = v0 :: r0 ∧ Val.Is Src.crate p.id 9 (.path (i!"Vector3") [.path (i!"S") []]) v0 ∧ ∃ v1 r1, r0 = v1 :: r1 ∧ Val.Is Src.crate p.id 9 (.path (i!"Vector3") [.path (i!"S") []]) v1 ∧ r1 = []) := by kernel_rfl
  rw [e] at h
  obtain ⟨_, _, rfl, h0, _, _, rfl, h1, rfl⟩ := h
  obtain ⟨a0, rfl⟩ := is_Vector3 p _ 4 _ h0
  obtain ⟨a1, rfl⟩ := is_Vector3 p _ 4 _ h1
  have n : (Src.freeFn 6).name = (i!"longest") := by kernel_rfl
  rw [n]
  exact ⟨_, C81_longest_Vector3 p b a0 a1⟩

theorem free_6 (p : Prim) (b : Build) : FreeTotal S p b (Src.freeFn 6) := by
  intro tv htv args h
  have e : TyArgs (Src.freeFn 6) tv = (∃ i ∈ Src.crate.impls, ∃ l, i.trait = some ((i!"RelativeLength"), l) ∧
      tv = ((i!"T"), i.target) :: l.map fun u => ((i!"U"), u)) := by kernel_rfl
  rw [e] at htv
  have c := tyArgs_cases (i!"RelativeLength") _ tv htv
  have d : List.filterMap (tyArgsOf (i!"RelativeLength")) Src.crate.impls = [[((i!"T"), (.path (i!"S") []))], [((i!"T"), (.path (i!"Vector2") [.path (i!"S") []]))], [((i!"T"), (.path (i!"Vector3") [.path (i!"S") []]))]] := by kernel_rfl
  rw [d] at c
  simp only [List.mem_cons, List.not_mem_nil, or_false] at c
  rcases c with rfl | rfl | rfl
  · exact free_6_6 p b args h
  · exact free_6_14 p b args h
  · exact free_6_33 p b args h

theorem free_7_7 (p : Prim) (b : Build) (args : List (Val S))
    (h : ArgsAre Src.crate p.id [((i!"T"), (.path (i!"S") []))] (Src.freeFn 7).params args) :
    ∃ v, Src.free S p b (Src.freeFn 7).name args = .ok v .unit := by
  have e : ArgsAre Src.crate p.id [((i!"T"), (.path (i!"S") []))] (Src.freeFn 7).params args =
      (∃ v0 r0, args = v0 :: r0 ∧ Val.Is Src.crate p.id 9 (.path (i!"S") []) v0 ∧ ∃ v1 r1, r0 = v1 :: r1 ∧ Val.Is Src.crate p.id 9 (.path (i!"S") []) v1 ∧ r1 = []) := by kernel_rfl
  rw [e] at h
  obtain ⟨_, _, rfl, h0, _, _, rfl, h1, rfl⟩ := h
  obtain ⟨a0, rfl⟩ := is_S p _ 8 _ h0
  obtain ⟨a1, rfl⟩ := is_S p _ 8 _ h1
  have n : (Src.freeFn 7).name = (i!"distance") := by kernel_rfl
  rw [n]
  exact ⟨_, C81_distance_S p b a0 a1⟩

theorem free_7_52 (p : Prim) (b : Build) (args : List (Val S))
    (h : ArgsAre Src.crate p.id [((i!"T"), (.path (i!"Point2") [.path (i!"S") []]))] (Src.freeFn 7).params args) :
    ∃ v, Src.free S p b (Src.freeFn 7).name args = .ok v .unit := by
  have e : ArgsAre Src.crate p.id [((i!"T"), (.path (i!"Point2") [.path (i!"S") []]))] (Src.freeFn 7).params args =
      (∃ v0 r0, args = v0 :: r0 ∧ Val.Is Src.crate p.id 9 (.path (i!"Point2") [.path (i!"S") []]) v0 ∧ ∃ v1 r1, r0 = v1 :: r1 ∧ Val.Is Src.crate p.id 9 (.path (i!"Point2") [.path (i!"S") []]) v1 ∧ r1 = []) := by kernel_rfl
  rw [e] at h
  obtain ⟨_, _, rfl, h0, _, _, rfl, h1, rfl⟩ := h
  obtain ⟨a0, rfl⟩ := is_Point2 p _ 4 _ h0
  obtain ⟨a1, rfl⟩ := is_Point2 p _ 4 _ h1
  have n : (Src.freeFn 7).name = (i!"distance") := by kernel_rfl
  rw [n]
  exact ⟨_, C81_distance_Point2 p b a0 a1⟩

theorem free_7_71 (p : Prim) (b : Build) (args : List (Val S))
    (h : ArgsAre Src.crate p.id [((i!"T"), (.path (i!"Point3") [.path (i!"S") []]))] (Src.freeFn 7).params args) :
    ∃ v, Src.free S p b (Src.freeFn 7).name args = .ok v .unit := by
  have e : ArgsAre Src.crate p.id [((i!"T"), (.path (i!"Point3") [.path (i!"S") []]))] (Src.freeFn 7).params args =
      (∃ v0 r0, args = v0 :: r0 ∧ Val.Is Src.crate p.id 9 (.path (i!"Point3") [.path (i!"S") []]) v0 ∧ ∃ v1 r1, r0 = v1 :: r1 ∧ Val.Is Src.crate p.id 9 (.path (i!"Point3") [.path (i!"S") []]) v1 ∧ r1 = []) := by kernel_rfl
  rw [e] at h
  obtain ⟨_, _, rfl, h0, _, _, rfl, h1, rfl⟩ := h
  obtain ⟨a0, rfl⟩ := is_Point3 p _ 4 _ h0
  obtain ⟨a1, rfl⟩ := is_Point3 p _ 4 _ h1
  have n : (Src.freeFn 7).name = (i!"distance") := by kernel_rfl
  rw [n]
  exact ⟨_, C81_distance_Point3 p b a0 a1⟩

theorem free_7 (p : Prim) (b : Build) : FreeTotal S p b (Src.freeFn 7) := by
  intro tv htv args h
  have e : TyArgs (Src.freeFn 7) tv = (∃ i ∈ Src.crate.impls, ∃ l, i.trait = some ((i!"Distance"), l) ∧
      tv = ((i!"T"), i.target) :: l.map fun u => ((i!"U"), u)) := by kernel_rfl
  rw [e] at htv
  have c := tyArgs_cases (i!"Distance") _ tv htv
  have d : List.filterMap (tyArgsOf (i!"Distance")) Src.crate.impls = [[((i!"T"), (.path (i!"S") []))], [((i!"T"), (.path (i!"Point2") [.path (i!"S") []]))], [((i!"T"), (.path (i!"Point3") [.path (i!"S") []]))]] := by kernel_rfl
  rw [d] at c
  simp only [List.mem_cons, List.not_mem_nil, or_false] at c
  rcases c with rfl | rfl | rfl
  · exact free_7_7 p b args h
  · exact free_7_52 p b args h
  · exact free_7_71 p b args h

theorem free_8_8 (p : Prim) (b : Build) (args : List (Val S))
    (h : ArgsAre Src.crate p.id [((i!"T"), (.path (i!"S") []))] (Src.freeFn 8).params args) :
    ∃ v, Src.free S p b (Src.freeFn 8).name args = .ok v .unit := by
  have e : ArgsAre Src.crate p.id [((i!"T"), (.path (i!"S") []))] (Src.freeFn 8).params args =
      (∃ v0 r0, args = v0 :: r0 ∧ Val.Is Src.crate p.id 9 (.path (i!"S") []) v0 ∧ ∃ v1 r1, r0 = v1 :: r1 ∧ Val.Is Src.crate p.id 9 (.path (i!"S") []) v1 ∧ ∃ v2 r2, r1 = v2 :: r2 ∧ Val.Is Src.crate p.id 9 (.path (i!"S") []) v2 ∧ r2 = []) := by kernel_rfl
  rw [e] at h
  obtain ⟨_, _, rfl, h0, _, _, rfl, h1, _, _, rfl, h2, rfl⟩ := h
  obtain ⟨a0, rfl⟩ := is_S p _ 8 _ h0
  obtain ⟨a1, rfl⟩ := is_S p _ 8 _ h1
  obtain ⟨a2, rfl⟩ := is_S p _ 8 _ h2
  have n : (Src.freeFn 8).name = (i!"closest") := by kernel_rfl
  rw [n]
  exact ⟨_, C81_closest_S p b a0 a1 a2⟩

theorem free_8_53 (p : Prim) (b : Build) (args : List (Val S))
    (h : ArgsAre Src.crate p.id [((i!"T"), (.path (i!"Point2") [.path (i!"S") []]))] (Src.freeFn 8).params args) :
    ∃ v, Src.free S p b (Src.freeFn 8).name args = .ok v .unit := by
  have e : ArgsAre Src.crate p.id [((i!"T"), (.path (i!"Point2") [.path (i!"S") []]))] (Src.freeFn 8).params args =
      (∃ v0 r0, args = v0 :: r0 ∧ Val.Is Src.crate p.id 9 (.path (i!"Point2") [.path (i!"S") []]) v0 ∧ ∃ v1 r1, r0 = v1 :: r1 ∧ Val.Is Src.crate p.id 9 (.path (i!"Point2") [.path (i!"S") []]) v1 ∧ ∃ v2 r2, r1 = v2 :: r2 ∧ Val.Is Src.crate p.id 9 (.path (i!"Point2") [.path (i!"S") []]) v2 ∧ r2 = []) := by kernel_rfl
  rw [e] at h
  obtain ⟨_, _, rfl, h0, _, _, rfl, h1, _, _, rfl, h2, rfl⟩ := h
  obtain ⟨a0, rfl⟩ := is_Point2 p _ 4 _ h0
  obtain ⟨a1, rfl⟩ := is_Point2 p _ 4 _ h1
  obtain ⟨a2, rfl⟩ := is_Point2 p _ 4 _ h2
  have n : (Src.freeFn 8).name = (i!"closest") := by kernel_rfl
  rw [n]
  exact ⟨_, C81_closest_Point2 p b a0 a1 a2⟩

theorem free_8_72 (p : Prim) (b : Build) (args : List (Val S))
    (h : ArgsAre Src.crate p.id [((i!"T"), (.path (i!"Point3") [.path (i!"S") []]))] (Src.freeFn 8).params args) :
    ∃ v, Src.free S p b (Src.freeFn 8).name args = .ok v .unit := by
  have e : ArgsAre Src.crate p.id [((i!"T"), (.path (i!"Point3") [.path (i!"S") []]))] (Src.freeFn 8).params args =
      (∃ v0 r0, args = v0 :: r0 ∧ Val.Is Src.crate p.id 9 (.path (i!"Point3") [.path (i!"S") []]) v0 ∧ ∃ v1 r1, r0 = v1 :: r1 ∧ Val.Is Src.crate p.id 9 (.path (i!"Point3") [.path (i!"S") []]) v1 ∧ ∃ v2 r2, r1 = v2 :: r2 ∧ Val.Is Src.crate p.id 9 (.path (i!"Point3") [.path (i!"S") []]) v2 ∧ r2 = []) := by kernel_rfl
  rw [e] at h
  obtain ⟨_, _, rfl, h0, _, _, rfl, h1, _, _, rfl, h2, rfl⟩ := h
  obtain ⟨a0, rfl⟩ := is_Point3 p _ 4 _ h0
  obtain ⟨a1, rfl⟩ := is_Point3 p _ 4 _ h1
  obtain ⟨a2, rfl⟩ := is_Point3 p _ 4 _ h2
  have n : (Src.freeFn 8).name = (i!"closest") := by kernel_rfl
  rw [n]
  exact ⟨_, C81_closest_Point3 p b a0 a1 a2⟩

theorem free_8 (p : Prim) (b : Build) : FreeTotal S p b (Src.freeFn 8) := by
  intro tv htv args h
  have e : TyArgs (Src.freeFn 8) tv = (∃ i ∈ Src.crate.impls, ∃ l, i.trait = some ((i!"RelativeDistance"), l) ∧
      tv = ((i!"T"), i.target) :: l.map fun u => ((i!"U"), u)) := by kernel_rfl
  rw [e] at htv
  have c := tyArgs_cases (i!"RelativeDistance") _ tv htv
  have d : List.filterMap (tyArgsOf (i!"RelativeDistance")) Src.crate.impls = [[((i!"T"), (.path (i!"S") []))], [((i!"T"), (.path (i!"Point2") [.path (i!"S") []]))], [((i!"T"), (.path (i!"Point3") [.path (i!"S") []]))]] := by kernel_rfl
  rw [d] at c
  simp only [List.mem_cons, List.not_mem_nil, or_false] at c
  rcases c with rfl | rfl | rfl
  · exact free_8_8 p b args h
  · exact free_8_53 p b args h
  · exact free_8_72 p b args h

theorem free_9_8 (p : Prim) (b : Build) (args : List (Val S))
    (h : ArgsAre Src.crate p.id [((i!"T"), (.path (i!"S") []))] (Src.freeFn 9).params args) :
    ∃ v, Src.free S p b (Src.freeFn 9).name args = .ok v .unit := by
  have e : ArgsAre Src.crate p.id [((i!"T"), (.path (i!"S") []))] (Src.freeFn 9).params args =
      (∃ v0 r0, args = v0 :: r0 ∧ Val.Is Src.crate p.id 9 (.path (i!"S") []) v0 ∧ ∃ v1 r1, r0 = v1 :: r1 ∧ Val.Is Src.crate p.id 9 (.path (i!"S") []) v1 ∧ ∃ v2 r2, r1 = v2 :: r2 ∧ Val.Is Src.crate p.id 9 (.path (i!"S") []) v2 ∧ r2 = []) := by kernel_rfl
  rw [e] at h
  obtain ⟨_, _, rfl, h0, _, _, rfl, h1, _, _, rfl, h2, rfl⟩ := h
  obtain ⟨a0, rfl⟩ := is_S p _ 8 _ h0
  obtain ⟨a1, rfl⟩ := is_S p _ 8 _ h1
  obtain ⟨a2, rfl⟩ := is_S p _ 8 _ h2
  have n : (Src.freeFn 9).name = (i!"farthest") := by kernel_rfl
  rw [n]
  exact ⟨_, C81_farthest_S p b a0 a1 a2⟩

theorem free_9_53 (p : Prim) (b : Build) (args : List (Val S))
    (h : ArgsAre Src.crate p.id [((i!"T"), (.path (i!"Point2") [.path (i!"S") []]))] (Src.freeFn 9).params args) :
    ∃ v, Src.free S p b (Src.freeFn 9).name args = .ok v .unit := by
  have e : ArgsAre Src.crate p.id [((i!"T"), (.path (i!"Point2") [.path (i!"S") []]))] (Src.freeFn 9).params args =
      (∃ v0 r0, args = v0 :: r0 ∧ Val.Is Src.crate p.id 9 (.path (i!"Point2") [.path (i!"S") []]) v0 ∧ ∃ v1 r1, r0 = v1 :: r1 ∧ Val.Is Src.crate p.id 9 (.path (i!"Point2") [.path (i!"S") []]) v1 ∧ ∃ v2 r2, r1 = v2 :: r2 ∧ Val.Is Src.crate p.id 9 (.path (i!"Point2") [.path (i!"S") []]) v2 ∧ r2 = []) := by kernel_rfl
  rw [e] at h
  obtain ⟨_, _, rfl, h0, _, _, rfl, h1, _, _, rfl, h2, rfl⟩ := h
  obtain ⟨a0, rfl⟩ := is_Point2 p _ 4 _ h0
  obtain ⟨a1, rfl⟩ := is_Point2 p _ 4 _ h1
  obtain ⟨a2, rfl⟩ := is_Point2 p _ 4 _ h2
  have n : (Src.freeFn 9).name = (i!"farthest") := by kernel_rfl
  rw [n]
  exact ⟨_, C81_farthest_Point2 p b a0 a1 a2⟩

theorem free_9_72 (p : Prim) (b : Build) (args : List (Val S))
    (h : ArgsAre Src.crate p.id [((i!"T"), (.path (i!"Point3") [.path (i!"S") []]))] (Src.freeFn 9).params args) :
    ∃ v, Src.free S p b (Src.freeFn 9).name args = .ok v .unit := by
  have e : ArgsAre Src.crate p.id [((i!"T"), (.path (i!"Point3") [.path (i!"S") []]))] (Src.freeFn 9).params args =
      (∃ v0 r0, args = v0 :: r0 ∧ Val.Is Src.crate p.id 9 (.path (i!"Point3") [.path (i!"S") []]) v0 ∧ ∃ v1 r1, r0 = v1 :: r1 ∧ Val.Is Src.crate p.id 9 (.path (i!"Point3") [.path (i!"S") []]) v1 ∧ ∃ v2 r2, r1 = v2 :: r2 ∧ Val.Is Src.crate p.id 9 (.path (i!"Point3") [.path (i!"S") []]) v2 ∧ r2 = []) := by kernel_rfl
  rw [e] at h
  obtain ⟨_, _, rfl, h0, _, _, rfl, h1, _, _, rfl, h2, rfl⟩ := h
  obtain ⟨a0, rfl⟩ := is_Point3 p _ 4 _ h0
  obtain ⟨a1, rfl⟩ := is_Point3 p _ 4 _ h1
  obtain ⟨a2, rfl⟩ := is_Point3 p _ 4 _ h2
  have n : (Src.freeFn 9).name = (i!"farthest") := by kernel_rfl
  rw [n]
  exact ⟨_, C81_farthest_Point3 p b a0 a1 a2⟩

theorem free_9 (p : Prim) (b : Build) : FreeTotal S p b (Src.freeFn 9) := by
  intro tv htv args h
  have e : TyArgs (Src.freeFn 9) tv = (∃ i ∈ Src.crate.impls, ∃ l, i.trait = some ((i!"RelativeDistance"), l) ∧
      tv = ((i!"T"), i.target) :: l.map fun u => ((i!"U"), u)) := by kernel_rfl
  rw [e] at htv
  have c := tyArgs_cases (i!"RelativeDistance") _ tv htv
  have d : List.filterMap (tyArgsOf (i!"RelativeDistance")) Src.crate.impls = [[((i!"T"), (.path (i!"S") []))], [((i!"T"), (.path (i!"Point2") [.path (i!"S") []]))], [((i!"T"), (.path (i!"Point3") [.path (i!"S") []]))]] := by kernel_rfl
  rw [d] at c
  simp only [List.mem_cons, List.not_mem_nil, or_false] at c
  rcases c with rfl | rfl | rfl
  · exact free_9_8 p b args h
  · exact free_9_53 p b args h
  · exact free_9_72 p b args h

theorem free_10_89 (p : Prim) (b : Build) (args : List (Val S))
    (h : ArgsAre Src.crate p.id [((i!"T"), (.path (i!"BoundingBox2") [.path (i!"S") []])), ((i!"U"), (.path (i!"BoundingBox2") [.path (i!"S") []]))] (Src.freeFn 10).params args) :
    ∃ v, Src.free S p b (Src.freeFn 10).name args = .ok v .unit := by
  have e : ArgsAre Src.crate p.id [((i!"T"), (.path (i!"BoundingBox2") [.path (i!"S") []])), ((i!"U"), (.path (i!"BoundingBox2") [.path (i!"S") []]))] (Src.freeFn 10).params args =
      (∃ v0 r0, args = v0 :: r0 ∧ Val.Is Src.crate p.id 9 (.path (i!"BoundingBox2") [.path (i!"S") []]) v0 ∧ ∃ v1 r1, r0 = v1 :: r1 ∧ Val.Is Src.crate p.id 9 (.path (i!"BoundingBox2") [.path (i!"S") []]) v1 ∧ r1 = []) := by kernel_rfl
  rw [e] at h
  obtain ⟨_, _, rfl, h0, _, _, rfl, h1, rfl⟩ := h
  obtain ⟨a0, rfl⟩ := is_BoundingBox2 p _ 3 _ h0
  obtain ⟨a1, rfl⟩ := is_BoundingBox2 p _ 3 _ h1
  have n : (Src.freeFn 10).name = (i!"union") := by kernel_rfl
  rw [n]
  exact ⟨_, C81_union_BoundingBox2 p b a0 a1⟩

theorem free_10_90 (p : Prim) (b : Build) (args : List (Val S))
    (h : ArgsAre Src.crate p.id [((i!"T"), (.path (i!"BoundingBox2") [.path (i!"S") []])), ((i!"U"), (.path (i!"Point2") [.path (i!"S") []]))] (Src.freeFn 10).params args) :
    ∃ v, Src.free S p b (Src.freeFn 10).name args = .ok v .unit := by
  have e : ArgsAre Src.crate p.id [((i!"T"), (.path (i!"BoundingBox2") [.path (i!"S") []])), ((i!"U"), (.path (i!"Point2") [.path (i!"S") []]))] (Src.freeFn 10).params args =
      (∃ v0 r0, args = v0 :: r0 ∧ Val.Is Src.crate p.id 9 (.path (i!"BoundingBox2") [.path (i!"S") []]) v0 ∧ ∃ v1 r1, r0 = v1 :: r1 ∧ Val.Is Src.crate p.id 9 (.path (i!"Point2") [.path (i!"S") []]) v1 ∧ r1 = []) := by kernel_rfl
  rw [e] at h
  obtain ⟨_, _, rfl, h0, _, _, rfl, h1, rfl⟩ := h
  obtain ⟨a0, rfl⟩ := is_BoundingBox2 p _ 3 _ h0
  obtain ⟨a1, rfl⟩ := is_Point2 p _ 4 _ h1
  have n : (Src.freeFn 10).name = (i!"union") := by kernel_rfl
  rw [n]
  exact ⟨_, C81_union_BoundingBox2_point p b a0 a1⟩

theorem free_10_94 (p : Prim) (b : Build) (args : List (Val S))
    (h : ArgsAre Src.crate p.id [((i!"T"), (.path (i!"BoundingBox3") [.path (i!"S") []])), ((i!"U"), (.path (i!"BoundingBox3") [.path (i!"S") []]))] (Src.freeFn 10).params args) :
    ∃ v, Src.free S p b (Src.freeFn 10).name args = .ok v .unit := by
  have e : ArgsAre Src.crate p.id [((i!"T"), (.path (i!"BoundingBox3") [.path (i!"S") []])), ((i!"U"), (.path (i!"BoundingBox3") [.path (i!"S") []]))] (Src.freeFn 10).params args =
      (∃ v0 r0, args = v0 :: r0 ∧ Val.Is Src.crate p.id 9 (.path (i!"BoundingBox3") [.path (i!"S") []]) v0 ∧ ∃ v1 r1, r0 = v1 :: r1 ∧ Val.Is Src.crate p.id 9 (.path (i!"BoundingBox3") [.path (i!"S") []]) v1 ∧ r1 = []) := by kernel_rfl
  rw [e] at h
  obtain ⟨_, _, rfl, h0, _, _, rfl, h1, rfl⟩ := h
  obtain ⟨a0, rfl⟩ := is_BoundingBox3 p _ 3 _ h0
  obtain ⟨a1, rfl⟩ := is_BoundingBox3 p _ 3 _ h1
  have n : (Src.freeFn 10).name = (i!"union") := by kernel_rfl
  rw [n]
  exact ⟨_, C81_union_BoundingBox3 p b a0 a1⟩

theorem free_10_95 (p : Prim) (b : Build) (args : List (Val S))
    (h : ArgsAre Src.crate p.id [((i!"T"), (.path (i!"BoundingBox3") [.path (i!"S") []])), ((i!"U"), (.path (i!"Point3") [.path (i!"S") []]))] (Src.freeFn 10).params args) :
    ∃ v, Src.free S p b (Src.freeFn 10).name args = .ok v .unit := by
  have e : ArgsAre Src.crate p.id [((i!"T"), (.path (i!"BoundingBox3") [.path (i!"S") []])), ((i!"U"), (.path (i!"Point3") [.path (i!"S") []]))] (Src.freeFn 10).params args =
      (∃ v0 r0, args = v0 :: r0 ∧ Val.Is Src.crate p.id 9 (.path (i!"BoundingBox3") [.path (i!"S") []]) v0 ∧ ∃ v1 r1, r0 = v1 :: r1 ∧ Val.Is Src.crate p.id 9 (.path (i!"Point3") [.path (i!"S") []]) v1 ∧ r1 = []) := by kernel_rfl
  rw [e] at h
  obtain ⟨_, _, rfl, h0, _, _, rfl, h1, rfl⟩ := h
  obtain ⟨a0, rfl⟩ := is_BoundingBox3 p _ 3 _ h0
  obtain ⟨a1, rfl⟩ := is_Point3 p _ 4 _ h1
  have n : (Src.freeFn 10).name = (i!"union") := by kernel_rfl
  rw [n]
  exact ⟨_, C81_union_BoundingBox3_point p b a0 a1⟩

theorem free_10 (p : Prim) (b : Build) : FreeTotal S p b (Src.freeFn 10) := by
  intro tv htv args h
  have e : TyArgs (Src.freeFn 10) tv = (∃ i ∈ Src.crate.impls, ∃ l, i.trait = some ((i!"Union"), l) ∧
      tv = ((i!"T"), i.target) :: l.map fun u => ((i!"U"), u)) := by kernel_rfl
  rw [e] at htv
  have c := tyArgs_cases (i!"Union") _ tv htv
  have d : List.filterMap (tyArgsOf (i!"Union")) Src.crate.impls = [[((i!"T"), (.path (i!"BoundingBox2") [.path (i!"S") []])), ((i!"U"), (.path (i!"BoundingBox2") [.path (i!"S") []]))], [((i!"T"), (.path (i!"BoundingBox2") [.path (i!"S") []])), ((i!"U"), (.path (i!"Point2") [.path (i!"S") []]))], [((i!"T"), (.path (i!"BoundingBox3") [.path (i!"S") []])), ((i!"U"), (.path (i!"BoundingBox3") [.path (i!"S") []]))], [((i!"T"), (.path (i!"BoundingBox3") [.path (i!"S") []])), ((i!"U"), (.path (i!"Point3") [.path (i!"S") []]))]] := by kernel_rfl
  rw [d] at c
  simp only [List.mem_cons, List.not_mem_nil, or_false] at c
  rcases c with rfl | rfl | rfl | rfl
  · exact free_10_89 p b args h
  · exact free_10_90 p b args h
  · exact free_10_94 p b args h
  · exact free_10_95 p b args h

theorem free_11_91 (p : Prim) (b : Build) (args : List (Val S))
    (h : ArgsAre Src.crate p.id [((i!"T"), (.path (i!"BoundingBox2") [.path (i!"S") []])), ((i!"U"), (.path (i!"BoundingBox2") [.path (i!"S") []]))] (Src.freeFn 11).params args) :
    ∃ v, Src.free S p b (Src.freeFn 11).name args = .ok v .unit := by
  have e : ArgsAre Src.crate p.id [((i!"T"), (.path (i!"BoundingBox2") [.path (i!"S") []])), ((i!"U"), (.path (i!"BoundingBox2") [.path (i!"S") []]))] (Src.freeFn 11).params args =
      (∃ v0 r0, args = v0 :: r0 ∧ Val.Is Src.crate p.id 9 (.path (i!"BoundingBox2") [.path (i!"S") []]) v0 ∧ ∃ v1 r1, r0 = v1 :: r1 ∧ Val.Is Src.crate p.id 9 (.path (i!"BoundingBox2") [.path (i!"S") []]) v1 ∧ r1 = []) := by kernel_rfl
  rw [e] at h
  obtain ⟨_, _, rfl, h0, _, _, rfl, h1, rfl⟩ := h
  obtain ⟨a0, rfl⟩ := is_BoundingBox2 p _ 3 _ h0
  obtain ⟨a1, rfl⟩ := is_BoundingBox2 p _ 3 _ h1
  have n : (Src.freeFn 11).name = (i!"intersect") := by kernel_rfl
  rw [n]
  exact ⟨_, C81_intersect_BoundingBox2 p b a0 a1⟩

theorem free_11_92 (p : Prim) (b : Build) (args : List (Val S))
    (h : ArgsAre Src.crate p.id [((i!"T"), (.path (i!"BoundingBox2") [.path (i!"S") []])), ((i!"U"), (.path (i!"Ray2") [.path (i!"S") []]))] (Src.freeFn 11).params args) :
    ∃ v, Src.free S p b (Src.freeFn 11).name args = .ok v .unit := by
  have e : ArgsAre Src.crate p.id [((i!"T"), (.path (i!"BoundingBox2") [.path (i!"S") []])), ((i!"U"), (.path (i!"Ray2") [.path (i!"S") []]))] (Src.freeFn 11).params args =
      (∃ v0 r0, args = v0 :: r0 ∧ Val.Is Src.crate p.id 9 (.path (i!"BoundingBox2") [.path (i!"S") []]) v0 ∧ ∃ v1 r1, r0 = v1 :: r1 ∧ Val.Is Src.crate p.id 9 (.path (i!"Ray2") [.path (i!"S") []]) v1 ∧ r1 = []) := by kernel_rfl
  rw [e] at h
  obtain ⟨_, _, rfl, h0, _, _, rfl, h1, rfl⟩ := h
  obtain ⟨a0, rfl⟩ := is_BoundingBox2 p _ 3 _ h0
  obtain ⟨a1, rfl⟩ := is_Ray2 p _ 3 _ h1
  have n : (Src.freeFn 11).name = (i!"intersect") := by kernel_rfl
  rw [n]
  exact ⟨_, C81_intersect_ray_BoundingBox2 p b a0 a1⟩

theorem free_11_96 (p : Prim) (b : Build) (args : List (Val S))
    (h : ArgsAre Src.crate p.id [((i!"T"), (.path (i!"BoundingBox3") [.path (i!"S") []])), ((i!"U"), (.path (i!"BoundingBox3") [.path (i!"S") []]))] (Src.freeFn 11).params args) :
    ∃ v, Src.free S p b (Src.freeFn 11).name args = .ok v .unit := by
  have e : ArgsAre Src.crate p.id [((i!"T"), (.path (i!"BoundingBox3") [.path (i!"S") []])), ((i!"U"), (.path (i!"BoundingBox3") [.path (i!"S") []]))] (Src.freeFn 11).params args =
      (∃ v0 r0, args = v0 :: r0 ∧ Val.Is Src.crate p.id 9 (.path (i!"BoundingBox3") [.path (i!"S") []]) v0 ∧ ∃ v1 r1, r0 = v1 :: r1 ∧ Val.Is Src.crate p.id 9 (.path (i!"BoundingBox3") [.path (i!"S") []]) v1 ∧ r1 = []) := by kernel_rfl
  rw [e] at h
  obtain ⟨_, _, rfl, h0, _, _, rfl, h1, rfl⟩ := h
  obtain ⟨a0, rfl⟩ := is_BoundingBox3 p _ 3 _ h0
  obtain ⟨a1, rfl⟩ := is_BoundingBox3 p _ 3 _ h1
  have n : (Src.freeFn 11).name = (i!"intersect") := by kernel_rfl
  rw [n]
  exact ⟨_, C81_intersect_BoundingBox3 p b a0 a1⟩

theorem free_11_97 (p : Prim) (b : Build) (args : List (Val S))
    (h : ArgsAre Src.crate p.id [((i!"T"), (.path (i!"BoundingBox3") [.path (i!"S") []])), ((i!"U"), (.path (i!"Ray3") [.path (i!"S") []]))] (Src.freeFn 11).params args) :
    ∃ v, Src.free S p b (Src.freeFn 11).name args = .ok v .unit := by
  have e : ArgsAre Src.crate p.id [((i!"T"), (.path (i!"BoundingBox3") [.path (i!"S") []])), ((i!"U"), (.path (i!"Ray3") [.path (i!"S") []]))] (Src.freeFn 11).params args =
      (∃ v0 r0, args = v0 :: r0 ∧ Val.Is Src.crate p.id 9 (.path (i!"BoundingBox3") [.path (i!"S") []]) v0 ∧ ∃ v1 r1, r0 = v1 :: r1 ∧ Val.Is Src.crate p.id 9 (.path (i!"Ray3") [.path (i!"S") []]) v1 ∧ r1 = []) := by kernel_rfl
  rw [e] at h
  obtain ⟨_, _, rfl, h0, _, _, rfl, h1, rfl⟩ := h
  obtain ⟨a0, rfl⟩ := is_BoundingBox3 p _ 3 _ h0
  obtain ⟨a1, rfl⟩ := is_Ray3 p _ 3 _ h1
  have n : (Src.freeFn 11).name = (i!"intersect") := by kernel_rfl
  rw [n]
  exact ⟨_, C81_intersect_ray_BoundingBox3 p b a0 a1⟩

theorem free_11 (p : Prim) (b : Build) : FreeTotal S p b (Src.freeFn 11) := by
  intro tv htv args h
  have e : TyArgs (Src.freeFn 11) tv = (∃ i ∈ Src.crate.impls, ∃ l, i.trait = some ((i!"Intersection"), l) ∧
      tv = ((i!"T"), i.target) :: l.map fun u => ((i!"U"), u)) := by kernel_rfl
  rw [e] at htv
  have c := tyArgs_cases (i!"Intersection") _ tv htv
  have d : List.filterMap (tyArgsOf (i!"Intersection")) Src.crate.impls = [[((i!"T"), (.path (i!"BoundingBox2") [.path (i!"S") []])), ((i!"U"), (.path (i!"BoundingBox2") [.path (i!"S") []]))], [((i!"T"), (.path (i!"BoundingBox2") [.path (i!"S") []])), ((i!"U"), (.path (i!"Ray2") [.path (i!"S") []]))], [((i!"T"), (.path (i!"BoundingBox3") [.path (i!"S") []])), ((i!"U"), (.path (i!"BoundingBox3") [.path (i!"S") []]))], [((i!"T"), (.path (i!"BoundingBox3") [.path (i!"S") []])), ((i!"U"), (.path (i!"Ray3") [.path (i!"S") []]))]] := by kernel_rfl
  rw [d] at c
  simp only [List.mem_cons, List.not_mem_nil, or_false] at c
  rcases c with rfl | rfl | rfl | rfl
  · exact free_11_91 p b args h
  · exact free_11_92 p b args h
  · exact free_11_96 p b args h
  · exact free_11_97 p b args h

theorem free_12_0 (p : Prim) (b : Build) (args : List (Val S))
    (h : ArgsAre Src.crate p.id [] (Src.freeFn 12).params args) :
    ∃ v, Src.free S p b (Src.freeFn 12).name args = .ok v .unit := by
  have e : ArgsAre Src.crate p.id [] (Src.freeFn 12).params args =
      (∃ v0 r0, args = v0 :: r0 ∧ Val.Is Src.crate p.id 9 (.path (i!"S") []) v0 ∧ ∃ v1 r1, r0 = v1 :: r1 ∧ Val.Is Src.crate p.id 9 (.path (i!"S") []) v1 ∧ r1 = []) := by kernel_rfl
  rw [e] at h
  obtain ⟨_, _, rfl, h0, _, _, rfl, h1, rfl⟩ := h
  obtain ⟨a0, rfl⟩ := is_S p _ 8 _ h0
  obtain ⟨a1, rfl⟩ := is_S p _ 8 _ h1
  have n : (Src.freeFn 12).name = (i!"vector2") := by kernel_rfl
  rw [n]
  exact ⟨_, C81_vector2 p b a0 a1⟩

theorem free_12 (p : Prim) (b : Build) : FreeTotal S p b (Src.freeFn 12) := by
  intro tv htv args h
  have e : TyArgs (Src.freeFn 12) tv = (tv = []) := by kernel_rfl
  rw [e] at htv; subst htv
  exact free_12_0 p b args h

theorem free_13_0 (p : Prim) (b : Build) (args : List (Val S))
    (h : ArgsAre Src.crate p.id [] (Src.freeFn 13).params args) :
    ∃ v, Src.free S p b (Src.freeFn 13).name args = .ok v .unit := by
  have e : ArgsAre Src.crate p.id [] (Src.freeFn 13).params args =
      (∃ v0 r0, args = v0 :: r0 ∧ Val.Is Src.crate p.id 9 (.path (i!"f32") []) v0 ∧ ∃ v1 r1, r0 = v1 :: r1 ∧ Val.Is Src.crate p.id 9 (.path (i!"f32") []) v1 ∧ r1 = []) := by kernel_rfl
  rw [e] at h
  obtain ⟨_, _, rfl, h0, _, _, rfl, h1, rfl⟩ := h
  obtain ⟨rfl, a0, rfl⟩ := is_f32 p _ 8 _ h0
  obtain ⟨-, a1, rfl⟩ := is_f32 .f32 _ 8 _ h1
  have n : (Src.freeFn 13).name = (i!"vector2f") := by kernel_rfl
  rw [n]
  exact ⟨_, C81_vector2f b a0 a1⟩

theorem free_13 (p : Prim) (b : Build) : FreeTotal S p b (Src.freeFn 13) := by
  intro tv htv args h
  have e : TyArgs (Src.freeFn 13) tv = (tv = []) := by kernel_rfl
  rw [e] at htv; subst htv
  exact free_13_0 p b args h

theorem free_14_0 (p : Prim) (b : Build) (args : List (Val S))
    (h : ArgsAre Src.crate p.id [] (Src.freeFn 14).params args) :
    ∃ v, Src.free S p b (Src.freeFn 14).name args = .ok v .unit := by
  have e : ArgsAre Src.crate p.id [] (Src.freeFn 14).params args =
      (∃ v0 r0, args = v0 :: r0 ∧ Val.Is Src.crate p.id 9 (.path (i!"f64") []) v0 ∧ ∃ v1 r1, r0 = v1 :: r1 ∧ Val.Is Src.crate p.id 9 (.path (i!"f64") []) v1 ∧ r1 = []) := by kernel_rfl
  rw [e] at h
  obtain ⟨_, _, rfl, h0, _, _, rfl, h1, rfl⟩ := h
  obtain ⟨rfl, a0, rfl⟩ := is_f64 p _ 8 _ h0
  obtain ⟨-, a1, rfl⟩ := is_f64 .f64 _ 8 _ h1
  have n : (Src.freeFn 14).name = (i!"vector2d") := by kernel_rfl
  rw [n]
  exact ⟨_, C81_vector2d b a0 a1⟩

theorem free_14 (p : Prim) (b : Build) : FreeTotal S p b (Src.freeFn 14) := by
  intro tv htv args h
  have e : TyArgs (Src.freeFn 14) tv = (tv = []) := by kernel_rfl
  rw [e] at htv; subst htv
  exact free_14_0 p b args h

theorem free_15_0 (p : Prim) (b : Build) (args : List (Val S))
    (h : ArgsAre Src.crate p.id [] (Src.freeFn 15).params args) :
    ∃ v, Src.free S p b (Src.freeFn 15).name args = .ok v .unit := by
  have e : ArgsAre Src.crate p.id [] (Src.freeFn 15).params args =
      (∃ v0 r0, args = v0 :: r0 ∧ Val.Is Src.crate p.id 9 (.path (i!"S") []) v0 ∧ ∃ v1 r1, r0 = v1 :: r1 ∧ Val.Is Src.crate p.id 9 (.path (i!"S") []) v1 ∧ ∃ v2 r2, r1 = v2 :: r2 ∧ Val.Is Src.crate p.id 9 (.path (i!"S") []) v2 ∧ r2 = []) := by kernel_rfl
  rw [e] at h
  obtain ⟨_, _, rfl, h0, _, _, rfl, h1, _, _, rfl, h2, rfl⟩ := h
  obtain ⟨a0, rfl⟩ := is_S p _ 8 _ h0
  obtain ⟨a1, rfl⟩ := is_S p _ 8 _ h1
  obtain ⟨a2, rfl⟩ := is_S p _ 8 _ h2
  have n : (Src.freeFn 15).name = (i!"vector3") := by kernel_rfl
  rw [n]
  exact ⟨_, C81_vector3 p b a0 a1 a2⟩

theorem free_15 (p : Prim) (b : Build) : FreeTotal S p b (Src.freeFn 15) := by
  intro tv htv args h
  have e : TyArgs (Src.freeFn 15) tv = (tv = []) := by kernel_rfl
  rw [e] at htv; subst htv
  exact free_15_0 p b args h

theorem free_16_0 (p : Prim) (b : Build) (args : List (Val S))
    (h : ArgsAre Src.crate p.id [] (Src.freeFn 16).params args) :
    ∃ v, Src.free S p b (Src.freeFn 16).name args = .ok v .unit := by
  have e : ArgsAre Src.crate p.id [] (Src.freeFn 16).params args =
      (∃ v0 r0, args = v0 :: r0 ∧ Val.Is Src.crate p.id 9 (.path (i!"f32") []) v0 ∧ ∃ v1 r1, r0 = v1 :: r1 ∧ Val.Is Src.crate p.id 9 (.path (i!"f32") []) v1 ∧ ∃ v2 r2, r1 = v2 :: r2 ∧ Val.Is Src.crate p.id 9 (.path (i!"f32") []) v2 ∧ r2 = []) := by kernel_rfl
  rw [e] at h
  obtain ⟨_, _, rfl, h0, _, _, rfl, h1, _, _, rfl, h2, rfl⟩ := h
  obtain ⟨rfl, a0, rfl⟩ := is_f32 p _ 8 _ h0
  obtain ⟨-, a1, rfl⟩ := is_f32 .f32 _ 8 _ h1
  obtain ⟨-, a2, rfl⟩ := is_f32 .f32 _ 8 _ h2
  have n : (Src.freeFn 16).name = (i!"vector3f") := by kernel_rfl
  rw [n]
  exact ⟨_, C81_vector3f b a0 a1 a2⟩

theorem free_16 (p : Prim) (b : Build) : FreeTotal S p b (Src.freeFn 16) := by
  intro tv htv args h
  have e : TyArgs (Src.freeFn 16) tv = (tv = []) := by kernel_rfl
  rw [e] at htv; subst htv
  exact free_16_0 p b args h

theorem free_17_0 (p : Prim) (b : Build) (args : List (Val S))
    (h : ArgsAre Src.crate p.id [] (Src.freeFn 17).params args) :
    ∃ v, Src.free S p b (Src.freeFn 17).name args = .ok v .unit := by
  have e : ArgsAre Src.crate p.id [] (Src.freeFn 17).params args =
      (∃ v0 r0, args = v0 :: r0 ∧ Val.Is Src.crate p.id 9 (.path (i!"f64") []) v0 ∧ ∃ v1 r1, r0 = v1 :: r1 ∧ Val.Is Src.crate p.id 9 (.path (i!"f64") []) v1 ∧ ∃ v2 r2, r1 = v2 :: r2 ∧ Val.Is Src.crate p.id 9 (.path (i!"f64") []) v2 ∧ r2 = []) := by kernel_rfl
  rw [e] at h
  obtain ⟨_, _, rfl, h0, _, _, rfl, h1, _, _, rfl, h2, rfl⟩ := h
  obtain ⟨rfl, a0, rfl⟩ := is_f64 p _ 8 _ h0
  obtain ⟨-, a1, rfl⟩ := is_f64 .f64 _ 8 _ h1
  obtain ⟨-, a2, rfl⟩ := is_f64 .f64 _ 8 _ h2
  have n : (Src.freeFn 17).name = (i!"vector3d") := by kernel_rfl
  rw [n]
  exact ⟨_, C81_vector3d b a0 a1 a2⟩

theorem free_17 (p : Prim) (b : Build) : FreeTotal S p b (Src.freeFn 17) := by
  intro tv htv args h
  have e : TyArgs (Src.freeFn 17) tv = (tv = []) := by kernel_rfl
  rw [e] at htv; subst htv
  exact free_17_0 p b args h

theorem free_18_0 (p : Prim) (b : Build) (args : List (Val S))
    (h : ArgsAre Src.crate p.id [] (Src.freeFn 18).params args) :
    ∃ v, Src.free S p b (Src.freeFn 18).name args = .ok v .unit := by
  have e : ArgsAre Src.crate p.id [] (Src.freeFn 18).params args =
      (∃ v0 r0, args = v0 :: r0 ∧ Val.Is Src.crate p.id 9 (.path (i!"S") []) v0 ∧ ∃ v1 r1, r0 = v1 :: r1 ∧ Val.Is Src.crate p.id 9 (.path (i!"S") []) v1 ∧ r1 = []) := by kernel_rfl
  rw [e] at h
  obtain ⟨_, _, rfl, h0, _, _, rfl, h1, rfl⟩ := h
  obtain ⟨a0, rfl⟩ := is_S p _ 8 _ h0
  obtain ⟨a1, rfl⟩ := is_S p _ 8 _ h1
  have n : (Src.freeFn 18).name = (i!"point2") := by kernel_rfl
  rw [n]
  exact ⟨_, C81_point2 p b a0 a1⟩

theorem free_18 (p : Prim) (b : Build) : FreeTotal S p b (Src.freeFn 18) := by
  intro tv htv args h
  have e : TyArgs (Src.freeFn 18) tv = (tv = []) := by kernel_rfl
  rw [e] at htv; subst htv
  exact free_18_0 p b args h

theorem free_19_0 (p : Prim) (b : Build) (args : List (Val S))
    (h : ArgsAre Src.crate p.id [] (Src.freeFn 19).params args) :
    ∃ v, Src.free S p b (Src.freeFn 19).name args = .ok v .unit := by
  have e : ArgsAre Src.crate p.id [] (Src.freeFn 19).params args =
      (∃ v0 r0, args = v0 :: r0 ∧ Val.Is Src.crate p.id 9 (.path (i!"f32") []) v0 ∧ ∃ v1 r1, r0 = v1 :: r1 ∧ Val.Is Src.crate p.id 9 (.path (i!"f32") []) v1 ∧ r1 = []) := by kernel_rfl
  rw [e] at h
  obtain ⟨_, _, rfl, h0, _, _, rfl, h1, rfl⟩ := h
  obtain ⟨rfl, a0, rfl⟩ := is_f32 p _ 8 _ h0
  obtain ⟨-, a1, rfl⟩ := is_f32 .f32 _ 8 _ h1
  have n : (Src.freeFn 19).name = (i!"point2f") := by kernel_rfl
  rw [n]
  exact ⟨_, C81_point2f b a0 a1⟩

theorem free_19 (p : Prim) (b : Build) : FreeTotal S p b (Src.freeFn 19) := by
  intro tv htv args h
  have e : TyArgs (Src.freeFn 19) tv = (tv = []) := by kernel_rfl
  rw [e] at htv; subst htv
  exact free_19_0 p b args h

theorem free_20_0 (p : Prim) (b : Build) (args : List (Val S))
    (h : ArgsAre Src.crate p.id [] (Src.freeFn 20).params args) :
    ∃ v, Src.free S p b (Src.freeFn 20).name args = .ok v .unit := by
  have e : ArgsAre Src.crate p.id [] (Src.freeFn 20).params args =
      (∃ v0 r0, args = v0 :: r0 ∧ Val.Is Src.crate p.id 9 (.path (i!"f64") []) v0 ∧ ∃ v1 r1, r0 = v1 :: r1 ∧ Val.Is Src.crate p.id 9 (.path (i!"f64") []) v1 ∧ r1 = []) := by kernel_rfl
  rw [e] at h
  obtain ⟨_, _, rfl, h0, _, _, rfl, h1, rfl⟩ := h
  obtain ⟨rfl, a0, rfl⟩ := is_f64 p _ 8 _ h0
  obtain ⟨-, a1, rfl⟩ := is_f64 .f64 _ 8 _ h1
  have n : (Src.freeFn 20).name = (i!"point2d") := by kernel_rfl
  rw [n]
  exact ⟨_, C81_point2d b a0 a1⟩

theorem free_20 (p : Prim) (b : Build) : FreeTotal S p b (Src.freeFn 20) := by
  intro tv htv args h
  have e : TyArgs (Src.freeFn 20) tv = (tv = []) := by kernel_rfl
  rw [e] at htv; subst htv
  exact free_20_0 p b args h

theorem free_21_0 (p : Prim) (b : Build) (args : List (Val S))
    (h : ArgsAre Src.crate p.id [] (Src.freeFn 21).params args) :
    ∃ v, Src.free S p b (Src.freeFn 21).name args = .ok v .unit := by
  have e : ArgsAre Src.crate p.id [] (Src.freeFn 21).params args =
      (∃ v0 r0, args = v0 :: r0 ∧ Val.Is Src.crate p.id 9 (.path (i!"S") []) v0 ∧ ∃ v1 r1, r0 = v1 :: r1 ∧ Val.Is Src.crate p.id 9 (.path (i!"S") []) v1 ∧ ∃ v2 r2, r1 = v2 :: r2 ∧ Val.Is Src.crate p.id 9 (.path (i!"S") []) v2 ∧ r2 = []) := by kernel_rfl
  rw [e] at h
  obtain ⟨_, _, rfl, h0, _, _, rfl, h1, _, _, rfl, h2, rfl⟩ := h
  obtain ⟨a0, rfl⟩ := is_S p _ 8 _ h0
  obtain ⟨a1, rfl⟩ := is_S p _ 8 _ h1
  obtain ⟨a2, rfl⟩ := is_S p _ 8 _ h2
  have n : (Src.freeFn 21).name = (i!"point3") := by kernel_rfl
  rw [n]
  exact ⟨_, C81_point3 p b a0 a1 a2⟩

theorem free_21 (p : Prim) (b : Build) : FreeTotal S p b (Src.freeFn 21) := by
  intro tv htv args h
  have e : TyArgs (Src.freeFn 21) tv = (tv = []) := by kernel_rfl
  rw [e] at htv; subst htv
  exact free_21_0 p b args h

theorem free_22_0 (p : Prim) (b : Build) (args : List (Val S))
    (h : ArgsAre Src.crate p.id [] (Src.freeFn 22).params args) :
    ∃ v, Src.free S p b (Src.freeFn 22).name args = .ok v .unit := by
  have e : ArgsAre Src.crate p.id [] (Src.freeFn 22).params args =
      (∃ v0 r0, args = v0 :: r0 ∧ Val.Is Src.crate p.id 9 (.path (i!"f32") []) v0 ∧ ∃ v1 r1, r0 = v1 :: r1 ∧ Val.Is Src.crate p.id 9 (.path (i!"f32") []) v1 ∧ ∃ v2 r2, r1 = v2 :: r2 ∧ Val.Is Src.crate p.id 9 (.path (i!"f32") []) v2 ∧ r2 = []) := by kernel_rfl
  rw [e] at h
  obtain ⟨_, _, rfl, h0, _, _, rfl, h1, _, _, rfl, h2, rfl⟩ := h
  obtain ⟨rfl, a0, rfl⟩ := is_f32 p _ 8 _ h0
  obtain ⟨-, a1, rfl⟩ := is_f32 .f32 _ 8 _ h1
  obtain ⟨-, a2, rfl⟩ := is_f32 .f32 _ 8 _ h2
  have n : (Src.freeFn 22).name = (i!"point3f") := by kernel_rfl
  rw [n]
  exact ⟨_, C81_point3f b a0 a1 a2⟩

theorem free_22 (p : Prim) (b : Build) : FreeTotal S p b (Src.freeFn 22) := by
  intro tv htv args h
  have e : TyArgs (Src.freeFn 22) tv = (tv = []) := by kernel_rfl
  rw [e] at htv; subst htv
  exact free_22_0 p b args h

theorem free_23_0 (p : Prim) (b : Build) (args : List (Val S))
    (h : ArgsAre Src.crate p.id [] (Src.freeFn 23).params args) :
    ∃ v, Src.free S p b (Src.freeFn 23).name args = .ok v .unit := by
  have e : ArgsAre Src.crate p.id [] (Src.freeFn 23).params args =
      (∃ v0 r0, args = v0 :: r0 ∧ Val.Is Src.crate p.id 9 (.path (i!"f64") []) v0 ∧ ∃ v1 r1, r0 = v1 :: r1 ∧ Val.Is Src.crate p.id 9 (.path (i!"f64") []) v1 ∧ ∃ v2 r2, r1 = v2 :: r2 ∧ Val.Is Src.crate p.id 9 (.path (i!"f64") []) v2 ∧ r2 = []) := by kernel_rfl
  rw [e] at h
  obtain ⟨_, _, rfl, h0, _, _, rfl, h1, _, _, rfl, h2, rfl⟩ := h
  obtain ⟨rfl, a0, rfl⟩ := is_f64 p _ 8 _ h0
  obtain ⟨-, a1, rfl⟩ := is_f64 .f64 _ 8 _ h1
  obtain ⟨-, a2, rfl⟩ := is_f64 .f64 _ 8 _ h2
  have n : (Src.freeFn 23).name = (i!"point3d") := by kernel_rfl
  rw [n]
  exact ⟨_, C81_point3d b a0 a1 a2⟩

theorem free_23 (p : Prim) (b : Build) : FreeTotal S p b (Src.freeFn 23) := by
  intro tv htv args h
  have e : TyArgs (Src.freeFn 23) tv = (tv = []) := by kernel_rfl
  rw [e] at htv; subst htv
  exact free_23_0 p b args h

theorem free_24_0 (p : Prim) (b : Build) (args : List (Val S))
    (h : ArgsAre Src.crate p.id [] (Src.freeFn 24).params args) :
    ∃ v, Src.free S p b (Src.freeFn 24).name args = .ok v .unit := by
  have e : ArgsAre Src.crate p.id [] (Src.freeFn 24).params args =
      (∃ v0 r0, args = v0 :: r0 ∧ Val.Is Src.crate p.id 9 (.path (i!"Point2") [.path (i!"S") []]) v0 ∧ ∃ v1 r1, r0 = v1 :: r1 ∧ Val.Is Src.crate p.id 9 (.path (i!"Vector2") [.path (i!"S") []]) v1 ∧ r1 = []) := by kernel_rfl
  rw [e] at h
  obtain ⟨_, _, rfl, h0, _, _, rfl, h1, rfl⟩ := h
  obtain ⟨a0, rfl⟩ := is_Point2 p _ 4 _ h0
  obtain ⟨a1, rfl⟩ := is_Vector2 p _ 4 _ h1
  have n : (Src.freeFn 24).name = (i!"ray2") := by kernel_rfl
  rw [n]
  exact ⟨_, C81_ray2 p b a0 a1⟩

theorem free_24 (p : Prim) (b : Build) : FreeTotal S p b (Src.freeFn 24) := by
  intro tv htv args h
  have e : TyArgs (Src.freeFn 24) tv = (tv = []) := by kernel_rfl
  rw [e] at htv; subst htv
  exact free_24_0 p b args h

theorem free_25_0 (p : Prim) (b : Build) (args : List (Val S))
    (h : ArgsAre Src.crate p.id [] (Src.freeFn 25).params args) :
    ∃ v, Src.free S p b (Src.freeFn 25).name args = .ok v .unit := by
  have e : ArgsAre Src.crate p.id [] (Src.freeFn 25).params args =
      (∃ v0 r0, args = v0 :: r0 ∧ Val.Is Src.crate p.id 9 (.path (i!"Point2f") []) v0 ∧ ∃ v1 r1, r0 = v1 :: r1 ∧ Val.Is Src.crate p.id 9 (.path (i!"Vector2f") []) v1 ∧ r1 = []) := by kernel_rfl
  rw [e] at h
  obtain ⟨_, _, rfl, h0, _, _, rfl, h1, rfl⟩ := h
  obtain ⟨rfl, a0, rfl⟩ := is_Point2f p _ 3 _ h0
  obtain ⟨-, a1, rfl⟩ := is_Vector2f .f32 _ 3 _ h1
  have n : (Src.freeFn 25).name = (i!"ray2f") := by kernel_rfl
  rw [n]
  exact ⟨_, C81_ray2f b a0 a1⟩

theorem free_25 (p : Prim) (b : Build) : FreeTotal S p b (Src.freeFn 25) := by
  intro tv htv args h
  have e : TyArgs (Src.freeFn 25) tv = (tv = []) := by kernel_rfl
  rw [e] at htv; subst htv
  exact free_25_0 p b args h

theorem free_26_0 (p : Prim) (b : Build) (args : List (Val S))
    (h : ArgsAre Src.crate p.id [] (Src.freeFn 26).params args) :
    ∃ v, Src.free S p b (Src.freeFn 26).name args = .ok v .unit := by
  have e : ArgsAre Src.crate p.id [] (Src.freeFn 26).params args =
      (∃ v0 r0, args = v0 :: r0 ∧ Val.Is Src.crate p.id 9 (.path (i!"Point2d") []) v0 ∧ ∃ v1 r1, r0 = v1 :: r1 ∧ Val.Is Src.crate p.id 9 (.path (i!"Vector2d") []) v1 ∧ r1 = []) := by kernel_rfl
  rw [e] at h
  obtain ⟨_, _, rfl, h0, _, _, rfl, h1, rfl⟩ := h
  obtain ⟨rfl, a0, rfl⟩ := is_Point2d p _ 3 _ h0
  obtain ⟨-, a1, rfl⟩ := is_Vector2d .f64 _ 3 _ h1
  have n : (Src.freeFn 26).name = (i!"ray2d") := by kernel_rfl
  rw [n]
  exact ⟨_, C81_ray2d b a0 a1⟩

theorem free_26 (p : Prim) (b : Build) : FreeTotal S p b (Src.freeFn 26) := by
  intro tv htv args h
  have e : TyArgs (Src.freeFn 26) tv = (tv = []) := by kernel_rfl
  rw [e] at htv; subst htv
  exact free_26_0 p b args h

theorem free_27_0 (p : Prim) (b : Build) (args : List (Val S))
    (h : ArgsAre Src.crate p.id [] (Src.freeFn 27).params args) :
    ∃ v, Src.free S p b (Src.freeFn 27).name args = .ok v .unit := by
  have e : ArgsAre Src.crate p.id [] (Src.freeFn 27).params args =
      (∃ v0 r0, args = v0 :: r0 ∧ Val.Is Src.crate p.id 9 (.path (i!"Point3") [.path (i!"S") []]) v0 ∧ ∃ v1 r1, r0 = v1 :: r1 ∧ Val.Is Src.crate p.id 9 (.path (i!"Vector3") [.path (i!"S") []]) v1 ∧ r1 = []) := by kernel_rfl
  rw [e] at h
  obtain ⟨_, _, rfl, h0, _, _, rfl, h1, rfl⟩ := h
  obtain ⟨a0, rfl⟩ := is_Point3 p _ 4 _ h0
  obtain ⟨a1, rfl⟩ := is_Vector3 p _ 4 _ h1
  have n : (Src.freeFn 27).name = (i!"ray3") := by kernel_rfl
  rw [n]
  exact ⟨_, C81_ray3 p b a0 a1⟩

theorem free_27 (p : Prim) (b : Build) : FreeTotal S p b (Src.freeFn 27) := by
  intro tv htv args h
  have e : TyArgs (Src.freeFn 27) tv = (tv = []) := by kernel_rfl
  rw [e] at htv; subst htv
  exact free_27_0 p b args h

theorem free_28_0 (p : Prim) (b : Build) (args : List (Val S))
    (h : ArgsAre Src.crate p.id [] (Src.freeFn 28).params args) :
    ∃ v, Src.free S p b (Src.freeFn 28).name args = .ok v .unit := by
  have e : ArgsAre Src.crate p.id [] (Src.freeFn 28).params args =
      (∃ v0 r0, args = v0 :: r0 ∧ Val.Is Src.crate p.id 9 (.path (i!"Point3f") []) v0 ∧ ∃ v1 r1, r0 = v1 :: r1 ∧ Val.Is Src.crate p.id 9 (.path (i!"Vector3f") []) v1 ∧ r1 = []) := by kernel_rfl
  rw [e] at h
  obtain ⟨_, _, rfl, h0, _, _, rfl, h1, rfl⟩ := h
  obtain ⟨rfl, a0, rfl⟩ := is_Point3f p _ 3 _ h0
  obtain ⟨-, a1, rfl⟩ := is_Vector3f .f32 _ 3 _ h1
  have n : (Src.freeFn 28).name = (i!"ray3f") := by kernel_rfl
  rw [n]
  exact ⟨_, C81_ray3f b a0 a1⟩

theorem free_28 (p : Prim) (b : Build) : FreeTotal S p b (Src.freeFn 28) := by
  intro tv htv args h
  have e : TyArgs (Src.freeFn 28) tv = (tv = []) := by kernel_rfl
  rw [e] at htv; subst htv
  exact free_28_0 p b args h

theorem free_29_0 (p : Prim) (b : Build) (args : List (Val S))
    (h : ArgsAre Src.crate p.id [] (Src.freeFn 29).params args) :
    ∃ v, Src.free S p b (Src.freeFn 29).name args = .ok v .unit := by
  have e : ArgsAre Src.crate p.id [] (Src.freeFn 29).params args =
      (∃ v0 r0, args = v0 :: r0 ∧ Val.Is Src.crate p.id 9 (.path (i!"Point3d") []) v0 ∧ ∃ v1 r1, r0 = v1 :: r1 ∧ Val.Is Src.crate p.id 9 (.path (i!"Vector3d") []) v1 ∧ r1 = []) := by kernel_rfl
  rw [e] at h
  obtain ⟨_, _, rfl, h0, _, _, rfl, h1, rfl⟩ := h
  obtain ⟨rfl, a0, rfl⟩ := is_Point3d p _ 3 _ h0
  obtain ⟨-, a1, rfl⟩ := is_Vector3d .f64 _ 3 _ h1
  have n : (Src.freeFn 29).name = (i!"ray3d") := by kernel_rfl
  rw [n]
  exact ⟨_, C81_ray3d b a0 a1⟩

theorem free_29 (p : Prim) (b : Build) : FreeTotal S p b (Src.freeFn 29) := by
  intro tv htv args h
  have e : TyArgs (Src.freeFn 29) tv = (tv = []) := by kernel_rfl
  rw [e] at htv; subst htv
  exact free_29_0 p b args h

/-! ## All functions -/

theorem total_0 (p : Prim) (b : Build) : AllFns S p b (Src.impl 0) (Src.impl 0).fns := by
  kernel_exact (True.intro)
theorem total_1 (p : Prim) (b : Build) : AllFns S p b (Src.impl 1) (Src.impl 1).fns := by
  kernel_exact (True.intro)
theorem total_2 (p : Prim) (b : Build) : AllFns S p b (Src.impl 2) (Src.impl 2).fns := by
  kernel_exact (And.intro (total_2_0 (S := S) p b) (And.intro (total_2_1 (S := S) p b) (True.intro)))
theorem total_3 (p : Prim) (b : Build) : AllFns S p b (Src.impl 3) (Src.impl 3).fns := by
  kernel_exact (And.intro (total_3_0 (S := S) p b) (And.intro (total_3_1 (S := S) p b) (True.intro)))
theorem total_4 (p : Prim) (b : Build) : AllFns S p b (Src.impl 4) (Src.impl 4).fns := by
  kernel_exact (And.intro (total_4_0 (S := S) p b) (And.intro (total_4_1 (S := S) p b) (True.intro)))
theorem total_5 (p : Prim) (b : Build) : AllFns S p b (Src.impl 5) (Src.impl 5).fns := by
  kernel_exact (And.intro (total_5_0 (S := S) p b) (True.intro))
theorem total_6 (p : Prim) (b : Build) : AllFns S p b (Src.impl 6) (Src.impl 6).fns := by
  kernel_exact (And.intro (total_6_0 (S := S) p b) (And.intro (total_6_1 (S := S) p b) (And.intro (total_6_2 (S := S) p b) (And.intro (total_6_3 (S := S) p b) (True.intro)))))
theorem total_7 (p : Prim) (b : Build) : AllFns S p b (Src.impl 7) (Src.impl 7).fns := by
  kernel_exact (And.intro (total_7_0 (S := S) p b) (True.intro))
theorem total_8 (p : Prim) (b : Build) : AllFns S p b (Src.impl 8) (Src.impl 8).fns := by
  kernel_exact (And.intro (total_8_0 (S := S) p b) (And.intro (total_8_1 (S := S) p b) (And.intro (total_8_2 (S := S) p b) (And.intro (total_8_3 (S := S) p b) (True.intro)))))
theorem total_9 (p : Prim) (b : Build) : AllFns S p b (Src.impl 9) (Src.impl 9).fns := by
  kernel_exact (And.intro (total_9_0 (S := S) p b) (And.intro (total_9_1 (S := S) p b) (And.intro (total_9_2 (S := S) p b) (And.intro (total_9_3 (S := S) p b) (And.intro (total_9_4 (S := S) p b) (And.intro (total_9_5 (S := S) p b) (And.intro (total_9_6 (S := S) p b) (And.intro (total_9_7 (S := S) p b) (And.intro (total_9_8 (S := S) p b) (And.intro (total_9_9 (S := S) p b) (And.intro (total_9_10 (S := S) p b) (And.intro (total_9_11 (S := S) p b) (And.intro (total_9_12 (S := S) p b) (And.intro (total_9_13 (S := S) p b) (And.intro (total_9_14 (S := S) p b) (True.intro))))))))))))))))
theorem total_10 (p : Prim) (b : Build) : AllFns S p b (Src.impl 10) (Src.impl 10).fns := by
  kernel_exact (And.intro (total_10_0 (S := S) p b) (True.intro))
theorem total_11 (p : Prim) (b : Build) : AllFns S p b (Src.impl 11) (Src.impl 11).fns := by
  kernel_exact (And.intro (total_11_0 (S := S) p b) (True.intro))
theorem total_12 (p : Prim) (b : Build) : AllFns S p b (Src.impl 12) (Src.impl 12).fns := by
  kernel_exact (And.intro (total_12_0 (S := S) p b) (And.intro (total_12_1 (S := S) p b) (True.intro)))
theorem total_13 (p : Prim) (b : Build) : AllFns S p b (Src.impl 13) (Src.impl 13).fns := by
  kernel_exact (And.intro (total_13_0 (S := S) p b) (True.intro))
theorem total_14 (p : Prim) (b : Build) : AllFns S p b (Src.impl 14) (Src.impl 14).fns := by
  kernel_exact (And.intro (total_14_0 (S := S) p b) (And.intro (total_14_1 (S := S) p b) (And.intro (total_14_2 (S := S) p b) (And.intro (total_14_3 (S := S) p b) (True.intro)))))
theorem total_15 (p : Prim) (b : Build) : AllFns S p b (Src.impl 15) (Src.impl 15).fns := by
  kernel_exact (And.intro (total_15_0 (S := S) p b) (True.intro))
theorem total_16 (p : Prim) (b : Build) : AllFns S p b (Src.impl 16) (Src.impl 16).fns := by
  kernel_exact (And.intro (total_16_0 (S := S) p b) (True.intro))
theorem total_17 (p : Prim) (b : Build) : AllFns S p b (Src.impl 17) (Src.impl 17).fns := by
  kernel_exact (And.intro (total_17_0 (S := S) p b) (True.intro))
theorem total_18 (p : Prim) (b : Build) : AllFns S p b (Src.impl 18) (Src.impl 18).fns := by
  kernel_exact (And.intro (total_18_0 (S := S) p b) (True.intro))
theorem total_19 (p : Prim) (b : Build) : AllFns S p b (Src.impl 19) (Src.impl 19).fns := by
  kernel_exact (And.intro (total_19_0 (S := S) p b) (True.intro))
theorem total_20 (p : Prim) (b : Build) : AllFns S p b (Src.impl 20) (Src.impl 20).fns := by
  kernel_exact (And.intro (total_20_0 (S := S) p b) (True.intro))
theorem total_21 (p : Prim) (b : Build) : AllFns S p b (Src.impl 21) (Src.impl 21).fns := by
  kernel_exact (And.intro (total_21_0 (S := S) p b) (True.intro))
theorem total_22 (p : Prim) (b : Build) : AllFns S p b (Src.impl 22) (Src.impl 22).fns := by
  kernel_exact (And.intro (total_22_0 (S := S) p b) (True.intro))
theorem total_23 (p : Prim) (b : Build) : AllFns S p b (Src.impl 23) (Src.impl 23).fns := by
  kernel_exact (And.intro (total_23_0 (S := S) p b) (True.intro))
theorem total_24 (p : Prim) (b : Build) : AllFns S p b (Src.impl 24) (Src.impl 24).fns := by
  kernel_exact (And.intro (total_24_0 (S := S) p b) (True.intro))
theorem total_25 (p : Prim) (b : Build) : AllFns S p b (Src.impl 25) (Src.impl 25).fns := by
  kernel_exact (And.intro (total_25_0 (S := S) p b) (True.intro))
theorem total_26 (p : Prim) (b : Build) : AllFns S p b (Src.impl 26) (Src.impl 26).fns := by
  kernel_exact (And.intro (total_26_0 (S := S) p b) (True.intro))
theorem total_27 (p : Prim) (b : Build) : AllFns S p b (Src.impl 27) (Src.impl 27).fns := by
  kernel_exact (And.intro (total_27_0 (S := S) p b) (True.intro))
theorem total_28 (p : Prim) (b : Build) : AllFns S p b (Src.impl 28) (Src.impl 28).fns := by
  kernel_exact (And.intro (total_28_0 (S := S) p b) (And.intro (total_28_1 (S := S) p b) (And.intro (total_28_2 (S := S) p b) (And.intro (total_28_3 (S := S) p b) (And.intro (total_28_4 (S := S) p b) (And.intro (total_28_5 (S := S) p b) (And.intro (total_28_6 (S := S) p b) (And.intro (total_28_7 (S := S) p b) (And.intro (total_28_8 (S := S) p b) (And.intro (total_28_9 (S := S) p b) (And.intro (total_28_10 (S := S) p b) (And.intro (total_28_11 (S := S) p b) (And.intro (total_28_12 (S := S) p b) (And.intro (total_28_13 (S := S) p b) (And.intro (total_28_14 (S := S) p b) (And.intro (total_28_15 (S := S) p b) (True.intro)))))))))))))))))
theorem total_29 (p : Prim) (b : Build) : AllFns S p b (Src.impl 29) (Src.impl 29).fns := by
  kernel_exact (And.intro (total_29_0 (S := S) p b) (True.intro))
theorem total_30 (p : Prim) (b : Build) : AllFns S p b (Src.impl 30) (Src.impl 30).fns := by
  kernel_exact (And.intro (total_30_0 (S := S) p b) (True.intro))
theorem total_31 (p : Prim) (b : Build) : AllFns S p b (Src.impl 31) (Src.impl 31).fns := by
  kernel_exact (And.intro (total_31_0 (S := S) p b) (And.intro (total_31_1 (S := S) p b) (True.intro)))
theorem total_32 (p : Prim) (b : Build) : AllFns S p b (Src.impl 32) (Src.impl 32).fns := by
  kernel_exact (And.intro (total_32_0 (S := S) p b) (True.intro))
theorem total_33 (p : Prim) (b : Build) : AllFns S p b (Src.impl 33) (Src.impl 33).fns := by
  kernel_exact (And.intro (total_33_0 (S := S) p b) (And.intro (total_33_1 (S := S) p b) (And.intro (total_33_2 (S := S) p b) (And.intro (total_33_3 (S := S) p b) (True.intro)))))
theorem total_34 (p : Prim) (b : Build) : AllFns S p b (Src.impl 34) (Src.impl 34).fns := by
  kernel_exact (And.intro (total_34_0 (S := S) p b) (True.intro))
theorem total_35 (p : Prim) (b : Build) : AllFns S p b (Src.impl 35) (Src.impl 35).fns := by
  kernel_exact (And.intro (total_35_0 (S := S) p b) (True.intro))
theorem total_36 (p : Prim) (b : Build) : AllFns S p b (Src.impl 36) (Src.impl 36).fns := by
  kernel_exact (And.intro (total_36_0 (S := S) p b) (True.intro))
theorem total_37 (p : Prim) (b : Build) : AllFns S p b (Src.impl 37) (Src.impl 37).fns := by
  kernel_exact (And.intro (total_37_0 (S := S) p b) (True.intro))
theorem total_38 (p : Prim) (b : Build) : AllFns S p b (Src.impl 38) (Src.impl 38).fns := by
  kernel_exact (And.intro (total_38_0 (S := S) p b) (True.intro))
theorem total_39 (p : Prim) (b : Build) : AllFns S p b (Src.impl 39) (Src.impl 39).fns := by
  kernel_exact (And.intro (total_39_0 (S := S) p b) (True.intro))
theorem total_40 (p : Prim) (b : Build) : AllFns S p b (Src.impl 40) (Src.impl 40).fns := by
  kernel_exact (And.intro (total_40_0 (S := S) p b) (True.intro))
theorem total_41 (p : Prim) (b : Build) : AllFns S p b (Src.impl 41) (Src.impl 41).fns := by
  kernel_exact (And.intro (total_41_0 (S := S) p b) (True.intro))
theorem total_42 (p : Prim) (b : Build) : AllFns S p b (Src.impl 42) (Src.impl 42).fns := by
  kernel_exact (And.intro (total_42_0 (S := S) p b) (True.intro))
theorem total_43 (p : Prim) (b : Build) : AllFns S p b (Src.impl 43) (Src.impl 43).fns := by
  kernel_exact (And.intro (total_43_0 (S := S) p b) (True.intro))
theorem total_44 (p : Prim) (b : Build) : AllFns S p b (Src.impl 44) (Src.impl 44).fns := by
  kernel_exact (And.intro (total_44_0 (S := S) p b) (True.intro))
theorem total_45 (p : Prim) (b : Build) : AllFns S p b (Src.impl 45) (Src.impl 45).fns := by
  kernel_exact (And.intro (total_45_0 (S := S) p b) (True.intro))
theorem total_46 (p : Prim) (b : Build) : AllFns S p b (Src.impl 46) (Src.impl 46).fns := by
  kernel_exact (And.intro (total_46_0 (S := S) p b) (True.intro))
theorem total_47 (p : Prim) (b : Build) : AllFns S p b (Src.impl 47) (Src.impl 47).fns := by
  kernel_exact (And.intro (total_47_0 (S := S) p b) (True.intro))
theorem total_48 (p : Prim) (b : Build) : AllFns S p b (Src.impl 48) (Src.impl 48).fns := by
  kernel_exact (And.intro (total_48_0 (S := S) p b) (And.intro (total_48_1 (S := S) p b) (And.intro (total_48_2 (S := S) p b) (And.intro (total_48_3 (S := S) p b) (And.intro (total_48_4 (S := S) p b) (And.intro (total_48_5 (S := S) p b) (And.intro (total_48_6 (S := S) p b) (And.intro (total_48_7 (S := S) p b) (And.intro (total_48_8 (S := S) p b) (And.intro (total_48_9 (S := S) p b) (And.intro (total_48_10 (S := S) p b) (True.intro))))))))))))
theorem total_49 (p : Prim) (b : Build) : AllFns S p b (Src.impl 49) (Src.impl 49).fns := by
  kernel_exact (And.intro (total_49_0 (S := S) p b) (True.intro))
theorem total_50 (p : Prim) (b : Build) : AllFns S p b (Src.impl 50) (Src.impl 50).fns := by
  kernel_exact (And.intro (total_50_0 (S := S) p b) (True.intro))
theorem total_51 (p : Prim) (b : Build) : AllFns S p b (Src.impl 51) (Src.impl 51).fns := by
  kernel_exact (And.intro (total_51_0 (S := S) p b) (And.intro (total_51_1 (S := S) p b) (True.intro)))
theorem total_52 (p : Prim) (b : Build) : AllFns S p b (Src.impl 52) (Src.impl 52).fns := by
  kernel_exact (And.intro (total_52_0 (S := S) p b) (True.intro))
theorem total_53 (p : Prim) (b : Build) : AllFns S p b (Src.impl 53) (Src.impl 53).fns := by
  kernel_exact (And.intro (total_53_0 (S := S) p b) (And.intro (total_53_1 (S := S) p b) (And.intro (total_53_2 (S := S) p b) (And.intro (total_53_3 (S := S) p b) (True.intro)))))
theorem total_54 (p : Prim) (b : Build) : AllFns S p b (Src.impl 54) (Src.impl 54).fns := by
  kernel_exact (And.intro (total_54_0 (S := S) p b) (True.intro))
theorem total_55 (p : Prim) (b : Build) : AllFns S p b (Src.impl 55) (Src.impl 55).fns := by
  kernel_exact (And.intro (total_55_0 (S := S) p b) (True.intro))
theorem total_56 (p : Prim) (b : Build) : AllFns S p b (Src.impl 56) (Src.impl 56).fns := by
  kernel_exact (And.intro (total_56_0 (S := S) p b) (True.intro))
theorem total_57 (p : Prim) (b : Build) : AllFns S p b (Src.impl 57) (Src.impl 57).fns := by
  kernel_exact (And.intro (total_57_0 (S := S) p b) (True.intro))
theorem total_58 (p : Prim) (b : Build) : AllFns S p b (Src.impl 58) (Src.impl 58).fns := by
  kernel_exact (And.intro (total_58_0 (S := S) p b) (True.intro))
theorem total_59 (p : Prim) (b : Build) : AllFns S p b (Src.impl 59) (Src.impl 59).fns := by
  kernel_exact (And.intro (total_59_0 (S := S) p b) (True.intro))
theorem total_60 (p : Prim) (b : Build) : AllFns S p b (Src.impl 60) (Src.impl 60).fns := by
  kernel_exact (And.intro (total_60_0 (S := S) p b) (True.intro))
theorem total_61 (p : Prim) (b : Build) : AllFns S p b (Src.impl 61) (Src.impl 61).fns := by
  kernel_exact (And.intro (total_61_0 (S := S) p b) (True.intro))
theorem total_62 (p : Prim) (b : Build) : AllFns S p b (Src.impl 62) (Src.impl 62).fns := by
  kernel_exact (And.intro (total_62_0 (S := S) p b) (True.intro))
theorem total_63 (p : Prim) (b : Build) : AllFns S p b (Src.impl 63) (Src.impl 63).fns := by
  kernel_exact (And.intro (total_63_0 (S := S) p b) (True.intro))
theorem total_64 (p : Prim) (b : Build) : AllFns S p b (Src.impl 64) (Src.impl 64).fns := by
  kernel_exact (And.intro (total_64_0 (S := S) p b) (True.intro))
theorem total_65 (p : Prim) (b : Build) : AllFns S p b (Src.impl 65) (Src.impl 65).fns := by
  kernel_exact (And.intro (total_65_0 (S := S) p b) (True.intro))
theorem total_66 (p : Prim) (b : Build) : AllFns S p b (Src.impl 66) (Src.impl 66).fns := by
  kernel_exact (And.intro (total_66_0 (S := S) p b) (True.intro))
theorem total_67 (p : Prim) (b : Build) : AllFns S p b (Src.impl 67) (Src.impl 67).fns := by
  kernel_exact (And.intro (total_67_0 (S := S) p b) (And.intro (total_67_1 (S := S) p b) (And.intro (total_67_2 (S := S) p b) (And.intro (total_67_3 (S := S) p b) (And.intro (total_67_4 (S := S) p b) (And.intro (total_67_5 (S := S) p b) (And.intro (total_67_6 (S := S) p b) (And.intro (total_67_7 (S := S) p b) (And.intro (total_67_8 (S := S) p b) (And.intro (total_67_9 (S := S) p b) (And.intro (total_67_10 (S := S) p b) (True.intro))))))))))))
theorem total_68 (p : Prim) (b : Build) : AllFns S p b (Src.impl 68) (Src.impl 68).fns := by
  kernel_exact (And.intro (total_68_0 (S := S) p b) (True.intro))
theorem total_69 (p : Prim) (b : Build) : AllFns S p b (Src.impl 69) (Src.impl 69).fns := by
  kernel_exact (And.intro (total_69_0 (S := S) p b) (True.intro))
theorem total_70 (p : Prim) (b : Build) : AllFns S p b (Src.impl 70) (Src.impl 70).fns := by
  kernel_exact (And.intro (total_70_0 (S := S) p b) (And.intro (total_70_1 (S := S) p b) (True.intro)))
theorem total_71 (p : Prim) (b : Build) : AllFns S p b (Src.impl 71) (Src.impl 71).fns := by
  kernel_exact (And.intro (total_71_0 (S := S) p b) (True.intro))
theorem total_72 (p : Prim) (b : Build) : AllFns S p b (Src.impl 72) (Src.impl 72).fns := by
  kernel_exact (And.intro (total_72_0 (S := S) p b) (And.intro (total_72_1 (S := S) p b) (And.intro (total_72_2 (S := S) p b) (And.intro (total_72_3 (S := S) p b) (True.intro)))))
theorem total_73 (p : Prim) (b : Build) : AllFns S p b (Src.impl 73) (Src.impl 73).fns := by
  kernel_exact (And.intro (total_73_0 (S := S) p b) (True.intro))
theorem total_74 (p : Prim) (b : Build) : AllFns S p b (Src.impl 74) (Src.impl 74).fns := by
  kernel_exact (And.intro (total_74_0 (S := S) p b) (True.intro))
theorem total_75 (p : Prim) (b : Build) : AllFns S p b (Src.impl 75) (Src.impl 75).fns := by
  kernel_exact (And.intro (total_75_0 (S := S) p b) (True.intro))
theorem total_76 (p : Prim) (b : Build) : AllFns S p b (Src.impl 76) (Src.impl 76).fns := by
  kernel_exact (And.intro (total_76_0 (S := S) p b) (True.intro))
theorem total_77 (p : Prim) (b : Build) : AllFns S p b (Src.impl 77) (Src.impl 77).fns := by
  kernel_exact (And.intro (total_77_0 (S := S) p b) (True.intro))
theorem total_78 (p : Prim) (b : Build) : AllFns S p b (Src.impl 78) (Src.impl 78).fns := by
  kernel_exact (And.intro (total_78_0 (S := S) p b) (True.intro))
theorem total_79 (p : Prim) (b : Build) : AllFns S p b (Src.impl 79) (Src.impl 79).fns := by
  kernel_exact (And.intro (total_79_0 (S := S) p b) (True.intro))
theorem total_80 (p : Prim) (b : Build) : AllFns S p b (Src.impl 80) (Src.impl 80).fns := by
  kernel_exact (And.intro (total_80_0 (S := S) p b) (True.intro))
theorem total_81 (p : Prim) (b : Build) : AllFns S p b (Src.impl 81) (Src.impl 81).fns := by
  kernel_exact (And.intro (total_81_0 (S := S) p b) (True.intro))
theorem total_82 (p : Prim) (b : Build) : AllFns S p b (Src.impl 82) (Src.impl 82).fns := by
  kernel_exact (And.intro (total_82_0 (S := S) p b) (True.intro))
theorem total_83 (p : Prim) (b : Build) : AllFns S p b (Src.impl 83) (Src.impl 83).fns := by
  kernel_exact (And.intro (total_83_0 (S := S) p b) (True.intro))
theorem total_84 (p : Prim) (b : Build) : AllFns S p b (Src.impl 84) (Src.impl 84).fns := by
  kernel_exact (And.intro (total_84_0 (S := S) p b) (True.intro))
theorem total_85 (p : Prim) (b : Build) : AllFns S p b (Src.impl 85) (Src.impl 85).fns := by
  kernel_exact (And.intro (total_85_0 (S := S) p b) (True.intro))
theorem total_86 (p : Prim) (b : Build) : AllFns S p b (Src.impl 86) (Src.impl 86).fns := by
  kernel_exact (And.intro (total_86_0 (S := S) p b) (And.intro (total_86_1 (S := S) p b) (True.intro)))
theorem total_87 (p : Prim) (b : Build) : AllFns S p b (Src.impl 87) (Src.impl 87).fns := by
  kernel_exact (And.intro (total_87_0 (S := S) p b) (And.intro (total_87_1 (S := S) p b) (True.intro)))
theorem total_88 (p : Prim) (b : Build) : AllFns S p b (Src.impl 88) (Src.impl 88).fns := by
  kernel_exact (And.intro (total_88_0 (S := S) p b) (And.intro (total_88_1 (S := S) p b) (And.intro (total_88_2 (S := S) p b) (And.intro (total_88_3 (S := S) p b) (And.intro (total_88_4 (S := S) p b) (And.intro (total_88_5 (S := S) p b) (And.intro (total_88_6 (S := S) p b) (And.intro (total_88_7 (S := S) p b) (And.intro (total_88_8 (S := S) p b) (And.intro (total_88_9 (S := S) p b) (And.intro (total_88_10 (S := S) p b) (And.intro (total_88_11 (S := S) p b) (And.intro (total_88_12 (S := S) p b) (And.intro (total_88_13 (S := S) p b) (And.intro (total_88_14 (S := S) p b) (True.intro))))))))))))))))
theorem total_89 (p : Prim) (b : Build) : AllFns S p b (Src.impl 89) (Src.impl 89).fns := by
  kernel_exact (And.intro (total_89_0 (S := S) p b) (True.intro))
theorem total_90 (p : Prim) (b : Build) : AllFns S p b (Src.impl 90) (Src.impl 90).fns := by
  kernel_exact (And.intro (total_90_0 (S := S) p b) (True.intro))
theorem total_91 (p : Prim) (b : Build) : AllFns S p b (Src.impl 91) (Src.impl 91).fns := by
  kernel_exact (And.intro (total_91_0 (S := S) p b) (True.intro))
theorem total_92 (p : Prim) (b : Build) : AllFns S p b (Src.impl 92) (Src.impl 92).fns := by
  kernel_exact (And.intro (total_92_0 (S := S) p b) (True.intro))
theorem total_93 (p : Prim) (b : Build) : AllFns S p b (Src.impl 93) (Src.impl 93).fns := by
  kernel_exact (And.intro (total_93_0 (S := S) p b) (And.intro (total_93_1 (S := S) p b) (And.intro (total_93_2 (S := S) p b) (And.intro (total_93_3 (S := S) p b) (And.intro (total_93_4 (S := S) p b) (And.intro (total_93_5 (S := S) p b) (And.intro (total_93_6 (S := S) p b) (And.intro (total_93_7 (S := S) p b) (And.intro (total_93_8 (S := S) p b) (And.intro (total_93_9 (S := S) p b) (And.intro (total_93_10 (S := S) p b) (And.intro (total_93_11 (S := S) p b) (And.intro (total_93_12 (S := S) p b) (And.intro (total_93_13 (S := S) p b) (And.intro (total_93_14 (S := S) p b) (And.intro (total_93_15 (S := S) p b) (And.intro (total_93_16 (S := S) p b) (True.intro))))))))))))))))))
theorem total_94 (p : Prim) (b : Build) : AllFns S p b (Src.impl 94) (Src.impl 94).fns := by
  kernel_exact (And.intro (total_94_0 (S := S) p b) (True.intro))
theorem total_95 (p : Prim) (b : Build) : AllFns S p b (Src.impl 95) (Src.impl 95).fns := by
  kernel_exact (And.intro (total_95_0 (S := S) p b) (True.intro))
theorem total_96 (p : Prim) (b : Build) : AllFns S p b (Src.impl 96) (Src.impl 96).fns := by
  kernel_exact (And.intro (total_96_0 (S := S) p b) (True.intro))
theorem total_97 (p : Prim) (b : Build) : AllFns S p b (Src.impl 97) (Src.impl 97).fns := by
  kernel_exact (And.intro (total_97_0 (S := S) p b) (True.intro))
theorem total_98 (p : Prim) (b : Build) : AllFns S p b (Src.impl 98) (Src.impl 98).fns := by
  kernel_exact (And.intro (total_98_0 (S := S) p b) (And.intro (total_98_1 (S := S) p b) (And.intro (total_98_2 (S := S) p b) (And.intro (total_98_3 (S := S) p b) (And.intro (total_98_4 (S := S) p b) (And.intro (total_98_5 (S := S) p b) (And.intro (total_98_6 (S := S) p b) (And.intro (total_98_7 (S := S) p b) (And.intro (total_98_8 (S := S) p b) (And.intro (total_98_9 (S := S) p b) (And.intro (total_98_10 (S := S) p b) (And.intro (total_98_11 (S := S) p b) (True.intro)))))))))))))
theorem total_99 (p : Prim) (b : Build) : AllFns S p b (Src.impl 99) (Src.impl 99).fns := by
  kernel_exact (And.intro (total_99_0 (S := S) p b) (True.intro))
theorem total_100 (p : Prim) (b : Build) : AllFns S p b (Src.impl 100) (Src.impl 100).fns := by
  kernel_exact (And.intro (total_100_0 (S := S) p b) (True.intro))
theorem total_101 (p : Prim) (b : Build) : AllFns S p b (Src.impl 101) (Src.impl 101).fns := by
  kernel_exact (And.intro (total_101_0 (S := S) p b) (True.intro))
theorem total_102 (p : Prim) (b : Build) : AllFns S p b (Src.impl 102) (Src.impl 102).fns := by
  kernel_exact (And.intro (total_102_0 (S := S) p b) (True.intro))
theorem total_103 (p : Prim) (b : Build) : AllFns S p b (Src.impl 103) (Src.impl 103).fns := by
  kernel_exact (And.intro (total_103_0 (S := S) p b) (True.intro))
theorem total_104 (p : Prim) (b : Build) : AllFns S p b (Src.impl 104) (Src.impl 104).fns := by
  kernel_exact (And.intro (total_104_0 (S := S) p b) (True.intro))
theorem total_105 (p : Prim) (b : Build) : AllFns S p b (Src.impl 105) (Src.impl 105).fns := by
  kernel_exact (And.intro (total_105_0 (S := S) p b) (True.intro))
theorem total_106 (p : Prim) (b : Build) : AllFns S p b (Src.impl 106) (Src.impl 106).fns := by
  kernel_exact (And.intro (total_106_0 (S := S) p b) (True.intro))
theorem total_107 (p : Prim) (b : Build) : AllFns S p b (Src.impl 107) (Src.impl 107).fns := by
  kernel_exact (And.intro (total_107_0 (S := S) p b) (True.intro))
theorem total_108 (p : Prim) (b : Build) : AllFns S p b (Src.impl 108) (Src.impl 108).fns := by
  kernel_exact (And.intro (total_108_0 (S := S) p b) (True.intro))
theorem total_109 (p : Prim) (b : Build) : AllFns S p b (Src.impl 109) (Src.impl 109).fns := by
  kernel_exact (And.intro (total_109_0 (S := S) p b) (True.intro))
theorem total_110 (p : Prim) (b : Build) : AllFns S p b (Src.impl 110) (Src.impl 110).fns := by
  kernel_exact (And.intro (total_110_0 (S := S) p b) (And.intro (total_110_1 (S := S) p b) (And.intro (total_110_2 (S := S) p b) (And.intro (total_110_3 (S := S) p b) (And.intro (total_110_4 (S := S) p b) (And.intro (total_110_5 (S := S) p b) (And.intro (total_110_6 (S := S) p b) (And.intro (total_110_7 (S := S) p b) (True.intro)))))))))
theorem total_111 (p : Prim) (b : Build) : AllFns S p b (Src.impl 111) (Src.impl 111).fns := by
  kernel_exact (And.intro (total_111_0 (S := S) p b) (True.intro))
theorem total_112 (p : Prim) (b : Build) : AllFns S p b (Src.impl 112) (Src.impl 112).fns := by
  kernel_exact (And.intro (total_112_0 (S := S) p b) (True.intro))
theorem total_113 (p : Prim) (b : Build) : AllFns S p b (Src.impl 113) (Src.impl 113).fns := by
  kernel_exact (And.intro (total_113_0 (S := S) p b) (True.intro))
theorem total_114 (p : Prim) (b : Build) : AllFns S p b (Src.impl 114) (Src.impl 114).fns := by
  kernel_exact (And.intro (total_114_0 (S := S) p b) (True.intro))
theorem total_115 (p : Prim) (b : Build) : AllFns S p b (Src.impl 115) (Src.impl 115).fns := by
  kernel_exact (And.intro (total_115_0 (S := S) p b) (True.intro))
theorem total_116 (p : Prim) (b : Build) : AllFns S p b (Src.impl 116) (Src.impl 116).fns := by
  kernel_exact (And.intro (total_116_0 (S := S) p b) (And.intro (total_116_1 (S := S) p b) (And.intro (total_116_2 (S := S) p b) (And.intro (total_116_3 (S := S) p b) (And.intro (total_116_4 (S := S) p b) (And.intro (total_116_5 (S := S) p b) (And.intro (total_116_6 (S := S) p b) (And.intro (total_116_7 (S := S) p b) (And.intro (total_116_8 (S := S) p b) (And.intro (total_116_9 (S := S) p b) (And.intro (total_116_10 (S := S) p b) (And.intro (total_116_11 (S := S) p b) (And.intro (total_116_12 (S := S) p b) (And.intro (total_116_13 (S := S) p b) (And.intro (total_116_14 (S := S) p b) (And.intro (total_116_15 (S := S) p b) (True.intro)))))))))))))))))
theorem total_117 (p : Prim) (b : Build) : AllFns S p b (Src.impl 117) (Src.impl 117).fns := by
  kernel_exact (And.intro (total_117_0 (S := S) p b) (True.intro))
theorem total_118 (p : Prim) (b : Build) : AllFns S p b (Src.impl 118) (Src.impl 118).fns := by
  kernel_exact (And.intro (total_118_0 (S := S) p b) (True.intro))
theorem total_119 (p : Prim) (b : Build) : AllFns S p b (Src.impl 119) (Src.impl 119).fns := by
  kernel_exact (And.intro (total_119_0 (S := S) p b) (True.intro))
theorem total_120 (p : Prim) (b : Build) : AllFns S p b (Src.impl 120) (Src.impl 120).fns := by
  kernel_exact (And.intro (total_120_0 (S := S) p b) (True.intro))
theorem total_121 (p : Prim) (b : Build) : AllFns S p b (Src.impl 121) (Src.impl 121).fns := by
  kernel_exact (And.intro (total_121_0 (S := S) p b) (True.intro))
theorem total_122 (p : Prim) (b : Build) : AllFns S p b (Src.impl 122) (Src.impl 122).fns := by
  kernel_exact (And.intro (total_122_0 (S := S) p b) (True.intro))
theorem total_123 (p : Prim) (b : Build) : AllFns S p b (Src.impl 123) (Src.impl 123).fns := by
  kernel_exact (And.intro (total_123_0 (S := S) p b) (True.intro))
theorem total_124 (p : Prim) (b : Build) : AllFns S p b (Src.impl 124) (Src.impl 124).fns := by
  kernel_exact (And.intro (total_124_0 (S := S) p b) (True.intro))
theorem total_125 (p : Prim) (b : Build) : AllFns S p b (Src.impl 125) (Src.impl 125).fns := by
  kernel_exact (And.intro (total_125_0 (S := S) p b) (True.intro))
theorem total_126 (p : Prim) (b : Build) : AllFns S p b (Src.impl 126) (Src.impl 126).fns := by
  kernel_exact (And.intro (total_126_0 (S := S) p b) (True.intro))
theorem total_127 (p : Prim) (b : Build) : AllFns S p b (Src.impl 127) (Src.impl 127).fns := by
  kernel_exact (And.intro (total_127_0 (S := S) p b) (True.intro))
theorem total_128 (p : Prim) (b : Build) : AllFns S p b (Src.impl 128) (Src.impl 128).fns := by
  kernel_exact (And.intro (total_128_0 (S := S) p b) (And.intro (total_128_1 (S := S) p b) (And.intro (total_128_2 (S := S) p b) (And.intro (total_128_3 (S := S) p b) (And.intro (total_128_4 (S := S) p b) (And.intro (total_128_5 (S := S) p b) (And.intro (total_128_6 (S := S) p b) (And.intro (total_128_7 (S := S) p b) (And.intro (total_128_8 (S := S) p b) (And.intro (total_128_9 (S := S) p b) (And.intro (total_128_10 (S := S) p b) (And.intro (total_128_11 (S := S) p b) (True.intro)))))))))))))
theorem total_129 (p : Prim) (b : Build) : AllFns S p b (Src.impl 129) (Src.impl 129).fns := by
  kernel_exact (And.intro (total_129_0 (S := S) p b) (True.intro))
theorem total_130 (p : Prim) (b : Build) : AllFns S p b (Src.impl 130) (Src.impl 130).fns := by
  kernel_exact (And.intro (total_130_0 (S := S) p b) (True.intro))
theorem total_131 (p : Prim) (b : Build) : AllFns S p b (Src.impl 131) (Src.impl 131).fns := by
  kernel_exact (And.intro (total_131_0 (S := S) p b) (True.intro))
theorem total_132 (p : Prim) (b : Build) : AllFns S p b (Src.impl 132) (Src.impl 132).fns := by
  kernel_exact (And.intro (total_132_0 (S := S) p b) (True.intro))
theorem total_133 (p : Prim) (b : Build) : AllFns S p b (Src.impl 133) (Src.impl 133).fns := by
  kernel_exact (And.intro (total_133_0 (S := S) p b) (True.intro))

set_option maxRecDepth 100000 in
theorem total_all (p : Prim) (b : Build) : AllImpls S p b Src.crate.impls := by
  kernel_exact (And.intro (total_0 (S := S) p b) (And.intro (total_1 (S := S) p b) (And.intro (total_2 (S := S) p b) (And.intro (total_3 (S := S) p b) (And.intro (total_4 (S := S) p b) (And.intro (total_5 (S := S) p b) (And.intro (total_6 (S := S) p b) (And.intro (total_7 (S := S) p b) (And.intro (total_8 (S := S) p b) (And.intro (total_9 (S := S) p b) (And.intro (total_10 (S := S) p b) (And.intro (total_11 (S := S) p b) (And.intro (total_12 (S := S) p b) (And.intro (total_13 (S := S) p b) (And.intro (total_14 (S := S) p b) (And.intro (total_15 (S := S) p b) (And.intro (total_16 (S := S) p b) (And.intro (total_17 (S := S) p b) (And.intro (total_18 (S := S) p b) (And.intro (total_19 (S := S) p b) (And.intro (total_20 (S := S) p b) (And.intro (total_21 (S := S) p b) (And.intro (total_22 (S := S) p b) (And.intro (total_23 (S := S) p b) (And.intro (total_24 (S := S) p b) (And.intro (total_25 (S := S) p b) (And.intro (total_26 (S := S) p b) (And.intro (total_27 (S := S) p b) (And.intro (total_28 (S := S) p b) (And.intro (total_29 (S := S) p b) (And.intro (total_30 (S := S) p b) (And.intro (total_31 (S := S) p b) (And.intro (total_32 (S := S) p b) (And.intro (total_33 (S := S) p b) (And.intro (total_34 (S := S) p b) (And.intro (total_35 (S := S) p b) (And.intro (total_36 (S := S) p b) (And.intro (total_37 (S := S) p b) (And.intro (total_38 (S := S) p b) (And.intro (total_39 (S := S) p b) (And.intro (total_40 (S := S) p b) (And.intro (total_41 (S := S) p b) (And.intro (total_42 (S := S) p b) (And.intro (total_43 (S := S) p b) (And.intro (total_44 (S := S) p b) (And.intro (total_45 (S := S) p b) (And.intro (total_46 (S := S) p b) (And.intro (total_47 (S := S) p b) (And.intro (total_48 (S := S) p b) (And.intro (total_49 (S := S) p b) (And.intro (total_50 (S := S) p b) (And.intro (total_51 (S := S) p b) (And.intro (total_52 (S := S) p b) (And.intro (total_53 (S := S) p b) (And.intro (total_54 (S := S) p b) (And.intro (total_55 (S := S) p b) (And.intro (total_56 (S := S) p b) (And.intro (total_57 (S := S) p b) (And.intro (total_58 (S := S) p b) (And.intro (total_59 (S := S) p b) (And.intro (total_60 (S := S) p b) (And.intro (total_61 (S := S) p b) (And.intro (total_62 (S := S) p b) (And.intro (total_63 (S := S) p b) (And.intro (total_64 (S := S) p b) (And.intro (total_65 (S := S) p b) (And.intro (total_66 (S := S) p b) (And.intro (total_67 (S := S) p b) (And.intro (total_68 (S := S) p b) (And.intro (total_69 (S := S) p b) (And.intro (total_70 (S := S) p b) (And.intro (total_71 (S := S) p b) (And.intro (total_72 (S := S) p b) (And.intro (total_73 (S := S) p b) (And.intro (total_74 (S := S) p b) (And.intro (total_75 (S := S) p b) (And.intro (total_76 (S := S) p b) (And.intro (total_77 (S := S) p b) (And.intro (total_78 (S := S) p b) (And.intro (total_79 (S := S) p b) (And.intro (total_80 (S := S) p b) (And.intro (total_81 (S := S) p b) (And.intro (total_82 (S := S) p b) (And.intro (total_83 (S := S) p b) (And.intro (total_84 (S := S) p b) (And.intro (total_85 (S := S) p b) (And.intro (total_86 (S := S) p b) (And.intro (total_87 (S := S) p b) (And.intro (total_88 (S := S) p b) (And.intro (total_89 (S := S) p b) (And.intro (total_90 (S := S) p b) (And.intro (total_91 (S := S) p b) (And.intro (total_92 (S := S) p b) (And.intro (total_93 (S := S) p b) (And.intro (total_94 (S := S) p b) (And.intro (total_95 (S := S) p b) (And.intro (total_96 (S := S) p b) (And.intro (total_97 (S := S) p b) (And.intro (total_98 (S := S) p b) (And.intro (total_99 (S := S) p b) (And.intro (total_100 (S := S) p b) (And.intro (total_101 (S := S) p b) (And.intro (total_102 (S := S) p b) (And.intro (total_103 (S := S) p b) (And.intro (total_104 (S := S) p b) (And.intro (total_105 (S := S) p b) (And.intro (total_106 (S := S) p b) (And.intro (total_107 (S := S) p b) (And.intro (total_108 (S := S) p b) (And.intro (total_109 (S := S) p b) (And.intro (total_110 (S := S) p b) (And.intro (total_111 (S := S) p b) (And.intro (total_112 (S := S) p b) (And.intro (total_113 (S := S) p b) (And.intro (total_114 (S := S) p b) (And.intro (total_115 (S := S) p b) (And.intro (total_116 (S := S) p b) (And.intro (total_117 (S := S) p b) (And.intro (total_118 (S := S) p b) (And.intro (total_119 (S := S) p b) (And.intro (total_120 (S := S) p b) (And.intro (total_121 (S := S) p b) (And.intro (total_122 (S := S) p b) (And.intro (total_123 (S := S) p b) (And.intro (total_124 (S := S) p b) (And.intro (total_125 (S := S) p b) (And.intro (total_126 (S := S) p b) (And.intro (total_127 (S := S) p b) (And.intro (total_128 (S := S) p b) (And.intro (total_129 (S := S) p b) (And.intro (total_130 (S := S) p b) (And.intro (total_131 (S := S) p b) (And.intro (total_132 (S := S) p b) (And.intro (total_133 (S := S) p b) (True.intro)))))))))))))))))))))))))))))))))))))))))))))))))))))))))))))))))))))))))))))))))))))))))))))))))))))))))))))))))))))))))))))))))))))))

set_option maxRecDepth 100000 in
theorem free_all (p : Prim) (b : Build) : AllFree S p b Src.crate.fns := by
  kernel_exact (And.intro (free_0 (S := S) p b) (And.intro (free_1 (S := S) p b) (And.intro (free_2 (S := S) p b) (And.intro (free_3 (S := S) p b) (And.intro (free_4 (S := S) p b) (And.intro (free_5 (S := S) p b) (And.intro (free_6 (S := S) p b) (And.intro (free_7 (S := S) p b) (And.intro (free_8 (S := S) p b) (And.intro (free_9 (S := S) p b) (And.intro (free_10 (S := S) p b) (And.intro (free_11 (S := S) p b) (And.intro (free_12 (S := S) p b) (And.intro (free_13 (S := S) p b) (And.intro (free_14 (S := S) p b) (And.intro (free_15 (S := S) p b) (And.intro (free_16 (S := S) p b) (And.intro (free_17 (S := S) p b) (And.intro (free_18 (S := S) p b) (And.intro (free_19 (S := S) p b) (And.intro (free_20 (S := S) p b) (And.intro (free_21 (S := S) p b) (And.intro (free_22 (S := S) p b) (And.intro (free_23 (S := S) p b) (And.intro (free_24 (S := S) p b) (And.intro (free_25 (S := S) p b) (And.intro (free_26 (S := S) p b) (And.intro (free_27 (S := S) p b) (And.intro (free_28 (S := S) p b) (And.intro (free_29 (S := S) p b) (True.intro)))))))))))))))))))))))))))))))

/-- Every function of every `impl` block in the source text, called with any arguments of the types of its parameters,
returns a value: it does not panic (unless it is one of the five that may), overflow an integer or run forever. -/
theorem C82_methods (p : Prim) (b : Build) : ∀ i ∈ Src.crate.impls, ∀ f ∈ i.fns, FnTotal S p b i f :=
  allImpls_mem (total_all p b)

/-- The same for every free function (none of which may panic). -/
theorem C82_free (p : Prim) (b : Build) : ∀ f ∈ Src.crate.fns, FreeTotal S p b f :=
  allFree_mem (free_all p b)

end VecMath.Rust
