import Verif.Rust.Typing
/-! # Vocabulary and lemmas for the proof of totality -/

namespace VecMath.Rust
open VecMath

/-- The `impl` blocks and functions of the crate by number. -/
noncomputable def Src.impl (k : Nat) : Impl := Src.crate.impls.getD k default
noncomputable def Src.fn (k j : Nat) : Fn := (Src.impl k).fns.getD j default
noncomputable def Src.freeFn (k : Nat) : Fn := Src.crate.fns.getD k default

open Lean Elab Tactic Meta in
/-- Close the goal with a term whose type the kernel (not the elaborator) compares with the goal. -/
elab "kernel_exact" t:term : tactic => do
  let g ← getMainGoal
  let e ← elabTerm t none
  Term.synthesizeSyntheticMVarsNoPostponing
  g.assign (← instantiateMVars e)

theorem name_mem (k j : Nat) (x : Ident) (h : (Src.fn k j).name = x) (hx : x ∈ mayPanic) :
    (Src.fn k j).name ∈ mayPanic := h ▸ hx

variable {S : Type} [Scalar S]

theorem total_outOf {T : Type} {o : Out S} {name : Prop} (r : Except Panic T) (v s : T → Val S)
    (h : o = outOf r v s) (hn : Unit → name) : (∃ v s, o = .ok v s) ∨ (name ∧ ∃ e, o = .panic e) := by
  cases r with
  | ok t => exact .inl ⟨_, _, h⟩
  | error e => exact .inr ⟨hn (), _, h⟩

variable (S)
def AllFns (p : Prim) (b : Build) (i : Impl) : List Fn → Prop
  | [] => True
  | f :: l => FnTotal S p b i f ∧ AllFns p b i l
def AllImpls (p : Prim) (b : Build) : List Impl → Prop
  | [] => True
  | i :: l => AllFns S p b i i.fns ∧ AllImpls p b l
def AllFree (p : Prim) (b : Build) : List Fn → Prop
  | [] => True
  | f :: l => FreeTotal S p b f ∧ AllFree p b l
variable {S}

theorem allFns_mem {p : Prim} {b : Build} {i : Impl} : ∀ {l : List Fn}, AllFns S p b i l → ∀ f ∈ l, FnTotal S p b i f
  | _ :: _, h, f, hf => by
    rcases List.mem_cons.1 hf with rfl | hf
    · exact h.1
    · exact allFns_mem h.2 f hf

theorem allImpls_mem {p : Prim} {b : Build} : ∀ {l : List Impl}, AllImpls S p b l →
    ∀ i ∈ l, ∀ f ∈ i.fns, FnTotal S p b i f
  | _ :: _, h, i, hi => by
    rcases List.mem_cons.1 hi with rfl | hi
    · exact allFns_mem h.1
    · exact allImpls_mem h.2 i hi

theorem allFree_mem {p : Prim} {b : Build} : ∀ {l : List Fn}, AllFree S p b l → ∀ f ∈ l, FreeTotal S p b f
  | _ :: _, h, f, hf => by
    rcases List.mem_cons.1 hf with rfl | hf
    · exact h.1
    · exact allFree_mem h.2 f hf

/-- The type arguments that an `impl` of the trait `b` provides. -/
def tyArgsOf (b : Ident) (i : Impl) : Option (List (Ident × Ty)) := match i.trait with
  | none => none
  | some (t, l) => match t == b with
    | true => some ((i!"T", i.target) :: l.map fun u => (i!"U", u))
    | false => none

theorem tyArgs_cases (b : Ident) (is : List Impl) (tv : List (Ident × Ty))
    (h : ∃ i ∈ is, ∃ l, i.trait = some (b, l) ∧ tv = (i!"T", i.target) :: l.map fun u => (i!"U", u)) :
    tv ∈ is.filterMap (tyArgsOf b) := by
  obtain ⟨i, hi, l, ht, rfl⟩ := h
  refine List.mem_filterMap.2 ⟨i, hi, ?_⟩
  simp [tyArgsOf, ht]

end VecMath.Rust
