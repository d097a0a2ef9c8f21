import Verif.Rust.Derive
import Verif.Rust.Tactic
/-! # Which values a type of the crate has

Read off the declarations in the source text: a value of a struct type has the declared fields with values of their
types, and so on. `prim` is the primitive type that the scalars are; of the other primitive type there are no values. -/

namespace VecMath.Rust
open VecMath
variable {S : Type}

/-- The fields of a struct, in order, have values as `is` says. -/
def FieldsAre (is : Ty → Val S → Prop) : List (Ident × Ty) → List (Ident × Val S) → Prop
  | [], fs => fs = []
  | (x, t) :: l, fs => ∃ v r, fs = (x, v) :: r ∧ is t v ∧ FieldsAre is l r

/-- The elements of an array of length `n`. -/
def ElemsAre (is : Val S → Prop) : Nat → List (Val S) → Prop
  | 0, vs => vs = []
  | n + 1, vs => ∃ v r, vs = v :: r ∧ is v ∧ ElemsAre is n r

/-- `v` is a value of the type `t` (of nesting depth below the given number). -/
def Val.Is (c : Crate) (prim : Ident) : Nat → Ty → Val S → Prop
  | 0, _, _ => False
  | n + 1, t, v => match t with
    | .arr t k => ∃ l, v = .arr l ∧ ElemsAre (Val.Is c prim n t) k l
    | .tup _ => False
    | .path x _ =>
      if x == i!"S" || x == prim then ∃ s, v = .sc s
      else if x == i!"u32" then ∃ k, k < 2 ^ 32 ∧ v = .int k
      else match lookup c.aliases x with
        | some (.path y [.path q _]) => if q == prim then Val.Is c prim n (.path y []) v else False
        | some _ => False
        | none => match findStruct x c.structs with
          | some s => ∃ fs, v = .obj x fs ∧ FieldsAre (Val.Is c prim n) s.fields fs
          | none => match findEnum x c.enums with
            | some e => ∃ y, y ∈ e.variants ∧ v = .enm x y
            | none => False

/-- The type that a parameter type stands for, given what `Self` and the type parameters are. -/
def resolve (tv : List (Ident × Ty)) : Ty → Ty
  | .path x l => match lookup tv x with
    | some t => t
    | none => .path x l
  | t => t

/-- The arguments have the types of the parameters. -/
def ArgsAre (c : Crate) (prim : Ident) (tv : List (Ident × Ty)) : List (Ident × Ty) → List (Val S) → Prop
  | [], vs => vs = []
  | (_, t) :: ps, vs => ∃ v r, vs = v :: r ∧ Val.Is c prim 9 (resolve tv t) v ∧ ArgsAre c prim tv ps r

variable (S) [Scalar S]

/-- The outcome of calling the function `f` of an `impl` block for the type named `self`. -/
noncomputable def Src.run (p : Prim) (b : Build) (self : Ident) (f : Fn) (args : List (Val S)) : Out S :=
  callFn (eval depth) (Ctx.top Src.crate p.id b) self f args done

/-- The functions that may panic. -/
def mayPanic : List Ident := [i!"get", i!"get_mut", i!"set", i!"linear_index", i!"corner"]

/-- The function `f` of the `impl` block `i`: called with any arguments of the types of its parameters it returns a
value; only the functions named in `mayPanic` may panic instead. (It does not run forever, and integer arithmetic does
not overflow.) -/
def FnTotal (p : Prim) (b : Build) (i : Impl) (f : Fn) : Prop :=
  ∀ args, ArgsAre Src.crate p.id [(i!"Self", i.target)] f.params args →
    (∃ v s, Src.run S p b (headTy Src.crate p.id i.target) f args = .ok v s) ∨
    (f.name ∈ mayPanic ∧ ∃ e, Src.run S p b (headTy Src.crate p.id i.target) f args = .panic e)

/-- What the type parameters `T` and `U` of a free function may be: its bound is a trait (with argument `U`), and `T`
a type that implements it. -/
def TyArgs (f : Fn) (tv : List (Ident × Ty)) : Prop := match f.bounds with
  | [] => tv = []
  | b :: _ => if b == i!"Scalar" then tv = [] else
    ∃ i ∈ Src.crate.impls, ∃ l, i.trait = some (b, l) ∧ tv = (i!"T", i.target) :: l.map fun u => (i!"U", u)

/-- The free function `f`, called with any arguments of the types of its parameters, returns a value. -/
def FreeTotal (p : Prim) (b : Build) (f : Fn) : Prop :=
  ∀ tv, TyArgs f tv → ∀ args, ArgsAre Src.crate p.id tv f.params args →
    ∃ v, Src.free S p b f.name args = .ok v .unit

end VecMath.Rust
