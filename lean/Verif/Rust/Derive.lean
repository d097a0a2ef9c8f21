import Verif.Rust.Rep
/-! # What `#[derive(PartialEq)]` and `#[derive(Clone)]` generate -/

namespace VecMath.Rust
open VecMath
variable {S : Type} [Scalar S]

/-- The struct of the given name. -/
def findStruct (name : Ident) : List Struct → Option Struct
  | [] => none
  | s :: l => match s.name == name with
    | true => some s
    | false => findStruct name l

/-- The enum of the given name. -/
def findEnum (name : Ident) : List Enum → Option Enum
  | [] => none
  | s :: l => match s.name == name with
    | true => some s
    | false => findEnum name l

/-- Join comparisons from left to right with `&&`; `none` if one of them is not defined. -/
def eqAll (eq : Val S → Val S → Option Bool) : List (Val S) → List (Val S) → Option Bool
  | [], [] => some true
  | [a], [b] => eq a b
  | a :: as, b :: bs => match eq a b, eqAll eq as bs with
    | some x, some y => some (x && y)
    | _, _ => none
  | _, _ => none

/-- The values of the named fields, in this order. -/
def fieldVals (fs : List (Ident × Val S)) : List (Ident × Ty) → Option (List (Val S))
  | [] => some []
  | (x, _) :: l => match lookup fs x, fieldVals fs l with
    | some v, some vs => some (v :: vs)
    | _, _ => none

/-- `a == b` (for values nested to the given depth). Structs that derive `PartialEq` are compared field by field in
the order of declaration, arrays element by element, enums by their variant, scalars with the `==` of the scalar type. -/
def valEq (c : Crate) : Nat → Val S → Val S → Option Bool
  | 0, _, _ => none
  | n + 1, v, w => match v, w with
    | .sc a, .sc b => some (a == b)
    | .arr l, .arr m => eqAll (valEq c n) l m
    | .enm t x, .enm u y => match t == u, findEnum t c.enums with
      | true, some e => match e.derives.contains (i!"PartialEq") with
        | true => some (x == y)
        | false => none
      | _, _ => none
    | .obj t fs, .obj u gs => match t == u, findStruct t c.structs with
      | true, some s => match s.derives.contains (i!"PartialEq") with
        | true => match fieldVals fs s.fields, fieldVals gs s.fields with
          | some l, some m => eqAll (valEq c n) l m
          | _, _ => none
        | false => none
      | _, _ => none
    | _, _ => none

/-- `a == b` in the crate. -/
noncomputable def Src.eq (S : Type) [Scalar S] (a b : Val S) : Option Bool := valEq Src.crate 9 a b

end VecMath.Rust
