import Lean
/-! # Abstract syntax of the fragment of Rust the crate is written in

Identifiers, operators and punctuation are numbers (the characters read in base 256), because comparing numbers is
what Lean's kernel does fast; `i!"name"` is the number of a name. -/

namespace VecMath.Rust

/-- A name, read as a number in base 256. -/
abbrev Ident := Nat

def identOfChars (cs : List Char) : Ident := cs.foldl (fun n c => n * 256 + c.toNat) 0

/-- `i!"self"` is the number of the identifier `self`. -/
syntax "i!" str : term
macro_rules
  | `(i! $s:str) => return Lean.Syntax.mkNumLit (toString (identOfChars s.getString.toList))

/-- Types. Lifetimes and `mut` in references do not occur or do not matter; references are erased. -/
inductive Ty where
  | path (name : Ident) (args : List Ty)
  | arr (elem : Ty) (len : Nat)
  | tup (args : List Ty)
  deriving Inhabited, Repr

/-- Patterns of `let`, closures, `for` and `match`. -/
inductive Pat where
  | var (name : Ident)
  | tup (args : List Pat)
  | strct (name : Ident) (fields : List Ident)
  | variant (ty name : Ident)
  deriving Inhabited, Repr

/-- Expressions and statements; a block is a chain of `letIn` and `seq` inside `block`. -/
inductive Expr where
  | unit
  | int (n : Nat)
  /-- A literal with a decimal point: `0.5f32` is `flt 5 1`. -/
  | flt (digits decimals : Nat)
  | str
  | var (name : Ident)
  | path (ty name : Ident)
  | field (e : Expr) (name : Ident)
  | index (e i : Expr)
  | call (f : Expr) (args : List Expr)
  | method (e : Expr) (name : Ident) (args : List Expr)
  | un (op : Ident) (e : Expr)
  | refMut (e : Expr)
  | bin (op : Ident) (a b : Expr)
  | cast (e : Expr) (ty : Ty)
  | tup (es : List Expr)
  | arr (es : List Expr)
  | strct (name : Ident) (fields : List (Ident × Expr))
  | range (a b : Expr) (inclusive : Bool)
  | ite (c t e : Expr)
  | mtch (e : Expr) (arms : List (Pat × Expr))
  | closure (params : List Pat) (body : Expr)
  | try_ (e : Expr)
  | ret (e : Expr)
  /-- `lhs = rhs`, or `lhs op= rhs` when `op` is not `0`. -/
  | assign (op : Ident) (lhs rhs : Expr)
  | macro_ (name : Ident) (args : List Expr)
  | forIn (p : Pat) (e body : Expr)
  | letIn (p : Pat) (e rest : Expr)
  | seq (a b : Expr)
  | block (e : Expr)
  deriving Inhabited, Repr

/-- A function; `self` is an ordinary first parameter of type `Self`. `bounds` are the traits that bound the type
parameters of the function itself (`fn min<T: MinMax>`). -/
structure Fn where
  name : Ident
  bounds : List Ident
  params : List (Ident × Ty)
  body : Expr
  deriving Inhabited, Repr

/-- An `impl` block, of a trait (with its type arguments) or inherent (`none`). -/
structure Impl where
  trait : Option (Ident × List Ty)
  target : Ty
  fns : List Fn
  deriving Inhabited, Repr

structure Struct where
  name : Ident
  derives : List Ident
  fields : List (Ident × Ty)
  deriving Inhabited, Repr

structure Enum where
  name : Ident
  derives : List Ident
  variants : List Ident
  deriving Inhabited, Repr

structure Crate where
  structs : List Struct := []
  enums : List Enum := []
  aliases : List (Ident × Ty) := []
  fns : List Fn := []
  impls : List Impl := []
  deriving Inhabited, Repr

def Crate.append (a b : Crate) : Crate where
  structs := a.structs ++ b.structs
  enums := a.enums ++ b.enums
  aliases := a.aliases ++ b.aliases
  fns := a.fns ++ b.fns
  impls := a.impls ++ b.impls

end VecMath.Rust
