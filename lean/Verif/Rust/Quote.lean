import Verif.Rust.Parse
import Verif.Rust.Tactic
/-! # Turning parsed source text into Lean definitions

`rust_source name := "…"` defines `name.text`, the text, and `name`, the syntax tree that `parse` makes of it. -/

namespace VecMath.Rust
open Lean

def qNat (n : Nat) : Lean.Expr := mkRawNatLit n |> fun l => mkApp3 (mkConst ``OfNat.ofNat [0]) (mkConst ``Nat) l (mkApp (mkConst ``instOfNatNat) l)
def qList (ty : Lean.Expr) (l : List Lean.Expr) : Lean.Expr :=
  l.foldr (fun a b => mkApp3 (mkConst ``List.cons [0]) ty a b) (mkApp (mkConst ``List.nil [0]) ty)
def qBool (b : Bool) : Lean.Expr := if b then mkConst ``Bool.true else mkConst ``Bool.false
def qProdTy (a b : Lean.Expr) : Lean.Expr := mkApp2 (mkConst ``Prod [0, 0]) a b
def qPair (ta tb a b : Lean.Expr) : Lean.Expr := mkApp4 (mkConst ``Prod.mk [0, 0]) ta tb a b
def tyIdent : Lean.Expr := mkConst ``Nat
def tyTy : Lean.Expr := mkConst ``Ty
def tyPat : Lean.Expr := mkConst ``Pat
def tyExpr : Lean.Expr := mkConst ``Expr
def qIdents (l : List Ident) : Lean.Expr := qList tyIdent (l.map qNat)

partial def qTy : Ty → Lean.Expr
  | .path x l => mkApp2 (mkConst ``Ty.path) (qNat x) (qList tyTy (l.map qTy))
  | .arr t n => mkApp2 (mkConst ``Ty.arr) (qTy t) (qNat n)
  | .tup l => mkApp (mkConst ``Ty.tup) (qList tyTy (l.map qTy))

partial def qPat : Pat → Lean.Expr
  | .var x => mkApp (mkConst ``Pat.var) (qNat x)
  | .tup l => mkApp (mkConst ``Pat.tup) (qList tyPat (l.map qPat))
  | .strct x l => mkApp2 (mkConst ``Pat.strct) (qNat x) (qIdents l)
  | .variant x y => mkApp2 (mkConst ``Pat.variant) (qNat x) (qNat y)

partial def qExpr : Expr → Lean.Expr
  | .unit => mkConst ``Expr.unit
  | .str => mkConst ``Expr.str
  | .int n => mkApp (mkConst ``Expr.int) (qNat n)
  | .flt a b => mkApp2 (mkConst ``Expr.flt) (qNat a) (qNat b)
  | .var x => mkApp (mkConst ``Expr.var) (qNat x)
  | .path x y => mkApp2 (mkConst ``Expr.path) (qNat x) (qNat y)
  | .field e x => mkApp2 (mkConst ``Expr.field) (qExpr e) (qNat x)
  | .index a b => mkApp2 (mkConst ``Expr.index) (qExpr a) (qExpr b)
  | .call f l => mkApp2 (mkConst ``Expr.call) (qExpr f) (qList tyExpr (l.map qExpr))
  | .method e x l => mkApp3 (mkConst ``Expr.method) (qExpr e) (qNat x) (qList tyExpr (l.map qExpr))
  | .un op e => mkApp2 (mkConst ``Expr.un) (qNat op) (qExpr e)
  | .refMut e => mkApp (mkConst ``Expr.refMut) (qExpr e)
  | .bin op a b => mkApp3 (mkConst ``Expr.bin) (qNat op) (qExpr a) (qExpr b)
  | .cast e t => mkApp2 (mkConst ``Expr.cast) (qExpr e) (qTy t)
  | .tup l => mkApp (mkConst ``Expr.tup) (qList tyExpr (l.map qExpr))
  | .arr l => mkApp (mkConst ``Expr.arr) (qList tyExpr (l.map qExpr))
  | .strct x l => mkApp2 (mkConst ``Expr.strct) (qNat x) (qList (qProdTy tyIdent tyExpr)
      (l.map fun (f, e) => qPair tyIdent tyExpr (qNat f) (qExpr e)))
  | .range a b i => mkApp3 (mkConst ``Expr.range) (qExpr a) (qExpr b) (qBool i)
  | .ite a b c => mkApp3 (mkConst ``Expr.ite) (qExpr a) (qExpr b) (qExpr c)
  | .mtch e l => mkApp2 (mkConst ``Expr.mtch) (qExpr e) (qList (qProdTy tyPat tyExpr)
      (l.map fun (p, e) => qPair tyPat tyExpr (qPat p) (qExpr e)))
  | .closure ps e => mkApp2 (mkConst ``Expr.closure) (qList tyPat (ps.map qPat)) (qExpr e)
  | .try_ e => mkApp (mkConst ``Expr.try_) (qExpr e)
  | .ret e => mkApp (mkConst ``Expr.ret) (qExpr e)
  | .assign op a b => mkApp3 (mkConst ``Expr.assign) (qNat op) (qExpr a) (qExpr b)
  | .macro_ x l => mkApp2 (mkConst ``Expr.macro_) (qNat x) (qList tyExpr (l.map qExpr))
  | .forIn p a b => mkApp3 (mkConst ``Expr.forIn) (qPat p) (qExpr a) (qExpr b)
  | .letIn p a b => mkApp3 (mkConst ``Expr.letIn) (qPat p) (qExpr a) (qExpr b)
  | .seq a b => mkApp2 (mkConst ``Expr.seq) (qExpr a) (qExpr b)
  | .block e => mkApp (mkConst ``Expr.block) (qExpr e)

def qFields (l : List (Ident × Ty)) : Lean.Expr :=
  qList (qProdTy tyIdent tyTy) (l.map fun (x, t) => qPair tyIdent tyTy (qNat x) (qTy t))
def qFn (f : Fn) : Lean.Expr := mkApp4 (mkConst ``Fn.mk) (qNat f.name) (qIdents f.bounds) (qFields f.params) (qExpr f.body)
def qImpl (i : Impl) : Lean.Expr :=
  let tt := qProdTy tyIdent (mkApp (mkConst ``List [0]) tyTy)
  mkApp3 (mkConst ``Impl.mk)
    (match i.trait with
      | none => mkApp (mkConst ``Option.none [0]) tt
      | some (x, l) => mkApp2 (mkConst ``Option.some [0]) tt
          (qPair tyIdent (mkApp (mkConst ``List [0]) tyTy) (qNat x) (qList tyTy (l.map qTy))))
    (qTy i.target) (qList (mkConst ``Fn) (i.fns.map qFn))
def qCrate (c : Crate) : Lean.Expr := mkApp5 (mkConst ``Crate.mk)
  (qList (mkConst ``Struct) (c.structs.map fun s => mkApp3 (mkConst ``Struct.mk) (qNat s.name) (qIdents s.derives) (qFields s.fields)))
  (qList (mkConst ``Enum) (c.enums.map fun s => mkApp3 (mkConst ``Enum.mk) (qNat s.name) (qIdents s.derives) (qIdents s.variants)))
  (qFields c.aliases) (qList (mkConst ``Fn) (c.fns.map qFn)) (qList (mkConst ``Impl) (c.impls.map qImpl))

open Elab Command in
/-- Define the text and the syntax tree of a source file. -/
elab "rust_source" n:ident ":=" s:str : command => do
  let text := s.getString
  let some c := parse text | throwError "cannot parse"
  let ns ← getCurrNamespace
  let def' (name : Name) (type value : Lean.Expr) : CommandElabM Unit := liftCoreM <| addDecl <| .defnDecl
    { name, levelParams := [], type, value, hints := .abbrev, safety := .safe }
  def' (ns ++ n.getId ++ `text) (mkConst ``String) (mkStrLit text)
  def' (ns ++ n.getId) (mkConst ``Crate) (qCrate c)

open Elab Command in
/-- Define the syntax tree of all the given source files together. -/
elab "rust_crate" n:ident ":=" "[" l:ident,* "]" : command => do
  let ns ← getCurrNamespace
  let mut c : Crate := {}
  for x in l.getElems do
    let some (.lit (.strVal text)) := ((← getEnv).find? (ns ++ x.getId ++ `text)).bind (·.value?) | throwError "no text"
    let some d := parse text | throwError "cannot parse"
    c := c.append d
  liftCoreM <| addDecl <| .defnDecl
    { name := ns ++ n.getId, levelParams := [], type := mkConst ``Crate, value := qCrate c, hints := .abbrev, safety := .safe }

open Elab Tactic Meta in
/-- Close `parse name.text = some name` by evaluating the parser in the kernel. -/
elab "kernel_parse" : tactic => do
  let g ← getMainGoal
  let t ← instantiateMVars (← g.getType)
  let_expr Eq _ a b := t | throwError "not an equation"
  let .app _ (.const n _) := a | throwError "no text"
  let some (.lit (.strVal s)) := ((← getEnv).find? n).bind (·.value?) | throwError "no text"
  let l := toExpr s.toList
  let α := mkApp (mkConst ``Option [0]) (mkConst ``Crate)
  g.assign (mkApp6 (mkConst ``Eq.trans [1]) α a (mkApp (mkConst ``parseChars) l) b (mkApp (mkConst ``parse_ofList) l)
    (mkApp2 (mkConst ``Eq.refl [1]) α b))

end VecMath.Rust
