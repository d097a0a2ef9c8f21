import Verif.Rust.Ast
/-! # Lexer and parser for the fragment of Rust the crate is written in

Ordinary total functions (`fuel` bounds the recursion); anything outside the fragment makes `parse` return `none`. -/

namespace VecMath.Rust

inductive Tok where
  | id (name : Ident)
  | int (n : Nat)
  | flt (digits decimals : Nat)
  | str
  | sym (s : Ident)
  deriving Inhabited, Repr

/-! ## Lexer -/

def isLetter (c : Nat) : Bool := (c.ble 122 && Nat.ble 97 c) || (c.ble 90 && Nat.ble 65 c) || c == 95
def isDigit (c : Nat) : Bool := c.ble 57 && Nat.ble 48 c
def isSpace (c : Nat) : Bool := c == 32 || c == 10 || c == 13 || c == 9

/-- The rest of an identifier. -/
def lexId : List Nat → Ident → Ident × List Nat
  | [], n => (n, [])
  | c :: cs, n => if isLetter c || isDigit c then lexId cs (n * 256 + c) else (n, c :: cs)
/-- Digits in the given base; returns the value and the number of digits. -/
def lexDigits (base : Nat) : List Nat → Nat → Nat → (Nat × Nat) × List Nat
  | [], n, k => ((n, k), [])
  | c :: cs, n, k => if isDigit c then lexDigits base cs (n * base + (c - 48)) (k + 1) else ((n, k), c :: cs)
/-- Skip a line comment. -/
def skipLine : List Nat → List Nat
  | [] => []
  | c :: cs => if c == 10 then cs else skipLine cs
/-- Skip to the closing quote. -/
def skipStr : List Nat → List Nat
  | [] => []
  | c :: cs => if c == 34 then cs else skipStr cs

def syms3 : List Ident := [i!"..="]
def syms2 : List Ident := [i!"::", i!"->", i!"=>", i!"<=", i!">=", i!"==", i!"!=", i!"&&", i!"||", i!"+=", i!"-=",
  i!"*=", i!"/=", i!".."]

/-- One token (or `none` for white space and comments), and the rest of the text. -/
def lex1 : List Nat → Option Tok × List Nat
  | [] => (none, [])
  | c :: cs =>
    if isSpace c then (none, cs)
    else if isLetter c then let (n, r) := lexId cs c; (some (.id n), r)
    else if isDigit c then
      match cs with
      | 98 :: cs => let ((n, _), r) := lexDigits 2 cs 0 0; (some (.int n), r)
      | cs =>
        let ((n, _), r) := lexDigits 10 (c :: cs) 0 0
        match r with
        | 46 :: d :: r' =>
          if isDigit d then
            let ((m, k), r) := lexDigits 10 (d :: r') n 0
            let (_, r) := lexId r 0
            (some (.flt m k), r)
          else (some (.int n), r)
        | r => (some (.int n), r)
    else if c == 34 then (some .str, skipStr cs)
    else
      match cs with
      | d :: e :: r =>
        if c == 47 && d == 47 then (none, skipLine cs)
        else if syms3.contains ((c * 256 + d) * 256 + e) then (some (.sym ((c * 256 + d) * 256 + e)), r)
        else if syms2.contains (c * 256 + d) then (some (.sym (c * 256 + d)), e :: r)
        else (some (.sym c), cs)
      | _ => (some (.sym c), cs)

def lex : Nat → List Nat → List Tok
  | 0, _ => []
  | _, [] => []
  | fuel + 1, cs =>
    match lex1 cs with
    | (some t, r) => t :: lex fuel r
    | (none, r) => lex fuel r

/-! ## Parser -/

abbrev P (α : Type) := List Tok → Option (α × List Tok)

instance : Monad P where
  pure a ts := some (a, ts)
  bind p f ts := match p ts with
    | some (a, ts) => f a ts
    | none => none

def fail {α : Type} : P α := fun _ => none
def get : P (List Tok) := fun ts => some (ts, ts)
/-- Is the next token this symbol? -/
def peekSym (s : Ident) : P Bool := fun ts => match ts with
  | .sym t :: _ => some (t == s, ts)
  | _ => some (false, ts)
def peekId (s : Ident) : P Bool := fun ts => match ts with
  | .id t :: _ => some (t == s, ts)
  | _ => some (false, ts)
/-- Consume the symbol if it is next. -/
def trySym (s : Ident) : P Bool := fun ts => match ts with
  | .sym t :: r => if t == s then some (true, r) else some (false, ts)
  | _ => some (false, ts)
def tryId (s : Ident) : P Bool := fun ts => match ts with
  | .id t :: r => if t == s then some (true, r) else some (false, ts)
  | _ => some (false, ts)
def sym (s : Ident) : P Unit := fun ts => match ts with
  | .sym t :: r => if t == s then some ((), r) else none
  | _ => none
def kw (s : Ident) : P Unit := fun ts => match ts with
  | .id t :: r => if t == s then some ((), r) else none
  | _ => none
def ident : P Ident := fun ts => match ts with
  | .id t :: r => some (t, r)
  | _ => none
def intLit : P Nat := fun ts => match ts with
  | .int n :: r => some (n, r)
  | _ => none

/-- `p, p, …, p` up to the closing symbol, which is consumed; a trailing comma is allowed. -/
def commaList {α : Type} (p : P α) (close : Ident) : Nat → P (List α)
  | 0 => fail
  | fuel + 1 => do
    if ← trySym close then return []
    let a ← p
    if ← trySym (i!",") then return a :: (← commaList p close fuel)
    sym close
    return [a]

/-- Types; `&`, `&mut` are erased. -/
def pTy : Nat → P Ty
  | 0 => fail
  | fuel + 1 => do
    if ← trySym (i!"&") then
      let _ ← tryId (i!"mut")
      pTy fuel
    else if ← trySym (i!"(") then
      return .tup (← commaList (pTy fuel) (i!")") fuel)
    else if ← trySym (i!"[") then
      let t ← pTy fuel
      sym (i!";")
      let n ← intLit
      sym (i!"]")
      return .arr t n
    else
      let x ← ident
      if ← trySym (i!"::") then
        let y ← ident
        return .path x [.path y []]
      else if ← trySym (i!"<") then
        return .path x (← commaList (pTy fuel) (i!">") fuel)
      else return .path x []

/-- Does the name start with a capital letter? (Told from its number: divide by 256 down to the first character.) -/
def isUpper : Nat → Ident → Bool
  | 0, _ => false
  | fuel + 1, n => if n.ble 255 then n.ble 90 && Nat.ble 65 n else isUpper fuel (n / 256)

def pPat : Nat → P Pat
  | 0 => fail
  | fuel + 1 => do
    if ← trySym (i!"(") then
      return .tup (← commaList (pPat fuel) (i!")") fuel)
    else
      let _ ← tryId (i!"mut")
      let x ← ident
      if ← trySym (i!"::") then return .variant x (← ident)
      else if ← trySym (i!"{") then return .strct x (← commaList ident (i!"}") fuel)
      else return .var x

/-- Binary operators and their binding strength. -/
def binops : List (Ident × Nat) := [(i!"*", 9), (i!"/", 9), (i!"%", 9), (i!"+", 8), (i!"-", 8), (i!"&", 7),
  (i!"==", 6), (i!"!=", 6), (i!"<", 6), (i!">", 6), (i!"<=", 6), (i!">=", 6), (i!"&&", 5)]
def peekBin : P (Option (Ident × Nat)) := fun ts => match ts with
  | .sym t :: _ => match binops.find? (fun o => o.1 == t) with
    | some o => some (some o, ts)
    | none => some (none, ts)
  | _ => some (none, ts)

/-- Assignment operators, with the operator inside (`0` for `=`). -/
def assignops : List (Ident × Ident) := [(i!"=", 0), (i!"+=", i!"+"), (i!"-=", i!"-"), (i!"*=", i!"*"), (i!"/=", i!"/")]
def peekAssign : P (Option Ident) := fun ts => match ts with
  | .sym t :: _ => match assignops.find? (fun o => o.1 == t) with
    | some o => some (some o.2, ts)
    | none => some (none, ts)
  | _ => some (none, ts)
def skip : P Unit := fun ts => match ts with
  | _ :: r => some ((), r)
  | [] => none

mutual
/-- Expressions with assignment and ranges; `s` says whether a struct literal may appear here (not in the head of
`if`, `match` and `for`). -/
def pExpr (s : Bool) : Nat → P Expr
  | 0 => fail
  | fuel + 1 => do
    let a ← pBin s 0 fuel
    if ← trySym (i!"..=") then return .range a (← pBin s 0 fuel) true
    else if ← trySym (i!"..") then return .range a (← pBin s 0 fuel) false
    else
      match ← peekAssign with
      | some op => do
        skip
        return .assign op a (← pExpr s fuel)
      | none => return a
def pBin (s : Bool) (prec : Nat) : Nat → P Expr
  | 0 => fail
  | fuel + 1 => do
    let a ← pUn s fuel
    pBinRest s prec a fuel
def pBinRest (s : Bool) (prec : Nat) (a : Expr) : Nat → P Expr
  | 0 => fail
  | fuel + 1 => do
    match ← peekBin with
    | some (op, p) =>
      if prec.blt p then do
        skip
        let b ← pBin s p fuel
        pBinRest s prec (.bin op a b) fuel
      else return a
    | none => return a
def pUn (s : Bool) : Nat → P Expr
  | 0 => fail
  | fuel + 1 => do
    if ← trySym (i!"-") then return .un (i!"-") (← pUn s fuel)
    else if ← trySym (i!"*") then return .un (i!"*") (← pUn s fuel)
    else if ← trySym (i!"&") then
      if ← tryId (i!"mut") then return .refMut (← pUn s fuel)
      else return .un (i!"&") (← pUn s fuel)
    else do
      let a ← pAtom s fuel
      pPost s a fuel
/-- Fields, methods, indexing, calls, `?`, `as`. -/
def pPost (s : Bool) (a : Expr) : Nat → P Expr
  | 0 => fail
  | fuel + 1 => do
    if ← trySym (i!".") then
      let x ← ident
      if ← trySym (i!"(") then pPost s (.method a x (← commaList (pExpr true fuel) (i!")") fuel)) fuel
      else pPost s (.field a x) fuel
    else if ← trySym (i!"[") then
      let i ← pExpr true fuel
      sym (i!"]")
      pPost s (.index a i) fuel
    else if ← trySym (i!"(") then pPost s (.call a (← commaList (pExpr true fuel) (i!")") fuel)) fuel
    else if ← trySym (i!"?") then pPost s (.try_ a) fuel
    else if ← tryId (i!"as") then pPost s (.cast a (← pTy fuel)) fuel
    else return a
def pAtom (s : Bool) : Nat → P Expr
  | 0 => fail
  | fuel + 1 => fun ts => match ts with
    | .int n :: r => some (.int n, r)
    | .flt n k :: r => some (.flt n k, r)
    | .str :: r => some (.str, r)
    | .sym t :: r =>
      if t == i!"(" then
        (do
          let es ← commaList (pExpr true fuel) (i!")") fuel
          match es with
          | [e] => return e
          | es => return .tup es : P Expr) r
      else if t == i!"[" then (do return .arr (← commaList (pExpr true fuel) (i!"]") fuel) : P Expr) r
      else if t == i!"{" then (do return .block (← pBlock fuel) : P Expr) r
      else if t == i!"|" then
        (do
          let ps ← commaList (pPat fuel) (i!"|") fuel
          return .closure ps (← pExpr true fuel) : P Expr) r
      else none
    | .id x :: r =>
      if x == i!"if" then
        (do
          let c ← pExpr false fuel
          sym (i!"{")
          let t ← pBlock fuel
          if ← tryId (i!"else") then
            return .ite c (.block t) (← pExpr true fuel)
          else return .ite c (.block t) .unit : P Expr) r
      else if x == i!"match" then
        (do
          let e ← pExpr false fuel
          sym (i!"{")
          return .mtch e (← commaList (pArm fuel) (i!"}") fuel) : P Expr) r
      else if x == i!"for" then
        (do
          let p ← pPat fuel
          kw (i!"in")
          let e ← pExpr false fuel
          sym (i!"{")
          return .forIn p e (.block (← pBlock fuel)) : P Expr) r
      else if x == i!"return" then (do return .ret (← pExpr true fuel) : P Expr) r
      else
        (do
          if ← trySym (i!"::") then return .path x (← ident)
          else if ← trySym (i!"!") then
            sym (i!"(")
            return .macro_ x (← commaList (pExpr true fuel) (i!")") fuel)
          else if s && isUpper 99 x && (← peekSym (i!"{")) then
            skip
            return .strct x (← commaList (pField fuel) (i!"}") fuel)
          else return .var x : P Expr) r
    | [] => none
def pArm : Nat → P (Pat × Expr)
  | 0 => fail
  | fuel + 1 => do
    let p ← pPat fuel
    sym (i!"=>")
    return (p, ← pExpr true fuel)
/-- `name: value` or the shorthand `name`. -/
def pField : Nat → P (Ident × Expr)
  | 0 => fail
  | fuel + 1 => do
    let x ← ident
    if ← trySym (i!":") then return (x, ← pExpr true fuel)
    else return (x, .var x)
/-- Statements up to the closing brace, which is consumed. -/
def pBlock : Nat → P Expr
  | 0 => fail
  | fuel + 1 => do
    if ← trySym (i!"}") then return .unit
    else if ← tryId (i!"let") then
      let p ← pPat fuel
      sym (i!"=")
      let e ← pExpr true fuel
      sym (i!";")
      return .letIn p e (← pBlock fuel)
    else
      let stmtLike := (← peekId (i!"if")) || (← peekId (i!"for")) || (← peekId (i!"match"))
      let e ← if stmtLike then pAtom true fuel else pExpr true fuel
      if ← trySym (i!";") then return .seq e (← pBlock fuel)
      else if ← trySym (i!"}") then return e
      else if stmtLike then return .seq e (← pBlock fuel)
      else fail
end

/-! ## Items -/

/-- `<S: Scalar, T: Intersection<U>, U: Copy>`: the bounding traits of the parameters. -/
def pGenerics (fuel : Nat) : P (List Ident) := do
  if ← trySym (i!"<") then
    let l ← commaList (do
      let _ ← ident
      sym (i!":")
      match ← pTy fuel with
      | .path b _ => return b
      | _ => fail) (i!">") fuel
    return l
  else return []

/-- A parameter: `self`, `&self`, `&mut self`, or `name: Type`. -/
def pParam (fuel : Nat) : P (Ident × Ty) := do
  let _ ← trySym (i!"&")
  let _ ← tryId (i!"mut")
  let x ← ident
  if ← trySym (i!":") then return (x, ← pTy fuel)
  else return (x, .path (i!"Self") [])

/-- Skip attributes; the names in a `derive` are returned. -/
def pAttrs : Nat → P (List Ident)
  | 0 => fail
  | fuel + 1 => do
    if ← trySym (i!"#") then
      sym (i!"[")
      let x ← ident
      let l ← if ← trySym (i!"(") then commaList ident (i!")") fuel else pure []
      sym (i!"]")
      let r ← pAttrs fuel
      return if x == i!"derive" then l ++ r else r
    else return []

/-- A function, after the keyword `fn`. A declaration without body has the body `unit`. -/
def pFn (fuel : Nat) : P Fn := do
  let name ← ident
  let bounds ← pGenerics fuel
  sym (i!"(")
  let params ← commaList (pParam fuel) (i!")") fuel
  if ← trySym (i!"->") then let _ ← pTy fuel
  if ← trySym (i!";") then return { name, bounds, params, body := .unit }
  sym (i!"{")
  let body ← pBlock fuel
  return { name, bounds, params, body := .block body }

/-- The members of an `impl` or `trait` block; associated types are skipped. -/
def pMembers : Nat → P (List Fn)
  | 0 => fail
  | fuel + 1 => do
    if ← trySym (i!"}") then return []
    let _ ← pAttrs fuel
    let _ ← tryId (i!"pub")
    if ← tryId (i!"type") then
      let _ ← ident
      if ← trySym (i!"=") then let _ ← pTy fuel
      sym (i!";")
      pMembers fuel
    else
      kw (i!"fn")
      let f ← pFn fuel
      return f :: (← pMembers fuel)

/-- Skip a `use` or `mod` item up to its semicolon. -/
def skipItem : Nat → P Unit
  | 0 => fail
  | fuel + 1 => do
    if ← trySym (i!";") then return ()
    skip
    skipItem fuel

def pItem (fuel : Nat) : P Crate := do
  let derives ← pAttrs fuel
  let _ ← tryId (i!"pub")
  if (← tryId (i!"use")) || (← tryId (i!"mod")) then
    skipItem fuel
    return {}
  else if ← tryId (i!"struct") then
    let name ← ident
    let _ ← pGenerics fuel
    if ← trySym (i!";") then return { structs := [{ name, derives, fields := [] }] }
    sym (i!"{")
    let fields ← commaList (do
      let _ ← tryId (i!"pub")
      let x ← ident
      sym (i!":")
      return (x, ← pTy fuel)) (i!"}") fuel
    return { structs := [{ name, derives, fields }] }
  else if ← tryId (i!"enum") then
    let name ← ident
    sym (i!"{")
    return { enums := [{ name, derives, variants := ← commaList ident (i!"}") fuel }] }
  else if ← tryId (i!"type") then
    let x ← ident
    sym (i!"=")
    let t ← pTy fuel
    sym (i!";")
    return { aliases := [(x, t)] }
  else if ← tryId (i!"fn") then return { fns := [← pFn fuel] }
  else if ← tryId (i!"trait") then
    let _ ← ident
    let _ ← if ← peekSym (i!"<") then
        (do sym (i!"<"); let _ ← commaList (do let _ ← ident; if ← trySym (i!":") then let _ ← pTy fuel) (i!">") fuel)
      else pure ()
    if ← trySym (i!":") then
      let _ ← pTy fuel
      if ← trySym (i!"+") then let _ ← pTy fuel
      if ← trySym (i!"+") then let _ ← pTy fuel
    sym (i!"{")
    let _ ← pMembers fuel
    return {}
  else
    kw (i!"impl")
    let _ ← pGenerics fuel
    let t ← pTy fuel
    if ← tryId (i!"for") then
      let target ← pTy fuel
      sym (i!"{")
      match t with
      | .path x args => return { impls := [{ trait := some (x, args), target, fns := ← pMembers fuel }] }
      | _ => fail
    else
      sym (i!"{")
      return { impls := [{ trait := none, target := t, fns := ← pMembers fuel }] }

def pFile (fuel : Nat) : Nat → P Crate
  | 0 => fail
  | n + 1 => fun ts => match ts with
    | [] => some ({}, [])
    | ts => (do
      let a ← pItem fuel
      let b ← pFile fuel n
      return a.append b : P Crate) ts

/-- Parse the characters of a source file. -/
def parseChars (chars : List Char) : Option Crate :=
  let cs := chars.map Char.toNat
  match pFile 1000 1000 (lex cs.length cs) with
  | some (c, []) => some c
  | _ => none

/-- Parse the text of a source file. -/
def parse (text : String) : Option Crate := parseChars text.toList

theorem parse_ofList (cs : List Char) : parse (String.ofList cs) = parseChars cs := by
  unfold parse; rw [String.toList_ofList]

end VecMath.Rust
