import Verif.Rust.Ast
import Verif.Model.Types
/-! # An evaluator for the fragment of Rust the crate is written in

Big-step semantics in continuation-passing style, on the syntax trees of `Ast.lean`, for scalars of any type
`S` with the operations of `Scalar`. `prim` says which of `f32`, `f64` the scalar type is (only that decides which
`impl … for f32` and which type alias `Vector2f` applies).

* References are values: the borrow checker guarantees that nothing changes while it is shared. `&mut e` as a value
  is a place (a variable and a path into it).
* Method and operator calls are dispatched on the types of the actual receiver and argument; in Rust they are resolved
  statically, with the same result, since every value here has exactly one type. A method call on a scalar means the
  method of `num_traits::Float` if there is one (bounds of a type parameter take precedence over other traits in
  scope); inside `fn min<T: MinMax>` it means the method of the bounding trait.
* All integers are `u32`: the only integer arithmetic of the crate is on `u32` parameters; `usize` and `i32` values
  occur as literals, loop counters and array indices only. Overflow panics in a debug build and wraps in release.
* `fuel` bounds the depth of the evaluation; running out of it is the outcome `stuck`, as is everything the
  semantics does not know. -/

namespace VecMath.Rust
open VecMath

/-- A step of a path into a value. -/
inductive Sel where
  | field (name : Ident)
  | elem (i : Nat)

/-- Values. `Some(v)`, `Ok(v)`, `Err(v)` are `obj` with the single field `0`; `None` and unit structs have no field. -/
inductive Val (S : Type) where
  | sc (s : S)
  | int (n : Nat)
  | bool (b : Bool)
  | unit
  | tup (l : List (Val S))
  | arr (l : List (Val S))
  | obj (name : Ident) (fields : List (Ident × Val S))
  | enm (ty name : Ident)
  | rng (a b : Val S) (inclusive : Bool)
  | clo (params : List Pat) (body : Expr) (env : List (Ident × Val S))
  /-- `array::from_fn(f)`, before its length is known -/
  | gen (f : Val S)
  | place (root : Ident) (path : List Sel)

abbrev Env (S : Type) := List (Ident × Val S)

/-- What a call comes to: a value together with the final value of its `self` parameter (`unit` if it has none),
or a panic. -/
inductive Out (S : Type) where
  | ok (v self : Val S)
  | panic (p : Panic)
  /-- integer overflow in a debug build -/
  | overflow
  | stuck

abbrev K (S : Type) := Val S → Env S → Out S

def lookup {α : Type} : List (Ident × α) → Ident → Option α
  | [], _ => none
  | (y, v) :: l, x => match y == x with
    | true => some v
    | false => lookup l x

def update {α : Type} (l : List (Ident × α)) (x : Ident) (v : α) : List (Ident × α) :=
  match l with
  | [] => []
  | (y, w) :: l => match y == x with
    | true => (y, v) :: l
    | false => (y, w) :: update l x v

variable {S : Type} [Scalar S]

/-- Read at a path. -/
def Val.read : List Sel → Val S → Option (Val S)
  | [], v => some v
  | .field x :: p, .obj _ fs => match lookup fs x with
    | some v => Val.read p v
    | none => none
  | .elem i :: p, .arr l => match l[i]? with
    | some v => Val.read p v
    | none => none
  | _, _ => none

/-- Replace what is at a path by the result of `f`. -/
def Val.modify (f : Val S → Option (Val S)) : List Sel → Val S → Option (Val S)
  | [], v => f v
  | .field x :: p, .obj n fs => match lookup fs x with
    | some v => match Val.modify f p v with
      | some w => some (.obj n (update fs x w))
      | none => none
    | none => none
  | .elem i :: p, .arr l => match l[i]? with
    | some v => match Val.modify f p v with
      | some w => some (.arr (l.set i w))
      | none => none
    | none => none
  | _, _ => none

/-! ## Primitive operations -/

/-- Arithmetic and comparison of floating point numbers. -/
def scBin (op : Ident) (a b : S) : Option (Val S) :=
  if op == i!"+" then some (.sc (a + b))
  else if op == i!"-" then some (.sc (a - b))
  else if op == i!"*" then some (.sc (a * b))
  else if op == i!"/" then some (.sc (a / b))
  else if op == i!"<" then some (.bool (Scalar.lt a b))
  else if op == i!"<=" then some (.bool (Scalar.le a b))
  else if op == i!">" then some (.bool (Scalar.lt b a))
  else if op == i!">=" then some (.bool (Scalar.le b a))
  else if op == i!"==" then some (.bool (a == b))
  else if op == i!"!=" then some (.bool (a != b))
  else none

/-- The result of an integer operation whose exact value is `n`. -/
def wrap (b : Build) (n : Nat) (k : Val S → Out S) : Out S :=
  match n.blt (2 ^ 32) with
  | true => k (.int n)
  | false => match b with
    | .debug => .overflow
    | .release => k (.int (n % 2 ^ 32))

/-- Arithmetic and comparison of integers. -/
def intBin (b : Build) (op : Ident) (m n : Nat) (k : Val S → Out S) : Out S :=
  if op == i!"+" then wrap b (m + n) k
  else if op == i!"*" then wrap b (m * n) k
  else if op == i!"%" then k (.int (m % n))
  else if op == i!"&" then k (.int (m &&& n))
  else if op == i!"<" then k (.bool (m.blt n))
  else if op == i!"==" then k (.bool (m == n))
  else if op == i!"!=" then k (.bool (m != n))
  else .stuck

/-- Methods of `num_traits::Float` (also called as `S::sqrt(x)`). -/
def scMethod (name : Ident) : List (Val S) → Option (Val S)
  | [] =>
    if name == i!"zero" then some (.sc Scalar.zero)
    else if name == i!"one" then some (.sc Scalar.one)
    else if name == i!"infinity" then some (.sc Scalar.infinity)
    else if name == i!"neg_infinity" then some (.sc Scalar.negInfinity)
    else none
  | [.sc x] =>
    if name == i!"abs" then some (.sc (Scalar.abs x))
    else if name == i!"sqrt" then some (.sc (Scalar.sqrt x))
    else if name == i!"floor" then some (.sc (Scalar.floor x))
    else if name == i!"ceil" then some (.sc (Scalar.ceil x))
    else if name == i!"round" then some (.sc (Scalar.round x))
    else if name == i!"trunc" then some (.sc (Scalar.trunc x))
    else if name == i!"fract" then some (.sc (Scalar.fract x))
    else if name == i!"recip" then some (.sc (Scalar.recip x))
    else if name == i!"sin_cos" then some (.tup [.sc (Scalar.sin x), .sc (Scalar.cos x)])
    else none
  | [.sc x, .sc y] =>
    if name == i!"min" then some (.sc (Scalar.fmin x y))
    else if name == i!"max" then some (.sc (Scalar.fmax x y))
    else none
  | _ => none

/-- The literals `0.5` and `2.0`. -/
def fltLit (digits decimals : Nat) : Option (Val S) :=
  if digits == 5 && decimals == 1 then some (.sc Scalar.half)
  else if digits == 20 && decimals == 1 then some (.sc Scalar.two)
  else none

/-- The method behind an operator. -/
def opMethod (op : Ident) : Ident :=
  if op == i!"+" then i!"add" else if op == i!"-" then i!"sub" else if op == i!"*" then i!"mul"
  else if op == i!"/" then i!"div" else 0

/-! ## Finding functions -/

/-- The type of a value: the name of its struct or enum; `S` for scalars. -/
def Val.head : Val S → Ident
  | .sc _ => i!"S"
  | .int _ => i!"u32"
  | .obj n _ => n
  | .enm t _ => t
  | _ => 0

/-- The name a type stands for, if `S` is the primitive type `prim`; `0` if it is about the other one. -/
def headTy (c : Crate) (prim : Ident) : Ty → Ident
  | .path x _ =>
    if x == prim then i!"S"
    else if x == i!"f32" || x == i!"f64" then 0
    else match lookup c.aliases x with
      | some (.path y [.path p _]) => if p == prim then y else 0
      | some _ => 0
      | none => x
  | _ => 0

def findFn (name : Ident) : List Fn → Option Fn
  | [] => none
  | f :: l => match f.name == name with
    | true => some f
    | false => findFn name l

/-- Do the type arguments of a trait fit the (first) argument of the call? -/
def traitArgs (c : Crate) (prim : Ident) : List Ty → List (Val S) → Bool
  | [], _ => true
  | [t], a :: _ => headTy c prim t == a.head
  | _, _ => false

/-- A function of the inherent `impl` of a type. -/
def findInherent (c : Crate) (prim target name : Ident) : List Impl → Option Fn
  | [] => none
  | i :: l =>
    match i.trait with
    | none => match headTy c prim i.target == target with
      | true => match findFn name i.fns with
        | some f => some f
        | none => findInherent c prim target name l
      | false => findInherent c prim target name l
    | some _ => findInherent c prim target name l

/-- A function of the `impl` of a trait; only of the traits `bounds`, if there are any. -/
def findTrait (c : Crate) (prim target name : Ident) (bounds : List Ident) (args : List (Val S)) :
    List Impl → Option Fn
  | [] => none
  | i :: l =>
    match i.trait with
    | none => findTrait c prim target name bounds args l
    | some (t, targs) =>
      match headTy c prim i.target == target with
      | true => match findFn name i.fns with
        | some f => match (bounds.isEmpty || bounds.contains t) && traitArgs c prim targs args with
          | true => some f
          | false => findTrait c prim target name bounds args l
        | none => findTrait c prim target name bounds args l
      | false => findTrait c prim target name bounds args l

/-! ## Evaluation -/

structure Ctx where
  crate : Crate
  prim : Ident
  build : Build
  /-- what `Self` means -/
  self : Ident
  bounds : List Ident

/-- Bind the fields named in a struct pattern. -/
def bindFields (ws : List (Ident × Val S)) : List Ident → Env S → Option (Env S)
  | [], env => some env
  | f :: fs, env => match lookup ws f with
    | some v => bindFields ws fs ((f, v) :: env)
    | none => none

/-- Bind a list of patterns, given how to bind one. -/
def bindList (bind : Pat → Val S → Env S → Option (Env S)) : List Pat → List (Val S) → Env S → Option (Env S)
  | [], [], env => some env
  | p :: ps, v :: vs, env => match bind p v env with
    | some env => bindList bind ps vs env
    | none => none
  | _, _, _ => none

/-- Bind a pattern (nested to the given depth). -/
def Pat.bind : Nat → Pat → Val S → Env S → Option (Env S)
  | 0, _, _, _ => none
  | n + 1, p, v, env => match p, v with
    | .var x, v => some ((x, v) :: env)
    | .tup ps, .tup vs => bindList (Pat.bind n) ps vs env
    | .strct x fs, .obj y ws => if x == y then bindFields ws fs env else none
    | _, _ => none

abbrev Ev (S : Type) := Ctx → K S → Env S → Expr → K S → Out S

/-- Evaluate arguments from left to right. -/
def evalList (ev : Ev S) (c : Ctx) (ret : K S) : Env S → List Expr → (List (Val S) → Env S → Out S) → Out S
  | env, [], k => k [] env
  | env, e :: es, k => ev c ret env e fun v env => evalList ev c ret env es fun vs env => k (v :: vs) env

def evalFields (ev : Ev S) (c : Ctx) (ret : K S) : Env S → List (Ident × Expr) →
    (List (Ident × Val S) → Env S → Out S) → Out S
  | env, [], k => k [] env
  | env, (x, e) :: es, k => ev c ret env e fun v env =>
    evalFields ev c ret env es fun vs env => k ((x, v) :: vs) env

/-- Call a closure. -/
def callClo (ev : Ev S) (c : Ctx) (f : Val S) (args : List (Val S)) (k : Val S → Out S) : Out S :=
  match f with
  | .clo ps body cenv => match bindList (Pat.bind 3) ps args cenv with
    | some env => ev c (fun _ _ => .stuck) env body fun v _ => k v
    | none => .stuck
  | _ => .stuck

/-- The elements `f(i)`, …, `f(i + n - 1)`. -/
def genList (ev : Ev S) (c : Ctx) (f : Val S) : Nat → Nat → (List (Val S) → Out S) → Out S
  | 0, _, k => k []
  | n + 1, i, k => callClo ev c f [.int i] fun v => genList ev c f n (i + 1) fun vs => k (v :: vs)

/-- Bind the parameters of a function; this is where the length of `array::from_fn` is decided. -/
def bindParams (ev : Ev S) (c : Ctx) : List (Ident × Ty) → List (Val S) → (Env S → Out S) → Out S
  | [], [], k => k []
  | (x, .arr _ n) :: ps, .gen f :: vs, k =>
    genList ev c f n 0 fun l => bindParams ev c ps vs fun env => k ((x, .arr l) :: env)
  | (x, _) :: ps, v :: vs, k => bindParams ev c ps vs fun env => k ((x, v) :: env)
  | _, _, _ => .stuck

/-- Call a function of the type `self`; the continuation gets the final environment of the callee. -/
def callFn (ev : Ev S) (c : Ctx) (self : Ident) (f : Fn) (args : List (Val S)) (k : K S) : Out S :=
  bindParams ev c f.params args fun env => ev { c with self, bounds := f.bounds } k env f.body k

/-- Call a method. -/
def callMethod (ev : Ev S) (c : Ctx) (name : Ident) (recv : Val S) (args : List (Val S)) (k : K S) : Out S :=
  match (match recv, c.bounds with
    | .sc _, [] => scMethod name (recv :: args)
    | _, _ => none) with
  | some v => k v []
  | none => match name == i!"clone" with
    | true => k recv []
    | false => match findInherent c.crate c.prim recv.head name c.crate.impls with
      | some f => callFn ev c recv.head f (recv :: args) k
      | none => match findTrait c.crate c.prim recv.head name c.bounds args c.crate.impls with
        | some f => callFn ev c recv.head f (recv :: args) k
        | none => .stuck

/-- Call `ty::name(args)`. -/
def callPath (ev : Ev S) (c : Ctx) (ty name : Ident) (args : List (Val S)) (k : K S) : Out S :=
  match ty == i!"array" && name == i!"from_fn" with
  | true => match args with
    | [f] => k (.gen f) []
    | _ => .stuck
  | false =>
    let ty := if ty == i!"Self" then c.self else headTy c.crate c.prim (.path ty [])
    match (match ty == i!"S" with
      | true => scMethod name args
      | false => none) with
    | some v => k v []
    | none => match findInherent c.crate c.prim ty name c.crate.impls with
      | some f => callFn ev c ty f args k
      | none => match findTrait c.crate c.prim ty name [] args c.crate.impls with
        | some f => callFn ev c ty f args k
        | none => .stuck

/-- Call a free function, `Some`, `Ok` or `Err`. -/
def callFree (ev : Ev S) (c : Ctx) (name : Ident) (args : List (Val S)) (k : K S) : Out S :=
  match name == i!"Some" || name == i!"Ok" || name == i!"Err" with
  | true => match args with
    | [v] => k (.obj name [(0, v)]) []
    | _ => .stuck
  | false => match findFn name c.crate.fns with
    | some f => callFn ev c 0 f args k
    | none => .stuck

/-- The place an expression denotes. -/
def lval (ev : Ev S) (c : Ctx) (ret : K S) : Env S → Expr → (Ident → List Sel → Out S) → Out S
  | env, .var x, k => match lookup env x with
    | some (.place r p) => k r p
    | _ => k x []
  | env, .un _ e, k => lval ev c ret env e k
  | env, .field e x, k => lval ev c ret env e fun r p => k r (p ++ [.field x])
  | env, .index e i, k => lval ev c ret env e fun r p => ev c ret env i fun v _ => match v with
    | .int n => k r (p ++ [.elem n])
    | _ => .stuck
  | _, _, _ => .stuck

/-- Write to a place; indexing out of bounds panics. -/
def write (env : Env S) (r : Ident) (p : List Sel) (f : Val S → Option (Val S)) (k : Env S → Out S) : Out S :=
  match lookup env r with
  | some v => match v.read p with
    | some _ => match v.modify f p with
      | some w => k (update env r w)
      | none => .stuck
    | none => .panic .indexOutOfBounds
  | none => .stuck

/-- Run the body of a loop for each of the values. -/
def loop (body : Env S → Val S → (Env S → Out S) → Out S) : Env S → List (Val S) → (Env S → Out S) → Out S
  | env, [], k => k env
  | env, v :: vs, k => body env v fun env => loop body env vs k

/-- `a, a + 1, …` (`n` numbers). -/
def ints : Nat → Nat → List (Val S)
  | 0, _ => []
  | n + 1, a => .int a :: ints n (a + 1)

def places (r : Ident) (p : List Sel) : Nat → Nat → List (Val S)
  | 0, _ => []
  | n + 1, i => .place r (p ++ [.elem i]) :: places r p n (i + 1)

/-- The arm of a `match` that a variant selects. -/
def findArm (ty name : Ident) : List (Pat × Expr) → Option Expr
  | [] => none
  | (.variant t x, e) :: l => match t == ty && x == name with
    | true => some e
    | false => findArm ty name l
  | _ :: _ => none

/-- One level of evaluation, given the evaluator `ev` for the parts. `ret` is where `return` goes. -/
def step (ev : Ev S) (c : Ctx) (ret : K S) (env : Env S) (e : Expr) (k : K S) : Out S :=
  match e with
  | .unit => k .unit env
  | .str => k .unit env
  | .int n => k (.int n) env
  | .flt d n => match fltLit d n with
    | some v => k v env
    | none => .stuck
  | .var x => match lookup env x with
    | some v => k v env
    | none => k (.obj x []) env
  | .path t x => k (.enm t x) env
  | .field e x => ev c ret env e fun v env => match v with
    | .obj _ fs => match lookup fs x with
      | some v => k v env
      | none => .stuck
    | _ => .stuck
  | .index e i => ev c ret env e fun v env => ev c ret env i fun w env => match v with
    | .arr l => match w with
      | .int n => match l[n]? with
        | some v => k v env
        | none => .panic .indexOutOfBounds
      | _ => .stuck
    | v => callMethod ev c (i!"index") v [w] fun v _ => k v env
  | .call f args => evalList ev c ret env args fun vs env => match f with
    | .var x => match lookup env x with
      | some f => callClo ev c f vs fun v => k v env
      | none => callFree ev c x vs fun v _ => k v env
    | .path t x => callPath ev c t x vs fun v _ => k v env
    | _ => .stuck
  | .method e x args => ev c ret env e fun v env => evalList ev c ret env args fun vs env =>
    callMethod ev c x v vs fun v _ => k v env
  | .un op e => ev c ret env e fun v env =>
    match op == i!"-" with
    | true => match v with
      | .sc s => k (.sc (-s)) env
      | v => callMethod ev c (i!"neg") v [] fun v _ => k v env
    | false => match op == i!"*" with
      | true => match v with
        | .place r p => match lookup env r with
          | some w => match w.read p with
            | some v => k v env
            | none => .stuck
          | none => .stuck
        | v => k v env
      | false => k v env
  | .refMut e => lval ev c ret env e fun r p => match lookup env r with
    | some v => match v.read p with
      | some _ => k (.place r p) env
      | none => .panic .indexOutOfBounds
    | none => .stuck
  | .bin op a b => ev c ret env a fun v env =>
    match op == i!"&&" with
    | true => match v with
      | .bool true => ev c ret env b k
      | .bool false => k (.bool false) env
      | _ => .stuck
    | false => ev c ret env b fun w env => match v, w with
      | .sc s, .sc t => match scBin op s t with
        | some v => k v env
        | none => .stuck
      | .int m, .int n => intBin c.build op m n fun v => k v env
      | v, w => callMethod ev c (opMethod op) v [w] fun v _ => k v env
  | .cast e _ => ev c ret env e k
  | .tup es => evalList ev c ret env es fun vs env => k (.tup vs) env
  | .arr es => evalList ev c ret env es fun vs env => k (.arr vs) env
  | .strct x fs => evalFields ev c ret env fs fun vs env => k (.obj x vs) env
  | .range a b i => ev c ret env a fun v env => ev c ret env b fun w env => k (.rng v w i) env
  | .ite co t e => ev c ret env co fun v env => match v with
    | .bool b => match b with
      | true => ev c ret env t k
      | false => ev c ret env e k
    | _ => .stuck
  | .mtch e arms => ev c ret env e fun v env => match v with
    | .enm t x => match findArm t x arms with
      | some e => ev c ret env e k
      | none => .stuck
    | _ => .stuck
  | .closure ps body => k (.clo ps body env) env
  | .try_ e => ev c ret env e fun v env => match v with
    | .obj n [(_, w)] => match n == i!"Ok" with
      | true => k w env
      | false => match n == i!"Err" with
        | true => ret v env
        | false => .stuck
    | _ => .stuck
  | .ret e => ev c ret env e ret
  | .assign op l r => ev c ret env r fun v env => lval ev c ret env l fun root p =>
    write env root p (fun old => match op == 0 with
      | true => some v
      | false => match old, v with
        | .sc s, .sc t => scBin op s t
        | _, _ => none) fun env => k .unit env
  | .macro_ x args => match x == i!"debug_assert", args with
    | true, co :: _ => match c.build with
      | .release => k .unit env
      | .debug => ev c ret env co fun v env => match v with
        | .bool b => match b with
          | true => k .unit env
          | false => .panic .debugAssert
        | _ => .stuck
    | _, _ => .stuck
  | .forIn p e body => ev c ret env e fun v env =>
    let run := fun (env : Env S) (v : Val S) (k : Env S → Out S) => match p.bind 3 v env with
      | some env' => ev c ret env' body fun _ env'' => k (env''.drop (env''.length - env.length))
      | none => .stuck
    match v with
    | .rng (.int a) (.int b) true => loop run env (ints (b + 1 - a) a) fun env => k .unit env
    | .rng (.int a) (.int b) false => loop run env (ints (b - a) a) fun env => k .unit env
    | .place r p => match lookup env r with
      | some w => match w.read p with
        | some (.arr l) => loop run env (places r p l.length 0) fun env => k .unit env
        | _ => .stuck
      | none => .stuck
    | _ => .stuck
  | .letIn p e rest => ev c ret env e fun v env => match p.bind 3 v env with
    | some env => ev c ret env rest k
    | none => .stuck
  | .seq a b => ev c ret env a fun _ env => ev c ret env b k
  | .block e => ev c ret env e fun v env' => k v (env'.drop (env'.length - env.length))

/-- Evaluation with bounded depth. -/
def eval : Nat → Ev S
  | 0 => fun _ _ _ _ _ => .stuck
  | n + 1 => step (eval n)

/-! ## Calls from outside -/

/-- The outcome of a finished call. -/
def done : K S := fun v env => .ok v (match lookup env (i!"self") with
  | some s => s
  | none => .unit)

/-- The depth of evaluation allowed. -/
def depth : Nat := 400

def Ctx.top (crate : Crate) (prim : Ident) (build : Build) : Ctx := { crate, prim, build, self := 0, bounds := [] }

/-- `recv.name(args)`. Operators are methods too: `a + b` is `a.add(b)`. -/
def method (crate : Crate) (prim : Ident) (build : Build) (name : Ident) (recv : Val S) (args : List (Val S)) : Out S :=
  callMethod (eval depth) (Ctx.top crate prim build) name recv args done
/-- `ty::name(args)`. -/
def assoc (crate : Crate) (prim : Ident) (build : Build) (ty name : Ident) (args : List (Val S)) : Out S :=
  callPath (eval depth) (Ctx.top crate prim build) ty name args done
/-- `name(args)`. -/
def free (crate : Crate) (prim : Ident) (build : Build) (name : Ident) (args : List (Val S)) : Out S :=
  callFree (eval depth) (Ctx.top crate prim build) name args done

end VecMath.Rust
