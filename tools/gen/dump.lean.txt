import Verif.Rust.Source
namespace VecMath.Rust
def nm (n : Nat) : String := Id.run do
  let mut l : List Char := []
  let mut n := n
  while n > 0 do
    l := Char.ofNat (n % 256) :: l
    n := n / 256
  return String.ofList l
partial def ty : Ty → String
  | .path x [] => nm x
  | .path x l => nm x ++ "<" ++ ",".intercalate (l.map ty) ++ ">"
  | .arr t n => "[" ++ ty t ++ ";" ++ toString n ++ "]"
  | .tup l => "(" ++ ",".intercalate (l.map ty) ++ ")"
open Lean in
#eval show CoreM Unit from do
  let names := ["lib", "scalar", "minmax", "dot", "cross", "length", "distance", "union", "intersection", "transform", "dimension2", "dimension3", "vector2", "vector3", "point2", "point3", "ray2", "ray3", "boundingbox2", "boundingbox3", "transform2", "transform3"]
  let mut c : Crate := {}
  for x in names do
    let some (.lit (.strVal text)) := ((← getEnv).find? (`VecMath.Rust.Src ++ Name.mkSimple x ++ `text)).bind (·.value?) | throwError "no text"
    let some d := parse text | throwError "cannot parse"
    c := c.append d
  let mut out := ""
  for (i, k) in c.impls.zipIdx do
    for (f, j) in i.fns.zipIdx do
      out := out ++ s!"I {k} {j} {match i.trait with | none => "-" | some (t, l) => ty (.path t l)} {ty i.target} {nm f.name} {" ".intercalate (f.params.map fun (x, t) => nm x ++ ":" ++ ty t)}\n"
  for (f, j) in c.fns.zipIdx do
    out := out ++ s!"F {j} {" ".intercalate (f.bounds.map nm)} | {nm f.name} {" ".intercalate (f.params.map fun (x, t) => nm x ++ ":" ++ ty t)}\n"
  out := out ++ s!"impls {c.impls.length}\n"
  for (i, k) in c.impls.zipIdx do out := out ++ s!"L {k} {i.fns.length}\n"
  IO.FS.writeFile "/tmp/w/dump.txt" out
end VecMath.Rust
