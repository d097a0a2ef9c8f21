import Verif.Rust.Source
namespace VecMath.Rust
def parseChars (cs : List Char) : Option Crate :=
  let cs := cs.map Char.toNat
  match pFile 1000 1000 (lex cs.length cs) with
  | some (c, []) => some c
  | _ => none
theorem parse_eq (cs : List Char) : parse (String.ofList cs) = parseChars cs := by
  unfold parse parseChars; rw [String.toList_ofList]; rfl
open Lean Elab Tactic Meta in
elab "kernel_parse" : tactic => do
  let g ← getMainGoal
  let t ← instantiateMVars (← g.getType)
  let_expr Eq _ a b := t | throwError "not an equation"
  let .app _ n := a | throwError "no"
  let .const n _ := n | throwError "no"
  let some (.lit (.strVal s)) := ((← getEnv).find? n).bind (·.value?) | throwError "no"
  let l := toExpr s.toList
  let e1 := mkApp (mkConst ``parse_eq) l
  let α := mkApp (mkConst ``Option [0]) (mkConst ``Crate)
  let e2 := mkApp2 (mkConst ``Eq.refl [1]) α b
  g.assign (mkApp6 (mkConst ``Eq.trans [1]) α a (mkApp (mkConst ``parseChars) l) b e1 e2)
set_option maxRecDepth 100000
theorem scalar_text : parse Src.scalar.text = some Src.scalar := by kernel_parse
theorem minmax_text : parse Src.minmax.text = some Src.minmax := by kernel_parse
theorem dot_text : parse Src.dot.text = some Src.dot := by kernel_parse
theorem cross_text : parse Src.cross.text = some Src.cross := by kernel_parse
theorem length_text : parse Src.length.text = some Src.length := by kernel_parse
theorem distance_text : parse Src.distance.text = some Src.distance := by kernel_parse
theorem union_text : parse Src.union.text = some Src.union := by kernel_parse
theorem intersection_text : parse Src.intersection.text = some Src.intersection := by kernel_parse
theorem transform_text : parse Src.transform.text = some Src.transform := by kernel_parse
theorem dimension2_text : parse Src.dimension2.text = some Src.dimension2 := by kernel_parse
theorem dimension3_text : parse Src.dimension3.text = some Src.dimension3 := by kernel_parse
theorem vector2_text : parse Src.vector2.text = some Src.vector2 := by kernel_parse
theorem vector3_text : parse Src.vector3.text = some Src.vector3 := by kernel_parse
theorem point2_text : parse Src.point2.text = some Src.point2 := by kernel_parse
theorem point3_text : parse Src.point3.text = some Src.point3 := by kernel_parse
theorem ray2_text : parse Src.ray2.text = some Src.ray2 := by kernel_parse
theorem ray3_text : parse Src.ray3.text = some Src.ray3 := by kernel_parse
theorem boundingbox2_text : parse Src.boundingbox2.text = some Src.boundingbox2 := by kernel_parse
theorem boundingbox3_text : parse Src.boundingbox3.text = some Src.boundingbox3 := by kernel_parse
theorem transform2_text : parse Src.transform2.text = some Src.transform2 := by kernel_parse
theorem transform3_text : parse Src.transform3.text = some Src.transform3 := by kernel_parse
end VecMath.Rust
