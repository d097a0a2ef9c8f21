import Lean
/-! # Equality by evaluation in the kernel -/

namespace VecMath.Rust
open Lean Elab Tactic Meta

/-- Close `a = b` with `Eq.refl`, leaving all the evaluation to the kernel (which checks it, as it checks every
proof; the tactic itself checks nothing). -/
elab "kernel_rfl" : tactic => do
  let g ← getMainGoal
  let t ← instantiateMVars (← g.getType)
  let_expr Eq α a _ := t | throwError "not an equation"
  let .sort u ← whnf (← inferType α) | throwError "no sort"
  g.assign (mkApp2 (mkConst ``Eq.refl [u]) α a)

end VecMath.Rust
