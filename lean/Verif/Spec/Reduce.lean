import Verif.Spec.Tree
/-!
# Specification: divide-and-conquer reductions (C78)

How a client bounds or clips a large set in parallel: cut it into chunks, reduce each chunk, combine the partial
results pairwise in some order. The `Tree` is the schedule; nothing below fixes its shape.
-/

namespace VecMath
namespace Tree
variable {A B P : Type}

/-- Apply `f` at every leaf. -/
def map (f : A → B) : Tree A → Tree B
  | leaf a => leaf (f a)
  | node l r => node (l.map f) (r.map f)
/-- The pairwise intersection of all boxes; none as soon as two partial results have no common point. -/
def meet (intersect : B → B → Option B) : Tree B → Option B
  | leaf b => some b
  | node l r => (l.meet intersect).bind fun a => (r.meet intersect).bind fun b => intersect a b
/-- All points of a schedule whose leaves are chunks. -/
def points (t : Tree (List P)) : List P := t.leaves.flatten
/-- Somewhere two partial results are combined that both come from no points at all. -/
def JoinsNothing : Tree (List P) → Prop
  | leaf _ => False
  | node l r => l.JoinsNothing ∨ r.JoinsNothing ∨ (l.points = [] ∧ r.points = [])

end Tree
end VecMath
