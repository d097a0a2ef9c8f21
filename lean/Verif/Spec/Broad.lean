import Verif.Model
import Verif.Spec.Tree
/-!
# Vocabulary for collision detection: which boxes overlap? (C104)

What a client writes with the library: the simultaneous descent of two hierarchies that stops where the bounding boxes of
two subtrees do not overlap, the same for one hierarchy against itself, and sweep-and-prune over boxes sorted along an axis.
-/

namespace VecMath
open Scalar

/-- All pairs of elements at different positions, the earlier first. -/
def allPairs {A : Type} : List A → List (A × A)
  | [] => []
  | a :: l => l.map (fun b => (a, b)) ++ allPairs l
/-- All pairs with one element from each list. -/
def crossPairs {A : Type} (l m : List A) : List (A × A) := l.flatMap fun a => m.map fun b => (a, b)

namespace Tree
variable {B : Type}
/-- One box against a hierarchy. -/
def pairsWith (union : B → B → B) (test : B → B → Bool) (a : B) : Tree B → List (B × B)
  | leaf b => if test a b then [(a, b)] else []
  | node l r => if test a ((node l r).bound union) then l.pairsWith union test a ++ r.pairsWith union test a else []
/-- Two hierarchies, descending into the first while it is not a leaf. -/
def pairs (union : B → B → B) (test : B → B → Bool) : Tree B → Tree B → List (B × B)
  | leaf a, u => u.pairsWith union test a
  | node l r, u => if test ((node l r).bound union) (u.bound union) then l.pairs union test u ++ r.pairs union test u else []
/-- One hierarchy against itself. -/
def selfPairs (union : B → B → B) (test : B → B → Bool) : Tree B → List (B × B)
  | leaf _ => []
  | node l r => l.selfPairs union test ++ r.selfPairs union test ++ l.pairs union test r
end Tree

/-- Sweep and prune: every box is tested against the following ones, up to the first that begins behind its end. -/
def sweep {B S : Type} [Scalar S] (lo hi : B → S) (test : B → B → Bool) : List B → List (B × B)
  | [] => []
  | a :: l => ((l.takeWhile fun b => lo b ≤? hi a).filter (test a)).map (fun b => (a, b)) ++ sweep lo hi test l

end VecMath
