import Verif.Model
import Verif.Spec.Tree
import Verif.Spec.Reduce
/-!
# Vocabulary for ray tracing: the first object hit by a ray (C103)

What a client writes with the library: a binary hierarchy whose leaves are objects in their bounding boxes; inner nodes
are bounded with `union`; a depth-first search for the first object along a ray that keeps the best hit found so far and
does not enter a box that the ray misses, or enters only behind the best hit.
-/

namespace VecMath
open Scalar

section
variable {S A : Type} [Scalar S]
/-- The best hit so far, given one more object: the object with the smaller parameter, the earlier one on a tie. -/
def keepFirst (hit : A → Option S) (best : Option (A × S)) (a : A) : Option (A × S) :=
  match hit a, best with
  | none, _ => best
  | some s, none => some (a, s)
  | some s, some (_, t) => if s <? t then some (a, s) else best
/-- A box need not be searched if the ray misses it, or enters it (at `s`) not before the best hit (at `t`). -/
def skipBox (enter : Option S) (best : Option (A × S)) : Bool :=
  match enter, best with
  | none, _ => true
  | some _, none => false
  | some s, some (_, t) => t ≤? s
/-- Depth-first search for the first hit. `enter b` is the parameter at which the ray enters the box `b`; `swap` tells
which child is visited first. -/
def Tree.firstHit {B : Type} (union : B → B → B) (enter : B → Option S) (swap : B → B → Bool) (hit : A → Option S) :
    Tree (B × A) → Option (A × S) → Option (A × S)
  | leaf x, best => if skipBox (enter x.1) best then best else keepFirst hit best x.2
  | node l r, best =>
    if skipBox (enter (((node l r).map Prod.fst).bound union)) best then best
    else if swap ((l.map Prod.fst).bound union) ((r.map Prod.fst).bound union) then
      l.firstHit union enter swap hit (r.firstHit union enter swap hit best)
    else r.firstHit union enter swap hit (l.firstHit union enter swap hit best)
end

variable {S : Type} [Scalar S]
/-- Where a ray enters a box: the start of the range reported by `intersect`. -/
def enter2 (r : Ray2 S) (b : BoundingBox2 S) : Option S := (Api.intersect b r : Option (Range S)).map Range.start
def enter3 (r : Ray3 S) (b : BoundingBox3 S) : Option S := (Api.intersect b r : Option (Range S)).map Range.start
/-- The range reported by `intersect`, if any, has a parameter between `lo` and `hi`. -/
def hitsBetween2 (r : Ray2 S) (lo hi : S) (b : BoundingBox2 S) : Bool :=
  match (Api.intersect b r : Option (Range S)) with
  | none => false
  | some i => (i.start ≤? hi) && (lo ≤? i.stop)
def hitsBetween3 (r : Ray3 S) (lo hi : S) (b : BoundingBox3 S) : Bool :=
  match (Api.intersect b r : Option (Range S)) with
  | none => false
  | some i => (i.start ≤? hi) && (lo ≤? i.stop)

end VecMath
