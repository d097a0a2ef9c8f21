import Verif.Model.BoundingBox2
import Verif.Model.BoundingBox3
import Verif.Spec.Basic
/-!
# Vocabulary for subdividing boxes

A user builds a quadtree or octree with `center()` and `corner(k)`: the `k`-th cell of a box is the box spanned by its
center and its `k`-th corner.
-/

namespace VecMath
open Scalar
variable {S : Type} [Scalar S]

/-- `BoundingBox2::new(b.center(), b.corner(k))` -/
def BoundingBox2.cell (b : BoundingBox2 S) (build : Build) (k : UInt32) : Except Panic (BoundingBox2 S) :=
  (b.corner build k).map fun c => BoundingBox2.new b.center c
/-- `BoundingBox3::new(b.center(), b.corner(k))` -/
def BoundingBox3.cell (b : BoundingBox3 S) (build : Build) (k : UInt32) : Except Panic (BoundingBox3 S) :=
  (b.corner build k).map fun c => BoundingBox3.new b.center c

/-- descending along a list of cell numbers -/
def BoundingBox2.descend (build : Build) : BoundingBox2 S → List UInt32 → Except Panic (BoundingBox2 S)
  | b, [] => .ok b
  | b, k :: ks => (b.cell build k).bind fun c => BoundingBox2.descend build c ks
def BoundingBox3.descend (build : Build) : BoundingBox3 S → List UInt32 → Except Panic (BoundingBox3 S)
  | b, [] => .ok b
  | b, k :: ks => (b.cell build k).bind fun c => BoundingBox3.descend build c ks

/-- no number lies strictly between -/
def Adjacent (a b : S) : Prop := ¬ ∃ m : S, (a <? m) = true ∧ (m <? b) = true

end VecMath
