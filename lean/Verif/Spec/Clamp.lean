import Verif.Model
import Verif.Spec.Reduce
/-!
# Vocabulary for nearest points: clamping to a box, and nearest-neighbour search

What a client writes with the library: `p.max(b.min).min(b.max)` is the point of the box `b` nearest to `p`, and a
search for the point nearest to `o` in a hierarchy of points skips every subtree whose box is farther away than the
best point found so far.
-/

namespace VecMath
variable {S : Type} [Scalar S]

/-- `p.max(b.min).min(b.max)` -/
def BoundingBox2.clamp (b : BoundingBox2 S) (p : Point2 S) : Point2 S := Api.min (Api.max p b.min) b.max
/-- `p.max(b.min).min(b.max)` -/
def BoundingBox3.clamp (b : BoundingBox3 S) (p : Point3 S) : Point3 S := Api.min (Api.max p b.min) b.max

namespace Tree
variable {P B : Type}
/-- Depth-first search of a hierarchy of points for the best one, starting with the candidate `best`. `box p` is the
box of a single point, `union` bounds two boxes, `skip b q` tells that nothing in `b` can beat the candidate `q`,
`better` selects the better of two candidates, and `swap a b` tells whether the second of two children with boxes `a`,
`b` is to be visited first. -/
def nearest (box : P → B) (union : B → B → B) (skip : B → P → Bool) (better : P → P → P) (swap : B → B → Bool) :
    Tree P → P → P
  | leaf p, best => better best p
  | node l r, best =>
    if skip (((node l r).map box).bound union) best then best
    else if swap ((l.map box).bound union) ((r.map box).bound union) then
      l.nearest box union skip better swap (r.nearest box union skip better swap best)
    else r.nearest box union skip better swap (l.nearest box union skip better swap best)
end Tree

/-- The search for the point nearest to `o`: skip a box if the candidate is closer to `o` than the nearest point of the
box is. -/
def nearest2 (o : Point2 S) (swap : BoundingBox2 S → BoundingBox2 S → Bool) (t : Tree (Point2 S)) (best : Point2 S) : Point2 S :=
  t.nearest (fun p => BoundingBox2.new p p) Api.union (fun b q => RelativeDistance.isCloserTo o q (b.clamp o)) (Api.closest o)
    swap best
/-- The search for the point nearest to `o`: skip a box if the candidate is closer to `o` than the nearest point of the
box is. -/
def nearest3 (o : Point3 S) (swap : BoundingBox3 S → BoundingBox3 S → Bool) (t : Tree (Point3 S)) (best : Point3 S) : Point3 S :=
  t.nearest (fun p => BoundingBox3.new p p) Api.union (fun b q => RelativeDistance.isCloserTo o q (b.clamp o)) (Api.closest o)
    swap best
end VecMath
