import Verif.Spec.Ray
/-!
# Bounding-volume hierarchies

The client data structure for which the box operations of the library exist: a binary tree with boxes at the leaves,
where an inner node is bounded by the union of its children. Used to state C70 for trees of any shape.
-/

namespace VecMath

/-- A binary tree of boxes. -/
inductive Tree (B : Type) where
  | leaf (b : B)
  | node (l r : Tree B)

namespace Tree
variable {B : Type}
/-- The boxes at the leaves, from left to right. -/
def leaves : Tree B → List B
  | leaf b => [b]
  | node l r => l.leaves ++ r.leaves
/-- The bounding box of a tree, made with the library's `union`. -/
def bound (union : B → B → B) : Tree B → B
  | leaf b => b
  | node l r => union (l.bound union) (r.bound union)
/-- The search of a tree for the leaves passing a test that skips every subtree whose bounding box fails it. -/
def search (union : B → B → B) (test : B → Bool) : Tree B → List B
  | leaf b => if test b then [b] else []
  | node l r => if test ((node l r).bound union) then l.search union test ++ r.search union test else []
end Tree

open Scalar IEEE
variable {S : Type} [Scalar S] [IEEE S]

/-- In one dimension, a ray with direction zero does not start in one of the two planes of the slab. -/
def OffPlane (lo hi o d : S) : Prop := real d = 0 → real o ≠ real lo ∧ real o ≠ real hi
/-- The ray does not run in the plane of any face of the box. -/
def OffPlanes2 (b : BoundingBox2 S) (r : Ray2 S) : Prop :=
  OffPlane b.min.x b.max.x r.origin.x r.direction.x ∧ OffPlane b.min.y b.max.y r.origin.y r.direction.y
/-- The ray does not run in the plane of any face of the box. -/
def OffPlanes3 (b : BoundingBox3 S) (r : Ray3 S) : Prop :=
  OffPlane b.min.x b.max.x r.origin.x r.direction.x ∧ OffPlane b.min.y b.max.y r.origin.y r.direction.y ∧
  OffPlane b.min.z b.max.z r.origin.z r.direction.z

end VecMath
