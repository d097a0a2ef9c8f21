import Verif.Model.Transform2
import Verif.Model.Transform3
import Verif.Spec.Basic
/-!
# Vocabulary for bounding a transformed box by its corners

What a user writes to bound the image of a box: transform its corners one by one and take the union, starting from
`empty()`. And what a scene graph does: this, once per level.
-/

namespace VecMath
open Scalar
variable {S : Type} [Scalar S]

/-- `(0..4).map(|k| b.corner(k)).fold(BoundingBox2::empty(), |acc, c| acc.union(t.transform(c)))` -/
def Transform2.around (t : Transform2 S) (build : Build) (b : BoundingBox2 S) : Except Panic (BoundingBox2 S) :=
  (([0, 1, 2, 3] : List UInt32).mapM (b.corner build)).map fun cs =>
    cs.foldl (fun acc c => Api.union acc (Transform.transform t c : Point2 S)) BoundingBox2.empty
/-- `(0..8).map(|k| b.corner(k)).fold(BoundingBox3::empty(), |acc, c| acc.union(t.transform(c)))` -/
def Transform3.around (t : Transform3 S) (build : Build) (b : BoundingBox3 S) : Except Panic (BoundingBox3 S) :=
  (([0, 1, 2, 3, 4, 5, 6, 7] : List UInt32).mapM (b.corner build)).map fun cs =>
    cs.foldl (fun acc c => Api.union acc (Transform.transform t c : Point3 S)) BoundingBox3.empty

/-- A scene graph: the box of each level is the box around the transformed corners of the level below. -/
def Transform2.aroundAll (build : Build) : List (Transform2 S) → BoundingBox2 S → Except Panic (BoundingBox2 S)
  | [], b => .ok b
  | t :: ts, b => (t.around build b).bind fun b' => Transform2.aroundAll build ts b'
/-- A scene graph: the box of each level is the box around the transformed corners of the level below. -/
def Transform3.aroundAll (build : Build) : List (Transform3 S) → BoundingBox3 S → Except Panic (BoundingBox3 S)
  | [], b => .ok b
  | t :: ts, b => (t.around build b).bind fun b' => Transform3.aroundAll build ts b'

end VecMath
