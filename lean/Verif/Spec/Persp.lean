import Verif.Model.Transform2
import Verif.Model.Transform3
import Verif.Model.BoundingBox2
import Verif.Model.BoundingBox3
/-!
# Vocabulary for perspective transforms

A renderer computes the homogeneous coordinates of a point, tests them against the weight (clipping), and divides. The crate's `m * p`
divides at once.
-/

namespace VecMath
open Scalar
variable {S : Type} [Scalar S]

/-- `m.get(i, 0) * p.x + m.get(i, 1) * p.y + m.get(i, 2)`: the `i`-th homogeneous coordinate of the image of a point; the last one
is its weight. -/
def Matrix3x3.rowAt (m : Matrix3x3 S) (i : Fin 3) (p : Point2 S) : S :=
  m.m[3 * i.val] * p.x + m.m[3 * i.val + 1] * p.y + m.m[3 * i.val + 2]
/-- `m.get(i, 0) * p.x + m.get(i, 1) * p.y + m.get(i, 2) * p.z + m.get(i, 3)`: the `i`-th homogeneous coordinate of the image of a
point; the last one is its weight. -/
def Matrix4x4.rowAt (m : Matrix4x4 S) (i : Fin 4) (p : Point3 S) : S :=
  m.m[4 * i.val] * p.x + m.m[4 * i.val + 1] * p.y + m.m[4 * i.val + 2] * p.z + m.m[4 * i.val + 3]

/-- The clip volume after the division: all coordinates between -1 and 1. -/
def clipBox2 : BoundingBox2 S := BoundingBox2.new (Point2.new (-one) (-one)) (Point2.new one one)
/-- The clip volume after the division: all coordinates between -1 and 1. -/
def clipBox3 : BoundingBox3 S := BoundingBox3.new (Point3.new (-one) (-one) (-one)) (Point3.new one one one)

end VecMath
