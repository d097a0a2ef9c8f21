import Verif.Model
/-!
# Vocabulary for moving boxes (C105)

What a client writes with the library when objects move: the box of an object moved along a velocity, the box swept between
two times, and a box fattened by a margin.
-/

namespace VecMath
open Scalar
variable {S : Type} [Scalar S]

/-- The box at time `t` of an object with box `b` at time 0 and velocity `v`. -/
def boxAt2 (b : BoundingBox2 S) (v : Vector2 S) (t : S) : BoundingBox2 S := BoundingBox2.new (b.min + v * t) (b.max + v * t)
def boxAt3 (b : BoundingBox3 S) (v : Vector3 S) (t : S) : BoundingBox3 S := BoundingBox3.new (b.min + v * t) (b.max + v * t)
/-- The box swept from time `s` to time `t`. -/
def swept2 (b : BoundingBox2 S) (v : Vector2 S) (s t : S) : BoundingBox2 S := Api.union (boxAt2 b v s) (boxAt2 b v t)
def swept3 (b : BoundingBox3 S) (v : Vector3 S) (s t : S) : BoundingBox3 S := Api.union (boxAt3 b v s) (boxAt3 b v t)
/-- The box of an object displaced by `v`. -/
def moved2 (b : BoundingBox2 S) (v : Vector2 S) : BoundingBox2 S := BoundingBox2.new (b.min + v) (b.max + v)
def moved3 (b : BoundingBox3 S) (v : Vector3 S) : BoundingBox3 S := BoundingBox3.new (b.min + v) (b.max + v)
/-- The box fattened by a margin on all sides. -/
def fat2 (b : BoundingBox2 S) (m : Vector2 S) : BoundingBox2 S := BoundingBox2.new (b.min - m) (b.max + m)
def fat3 (b : BoundingBox3 S) (m : Vector3 S) : BoundingBox3 S := BoundingBox3.new (b.min - m) (b.max + m)

end VecMath
