import Verif.Model.Point2
import Verif.Model.Point3
/-! # `src/ray2.rs`, `src/ray3.rs` -/

namespace VecMath
open Scalar
variable {S : Type} [Scalar S]

/-- src/ray2.rs:50-52 -/
def Ray2.new (origin : Point2 S) (direction : Vector2 S) : Ray2 S := ⟨origin, direction⟩
/-- src/ray2.rs:56-58 -/
def Ray2.at (self : Ray2 S) (distance : S) : Point2 S := self.origin + self.direction * distance
/-- src/ray2.rs:31-33 (and `ray2f`, `ray2d`, 36-43) -/
def ray2 (origin : Point2 S) (direction : Vector2 S) : Ray2 S := Ray2.new origin direction

/-- src/ray3.rs:50-52 -/
def Ray3.new (origin : Point3 S) (direction : Vector3 S) : Ray3 S := ⟨origin, direction⟩
/-- src/ray3.rs:56-58 -/
def Ray3.at (self : Ray3 S) (distance : S) : Point3 S := self.origin + self.direction * distance
/-- src/ray3.rs:31-33 (and `ray3f`, `ray3d`, 36-43) -/
def ray3 (origin : Point3 S) (direction : Vector3 S) : Ray3 S := Ray3.new origin direction

end VecMath
