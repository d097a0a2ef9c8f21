import Verif.Model
import Verif.Spec.Float
import Verif.Spec.Tree
/-!
# Vocabulary for C110: culling boxes by planes

What a client writes with the library: a plane is a normal `n` and a point `o`; a point `p` is in front of it if
`n.dot(p - o) >= 0`. A box is behind the plane if its farthest corner in the direction of `n` is, which is the corner whose
index has bit `d` set iff component `d` of the normal is not negative.
-/

namespace VecMath
open Scalar IEEE
variable {S : Type} [Scalar S]

/-- The index of the corner farthest in the direction of `n`. -/
def Vector2.farIndex (n : Vector2 S) : UInt32 := (if Scalar.zero ≤? n.x then 1 else 0) ||| (if Scalar.zero ≤? n.y then 2 else 0)
/-- The index `k` belongs to a corner farthest in the direction of `n`: bit `d` is set only if component `d` of `n` is not
negative, and clear only if it is not positive. -/
def Vector2.Along (n : Vector2 S) (k : UInt32) : Prop :=
  ∀ d, if k.toNat.testBit (Dimension2.pos d) then (Scalar.zero ≤? n.index d) = true else (n.index d ≤? Scalar.zero) = true
/-- The client's test: the farthest corner is behind the plane. -/
def BoundingBox2.behind (build : Build) (n : Vector2 S) (o : Point2 S) (b : BoundingBox2 S) : Bool :=
  match b.corner build n.farIndex with
  | .ok c => (Api.dot n (c - o : Vector2 S) : S) <? Scalar.zero
  | .error _ => false
/-- Another common test: the center and half the extents along the normal. -/
def BoundingBox2.behindCenter (n : Vector2 S) (o : Point2 S) (b : BoundingBox2 S) : Bool :=
  (Api.dot n (b.center - o : Vector2 S) : S) + (Api.dot n.abs b.diagonal : S) * half <? Scalar.zero
/-- The client's frustum test: keep the box unless it is behind one of the planes. -/
def BoundingBox2.kept (build : Build) (planes : List (Vector2 S × Point2 S)) (b : BoundingBox2 S) : Bool := planes.all fun q => !b.behind build q.1 q.2
/-- A point in front of all the planes. -/
def Point2.Visible (planes : List (Vector2 S × Point2 S)) (p : Point2 S) : Prop := ∀ q ∈ planes, (Scalar.zero ≤? (Api.dot q.1 (p - q.2 : Vector2 S) : S)) = true
/-- No product of a component of the normal and a difference of coordinates overflows. -/
def BoundingBox2.Clear [IEEE S] (n : Vector2 S) (o : Point2 S) (b : BoundingBox2 S) : Prop :=
  (IsFinite (n.x * (b.min.x - o.x)) ∧ IsFinite (n.x * (b.max.x - o.x))) ∧ (IsFinite (n.y * (b.min.y - o.y)) ∧ IsFinite (n.y * (b.max.y - o.y)))

/-- The index of the corner farthest in the direction of `n`. -/
def Vector3.farIndex (n : Vector3 S) : UInt32 := (if Scalar.zero ≤? n.x then 1 else 0) ||| (if Scalar.zero ≤? n.y then 2 else 0) ||| (if Scalar.zero ≤? n.z then 4 else 0)
/-- The index `k` belongs to a corner farthest in the direction of `n`: bit `d` is set only if component `d` of `n` is not
negative, and clear only if it is not positive. -/
def Vector3.Along (n : Vector3 S) (k : UInt32) : Prop :=
  ∀ d, if k.toNat.testBit (Dimension3.pos d) then (Scalar.zero ≤? n.index d) = true else (n.index d ≤? Scalar.zero) = true
/-- The client's test: the farthest corner is behind the plane. -/
def BoundingBox3.behind (build : Build) (n : Vector3 S) (o : Point3 S) (b : BoundingBox3 S) : Bool :=
  match b.corner build n.farIndex with
  | .ok c => (Api.dot n (c - o : Vector3 S) : S) <? Scalar.zero
  | .error _ => false
/-- Another common test: the center and half the extents along the normal. -/
def BoundingBox3.behindCenter (n : Vector3 S) (o : Point3 S) (b : BoundingBox3 S) : Bool :=
  (Api.dot n (b.center - o : Vector3 S) : S) + (Api.dot n.abs b.diagonal : S) * half <? Scalar.zero
/-- The client's frustum test: keep the box unless it is behind one of the planes. -/
def BoundingBox3.kept (build : Build) (planes : List (Vector3 S × Point3 S)) (b : BoundingBox3 S) : Bool := planes.all fun q => !b.behind build q.1 q.2
/-- A point in front of all the planes. -/
def Point3.Visible (planes : List (Vector3 S × Point3 S)) (p : Point3 S) : Prop := ∀ q ∈ planes, (Scalar.zero ≤? (Api.dot q.1 (p - q.2 : Vector3 S) : S)) = true
/-- No product of a component of the normal and a difference of coordinates overflows. -/
def BoundingBox3.Clear [IEEE S] (n : Vector3 S) (o : Point3 S) (b : BoundingBox3 S) : Prop :=
  (IsFinite (n.x * (b.min.x - o.x)) ∧ IsFinite (n.x * (b.max.x - o.x))) ∧ (IsFinite (n.y * (b.min.y - o.y)) ∧ IsFinite (n.y * (b.max.y - o.y))) ∧ (IsFinite (n.z * (b.min.z - o.z)) ∧ IsFinite (n.z * (b.max.z - o.z)))

end VecMath
