import Verif.Spec.Basic
/-!
# Specification: mirroring (C73)

Mirror images of the crate's values in any set of coordinate axes, given by one Boolean per axis (`true`: flip). No
function of the model is used except unary minus of scalars.
-/

namespace VecMath
open Scalar IEEE

variable {S : Type} [Scalar S]

/-- The number, negated if asked. -/
def flip (f : Bool) (a : S) : S := if f then -a else a
/-- The mirror image. -/
def Vector2.mirror (fx fy : Bool) (v : Vector2 S) : Vector2 S := ⟨flip fx v.x, flip fy v.y⟩
/-- The mirror image. -/
def Vector3.mirror (fx fy fz : Bool) (v : Vector3 S) : Vector3 S := ⟨flip fx v.x, flip fy v.y, flip fz v.z⟩
/-- The mirror image. -/
def Point2.mirror (fx fy : Bool) (p : Point2 S) : Point2 S := ⟨flip fx p.x, flip fy p.y⟩
/-- The mirror image. -/
def Point3.mirror (fx fy fz : Bool) (p : Point3 S) : Point3 S := ⟨flip fx p.x, flip fy p.y, flip fz p.z⟩
/-- The mirror image. -/
def Ray2.mirror (fx fy : Bool) (r : Ray2 S) : Ray2 S := ⟨r.origin.mirror fx fy, r.direction.mirror fx fy⟩
/-- The mirror image. -/
def Ray3.mirror (fx fy fz : Bool) (r : Ray3 S) : Ray3 S := ⟨r.origin.mirror fx fy fz, r.direction.mirror fx fy fz⟩
/-- The lower end of a mirrored interval. -/
def flipLo (f : Bool) (lo hi : S) : S := if f then -hi else lo
/-- The upper end of a mirrored interval. -/
def flipHi (f : Bool) (lo hi : S) : S := if f then -lo else hi
/-- The mirror image: along a flipped axis the interval `[lo, hi]` becomes `[-hi, -lo]`. -/
def BoundingBox2.mirror (fx fy : Bool) (b : BoundingBox2 S) : BoundingBox2 S :=
  ⟨⟨flipLo fx b.min.x b.max.x, flipLo fy b.min.y b.max.y⟩, ⟨flipHi fx b.min.x b.max.x, flipHi fy b.min.y b.max.y⟩⟩
/-- The mirror image: along a flipped axis the interval `[lo, hi]` becomes `[-hi, -lo]`. -/
def BoundingBox3.mirror (fx fy fz : Bool) (b : BoundingBox3 S) : BoundingBox3 S :=
  ⟨⟨flipLo fx b.min.x b.max.x, flipLo fy b.min.y b.max.y, flipLo fz b.min.z b.max.z⟩,
    ⟨flipHi fx b.min.x b.max.x, flipHi fy b.min.y b.max.y, flipHi fz b.min.z b.max.z⟩⟩

/-- The same up to the sign of zero: Rust's `==`, or both NaN. -/
def Agree [IEEE S] (a b : S) : Prop := (IsNaN a ∧ IsNaN b) ∨ (a == b) = true
/-- Componentwise the same up to the sign of zero. -/
def AgreeAll {T : Type} [IEEE S] [Comps T S] (a b : T) : Prop := List.Forall₂ Agree (Comps.comps a) (Comps.comps b)
/-- Both miss, or both hit with equal (`==`, hence NaN-free) ends. -/
def SameHit (r r' : Option (Range S)) : Prop :=
  match r, r' with
  | none, none => True
  | some i, some j => (i.start == j.start) = true ∧ (i.stop == j.stop) = true
  | _, _ => False

end VecMath
