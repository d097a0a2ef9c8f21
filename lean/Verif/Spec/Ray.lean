import Verif.Spec.Round
/-!
# Vocabulary for the floating-point ray/box theorems
-/

namespace VecMath
open Scalar IEEE

section
variable {S : Type} [Scalar S] [IEEE S]

/-- In one dimension, with slab `lo..hi`, origin `o` and direction `d`: nothing overflows, i.e. the
differences of the coordinates are finite and so are, unless the direction is zero, the two parameters at
which the ray crosses the planes. -/
def SlabFinite (lo hi o d : S) : Prop :=
  IsFinite (lo - o) ∧ IsFinite (hi - o) ∧ IsFinite d ∧
  (real d ≠ 0 → IsFinite ((lo - o) / d) ∧ IsFinite ((hi - o) / d))
/-- No overflow in any dimension. -/
def RayFinite2 (b : BoundingBox2 S) (r : Ray2 S) : Prop :=
  SlabFinite b.min.x b.max.x r.origin.x r.direction.x ∧ SlabFinite b.min.y b.max.y r.origin.y r.direction.y
/-- No overflow in any dimension. -/
def RayFinite3 (b : BoundingBox3 S) (r : Ray3 S) : Prop :=
  SlabFinite b.min.x b.max.x r.origin.x r.direction.x ∧ SlabFinite b.min.y b.max.y r.origin.y r.direction.y ∧
  SlabFinite b.min.z b.max.z r.origin.z r.direction.z

/-- The exact (real) point with parameter `t` lies in the slab. -/
def ExactIn (lo hi o d : S) (t : ℝ) : Prop :=
  real lo ≤ real o + t * real d ∧ real o + t * real d ≤ real hi
/-- The exact point with parameter `t` of the ray lies in the box. -/
def ExactInside2 (b : BoundingBox2 S) (r : Ray2 S) (t : ℝ) : Prop :=
  ExactIn b.min.x b.max.x r.origin.x r.direction.x t ∧ ExactIn b.min.y b.max.y r.origin.y r.direction.y t
/-- The exact point with parameter `t` of the ray lies in the box. -/
def ExactInside3 (b : BoundingBox3 S) (r : Ray3 S) (t : ℝ) : Prop :=
  ExactIn b.min.x b.max.x r.origin.x r.direction.x t ∧ ExactIn b.min.y b.max.y r.origin.y r.direction.y t ∧
  ExactIn b.min.z b.max.z r.origin.z r.direction.z t

/-- The ray does not run in the plane of exactly one of the two faces of the slab (the case in which the code
reports no intersection, C37). -/
def OffFace (lo hi o d : S) : Prop := real d = 0 → (real o = real lo ↔ real o = real hi)
/-- No dimension in which the ray runs in the plane of exactly one face. -/
def OffFaces2 (b : BoundingBox2 S) (r : Ray2 S) : Prop :=
  OffFace b.min.x b.max.x r.origin.x r.direction.x ∧ OffFace b.min.y b.max.y r.origin.y r.direction.y
/-- No dimension in which the ray runs in the plane of exactly one face. -/
def OffFaces3 (b : BoundingBox3 S) (r : Ray3 S) : Prop :=
  OffFace b.min.x b.max.x r.origin.x r.direction.x ∧ OffFace b.min.y b.max.y r.origin.y r.direction.y ∧
  OffFace b.min.z b.max.z r.origin.z r.direction.z

end

variable (S : Type) [Scalar S] [IEEE S] [Binary S]
/-- The parameter `t ≥ 0` moved up by two roundings. -/
noncomputable def up (t : ℝ) : ℝ := (1 + uro S) ^ 2 * t + tiny S
/-- The parameter `t ≥ 0` moved down by two roundings. -/
noncomputable def down (t : ℝ) : ℝ := (1 - uro S) ^ 2 * t - tiny S

end VecMath
