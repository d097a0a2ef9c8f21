import Verif.Spec.Ray
/-!
# Specification: cutting boxes by axis-parallel planes (C80)

The client data structure: a kd-tree, which cuts a box into cells by axis-parallel planes.
-/

namespace VecMath
open Scalar IEEE

/-- A recipe for cutting a box: leave it whole, or cut it by the plane `dim = at` and go on with both parts. -/
inductive Kd (D S : Type) where
  | cell
  | cut (dim : D) (at_ : S) (below above : Kd D S)

variable {S : Type} [Scalar S]

/-- The part of a box below the plane `dim = m`. -/
def BoundingBox2.below (b : BoundingBox2 S) (dim : Dimension2) (m : S) : BoundingBox2 S :=
  ⟨b.min, b.max.indexMut dim fun _ => m⟩
/-- The part of a box above the plane `dim = m`. -/
def BoundingBox2.above (b : BoundingBox2 S) (dim : Dimension2) (m : S) : BoundingBox2 S :=
  ⟨b.min.indexMut dim fun _ => m, b.max⟩
/-- The part of a box below the plane `dim = m`. -/
def BoundingBox3.below (b : BoundingBox3 S) (dim : Dimension3) (m : S) : BoundingBox3 S :=
  ⟨b.min, b.max.indexMut dim fun _ => m⟩
/-- The part of a box above the plane `dim = m`. -/
def BoundingBox3.above (b : BoundingBox3 S) (dim : Dimension3) (m : S) : BoundingBox3 S :=
  ⟨b.min.indexMut dim fun _ => m, b.max⟩

namespace Kd
/-- The cells of a box. -/
def cells2 : Kd Dimension2 S → BoundingBox2 S → List (BoundingBox2 S)
  | cell, b => [b]
  | cut dim m l u, b => l.cells2 (b.below dim m) ++ u.cells2 (b.above dim m)
/-- Every plane meets the box it cuts. -/
def Cuts2 : Kd Dimension2 S → BoundingBox2 S → Prop
  | cell, _ => True
  | cut dim m l u, b => ((b.min.index dim ≤? m) = true ∧ (m ≤? b.max.index dim) = true) ∧
      l.Cuts2 (b.below dim m) ∧ u.Cuts2 (b.above dim m)
/-- The cells of a box. -/
def cells3 : Kd Dimension3 S → BoundingBox3 S → List (BoundingBox3 S)
  | cell, b => [b]
  | cut dim m l u, b => l.cells3 (b.below dim m) ++ u.cells3 (b.above dim m)
/-- Every plane meets the box it cuts. -/
def Cuts3 : Kd Dimension3 S → BoundingBox3 S → Prop
  | cell, _ => True
  | cut dim m l u, b => ((b.min.index dim ≤? m) = true ∧ (m ≤? b.max.index dim) = true) ∧
      l.Cuts3 (b.below dim m) ∧ u.Cuts3 (b.above dim m)
/-- The ray does not run in any of the cutting planes. -/
def OffCuts2 [IEEE S] (r : Ray2 S) : Kd Dimension2 S → Prop
  | cell => True
  | cut dim m l u => (real (r.direction.index dim) = 0 → real (r.origin.index dim) ≠ real m) ∧ l.OffCuts2 r ∧ u.OffCuts2 r
/-- The ray does not run in any of the cutting planes. -/
def OffCuts3 [IEEE S] (r : Ray3 S) : Kd Dimension3 S → Prop
  | cell => True
  | cut dim m l u => (real (r.direction.index dim) = 0 → real (r.origin.index dim) ≠ real m) ∧ l.OffCuts3 r ∧ u.OffCuts3 r
end Kd

end VecMath
