import Verif.Spec.Basic
import Mathlib.LinearAlgebra.Matrix.Determinant.Basic
/-!
# Vocabulary for matrices and transforms in exact real arithmetic

Homogeneous coordinates, linear part, affine matrices, rigid transforms. (Generated by tools/gen.)
-/

namespace VecMath
open Scalar IEEE

/-! ## Matrix3x3 -/

/-- Homogeneous coordinates of a point: last coordinate 1. -/
noncomputable def Point2.hom (p : Point2 Ideal) : Fin 3 → ℝ := ![real p.x, real p.y, 1]
/-- Homogeneous coordinates of a vector: last coordinate 0. -/
noncomputable def Vector2.hom (p : Vector2 Ideal) : Fin 3 → ℝ := ![real p.x, real p.y, 0]
/-- The homogeneous weight of the image of a point: the last coordinate of the matrix applied to the
homogeneous coordinates of the point. -/
noncomputable def Matrix3x3.weight (m : Matrix3x3 Ideal) (p : Point2 Ideal) : ℝ := (m.toReal.mulVec p.hom) (Fin.last 2)
/-- The last row is `0 ... 0 1`. -/
def Matrix3x3.Affine (m : Matrix3x3 Ideal) : Prop :=
  ∀ j : Fin 3, m.toReal (Fin.last 2) j = if j = Fin.last 2 then 1 else 0
/-- The linear part: the upper left block. -/
noncomputable def Matrix3x3.linear (m : Matrix3x3 Ideal) : Matrix (Fin 2) (Fin 2) ℝ :=
  fun i j => m.toReal i.castSucc j.castSucc
/-- The translation part: the upper part of the last column. -/
noncomputable def Matrix3x3.offset (m : Matrix3x3 Ideal) : Fin 2 → ℝ := fun i => m.toReal i.castSucc (Fin.last 2)
/-- The two matrices of the transform are inverse to each other (exactly, under the crate's own `*` and
`==`). -/
def Transform2.Paired (t : Transform2 Ideal) : Prop :=
  (t.forward * t.inverse == Matrix3x3.identity) = true ∧ (t.inverse * t.forward == Matrix3x3.identity) = true
/-- The transform, applied to vectors, preserves dot products and lengths, applied to points preserves
distances, and it preserves orientation. -/
structure Transform2.Rigid (t : Transform2 Ideal) : Prop where
  dot : ∀ u v : Vector2 Ideal, AllFinite u → AllFinite v →
    (Api.dot (Transform.transform t u : Vector2 Ideal) (Transform.transform t v : Vector2 Ideal) == Api.dot u v) = true
  length : ∀ v : Vector2 Ideal, AllFinite v →
    (Api.length (Transform.transform t v : Vector2 Ideal) == Api.length v) = true
  distance : ∀ p q : Point2 Ideal, AllFinite p → AllFinite q →
    (Api.distance (Transform.transform t p : Point2 Ideal) (Transform.transform t q : Point2 Ideal)
      == Api.distance p q) = true
  orientation : t.forward.linear.det = 1

/-! ## Matrix4x4 -/

/-- Homogeneous coordinates of a point: last coordinate 1. -/
noncomputable def Point3.hom (p : Point3 Ideal) : Fin 4 → ℝ := ![real p.x, real p.y, real p.z, 1]
/-- Homogeneous coordinates of a vector: last coordinate 0. -/
noncomputable def Vector3.hom (p : Vector3 Ideal) : Fin 4 → ℝ := ![real p.x, real p.y, real p.z, 0]
/-- The homogeneous weight of the image of a point: the last coordinate of the matrix applied to the
homogeneous coordinates of the point. -/
noncomputable def Matrix4x4.weight (m : Matrix4x4 Ideal) (p : Point3 Ideal) : ℝ := (m.toReal.mulVec p.hom) (Fin.last 3)
/-- The last row is `0 ... 0 1`. -/
def Matrix4x4.Affine (m : Matrix4x4 Ideal) : Prop :=
  ∀ j : Fin 4, m.toReal (Fin.last 3) j = if j = Fin.last 3 then 1 else 0
/-- The linear part: the upper left block. -/
noncomputable def Matrix4x4.linear (m : Matrix4x4 Ideal) : Matrix (Fin 3) (Fin 3) ℝ :=
  fun i j => m.toReal i.castSucc j.castSucc
/-- The translation part: the upper part of the last column. -/
noncomputable def Matrix4x4.offset (m : Matrix4x4 Ideal) : Fin 3 → ℝ := fun i => m.toReal i.castSucc (Fin.last 3)
/-- The two matrices of the transform are inverse to each other (exactly, under the crate's own `*` and
`==`). -/
def Transform3.Paired (t : Transform3 Ideal) : Prop :=
  (t.forward * t.inverse == Matrix4x4.identity) = true ∧ (t.inverse * t.forward == Matrix4x4.identity) = true
/-- The transform, applied to vectors, preserves dot products and lengths, applied to points preserves
distances, and it preserves orientation. -/
structure Transform3.Rigid (t : Transform3 Ideal) : Prop where
  dot : ∀ u v : Vector3 Ideal, AllFinite u → AllFinite v →
    (Api.dot (Transform.transform t u : Vector3 Ideal) (Transform.transform t v : Vector3 Ideal) == Api.dot u v) = true
  length : ∀ v : Vector3 Ideal, AllFinite v →
    (Api.length (Transform.transform t v : Vector3 Ideal) == Api.length v) = true
  distance : ∀ p q : Point3 Ideal, AllFinite p → AllFinite q →
    (Api.distance (Transform.transform t p : Point3 Ideal) (Transform.transform t q : Point3 Ideal)
      == Api.distance p q) = true
  orientation : t.forward.linear.det = 1

end VecMath
