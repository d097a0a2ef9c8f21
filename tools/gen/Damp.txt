import Verif.Model
import Verif.Spec.Round
/-!
# Vocabulary for histories of `*=` and `/=`

A vector, point or matrix is scaled step by step, any number of times.
-/

namespace VecMath

/-- One update: `*= s` or `/= s`. -/
inductive Factor (S : Type) where
  | times (s : S)
  | over (s : S)

section
variable {S : Type} [Scalar S]
/-- one scalar, updated -/
def Factor.apply (x : S) : Factor S → S
  | .times s => x * s
  | .over s => x / s
/-- executing a history on one scalar -/
def rescale (x : S) (l : List (Factor S)) : S := l.foldl Factor.apply x
/-- executing a history of `v *= s` and `v /= s` -/
def Vector2.rescale (v : Vector2 S) (l : List (Factor S)) : Vector2 S :=
  l.foldl (fun v f => match f with | .times s => v.mulAssign s | .over s => v.divAssign s) v
/-- executing a history of `v *= s` and `v /= s` -/
def Vector3.rescale (v : Vector3 S) (l : List (Factor S)) : Vector3 S :=
  l.foldl (fun v f => match f with | .times s => v.mulAssign s | .over s => v.divAssign s) v
/-- executing a history of `p *= s` and `p /= s` -/
def Point2.rescale (v : Point2 S) (l : List (Factor S)) : Point2 S :=
  l.foldl (fun v f => match f with | .times s => v.mulAssign s | .over s => v.divAssign s) v
/-- executing a history of `p *= s` and `p /= s` -/
def Point3.rescale (v : Point3 S) (l : List (Factor S)) : Point3 S :=
  l.foldl (fun v f => match f with | .times s => v.mulAssign s | .over s => v.divAssign s) v
/-- executing a history of `m *= s` and `m /= s` -/
def Matrix3x3.rescale (v : Matrix3x3 S) (l : List (Factor S)) : Matrix3x3 S :=
  l.foldl (fun v f => match f with | .times s => v.mulAssign s | .over s => v.divAssign s) v
/-- executing a history of `m *= s` and `m /= s` -/
def Matrix4x4.rescale (v : Matrix4x4 S) (l : List (Factor S)) : Matrix4x4 S :=
  l.foldl (fun v f => match f with | .times s => v.mulAssign s | .over s => v.divAssign s) v
end

section
variable {S : Type} [Scalar S] [IEEE S]
open IEEE
/-- a finite factor, or division by a finite number that is not zero -/
def Factor.Ok : Factor S → Prop
  | .times s => IsFinite s
  | .over s => IsFinite s ∧ real s ≠ 0
/-- the number the update stands for: `s` or `1 / s` -/
noncomputable def Factor.exact : Factor S → ℝ
  | .times s => real s
  | .over s => (real s)⁻¹
/-- the exact total factor of a history -/
noncomputable def total (l : List (Factor S)) : ℝ := (l.map Factor.exact).prod
end

end VecMath
