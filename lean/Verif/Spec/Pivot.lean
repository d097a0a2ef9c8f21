import Verif.Model
import Verif.Spec.Basic
import Verif.Spec.Round
import Mathlib.Data.Matrix.Mul
import Mathlib.Data.Fin.Tuple.Basic
/-!
# Vocabulary for C111: composing transforms or applying them one after the other; pivots
-/

namespace VecMath
open Scalar IEEE

/-- Homogeneous coordinates of a point: last coordinate 1. -/
def homog {n : ℕ} (p : Fin n → ℝ) : Fin (n + 1) → ℝ := Fin.snoc p 1

/-- The client applies the transforms to a point one after the other. -/
def Transform2.oneByOne {S : Type} [Scalar S] (ts : List (Transform2 S)) (p : Point2 S) : Point2 S := ts.foldl (fun q t => (Transform.transform t q : Point2 S)) p
/-- The transform `t` about the pivot `c`: move the pivot to the origin, apply `t`, move back. -/
def Transform2.about {S : Type} [Scalar S] (t : Transform2 S) (c : Point2 S) : Transform2 S :=
  ((Transform2.translate (-(Vector2.fromPoint c))).andThen t).andThen (Transform2.translate (Vector2.fromPoint c))
/-- What the underflow errors of the steps amount to: each further step amplifies the errors so far and adds its own. -/
noncomputable def Transform2.stepSlack {S : Type} [Scalar S] [IEEE S] [Binary S] (ts : List (Transform2 S)) : Fin 3 → ℝ :=
  ts.foldl (fun s t => fun i => (1 + uro S) ^ 3 * (t.forward.toReal.map abs).mulVec s i + (1 + uro S) ^ 2 * (2 * tiny S)) 0

/-- The client applies the transforms to a point one after the other. -/
def Transform3.oneByOne {S : Type} [Scalar S] (ts : List (Transform3 S)) (p : Point3 S) : Point3 S := ts.foldl (fun q t => (Transform.transform t q : Point3 S)) p
/-- The transform `t` about the pivot `c`: move the pivot to the origin, apply `t`, move back. -/
def Transform3.about {S : Type} [Scalar S] (t : Transform3 S) (c : Point3 S) : Transform3 S :=
  ((Transform3.translate (-(Vector3.fromPoint c))).andThen t).andThen (Transform3.translate (Vector3.fromPoint c))
/-- What the underflow errors of the steps amount to: each further step amplifies the errors so far and adds its own. -/
noncomputable def Transform3.stepSlack {S : Type} [Scalar S] [IEEE S] [Binary S] (ts : List (Transform3 S)) : Fin 4 → ℝ :=
  ts.foldl (fun s t => fun i => (1 + uro S) ^ 4 * (t.forward.toReal.map abs).mulVec s i + (1 + uro S) ^ 3 * (3 * tiny S)) 0

end VecMath
