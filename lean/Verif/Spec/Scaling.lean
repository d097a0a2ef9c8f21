import Verif.Spec.Round
import Verif.Spec.Basic
/-!
# Specification: scaling by powers of two (C74)

A change of the unit of length by a power of two, without rounding.
-/

namespace VecMath
open Scalar IEEE

/-- The datum times `2^k`, exactly: NaN, infinities and signed zeros are as they are. -/
noncomputable def Val.scaled (k : ℤ) : Val → Val
  | .fin x => .fin (2 ^ k * x)
  | v => v

variable {S : Type} [Scalar S] [IEEE S]

/-- `a'` is `a` times `2^k`, exactly (and both zeros of the same sign, both the same infinity or both NaN). -/
def Scaled (k : ℤ) (a a' : S) : Prop := den a' = (den a).scaled k
/-- Componentwise. -/
def ScaledAll {T : Type} [Comps T S] (k : ℤ) (a a' : T) : Prop := List.Forall₂ (Scaled k) (Comps.comps a) (Comps.comps a')
/-- `a'` is `a` times `2^k` up to the sign of zero, or both are NaN. -/
def ScaledNum (k : ℤ) (a a' : S) : Prop :=
  (IsNaN a ∧ IsNaN a') ∨ (¬ IsNaN a ∧ ¬ IsNaN a' ∧ val a' = ((2 ^ k : ℝ) : EReal) * val a)
/-- Componentwise. -/
def ScaledNumAll {T : Type} [Comps T S] (k : ℤ) (a a' : T) : Prop :=
  List.Forall₂ (ScaledNum k) (Comps.comps a) (Comps.comps a')
/-- Both miss; or both hit, and the ends of the second range are those of the first times `2^k`. -/
def ScaledHit (k : ℤ) (r r' : Option (Range S)) : Prop :=
  match r, r' with
  | none, none => True
  | some i, some j => ¬ IsNaN i.start ∧ ¬ IsNaN i.stop ∧ ¬ IsNaN j.start ∧ ¬ IsNaN j.stop ∧
      val j.start = ((2 ^ k : ℝ) : EReal) * val i.start ∧ val j.stop = ((2 ^ k : ℝ) : EReal) * val i.stop
  | _, _ => False
/-- The two results are both finite or both not: overflow, if any, happens on both scales. -/
def Alike (a a' : S) : Prop := IsFinite a ↔ IsFinite a'
/-- Componentwise. -/
def AlikeAll {T : Type} [Comps T S] (a a' : T) : Prop := List.Forall₂ Alike (Comps.comps a) (Comps.comps a')
/-- Neither exact quotient is in the range of underflow, and the rounded ones overflow on both scales or on neither. -/
def QuotientSafe [Binary S] (a d a' d' : S) : Prop :=
  Normal S (real a / real d) ∧ Normal S (real a' / real d') ∧ Alike (a / d) (a' / d')
/-- Componentwise. -/
def QuotientsSafe2 [Binary S] (a d a' d' : Vector2 S) : Prop :=
  QuotientSafe a.x d.x a'.x d'.x ∧ QuotientSafe a.y d.y a'.y d'.y
/-- Componentwise. -/
def QuotientsSafe3 [Binary S] (a d a' d' : Vector3 S) : Prop :=
  QuotientSafe a.x d.x a'.x d'.x ∧ QuotientSafe a.y d.y a'.y d'.y ∧ QuotientSafe a.z d.z a'.z d'.z

end VecMath
