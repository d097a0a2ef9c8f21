import Verif.Model
import Mathlib.Logic.Relator
/-!
# Vocabulary for C115 and C116: relations between scalars, and what it means that a function keeps them

The crate is generic in the scalar type. A relation `ρ` between the values of two scalar types is carried over to vectors, points,
rays, boxes, matrices and transforms component by component; `(A ⇒ B) f g` (Mathlib's `Relator.LiftFun`) says that `f` and `g` take
`A`-related arguments to `B`-related results.
-/

namespace VecMath
open Scalar Relator

section
variable {S T : Type} [Scalar S] [Scalar T]

/-- `ρ` is kept by the constants and by the scalar operations other than `min`, `max`, division, `sin` and `cos`; related scalars
compare alike. -/
class Kept (ρ : S → T → Prop) : Prop where
  zero : ρ zero zero
  one : ρ one one
  half : ρ half half
  two : ρ two two
  infinity : ρ infinity infinity
  negInfinity : ρ negInfinity negInfinity
  add : (ρ ⇒ ρ ⇒ ρ) (fun a b => a + b) (fun a b => a + b)
  sub : (ρ ⇒ ρ ⇒ ρ) (fun a b => a - b) (fun a b => a - b)
  mul : (ρ ⇒ ρ ⇒ ρ) (fun a b => a * b) (fun a b => a * b)
  neg : (ρ ⇒ ρ) (fun a => -a) (fun a => -a)
  abs : (ρ ⇒ ρ) Scalar.abs Scalar.abs
  sqrt : (ρ ⇒ ρ) Scalar.sqrt Scalar.sqrt
  floor : (ρ ⇒ ρ) Scalar.floor Scalar.floor
  ceil : (ρ ⇒ ρ) Scalar.ceil Scalar.ceil
  round : (ρ ⇒ ρ) Scalar.round Scalar.round
  trunc : (ρ ⇒ ρ) Scalar.trunc Scalar.trunc
  lt : (ρ ⇒ ρ ⇒ Eq) Scalar.lt Scalar.lt
  le : (ρ ⇒ ρ ⇒ Eq) Scalar.le Scalar.le
  beq : (ρ ⇒ ρ ⇒ Eq) (fun a b => a == b) (fun a b => a == b)
/-- `ρ` is kept by `min` and `max`. -/
class KeptMin (ρ : S → T → Prop) : Prop where
  fmin : (ρ ⇒ ρ ⇒ ρ) Scalar.fmin Scalar.fmin
  fmax : (ρ ⇒ ρ ⇒ ρ) Scalar.fmax Scalar.fmax
/-- `ρ` is kept by division. -/
class KeptDiv (ρ : S → T → Prop) : Prop where
  div : (ρ ⇒ ρ ⇒ ρ) (fun a b => a / b) (fun a b => a / b)
/-- `ρ` is kept by the trigonometric functions. -/
class KeptTrig (ρ : S → T → Prop) : Prop where
  sin : (ρ ⇒ ρ) Scalar.sin Scalar.sin
  cos : (ρ ⇒ ρ) Scalar.cos Scalar.cos
end

/-! Component by component. -/
section
variable {S T : Type} (ρ : S → T → Prop)
abbrev V2 (u : Vector2 S) (v : Vector2 T) : Prop := ρ u.x v.x ∧ ρ u.y v.y
abbrev V3 (u : Vector3 S) (v : Vector3 T) : Prop := ρ u.x v.x ∧ ρ u.y v.y ∧ ρ u.z v.z
abbrev P2 (p : Point2 S) (q : Point2 T) : Prop := ρ p.x q.x ∧ ρ p.y q.y
abbrev P3 (p : Point3 S) (q : Point3 T) : Prop := ρ p.x q.x ∧ ρ p.y q.y ∧ ρ p.z q.z
abbrev R2 (r : Ray2 S) (s : Ray2 T) : Prop := P2 ρ r.origin s.origin ∧ V2 ρ r.direction s.direction
abbrev R3 (r : Ray3 S) (s : Ray3 T) : Prop := P3 ρ r.origin s.origin ∧ V3 ρ r.direction s.direction
abbrev B2 (a : BoundingBox2 S) (b : BoundingBox2 T) : Prop := P2 ρ a.min b.min ∧ P2 ρ a.max b.max
abbrev B3 (a : BoundingBox3 S) (b : BoundingBox3 T) : Prop := P3 ρ a.min b.min ∧ P3 ρ a.max b.max
def M3 (a : Matrix3x3 S) (b : Matrix3x3 T) : Prop := ∀ (k : Nat) (h : k < 9), ρ a.m[k] b.m[k]
def M4 (a : Matrix4x4 S) (b : Matrix4x4 T) : Prop := ∀ (k : Nat) (h : k < 16), ρ a.m[k] b.m[k]
abbrev T2 (a : Transform2 S) (b : Transform2 T) : Prop := M3 ρ a.forward b.forward ∧ M3 ρ a.inverse b.inverse
abbrev T3 (a : Transform3 S) (b : Transform3 T) : Prop := M4 ρ a.forward b.forward ∧ M4 ρ a.inverse b.inverse
abbrev Rg (a : Range S) (b : Range T) : Prop := ρ a.start b.start ∧ ρ a.stop b.stop
end
/-- Both fail, with the same error, or both succeed, with related results. -/
inductive Outcome {E A B : Type} (R : A → B → Prop) : Except E A → Except E B → Prop
  | error (e : E) : Outcome R (.error e) (.error e)
  | ok {a : A} {b : B} (h : R a b) : Outcome R (.ok a) (.ok b)
/-- Pairs, component by component. -/
abbrev Both {A B C D : Type} (R : A → B → Prop) (Q : C → D → Prop) (p : A × C) (q : B × D) : Prop := R p.1 q.1 ∧ Q p.2 q.2

end VecMath
