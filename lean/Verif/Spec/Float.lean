import Verif.Spec.Basic
/-!
# Relational specifications used in the float properties

Each definition says in plain mathematics what a result must be; none mentions the model's functions.
-/

namespace VecMath
open Scalar IEEE

section
variable {S T : Type} [Scalar S] [IEEE S] [Comps T S]

omit [IEEE S] in
/-- Rust's `<=` holds in every component. -/
def LeAll (a b : T) : Prop := List.Forall₂ (fun x y : S => (x ≤? y) = true) (Comps.comps a) (Comps.comps b)

/-- Every component of `b` is that of `a` with the same or the opposite sign. -/
def SameUpToSign (a b : T) : Prop :=
  List.Forall₂ (fun x y : S => Same y x ∨ Same y (-x)) (Comps.comps a) (Comps.comps b)

/-- `r` is the greatest integer `≤ x` (NaN and infinities unchanged). -/
def FloorOf (x r : S) : Prop :=
  (IsNaN x → IsNaN r) ∧ (¬ IsFinite x → Same r x) ∧
  (IsFinite x → IsFinite r ∧ ∃ n : ℤ, real r = n ∧ (n : ℝ) ≤ real x ∧ ∀ m : ℤ, (m : ℝ) ≤ real x → m ≤ n)
/-- `r` is the least integer `≥ x`. -/
def CeilOf (x r : S) : Prop :=
  (IsNaN x → IsNaN r) ∧ (¬ IsFinite x → Same r x) ∧
  (IsFinite x → IsFinite r ∧ ∃ n : ℤ, real r = n ∧ real x ≤ n ∧ ∀ m : ℤ, real x ≤ (m : ℝ) → n ≤ m)
/-- `r` is `x` rounded to an integer toward zero: the integer of largest magnitude, on the same side of
zero, not exceeding `|x|`. -/
def TruncOf (x r : S) : Prop :=
  (IsNaN x → IsNaN r) ∧ (¬ IsFinite x → Same r x) ∧
  (IsFinite x → IsFinite r ∧ ∃ n : ℤ, real r = n ∧ |(n : ℝ)| ≤ |real x| ∧ |real x| < |(n : ℝ)| + 1 ∧
    0 ≤ (n : ℝ) * real x)
/-- `r` is the integer nearest to `x`; halfway cases go away from zero. -/
def RoundOf (x r : S) : Prop :=
  (IsNaN x → IsNaN r) ∧ (¬ IsFinite x → Same r x) ∧
  (IsFinite x → IsFinite r ∧ ∃ n : ℤ, real r = n ∧ |real x - n| ≤ 1 / 2 ∧
    (|real x - n| = 1 / 2 → |real x| < |(n : ℝ)|))
/-- `r` is exactly `x` minus its integer part (toward zero); NaN for infinities. -/
def FractOf (x r : S) : Prop :=
  (¬ IsFinite x → IsNaN r) ∧
  (IsFinite x → IsFinite r ∧ |real r| < 1 ∧ 0 ≤ real r * real x ∧ ∃ n : ℤ, real x = n + real r)
/-- `r` is `|x|`. -/
def AbsOf (x r : S) : Prop :=
  (¬ IsNaN x → (zero ≤? r) = true) ∧ (Same r x ∨ Same r (-x))

end

/-- Position of a dimension: X, Y. -/
def Dimension2.pos : Dimension2 → ℕ
  | .X => 0
  | .Y => 1
/-- Position of a dimension: X, Y, Z. -/
def Dimension3.pos : Dimension3 → ℕ
  | .X => 0
  | .Y => 1
  | .Z => 2

/-- `d` names a smallest entry of `f`, the first one in the order given by `pos`. -/
def IsFirstMin {D S : Type} [Scalar S] (pos : D → ℕ) (f : D → S) (d : D) : Prop :=
  (∀ e, (f d ≤? f e) = true) ∧ ∀ e, pos e < pos d → (f d <? f e) = true
/-- `d` names a largest entry of `f`, the last one in the order given by `pos`. -/
def IsLastMax {D S : Type} [Scalar S] (pos : D → ℕ) (f : D → S) (d : D) : Prop :=
  (∀ e, (f e ≤? f d) = true) ∧ ∀ e, pos d < pos e → (f e <? f d) = true

/-- `min`/`max` on a type of component tuples are the lattice operations of the componentwise order. -/
structure MinMaxLaws (T : Type) {S : Type} [Scalar S] [IEEE S] [Comps T S] [MinMax T] [BEq T] : Prop where
  min_le_left : ∀ a b : T, NoNaN a → NoNaN b → LeAll (Api.min a b) a
  min_le_right : ∀ a b : T, NoNaN a → NoNaN b → LeAll (Api.min a b) b
  le_min : ∀ a b c : T, LeAll c a → LeAll c b → LeAll c (Api.min a b)
  le_max_left : ∀ a b : T, NoNaN a → NoNaN b → LeAll a (Api.max a b)
  le_max_right : ∀ a b : T, NoNaN a → NoNaN b → LeAll b (Api.max a b)
  max_le : ∀ a b c : T, LeAll a c → LeAll b c → LeAll (Api.max a b) c
  min_comm : ∀ a b : T, NoNaN a → NoNaN b → (Api.min a b == Api.min b a) = true
  max_comm : ∀ a b : T, NoNaN a → NoNaN b → (Api.max a b == Api.max b a) = true
  min_assoc : ∀ a b c : T, NoNaN a → NoNaN b → NoNaN c →
    (Api.min (Api.min a b) c == Api.min a (Api.min b c)) = true
  max_assoc : ∀ a b c : T, NoNaN a → NoNaN b → NoNaN c →
    (Api.max (Api.max a b) c == Api.max a (Api.max b c)) = true
  min_self : ∀ a : T, SameAll (Api.min a a) a
  max_self : ∀ a : T, SameAll (Api.max a a) a
  min_max : ∀ a b : T, NoNaN a → NoNaN b → (Api.min a (Api.max a b) == a) = true
  max_min : ∀ a b : T, NoNaN a → NoNaN b → (Api.max a (Api.min a b) == a) = true
  /-- a NaN component is ignored in favour of the other operand's component -/
  nan : ∀ (a b : T) (i : ℕ) (x y m M : S), (Comps.comps a)[i]? = some x → (Comps.comps b)[i]? = some y →
    (Comps.comps (Api.min a b))[i]? = some m → (Comps.comps (Api.max a b))[i]? = some M →
    (IsNaN x → Same m y ∧ Same M y) ∧ (IsNaN y → Same m x ∧ Same M x)
  /-- and every component of the result is one of the two operands' -/
  mem : ∀ (a b : T) (i : ℕ) (x y m M : S), (Comps.comps a)[i]? = some x → (Comps.comps b)[i]? = some y →
    (Comps.comps (Api.min a b))[i]? = some m → (Comps.comps (Api.max a b))[i]? = some M →
    (Same m x ∨ Same m y) ∧ (Same M x ∨ Same M y)

variable {S : Type} [Scalar S]
theorem Vector2.leAll {a b : Vector2 S} : LeAll a b ↔ (a.x ≤? b.x) = true ∧ (a.y ≤? b.y) = true := by
  simp [LeAll, Comps.comps]
theorem Vector3.leAll {a b : Vector3 S} :
    LeAll a b ↔ (a.x ≤? b.x) = true ∧ (a.y ≤? b.y) = true ∧ (a.z ≤? b.z) = true := by
  simp [LeAll, Comps.comps]
theorem Point2.leAll {a b : Point2 S} : LeAll a b ↔ (a.x ≤? b.x) = true ∧ (a.y ≤? b.y) = true := by
  simp [LeAll, Comps.comps]
theorem Point3.leAll {a b : Point3 S} :
    LeAll a b ↔ (a.x ≤? b.x) = true ∧ (a.y ≤? b.y) = true ∧ (a.z ≤? b.z) = true := by
  simp [LeAll, Comps.comps]

end VecMath
