import Verif.Spec.Basic
/-!
# Vocabulary for sorting with a comparison

`r a b` means "`a` comes strictly before `b`", as `a.is_shorter_than(b)` does when sorting by length.
-/

namespace VecMath

/-- No element comes strictly before the one that precedes it. -/
def SortedBy {A : Type} (r : A → A → Bool) : List A → Prop
  | a :: b :: l => r b a = false ∧ SortedBy r (b :: l)
  | _ => True
/-- Neither comes strictly before the other. -/
def tied {A : Type} (r : A → A → Bool) (a b : A) : Bool := !r a b && !r b a
/-- `out` is a stable sort of `l`: the same elements, sorted, and tied elements keep their order. -/
structure StableSort {A : Type} (r : A → A → Bool) (l out : List A) : Prop where
  sorted : SortedBy r out
  perm : out.Perm l
  stable : ∀ x ∈ l, out.filter (tied r x) = l.filter (tied r x)
/-- A comparison that `sort_by` and the like may be called with, on the elements that satisfy `P`: irreflexive,
asymmetric, transitive, and being tied is transitive. -/
structure StrictWeakOrder {A : Type} (P : A → Prop) (r : A → A → Bool) : Prop where
  irrefl : ∀ a, P a → r a a = false
  asymm : ∀ a b, P a → P b → r a b = true → r b a = false
  trans : ∀ a b c, P a → P b → P c → r a b = true → r b c = true → r a c = true
  ties : ∀ a b c, P a → P b → P c → tied r a b = true → tied r b c = true → tied r a c = true
end VecMath
