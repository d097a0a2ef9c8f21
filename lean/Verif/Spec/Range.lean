import Verif.Spec.Basic
import Verif.Spec.Round
/-!
# Vocabulary for the size of data
-/

namespace VecMath
open Scalar IEEE

section
variable {S T : Type} [Scalar S] [IEEE S] [Comps T S]
/-- A finite number of magnitude at most `B`. -/
def UpTo (B : ℝ) (x : S) : Prop := IsFinite x ∧ |real x| ≤ B
/-- Every component is a finite number of magnitude at most `B`. -/
def UpToAll (B : ℝ) (t : T) : Prop := ∀ x ∈ Comps.comps t, UpTo B x
/-- Every component is finite, and zero or between `2^-k` and `2^k` in magnitude. -/
def Moderate (k : ℕ) (t : T) : Prop :=
  ∀ x ∈ Comps.comps t, IsFinite x ∧ (real x = 0 ∨ 2 ^ (-k : ℤ) ≤ |real x| ∧ |real x| ≤ 2 ^ (k : ℤ))
end

/-- `N · 2^e` is a number of the format, at least one binary digit below the largest. -/
def Room (S : Type) [Scalar S] [IEEE S] [Binary S] (e : ℤ) (N : ℕ) : Prop :=
  (Binary.F S).emin ≤ e ∧ N ≤ 2 ^ (Binary.F S).p ∧ (N : ℝ) * 2 ^ e ≤ 2 ^ ((Binary.F S).emax - 1)

variable {S : Type} [Scalar S] [IEEE S] {B : ℝ}
theorem Vector2.upToAll {v : Vector2 S} : UpToAll B v ↔ UpTo B v.x ∧ UpTo B v.y := by simp [UpToAll, Comps.comps]
theorem Vector3.upToAll {v : Vector3 S} : UpToAll B v ↔ UpTo B v.x ∧ UpTo B v.y ∧ UpTo B v.z := by
  simp [UpToAll, Comps.comps]
theorem Point2.upToAll {v : Point2 S} : UpToAll B v ↔ UpTo B v.x ∧ UpTo B v.y := by simp [UpToAll, Comps.comps]
theorem Point3.upToAll {v : Point3 S} : UpToAll B v ↔ UpTo B v.x ∧ UpTo B v.y ∧ UpTo B v.z := by
  simp [UpToAll, Comps.comps]
theorem BoundingBox2.upToAll {b : BoundingBox2 S} : UpToAll B b ↔ UpToAll B b.min ∧ UpToAll B b.max := by
  simp [UpToAll, Comps.comps]; tauto
theorem BoundingBox3.upToAll {b : BoundingBox3 S} : UpToAll B b ↔ UpToAll B b.min ∧ UpToAll B b.max := by
  simp [UpToAll, Comps.comps]; tauto
theorem Matrix3x3.upToAll {m : Matrix3x3 S} : UpToAll B m ↔ ∀ (i : ℕ) (h : i < 9), UpTo B m.m[i] := by
  simp only [UpToAll, Comps.comps, Vector.mem_toList_iff]
  constructor
  · intro h i hi; exact h _ (Vector.getElem_mem hi)
  · rintro h s hs
    obtain ⟨i, hi, rfl⟩ := Vector.getElem_of_mem hs
    exact h i hi
theorem Matrix4x4.upToAll {m : Matrix4x4 S} : UpToAll B m ↔ ∀ (i : ℕ) (h : i < 16), UpTo B m.m[i] := by
  simp only [UpToAll, Comps.comps, Vector.mem_toList_iff]
  constructor
  · intro h i hi; exact h _ (Vector.getElem_mem hi)
  · rintro h s hs
    obtain ⟨i, hi, rfl⟩ := Vector.getElem_of_mem hs
    exact h i hi
theorem UpToAll.allFinite {T : Type} [Comps T S] {t : T} (h : UpToAll B t) : AllFinite t := fun x hx => (h x hx).1
theorem Moderate.upToAll {T : Type} [Comps T S] {t : T} {k : ℕ} (h : Moderate k t) : UpToAll (2 ^ (k : ℤ)) t := fun x hx =>
  ⟨(h x hx).1, (h x hx).2.elim (fun h0 => by rw [h0, abs_zero]; positivity) And.right⟩
end VecMath
