import Verif.Props.FloatBoxMeasure
import Verif.Props.FloatWitness
/-! # Layer F: the measures of any finite well-formed 3D box (C31), overflowing extents included -/

open Classical

namespace VecMath
open Scalar IEEE
variable {S : Type} [Scalar S] [IEEE S]

theorem mul_nan_of_left {a b : S} (h : IsNaN a) : IsNaN (a * b) := by
  unfold IsNaN at *; rw [den_mul, h]; simp
theorem mul_nan_of_right {a b : S} (h : IsNaN b) : IsNaN (a * b) := by
  unfold IsNaN at *; rw [den_mul, h]; simp
/-- sum of three numbers that are each NaN or `>= 0` -/
theorem sum_nonneg_or_nan {a b c : S} (ha : ¬ IsNaN a → (Scalar.zero ≤? a) = true) (hb : ¬ IsNaN b → (Scalar.zero ≤? b) = true)
    (hc : ¬ IsNaN c → (Scalar.zero ≤? c) = true) :
    (IsNaN (two * (a + b + c)) ↔ IsNaN a ∨ IsNaN b ∨ IsNaN c) ∧
    (¬ IsNaN (two * (a + b + c)) → (Scalar.zero ≤? two * (a + b + c)) = true) := by
  by_cases na : IsNaN a
  · have := mul_nan_of_right (a := (two : S)) (isNaN_add_left (b := c) (isNaN_add_left (b := b) na))
    exact ⟨iff_of_true this (.inl na), fun h => absurd this h⟩
  by_cases nb : IsNaN b
  · have := mul_nan_of_right (a := (two : S)) (isNaN_add_left (b := c) (isNaN_add_right (a := a) nb))
    exact ⟨iff_of_true this (.inr (.inl nb)), fun h => absurd this h⟩
  by_cases nc : IsNaN c
  · have := mul_nan_of_right (a := (two : S)) (isNaN_add_right (a := a + b) nc)
    exact ⟨iff_of_true this (.inr (.inr nc)), fun h => absurd this h⟩
  have h := two_mul_nonneg (add_nonneg' (add_nonneg' (ha na) (hb nb)) (hc nc))
  exact ⟨iff_of_false (le_nn h).2 (by tauto), fun _ => h⟩

/-- One extent overflowed to infinity, another is zero. -/
def BoundingBox3.Degenerate (b : BoundingBox3 S) : Prop :=
  ∃ d e : Dimension3, (b.extent d == infinity) = true ∧ (b.extent e == Scalar.zero) = true

/-- **C31**: for every finite well-formed box the surface area and the volume are `>= 0` or NaN. The surface area is NaN
exactly when one extent overflows to infinity and another is zero; the volume exactly when two of its factors — the
product of width and height, and the depth — are an infinity and a zero, or that product is NaN already. -/
theorem C31_float_measures_all (b : BoundingBox3 S) (hf : AllFinite b) (hb : LeAll b.min b.max) :
    ((Scalar.zero ≤? b.surfaceArea) = true ∨ IsNaN b.surfaceArea) ∧
    ((Scalar.zero ≤? b.volume) = true ∨ IsNaN b.volume) ∧
    (IsNaN b.surfaceArea ↔ b.Degenerate) ∧
    (IsNaN b.volume ↔
      ((b.width == infinity) = true ∧ (b.height == Scalar.zero) = true) ∨
      ((b.width == Scalar.zero) = true ∧ (b.height == infinity) = true) ∨
      ((b.width * b.height == infinity) = true ∧ (b.depth == Scalar.zero) = true) ∨
      ((b.width * b.height == Scalar.zero) = true ∧ (b.depth == infinity) = true)) := by
  have hx : (Scalar.zero ≤? b.width) = true := C31_float_nonneg3 b hf hb .X
  have hy : (Scalar.zero ≤? b.height) = true := C31_float_nonneg3 b hf hb .Y
  have hz : (Scalar.zero ≤? b.depth) = true := C31_float_nonneg3 b hf hb .Z
  have es : b.surfaceArea = two * (b.width * b.height + b.width * b.depth + b.height * b.depth) := rfl
  have ev : b.volume = b.width * b.height * b.depth := rfl
  have key : ∀ {p q : S}, (Scalar.zero ≤? p) = true → (Scalar.zero ≤? q) = true → (IsNaN (p * q) ↔
      ((p == infinity) = true ∧ (q == Scalar.zero) = true) ∨ ((p == Scalar.zero) = true ∧ (q == infinity) = true)) := by
    intro p q hp hq
    rw [(mul_nonneg' hp hq).1]
    simp only [IEEE.beq_iff, val_infinity, val_zero, not_nan_infinity, not_nan_zero, not_false_eq_true,
      true_and, (le_nn hp).2, (le_nn hq).2]
  have hs := sum_nonneg_or_nan (mul_nonneg' hx hy).2 (mul_nonneg' hx hz).2 (mul_nonneg' hy hz).2
  have both : ∀ {p : S}, ¬ ((p == infinity) = true ∧ (p == Scalar.zero) = true) := by
    rintro p ⟨h1, h2⟩
    have a := (beq_iff.1 h1).2.2
    have c := (beq_iff.1 h2).2.2
    rw [c, val_infinity, val_zero] at a
    exact EReal.zero_ne_top a
  refine ⟨?_, ?_, ?_, ?_⟩
  · rw [es]
    by_cases h : IsNaN (two * (b.width * b.height + b.width * b.depth + b.height * b.depth))
    · exact .inr h
    · exact .inl (hs.2 h)
  · rw [ev]
    by_cases h1 : IsNaN (b.width * b.height)
    · exact .inr (mul_nan_of_left h1)
    by_cases h : IsNaN (b.width * b.height * b.depth)
    · exact .inr h
    · exact .inl ((mul_nonneg' ((mul_nonneg' hx hy).2 h1) hz).2 h)
  · rw [es, hs.1, key hx hy, key hx hz, key hy hz]
    constructor
    · rintro ((h | h) | (h | h) | (h | h))
      exacts [⟨.X, .Y, h⟩, ⟨.Y, .X, h.2, h.1⟩, ⟨.X, .Z, h⟩, ⟨.Z, .X, h.2, h.1⟩, ⟨.Y, .Z, h⟩, ⟨.Z, .Y, h.2, h.1⟩]
    · rintro ⟨d, e, h1, h2⟩
      cases d <;> cases e
      · exact (both ⟨h1, h2⟩).elim
      · exact .inl (.inl ⟨h1, h2⟩)
      · exact .inr (.inl (.inl ⟨h1, h2⟩))
      · exact .inl (.inr ⟨h2, h1⟩)
      · exact (both ⟨h1, h2⟩).elim
      · exact .inr (.inr (.inl ⟨h1, h2⟩))
      · exact .inr (.inl (.inr ⟨h2, h1⟩))
      · exact .inr (.inr (.inr ⟨h2, h1⟩))
      · exact (both ⟨h1, h2⟩).elim
  · rw [ev]
    by_cases h1 : IsNaN (b.width * b.height)
    · refine iff_of_true (mul_nan_of_left h1) ?_
      rw [key hx hy] at h1
      exact h1.elim .inl fun h => .inr (.inl h)
    · have k := key ((mul_nonneg' hx hy).2 h1) hz
      rw [key hx hy] at h1
      rw [k]
      refine ⟨fun h => .inr (.inr h), ?_⟩
      rintro (h | h | h)
      exacts [(h1 (.inl h)).elim, (h1 (.inr h)).elim, h]
/-- a box that overflows in one dimension and is flat in another -/
example {F : Fmt} : (wide3 F).Degenerate ↔ IsNaN (wide3 F).surfaceArea :=
  (C31_float_measures_all (wide3 F) wide3_ok.1 wide3_ok.2).2.2.1.symm
end VecMath
