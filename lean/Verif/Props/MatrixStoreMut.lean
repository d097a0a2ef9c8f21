import Verif.Props.MatrixStore
/-! # C39: `get_mut` with an out-of-range index in release builds -/

namespace VecMath
open Scalar
variable {S : Type} [Scalar S]

/-- **C39**, 3×3: in release builds `get_mut(row, col)` updates the element at `(row * 3 + col) mod 2^32` and no other if
that is a position of the matrix, and panics otherwise. -/
theorem C39_matrix3x3_release_mut (m : Matrix3x3 S) (r c : UInt32) (f : S → S) :
    (∀ h : (r.toNat * 3 + c.toNat) % 2 ^ 32 < 9,
      ∃ m', m.getMut .release r c f = .ok m' ∧ ∀ (i : ℕ) (hi : i < 9),
        m'.m[i] = if i = (r.toNat * 3 + c.toNat) % 2 ^ 32 then f m.m[i] else m.m[i]) ∧
    (¬ (r.toNat * 3 + c.toNat) % 2 ^ 32 < 9 → m.getMut .release r c f = .error .indexOutOfBounds) := by
  have hk : (r * 3 + c).toNat = (r.toNat * 3 + c.toNat) % 2 ^ 32 := by
    simp [UInt32.toNat_add, UInt32.toNat_mul]
  have hl : Matrix3x3.linearIndex .release r c = .ok ((r.toNat * 3 + c.toNat) % 2 ^ 32) := by
    simp only [Matrix3x3.linearIndex, reduceCtorEq, false_and, if_false, hk]
  constructor
  · intro h
    refine ⟨⟨m.m.set _ (f m.m[(r.toNat * 3 + c.toNat) % 2 ^ 32]) h⟩, ?_, ?_⟩
    · simp only [Matrix3x3.getMut, hl, bind, Except.bind]; rw [dif_pos h]
    · intro i hi
      rw [Vector.getElem_set]
      by_cases e : i = (r.toNat * 3 + c.toNat) % 2 ^ 32
      · subst e; rw [if_pos rfl]
      · rw [if_neg e, if_neg (fun h => e h.symm)]
  · intro h
    simp only [Matrix3x3.getMut, hl, bind, Except.bind]
    rw [dif_neg h]

/-- **C39**, 3×3: a write through `get_mut` beyond the last column in release builds is seen at the start of the next row. -/
theorem C39_matrix3x3_alias_mut (m : Matrix3x3 S) (f : S → S) :
    ∃ x m', m.get .release 1 0 = .ok x ∧ m.getMut .release 0 3 f = .ok m' ∧ m'.get .release 1 0 = .ok (f x) ∧
      m.getMut .debug 0 3 f = .error .debugAssert := by
  refine ⟨m.m[3], ⟨m.m.set 3 (f m.m[3])⟩, ?_, ?_, ?_, ?_⟩
  · rfl
  · rfl
  · show Except.ok (m.m.set 3 (f m.m[3]))[3] = _
    rw [Vector.getElem_set_self]
  · rfl

/-- **C39**, 4×4: in release builds `get_mut(row, col)` updates the element at `(row * 4 + col) mod 2^32` and no other if
that is a position of the matrix, and panics otherwise. -/
theorem C39_matrix4x4_release_mut (m : Matrix4x4 S) (r c : UInt32) (f : S → S) :
    (∀ h : (r.toNat * 4 + c.toNat) % 2 ^ 32 < 16,
      ∃ m', m.getMut .release r c f = .ok m' ∧ ∀ (i : ℕ) (hi : i < 16),
        m'.m[i] = if i = (r.toNat * 4 + c.toNat) % 2 ^ 32 then f m.m[i] else m.m[i]) ∧
    (¬ (r.toNat * 4 + c.toNat) % 2 ^ 32 < 16 → m.getMut .release r c f = .error .indexOutOfBounds) := by
  have hk : (r * 4 + c).toNat = (r.toNat * 4 + c.toNat) % 2 ^ 32 := by
    simp [UInt32.toNat_add, UInt32.toNat_mul]
  have hl : Matrix4x4.linearIndex .release r c = .ok ((r.toNat * 4 + c.toNat) % 2 ^ 32) := by
    simp only [Matrix4x4.linearIndex, reduceCtorEq, false_and, if_false, hk]
  constructor
  · intro h
    refine ⟨⟨m.m.set _ (f m.m[(r.toNat * 4 + c.toNat) % 2 ^ 32]) h⟩, ?_, ?_⟩
    · simp only [Matrix4x4.getMut, hl, bind, Except.bind]; rw [dif_pos h]
    · intro i hi
      rw [Vector.getElem_set]
      by_cases e : i = (r.toNat * 4 + c.toNat) % 2 ^ 32
      · subst e; rw [if_pos rfl]
      · rw [if_neg e, if_neg (fun h => e h.symm)]
  · intro h
    simp only [Matrix4x4.getMut, hl, bind, Except.bind]
    rw [dif_neg h]

/-- **C39**, 4×4: a write through `get_mut` beyond the last column in release builds is seen at the start of the next row. -/
theorem C39_matrix4x4_alias_mut (m : Matrix4x4 S) (f : S → S) :
    ∃ x m', m.get .release 1 0 = .ok x ∧ m.getMut .release 0 4 f = .ok m' ∧ m'.get .release 1 0 = .ok (f x) ∧
      m.getMut .debug 0 4 f = .error .debugAssert := by
  refine ⟨m.m[4], ⟨m.m.set 4 (f m.m[4])⟩, ?_, ?_, ?_, ?_⟩
  · rfl
  · rfl
  · show Except.ok (m.m.set 4 (f m.m[4]))[4] = _
    rw [Vector.getElem_set_self]
  · rfl

end VecMath
