import Verif.Props.FloatPlatform
import Verif.Props.ParamAll
import Verif.Props.FloatExamples
/-!
# C115: another conforming implementation, and why zeros have to count as equal

`Alt F` implements the same format as `Fl F`, with a payload beside every datum, handed on differently by each operation, and with
`min` and `max` that take their operands in the other order, so that they return the other zero.
-/

open Classical

namespace VecMath
open Scalar IEEE Relator

/-- A datum with a payload. -/
structure Alt (F : Fmt) where
  x : Fl F
  payload : ℕ

namespace Alt
variable {F : Fmt}

noncomputable instance : Scalar (Alt F) where
  add a b := ⟨a.x + b.x, a.payload⟩
  sub a b := ⟨a.x - b.x, b.payload⟩
  mul a b := ⟨a.x * b.x, a.payload + b.payload⟩
  div a b := ⟨a.x / b.x, 7⟩
  neg a := ⟨-a.x, a.payload + 1⟩
  beq a b := a.x == b.x
  zero := ⟨zero, 0⟩
  one := ⟨one, 1⟩
  half := ⟨half, 2⟩
  two := ⟨two, 3⟩
  infinity := ⟨infinity, 4⟩
  negInfinity := ⟨negInfinity, 5⟩
  abs a := ⟨Scalar.abs a.x, 0⟩
  sqrt a := ⟨Scalar.sqrt a.x, a.payload⟩
  floor a := ⟨Scalar.floor a.x, a.payload⟩
  ceil a := ⟨Scalar.ceil a.x, a.payload⟩
  round a := ⟨Scalar.round a.x, a.payload⟩
  trunc a := ⟨Scalar.trunc a.x, a.payload⟩
  sin a := ⟨Scalar.sin a.x, a.payload⟩
  cos a := ⟨Scalar.cos a.x, a.payload⟩
  fmin a b := ⟨fmin b.x a.x, b.payload⟩
  fmax a b := ⟨fmax b.x a.x, b.payload⟩
  lt a b := a.x <? b.x
  le a b := a.x ≤? b.x

theorem isMin_comm {r a b : Val} (h : Val.IsMin r a b) : Val.IsMin r b a :=
  ⟨h.2.1, h.1, fun hb ha => (h.2.2 ha hb).symm⟩
theorem isMax_comm {r a b : Val} (h : Val.IsMax r a b) : Val.IsMax r b a :=
  ⟨h.2.1, h.1, fun hb ha => (h.2.2 ha hb).symm⟩

noncomputable instance : IEEE (Alt F) where
  A := IEEE.A (Fl F)
  den a := den a.x
  rep h := rep (S := Fl F) h
  den_zero := rfl
  den_one := rfl
  den_half := rfl
  den_two := rfl
  den_infinity := rfl
  den_negInfinity := rfl
  den_add _ _ := rfl
  den_sub _ _ := rfl
  den_mul _ _ := rfl
  den_div _ _ := rfl
  den_neg _ := rfl
  den_abs _ := rfl
  den_sqrt _ := rfl
  den_floor _ := rfl
  den_ceil _ := rfl
  den_round _ := rfl
  den_trunc _ := rfl
  den_fmin a b := isMin_comm (den_fmin b.x a.x)
  den_fmax a b := isMax_comm (den_fmax b.x a.x)
  den_lt a b := den_lt a.x b.x
  den_le a b := den_le a.x b.x
  den_beq a b := den_beq a.x b.x

end Alt

/-- The two are implementations of one format. -/
theorem sameFormat_alt (F : Fmt) : SameFormat (Fl F) (Alt F) := rfl
/-- Their trigonometric functions agree as well. -/
theorem keptTrig_alt (F : Fmt) : KeptTrig (SameDatum (S := Fl F) (T := Alt F)) where
  sin := fun a b (e : a.toVal = b.x.toVal) => by
    have : a = b.x := Fl.ext e
    subst this; rfl
  cos := fun a b (e : a.toVal = b.x.toVal) => by
    have : a = b.x := Fl.ext e
    subst this; rfl

/-- `(2, 3, 6)` there. -/
noncomputable def altV : Vector3 (Alt binary32) := ⟨⟨int32 2, 11⟩, ⟨int32 3, 0⟩, ⟨int32 6, 42⟩⟩

/-- The length of `(2, 3, 6)` is 7 there as well. -/
example : IsFinite (Api.length altV) ∧ real (Api.length altV) = 7 := by
  haveI := kept_datum (sameFormat_alt binary32)
  have h : SameDatum (Api.length v236) (Api.length altV) := Vector3.rel_length (ρ := SameDatum) ⟨rfl, rfl, rfl⟩
  have e := length_v236
  unfold SameDatum at h
  exact ⟨by have := e.1; unfold IsFinite at *; rwa [← h], by have := e.2; unfold real at *; rwa [← h]⟩
/-- A rotation about an axis is the same there. -/
example (v : Vector3 F32) (a : F32) (m n : ℕ) :
    T3 SameDatum (Transform3.rotateAxis v a)
      (Transform3.rotateAxis (⟨⟨v.x, m⟩, ⟨v.y, n⟩, ⟨v.z, 0⟩⟩ : Vector3 (Alt binary32)) ⟨a, 5⟩) := by
  haveI := kept_datum (sameFormat_alt binary32); haveI := keptDiv_datum (sameFormat_alt binary32); haveI := keptTrig_alt binary32
  have hv : V3 SameDatum v (⟨⟨v.x, m⟩, ⟨v.y, n⟩, ⟨v.z, 0⟩⟩ : Vector3 (Alt binary32)) := ⟨rfl, rfl, rfl⟩
  have ha : SameDatum a (⟨a, 5⟩ : Alt binary32) := rfl
  exact Transform3.rel_rotateAxis hv ha
/-- A ray hits a box there exactly when it does here. -/
example (b : BoundingBox3 F32) (r : Ray3 F32) (b' : BoundingBox3 (Alt binary32)) (r' : Ray3 (Alt binary32))
    (hb : B3 SameDatum b b') (hr : R3 SameDatum r r') : (Api.intersect b r).isSome = (Api.intersect b' r').isSome := by
  have h := C115_platform_ray3 (sameFormat_alt binary32) hb hr
  dsimp only at h
  revert h
  generalize Api.intersect b r = x
  generalize Api.intersect b' r' = y
  rintro (_ | _) <;> rfl

/-- The negative zero of a format. -/
noncomputable def negZero (F : Fmt) : Fl F := -(zero : Fl F)
theorem den_negZero (F : Fmt) : den (negZero F) = .nzero := by
  show ((zero : Fl F).toVal).neg = _
  show (if (0 : ℝ) = 0 then Val.nzero else _) = _
  rw [if_pos rfl]
theorem val_negZero (F : Fmt) : val (negZero F) = 0 := by unfold val; rw [den_negZero]; rfl

/-- Zeros of either sign have to count as equal in the results of `min`: the two implementations return different zeros for the smaller
of `+0` and `-0`, and both are right. -/
theorem C115_min_zero (F : Fmt) : ¬ KeptMin (SameDatum (S := Fl F) (T := Alt F)) := by
  intro h
  have : SameDatum (fmin (zero : Fl F) (negZero F)) (fmin (⟨zero, 0⟩ : Alt F) ⟨negZero F, 0⟩) :=
    h.fmin (show SameDatum (zero : Fl F) (⟨zero, 0⟩ : Alt F) from rfl) (show SameDatum (negZero F) (⟨negZero F, 0⟩ : Alt F) from rfl)
  have e : ∀ a b : Fl F, ¬ IsNaN a → ¬ IsNaN b → val a = val b → den (fmin a b) = den a := by
    intro a b ha hb hv
    show Ideal.minV a.toVal b.toVal = a.toVal
    have h1 : a.toVal ≠ .nan := ha
    have h2 : b.toVal ≠ .nan := hb
    unfold Ideal.minV
    rw [if_neg h1, if_neg h2, if_pos (show a.toVal.ereal ≤ b.toVal.ereal from le_of_eq hv)]
  have hz : ¬ IsNaN (negZero F) := by unfold IsNaN; rw [den_negZero]; simp
  have hz' : ¬ IsNaN (zero : Fl F) := by unfold IsNaN; rw [den_zero]; simp
  have e1 := e zero (negZero F) hz' hz (by rw [val_negZero]; exact val_zero)
  have e2 := e (negZero F) zero hz hz' (by rw [val_negZero]; exact val_zero.symm)
  have : den (fmin (zero : Fl F) (negZero F)) = den (fmin (negZero F) (zero : Fl F)) := this
  rw [e1, e2, den_zero, den_negZero] at this
  cases this
/-- Division tells zeros apart. -/
theorem C115_div_zero (F : Fmt) : ¬ KeptDiv (SameNumber (S := Fl F) (T := Fl F)) := by
  intro h
  have hs : SameNumber (zero : Fl F) (negZero F) := by
    rw [sameNumber_iff]; unfold num; rw [den_zero, den_negZero]; rfl
  have h1 : SameNumber (one : Fl F) (one : Fl F) := sameNumber_iff.2 rfl
  have : SameNumber ((one : Fl F) / zero) ((one : Fl F) / negZero F) := h.div h1 hs
  rw [sameNumber_iff] at this
  unfold num at this
  rw [den_div, den_div, den_one, den_zero, den_negZero] at this
  simp [Rounding.div, Val.neg?] at this

end VecMath
