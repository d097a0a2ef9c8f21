import Verif.IEEE.Binary
import Verif.IEEE.Ideal
/-!
# The binary floating-point numbers as an IEEE scalar type

`Fl F` is the set of data of the binary format `F`: NaN, the infinities, the zeros and the numbers
`m * 2^e` of the format, with the operations of IEEE-754 under round-to-nearest-even. `F32` and `F64` are
`f32` and `f64`. Everything proved for all `IEEE` scalar types therefore holds of them; concrete float
witnesses are values of these types. `sin` and `cos` are taken to be correctly rounded; no theorem of the
float layer uses that.
-/

open Classical

namespace VecMath
open Scalar

namespace Rounding
variable (A : Rounding)

/-- A datum of the format. -/
def Ok (v : Val) : Prop := ∀ x, v = .fin x → A.Rep x

theorem ok_nan : A.Ok .nan := by intro x h; cases h
theorem ok_inf (s) : A.Ok (.inf s) := by intro x h; cases h
theorem ok_nzero : A.Ok .nzero := by intro x h; cases h
theorem ok_fin {x} (h : A.Rep x) : A.Ok (.fin x) := by intro y h'; cases h'; exact h
theorem ok_mkZero (s) : A.Ok (.mkZero s) := by
  cases s
  · exact A.ok_fin A.rep_zero
  · exact A.ok_nzero
theorem ok_mk (s) {x} (h : A.Rep x) : A.Ok (.mk s x) := by
  unfold Val.mk; split
  · exact A.ok_mkZero s
  · exact A.ok_fin h
theorem ok_finish (s x) : A.Ok (A.finish s x) := by
  unfold finish
  split_ifs with h1 h2 h3
  · exact A.ok_mkZero _
  · exact A.ok_mkZero _
  · exact A.ok_fin ⟨A.rnd_idem x, h3⟩
  · exact A.ok_inf _
theorem ok_add (a b) : A.Ok (A.add a b) := by
  unfold add; split
  all_goals first
    | exact A.ok_nan | exact A.ok_inf _ | exact A.ok_finish _ _
    | (split_ifs <;> first | exact A.ok_nan | exact A.ok_inf _)
theorem ok_mul (a b) : A.Ok (A.mul a b) := by
  unfold mul; split
  all_goals first
    | exact A.ok_nan | exact A.ok_inf _ | exact A.ok_finish _ _
    | (split_ifs <;> first | exact A.ok_nan | exact A.ok_inf _)
theorem ok_div (a b) : A.Ok (A.div a b) := by
  unfold div; split
  all_goals first
    | exact A.ok_nan | exact A.ok_inf _ | exact A.ok_finish _ _ | exact A.ok_mkZero _
    | (split_ifs <;> first | exact A.ok_nan | exact A.ok_inf _ | exact A.ok_finish _ _)
theorem ok_sqrt (a) : A.Ok (A.sqrt a) := by
  unfold sqrt; split
  all_goals first
    | exact A.ok_nan | exact A.ok_inf _ | exact A.ok_finish _ _ | exact A.ok_nzero
    | (split_ifs <;> first | exact A.ok_nan | exact A.ok_inf _ | exact A.ok_finish _ _)
theorem ok_neg {a} (h : A.Ok a) : A.Ok a.neg := by
  rcases a with _ | s | _ | x
  · exact A.ok_nan
  · exact A.ok_inf _
  · exact A.ok_fin A.rep_zero
  · have := h x rfl
    unfold Val.neg; simp only
    split
    · exact A.ok_nzero
    · exact A.ok_fin (Rep.neg this)
theorem ok_abs {a} (h : A.Ok a) : A.Ok a.abs := by
  rcases a with _ | s | _ | x
  · exact A.ok_nan
  · exact A.ok_inf _
  · exact A.ok_fin A.rep_zero
  · exact A.ok_fin (Rep.abs (h x rfl))

theorem rep_floor {x : ℝ} (h : A.Rep x) : A.Rep (⌊x⌋ : ℝ) := ⟨A.rnd_floor h.1, A.fits_floor h.1 h.2⟩
theorem rep_ceil {x : ℝ} (h : A.Rep x) : A.Rep (⌈x⌉ : ℝ) := by
  have h1 := Rep.neg (A.rep_floor (Rep.neg h))
  rw [Int.floor_neg] at h1; simpa using h1
theorem rep_truncR {x : ℝ} (h : A.Rep x) : A.Rep (Val.truncR x : ℝ) := by
  unfold Val.truncR; split
  · exact A.rep_floor h
  · exact A.rep_ceil h
theorem rep_roundR {x : ℝ} (h : A.Rep x) : A.Rep (Val.roundR x : ℝ) := by
  have key : Val.roundR x = ⌊x⌋ ∨ Val.roundR x = ⌈x⌉ := by
    have h1 := Int.floor_le x
    have h2 := Int.lt_floor_add_one x
    have h3 := Int.le_ceil x
    have h4 := Int.ceil_lt_add_one x
    have h5 := Int.ceil_le_floor_add_one x
    unfold Val.roundR
    split
    · have h6 : ⌊x⌋ ≤ ⌊x + 1 / 2⌋ := Int.floor_mono (by linarith)
      have h7 : ⌊x + 1 / 2⌋ ≤ ⌈x⌉ := by
        have : ⌊x + 1 / 2⌋ < ⌈x⌉ + 1 := by
          rw [Int.floor_lt]; push_cast; linarith
        omega
      rcases h6.lt_or_eq with h8 | h8
      · right; omega
      · left; omega
    · have h6 : ⌈x - 1 / 2⌉ ≤ ⌈x⌉ := Int.ceil_mono (by linarith)
      have h7 : ⌊x⌋ ≤ ⌈x - 1 / 2⌉ := by
        have : ⌊x⌋ - 1 < ⌈x - 1 / 2⌉ := by
          rw [Int.lt_ceil]; push_cast; linarith
        omega
      rcases h7.lt_or_eq with h8 | h8
      · right; omega
      · left; omega
  rcases key with h' | h' <;> rw [h']
  · exact A.rep_floor h
  · exact A.rep_ceil h

theorem ok_toInt {f : ℝ → ℤ} (hf : ∀ {x}, A.Rep x → A.Rep (f x : ℝ)) {a} (h : A.Ok a) : A.Ok (a.toInt f) := by
  rcases a with _ | s | _ | x
  · exact A.ok_nan
  · exact A.ok_inf _
  · exact A.ok_nzero
  · exact A.ok_mk _ (hf (h x rfl))

theorem ok_minV {a b} (ha : A.Ok a) (hb : A.Ok b) : A.Ok (Ideal.minV a b) := by
  unfold Ideal.minV; split_ifs <;> assumption
theorem ok_maxV {a b} (ha : A.Ok a) (hb : A.Ok b) : A.Ok (Ideal.maxV a b) := by
  unfold Ideal.maxV; split_ifs <;> assumption

/-- Correctly rounded version of a real function (NaN outside the reals). -/
noncomputable def fn (f : ℝ → ℝ) : Val → Val
  | .nan => .nan
  | .inf _ => .nan
  | .nzero => A.finish true (f 0)
  | .fin x => A.finish false (f x)
theorem ok_fn (f a) : A.Ok (A.fn f a) := by
  rcases a with _ | s | _ | x
  · exact A.ok_nan
  · exact A.ok_nan
  · exact A.ok_finish _ _
  · exact A.ok_finish _ _
end Rounding

/-- The floating-point data of the binary format `F`. -/
@[ext] structure Fl (F : Fmt) where
  toVal : Val
  ok : F.rounding.Ok toVal

/-- Rust's `f32`. -/
abbrev F32 := Fl binary32
/-- Rust's `f64`. -/
abbrev F64 := Fl binary64

namespace Fl
variable {F : Fmt}

noncomputable instance : Scalar (Fl F) where
  add a b := ⟨_, F.rounding.ok_add a.toVal b.toVal⟩
  sub a b := ⟨F.rounding.sub a.toVal b.toVal, F.rounding.ok_add a.toVal b.toVal.neg⟩
  mul a b := ⟨_, F.rounding.ok_mul a.toVal b.toVal⟩
  div a b := ⟨_, F.rounding.ok_div a.toVal b.toVal⟩
  neg a := ⟨_, F.rounding.ok_neg a.ok⟩
  beq a b := decide (Val.Eq a.toVal b.toVal)
  zero := ⟨_, F.rounding.ok_fin F.rounding.rep_zero⟩
  one := ⟨_, F.rounding.ok_fin F.rounding.rep_one⟩
  half := ⟨_, F.rounding.ok_fin F.rounding.rep_half⟩
  two := ⟨_, F.rounding.ok_fin F.rounding.rep_two⟩
  infinity := ⟨_, F.rounding.ok_inf false⟩
  negInfinity := ⟨_, F.rounding.ok_inf true⟩
  abs a := ⟨_, F.rounding.ok_abs a.ok⟩
  sqrt a := ⟨_, F.rounding.ok_sqrt a.toVal⟩
  floor a := ⟨_, F.rounding.ok_toInt F.rounding.rep_floor a.ok⟩
  ceil a := ⟨_, F.rounding.ok_toInt F.rounding.rep_ceil a.ok⟩
  round a := ⟨_, F.rounding.ok_toInt F.rounding.rep_roundR a.ok⟩
  trunc a := ⟨_, F.rounding.ok_toInt F.rounding.rep_truncR a.ok⟩
  sin a := ⟨_, F.rounding.ok_fn Real.sin a.toVal⟩
  cos a := ⟨_, F.rounding.ok_fn Real.cos a.toVal⟩
  fmin a b := ⟨_, F.rounding.ok_minV a.ok b.ok⟩
  fmax a b := ⟨_, F.rounding.ok_maxV a.ok b.ok⟩
  lt a b := decide (Val.Lt a.toVal b.toVal)
  le a b := decide (Val.Le a.toVal b.toVal)

/-- Every binary format satisfies the assumptions of the float layer. -/
noncomputable instance : IEEE (Fl F) where
  A := F.rounding
  den := toVal
  rep {s x} h := s.ok x h
  den_zero := rfl
  den_one := rfl
  den_half := rfl
  den_two := rfl
  den_infinity := rfl
  den_negInfinity := rfl
  den_add _ _ := rfl
  den_sub _ _ := rfl
  den_mul _ _ := rfl
  den_div _ _ := rfl
  den_neg _ := rfl
  den_abs _ := rfl
  den_sqrt _ := rfl
  den_floor _ := rfl
  den_ceil _ := rfl
  den_round _ := rfl
  den_trunc _ := rfl
  den_fmin a b := Ideal.isMin_minV a.toVal b.toVal
  den_fmax a b := Ideal.isMax_maxV a.toVal b.toVal
  den_lt _ _ := decide_eq_true_iff
  den_le _ _ := decide_eq_true_iff
  den_beq _ _ := decide_eq_true_iff

end Fl

end VecMath
