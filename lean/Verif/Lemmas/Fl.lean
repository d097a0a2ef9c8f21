import Verif.Lemmas.Round
/-! # Concrete numbers of a binary format -/

open Classical

namespace VecMath
open Scalar IEEE

namespace Fl
variable {F : Fmt}

/-- The float `x`. -/
noncomputable def of (x : ℝ) (h : F.Has x) (hb : |x| < 2 ^ F.emax) : Fl F :=
  ⟨.fin x, F.rounding.ok_fin ⟨F.rnd_of_has h, hb⟩⟩
theorem finite_of {x : ℝ} {h : F.Has x} {hb} : IsFinite (of x h hb) := trivial
theorem real_of {x : ℝ} {h : F.Has x} {hb} : real (of x h hb) = x := rfl

/-- The float `2^k`. -/
noncomputable def pow2 (k : ℤ) (h : F.emin ≤ k) (h' : k < F.emax) : Fl F :=
  of (2 ^ k) (F.has_zpow h) (by
    rw [abs_of_pos (Fmt.z_pos k)]; exact zpow_lt_zpow_right₀ (by norm_num) h')

theorem bound (F : Fmt) : F.emin ≤ -2 ∧ 2 ≤ F.emax := by
  have := F.hp; have := F.hmin; have := F.hmax; omega

variable (F) in
/-- The smallest positive float, `2^emin`. -/
noncomputable def small : Fl F := pow2 F.emin le_rfl (by have := bound F; omega)
variable (F) in
/-- A huge float, `2^(emax-1)`. -/
noncomputable def big : Fl F := pow2 (F.emax - 1) (by have := bound F; omega) (by omega)

theorem finite_small : IsFinite (small F) := trivial
theorem finite_big : IsFinite (big F) := trivial
theorem real_small : real (small F) = 2 ^ F.emin := rfl
theorem real_big : real (big F) = 2 ^ (F.emax - 1) := rfl

theorem small_sq : real (small F) ^ 2 < tiny (Fl F) := by
  rw [real_small, ← zpow_natCast, ← zpow_mul]
  refine zpow_lt_zpow_right₀ (by norm_num) ?_
  have := bound F
  show F.emin * ((2 : ℕ) : ℤ) < F.emin - 1
  push_cast; omega
theorem overflow_le : overflowAt (Fl F) ≤ 2 ^ F.emax := by
  have : (0 : ℝ) < 2 ^ (F.emax - F.p - 1) := Fmt.z_pos _
  show (2 : ℝ) ^ F.emax - 2 ^ (F.emax - F.p - 1) ≤ 2 ^ F.emax
  linarith
theorem big_sq : overflowAt (Fl F) ≤ real (big F) ^ 2 := by
  refine overflow_le.trans ?_
  rw [real_big, ← zpow_natCast, ← zpow_mul]
  refine Fmt.z_le ?_
  have := bound F
  push_cast; omega
theorem real_small_pos : 0 < real (small F) := by rw [real_small]; exact Fmt.z_pos _
theorem real_big_pos : 0 < real (big F) := by rw [real_big]; exact Fmt.z_pos _
theorem big_double : (2 : ℝ) ^ F.emax = real (big F) + real (big F) := by
  rw [real_big, ← two_mul, ← zpow_one_add₀ (by norm_num)]; congr 1; ring

end Fl

namespace IEEE
variable {S : Type} [Scalar S] [IEEE S] [B : Binary S]

theorem three_le_overflow : 3 ≤ overflowAt S := by
  obtain ⟨h1, h2⟩ := Fl.bound (Binary.F S)
  have hp := (Binary.F S).hp
  have a : (2 : ℝ) ^ (2 : ℤ) ≤ 2 ^ (Binary.F S).emax := Fmt.z_le h2
  have b : (2 : ℝ) ^ ((Binary.F S).emax - (Binary.F S).p - 1) ≤ 2 ^ ((Binary.F S).emax - 3) :=
    Fmt.z_le (by omega)
  have c : (2 : ℝ) ^ ((Binary.F S).emax - 3) = 2 ^ (Binary.F S).emax / 8 := by
    rw [zpow_sub₀ (by norm_num)]; norm_num
  unfold overflowAt
  norm_num at a
  rw [c] at b
  linarith
theorem one_normal : minNormal S ≤ 1 := by
  unfold minNormal
  rw [show (1 : ℝ) = 2 ^ (0 : ℤ) by simp]
  refine Fmt.z_le ?_
  have := (Binary.F S).hmin; have := (Binary.F S).hp; omega

end IEEE
end VecMath
