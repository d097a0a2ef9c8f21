import Verif.Spec.Near
import Verif.Lemmas.Grid
import Verif.Lemmas.Num
/-! # Sterbenz: the difference of nearby numbers is exact -/

open Classical

namespace VecMath
open Scalar IEEE

theorem Fmt.Has.near {F : Fmt} {x y : ℝ} (hx : F.Has x) (hy : F.Has y) (h1 : |x - y| ≤ |x|) (h2 : |x - y| ≤ |y|) :
    F.Has (x - y) := by
  obtain ⟨n, e, he, hn, rfl⟩ := hx
  obtain ⟨k, f, hf, hk, rfl⟩ := hy
  have key : ∀ (m a : ℤ) (d : ℤ), |(m : ℝ) * 2 ^ d| ≤ |(a : ℝ) * 2 ^ d| → |a| ≤ 2 ^ F.p → |m| ≤ 2 ^ F.p := by
    intro m a d h ha
    rw [abs_mul, abs_mul] at h
    have := le_of_mul_le_mul_right h (abs_pos.2 (Fmt.z_pos d).ne')
    exact le_trans (by exact_mod_cast this) ha
  rcases le_total e f with h | h
  · have hz : (2 : ℝ) ^ f = 2 ^ (f - e).toNat * 2 ^ e := by
      rw [← zpow_natCast, ← zpow_add₀ (by norm_num)]; congr 1; omega
    have hd : (n : ℝ) * 2 ^ e - k * 2 ^ f = ((n - k * 2 ^ (f - e).toNat : ℤ) : ℝ) * 2 ^ e := by
      rw [hz]; push_cast; ring
    rw [hd] at h1 ⊢
    exact ⟨_, e, he, key _ _ _ h1 hn, rfl⟩
  · have hz : (2 : ℝ) ^ e = 2 ^ (e - f).toNat * 2 ^ f := by
      rw [← zpow_natCast, ← zpow_add₀ (by norm_num)]; congr 1; omega
    have hd : (n : ℝ) * 2 ^ e - k * 2 ^ f = ((n * 2 ^ (e - f).toNat - k : ℤ) : ℝ) * 2 ^ f := by
      rw [hz]; push_cast; ring
    rw [hd] at h2 ⊢
    exact ⟨_, f, hf, key _ _ _ h2 hk, rfl⟩

section
variable {S : Type} [Scalar S] [IEEE S] [Binary S] {a b : S}

theorem finite_lt_overflow (h : IsFinite a) : |real a| < overflowAt S := by
  have := h.rep.2
  have h1 := h.rep.1
  rw [Binary.eq (S := S)] at this h1
  refine ((Binary.F S).fits_rnd_iff (real a)).1 ?_
  have e : (Binary.F S).rnd (real a) = real a := h1
  rw [e]; exact this
theorem Nearby.symm (h : Nearby a b) : Nearby b a := ⟨h.2.1, h.1, by rcases h.2.2 with h | h <;> [left; right] <;> exact ⟨h.2, h.1⟩⟩
theorem Nearby.le (h : Nearby a b) : |real a - real b| ≤ |real a| ∧ |real a - real b| ≤ |real b| := by
  obtain ⟨_, _, h | h⟩ := h
  · rw [abs_of_nonneg (show 0 ≤ real a by linarith), abs_of_nonneg (show 0 ≤ real b by linarith), abs_le, abs_le]
    refine ⟨⟨?_, ?_⟩, ?_, ?_⟩ <;> linarith
  · rw [abs_of_nonpos (show real a ≤ 0 by linarith), abs_of_nonpos (show real b ≤ 0 by linarith), abs_le, abs_le]
    refine ⟨⟨?_, ?_⟩, ?_, ?_⟩ <;> linarith
theorem Nearby.sub (h : Nearby a b) : Exactly (a - b) (real a - real b) := by
  have ho := h.le.1.trans_lt (finite_lt_overflow h.1)
  refine (correct_sub h.1 h.2.1).exact ⟨(isFinite_has h.1).near (isFinite_has h.2.1) h.le.1 h.le.2, ?_⟩ ho
  exact h.le.1.trans_lt (inFormat h.1).2
theorem Exactly.self {x : S} (h : IsFinite a) (hx : Correct x (real a)) : (x == a) = true := by
  have := hx.exact (inFormat h) (finite_lt_overflow h)
  exact beq_iff.2 ⟨this.1.not_nan, h.not_nan, by rw [this.1.val, h.val, this.2]⟩
theorem Nearby.back (h : Nearby a b) : (b + (a - b) == a) = true := by
  refine Exactly.self h.1 ?_
  have := correct_add h.2.1 h.sub.1
  rw [h.sub.2] at this
  simpa using this
theorem Nearby.back' (h : Nearby a b) : (a - (a - b) == b) = true := by
  refine Exactly.self h.2.1 ?_
  have := correct_sub h.1 h.sub.1
  rw [h.sub.2] at this
  simpa using this
end
end VecMath
