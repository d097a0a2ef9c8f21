import Verif.Lemmas.Exec
/-!
# Bisecting an interval of floating-point numbers

`lo + (hi - lo) / 2` in rounded arithmetic: if any number of the format lies strictly between `lo` and `hi`, the result
does too. Statements about `Fmt.rnd` only.
-/
open Classical

namespace VecMath
namespace Fmt
variable {F : Fmt}

/-- numbers of the format are multiples of their last place, and of everything finer -/
theorem Has.multiple {y : ℝ} {j : ℤ} (h : F.Has y) (hj : j ≤ F.ex y) : ∃ n : ℤ, y = n * 2 ^ j := by
  have e := F.rnd_of_has h
  refine ⟨rne (y / 2 ^ F.ex y) * 2 ^ (F.ex y - j).toNat, ?_⟩
  have h1 := z_int (show 0 ≤ F.ex y - j by omega)
  push_cast at h1 ⊢
  rw [h1, mul_assoc, ← z_add, sub_add_cancel]
  exact e.symm
theorem ex_ge {y : ℝ} {k : ℤ} (h : (2 : ℝ) ^ k ≤ |y|) : k - (F.p - 1) ≤ F.ex y := by
  have := log_ge h
  unfold ex; omega
theorem ex_le {y : ℝ} {k : ℤ} (h0 : y ≠ 0) (h : |y| < (2 : ℝ) ^ k) (hk : F.emin ≤ k - F.p) : F.ex y ≤ k - F.p := by
  have := log_lt h0 h
  unfold ex; omega
/-- the rounding error is at most half a unit in the last place -/
theorem rnd_err_ex (x : ℝ) : |F.rnd x - x| ≤ 2 ^ F.ex x / 2 := by
  have h := rne_err (x / 2 ^ F.ex x)
  have hq := z_pos (F.ex x)
  have e : F.rnd x - x = (rne (x / 2 ^ F.ex x) - x / 2 ^ F.ex x) * 2 ^ F.ex x := by
    rw [sub_mul, div_mul_cancel₀ _ hq.ne']; rfl
  rw [e, abs_mul, abs_of_pos hq]
  nlinarith

/-- below a power of two the spacing halves -/
theorem Has.below {y : ℝ} {q : ℤ} (h : F.Has y) (hq : F.emin < q) (hy : y < 2 ^ (q + F.p - 1)) :
    y ≤ 2 ^ (q + F.p - 1) - 2 ^ q / 2 := by
  have hp := F.hp
  have e1 : (2 : ℝ) ^ q / 2 = 2 ^ (q - 1) := by rw [zpow_sub_one₀ (by norm_num)]; ring
  have e2 : (2 : ℝ) ^ (q + F.p - 1) = 2 ^ (F.p : ℤ) * 2 ^ (q - 1) := by rw [← z_add]; congr 1; ring
  rcases le_or_gt y (2 ^ (q + F.p - 1 - 1)) with h1 | h1
  · have e3 : (2 : ℝ) ^ (q + F.p - 1) = 2 * 2 ^ (q + F.p - 1 - 1) := by
      rw [mul_comm, ← zpow_add_one₀ (by norm_num)]; congr 1; ring
    have e4 : (2 : ℝ) ^ (q - 1) ≤ 2 ^ (q + F.p - 1 - 1) := z_le (by omega)
    rw [e1]; linarith
  · have hy0 : 0 < y := (z_pos _).trans h1
    have := F.ex_ge (y := y) (k := q + F.p - 1 - 1) (by rw [abs_of_pos hy0]; exact h1.le)
    obtain ⟨n, hn⟩ := h.multiple (j := q - 1) (by omega)
    rw [e2, hn] at hy
    have h2 : (n : ℝ) < 2 ^ (F.p : ℤ) := lt_of_mul_lt_mul_right hy (z_pos _).le
    have h3 : n < 2 ^ F.p := by
      rw [zpow_natCast] at h2; exact_mod_cast h2
    have h4 : (n : ℝ) ≤ 2 ^ (F.p : ℤ) - 1 := by
      rw [zpow_natCast]
      have : n ≤ 2 ^ F.p - 1 := by omega
      exact_mod_cast this
    rw [e1, e2, hn]
    nlinarith [z_pos (q - 1)]

theorem gap_pos {lo m hi x : ℝ} (hlo : F.Has lo) (hm : F.Has m) (hhi : F.Has hi) (h1 : lo < m) (h2 : m < hi) (hx : 0 < x)
    (hxl : lo ≤ x) (hxh : x ≤ hi) : |F.rnd x - x| ≤ (hi - lo) / 3 := by
  have hp := F.hp
  have he := F.rnd_err_ex x
  have three : ∀ {j : ℤ}, j ≤ F.ex lo ∨ lo = 0 → j ≤ F.ex m ∨ m = 0 → j ≤ F.ex hi ∨ hi = 0 → 2 * (2 : ℝ) ^ j ≤ hi - lo := by
    intro j a b c
    have mk : ∀ {y : ℝ}, F.Has y → j ≤ F.ex y ∨ y = 0 → ∃ n : ℤ, y = n * 2 ^ j := by
      rintro y h (h' | rfl)
      · exact h.multiple h'
      · exact ⟨0, by simp⟩
    obtain ⟨l, hl⟩ := mk hlo a
    obtain ⟨k, hk⟩ := mk hm b
    obtain ⟨n, hn⟩ := mk hhi c
    have hj := z_pos j
    rw [hl, hk] at h1
    rw [hk, hn] at h2
    have i1 : l < k := by exact_mod_cast lt_of_mul_lt_mul_right h1 hj.le
    have i2 : k < n := by exact_mod_cast lt_of_mul_lt_mul_right h2 hj.le
    have i3 : (l : ℝ) + 2 ≤ n := by exact_mod_cast (by omega : l + 2 ≤ n)
    rw [hl, hn]
    nlinarith
  suffices h : F.rnd x = x ∨ 3 / 2 * (2 : ℝ) ^ F.ex x ≤ hi - lo by
    rcases h with h | h
    · rw [h, sub_self, abs_zero]; linarith
    · linarith
  rcases (F.emin_le_ex x).eq_or_lt with hq | hq
  · right
    have := three (j := F.emin) (.inl (F.emin_le_ex _)) (.inl (F.emin_le_ex _)) (.inl (F.emin_le_ex _))
    rw [← hq]
    have := z_pos F.emin
    linarith
  · have hex : F.ex x = Int.log 2 |x| - (F.p - 1) := by unfold ex at hq ⊢; omega
    have hB : (2 : ℝ) ^ (F.ex x + F.p - 1) ≤ x := by
      have := log_le hx.ne'
      rw [abs_of_pos hx] at this hex
      rw [hex]
      convert this using 2; ring
    have hQ := z_pos (F.ex x)
    have multB : ∀ {y : ℝ}, (2 : ℝ) ^ (F.ex x + F.p - 1) ≤ y → F.ex x ≤ F.ex y := by
      intro y h
      have := F.ex_ge (h.trans (le_abs_self y))
      omega
    rcases hB.eq_or_lt with hB' | hB'
    · left
      refine F.rnd_of_has ?_
      rw [← hB']
      exact has_zpow F (by omega)
    right
    rcases lt_or_ge lo (2 ^ (F.ex x + F.p - 1)) with hl | hl
    · have a := hlo.below hq hl
      obtain ⟨n, hn⟩ := hhi.multiple (multB (hB.trans hxh))
      have e2 : (2 : ℝ) ^ (F.ex x + F.p - 1) = ((2 ^ (F.p - 1) : ℤ) : ℝ) * 2 ^ F.ex x := by
        push_cast
        rw [← zpow_natCast, ← z_add]; congr 1; push_cast [show 1 ≤ F.p by omega]; ring
      have b : (2 : ℝ) ^ (F.ex x + F.p - 1) + 2 ^ F.ex x ≤ hi := by
        have c := hB'.trans_le hxh
        rw [hn, e2] at c
        have d : (2 ^ (F.p - 1) : ℤ) < n := by exact_mod_cast lt_of_mul_lt_mul_right c hQ.le
        have d' : (((2 ^ (F.p - 1) : ℤ) : ℝ)) + 1 ≤ n := by exact_mod_cast (by omega : (2 ^ (F.p - 1) : ℤ) + 1 ≤ n)
        rw [hn, e2]
        nlinarith
      linarith
    · have := three (j := F.ex x) (.inl (multB hl)) (.inl (multB (hl.trans h1.le))) (.inl (multB (hB.trans hxh)))
      linarith

/-- Between two numbers of the format that are not neighbours, rounding moves a real by at most a third of their
distance. -/
theorem gap {lo m hi x : ℝ} (hlo : F.Has lo) (hm : F.Has m) (hhi : F.Has hi) (h1 : lo < m) (h2 : m < hi)
    (hxl : lo ≤ x) (hxh : x ≤ hi) : |F.rnd x - x| ≤ (hi - lo) / 3 := by
  rcases lt_trichotomy x 0 with hx | hx | hx
  · have := gap_pos hhi.neg hm.neg hlo.neg (neg_lt_neg h2) (neg_lt_neg h1) (x := -x) (by linarith) (by linarith) (by linarith)
    rw [rnd_neg, show -F.rnd x - -x = -(F.rnd x - x) by ring, abs_neg] at this
    linarith
  · rw [hx, rnd_zero, sub_self, abs_zero]; linarith
  · exact gap_pos hlo hm hhi h1 h2 hx hxl hxh

/-- Halving is exact, or it halves an odd multiple of the quantum. -/
theorem half {D : ℝ} (h : F.Has D) : F.rnd (D / 2) = D / 2 ∨ ∃ n : ℤ, Odd n ∧ |n| < 2 ^ F.p ∧ D = n * 2 ^ F.emin := by
  obtain ⟨m, e, he, hm, rfl⟩ := h
  rcases he.eq_or_lt with rfl | he
  · rcases Int.even_or_odd m with ⟨k, rfl⟩ | ho
    · left
      refine F.rnd_of_has ⟨k, F.emin, le_rfl, ?_, by push_cast; ring⟩
      rw [← two_mul, abs_mul] at hm
      have := abs_nonneg k
      simp at hm
      omega
    · right
      refine ⟨m, ho, lt_of_le_of_ne hm fun hc => ?_, rfl⟩
      have h2 : Even (2 ^ F.p : ℤ) := (even_two).pow_of_ne_zero (by have := F.hp; omega)
      rw [← hc] at h2
      have : Even m := even_abs.1 h2
      exact (Int.not_even_iff_odd.2 ho) this
  · left
    refine F.rnd_of_has ⟨m, e - 1, by omega, hm, ?_⟩
    rw [zpow_sub_one₀ (by norm_num)]; ring

theorem has_of_quantum {n : ℤ} (h : |n| ≤ 2 ^ F.p) : F.Has (n * 2 ^ F.emin) := ⟨n, F.emin, le_rfl, h, rfl⟩

/-- What the code computes for half the extent. -/
theorem half_extent {lo hi : ℝ} (hlo : F.Has lo) (hhi : F.Has hi) (h : lo < hi) :
    F.rnd (F.rnd (hi - lo) / 2) = F.rnd (hi - lo) / 2 ∨
    ∃ n : ℤ, Odd n ∧ 0 < n ∧ n < 2 ^ F.p ∧ hi - lo = n * 2 ^ F.emin ∧ F.rnd (hi - lo) = hi - lo := by
  rcases half (F.has_rnd (hi - lo)) with h1 | ⟨n, ho, hn, hD⟩
  · exact .inl h1
  right
  have hη := z_pos F.emin
  obtain ⟨a, ha⟩ := hlo.quantum
  obtain ⟨b, hb⟩ := hhi.quantum
  have hG : hi - lo = ((b - a : ℤ) : ℝ) * 2 ^ F.emin := by rw [ha, hb]; push_cast; ring
  have hpos : 0 < b - a := by
    have : (0 : ℝ) < ((b - a : ℤ) : ℝ) * 2 ^ F.emin := by rw [← hG]; linarith
    exact_mod_cast pos_of_mul_pos_left this hη.le
  have hlt : b - a < 2 ^ F.p := by
    by_contra hc
    have h2 : (((2 ^ F.p : ℤ)) : ℝ) * 2 ^ F.emin ≤ hi - lo := by
      rw [hG]; exact mul_le_mul_of_nonneg_right (by exact_mod_cast (not_lt.1 hc)) hη.le
    have h3 := F.rnd_mono h2
    rw [F.rnd_of_has (has_of_quantum (by simp)), hD] at h3
    have h4 : (2 ^ F.p : ℤ) ≤ n := by exact_mod_cast le_of_mul_le_mul_right h3 hη
    have := le_abs_self n
    omega
  have hr : F.rnd (hi - lo) = hi - lo := F.rnd_of_has (hG ▸ has_of_quantum (by rw [abs_of_pos hpos]; exact hlt.le))
  have hnn : n = b - a := by
    rw [hr, hG] at hD
    exact_mod_cast (mul_right_cancel₀ hη.ne' hD).symm
  exact ⟨b - a, hnn ▸ ho, hpos, hlt, hG, hr⟩

theorem rnd_three_half : F.rnd (3 * 2 ^ F.emin / 2) = 2 * 2 ^ F.emin := by
  have hη := z_pos F.emin
  have hp := F.hp
  have e : F.ex (3 * 2 ^ F.emin / 2) = F.emin := by
    refine le_antisymm ?_ (F.emin_le_ex _)
    have := F.ex_le (y := 3 * 2 ^ F.emin / 2) (k := F.emin + F.p) (by positivity) (by
      rw [abs_of_pos (by positivity), z_add]
      have h4 : (2 : ℝ) ^ (2 : ℤ) ≤ 2 ^ (F.p : ℤ) := z_le (by omega)
      have h4' : (4 : ℝ) ≤ 2 ^ (F.p : ℤ) := by norm_num at h4 ⊢; exact h4
      generalize (2 : ℝ) ^ (F.p : ℤ) = z at h4'
      nlinarith) (by omega)
    omega
  rw [rnd, e, rne_even (n := 2) (by decide)]
  · norm_num
  · rw [le_div_iff₀ hη]; push_cast; linarith
  · rw [div_le_iff₀ hη]; push_cast; linarith

/-- a number of the format at or beyond `2^p` quanta is an even multiple of the quantum -/
theorem Has.even {y : ℝ} {n : ℤ} (hy : F.Has y) (hn : y = n * 2 ^ F.emin) (hle : 2 ^ F.p ≤ |n|) : Even n := by
  have hη := z_pos F.emin
  have hb : (2 : ℝ) ^ (F.emin + F.p) ≤ |y| := by
    rw [hn, abs_mul, abs_of_pos hη, add_comm, z_add, zpow_natCast]
    refine mul_le_mul_of_nonneg_right ?_ hη.le
    have : ((2 ^ F.p : ℤ) : ℝ) ≤ ((|n| : ℤ) : ℝ) := by exact_mod_cast hle
    push_cast at this; exact this
  have he := F.ex_ge hb
  obtain ⟨k, hk⟩ := hy.multiple (j := F.emin + 1) (by omega)
  refine ⟨k, ?_⟩
  rw [hn, zpow_add_one₀ (by norm_num)] at hk
  have : (n : ℝ) = ((k + k : ℤ) : ℝ) := by
    apply mul_right_cancel₀ hη.ne'
    rw [hk]; push_cast; ring
  exact_mod_cast this

/-- The smallest inexact case: three quanta apart. -/
theorem bisect_three {lo m hi : ℝ} (hlo : F.Has lo) (hm : F.Has m) (hhi : F.Has hi) (h1 : lo < m) (h2 : m < hi)
    (h3 : hi - lo = 3 * 2 ^ F.emin) :
    lo + 2 ^ F.emin ≤ F.rnd (lo + 2 * 2 ^ F.emin) ∧ F.rnd (lo + 2 * 2 ^ F.emin) ≤ lo + 2 * 2 ^ F.emin := by
  have hη := z_pos F.emin
  have hp := F.hp
  have hg := abs_le.1 (gap hlo hm hhi h1 h2 (x := lo + 2 * 2 ^ F.emin) (by linarith) (by linarith))
  refine ⟨by linarith [hg.1], ?_⟩
  obtain ⟨l, hl⟩ := hlo.quantum
  have hx : lo + 2 * 2 ^ F.emin = ((l + 2 : ℤ) : ℝ) * 2 ^ F.emin := by rw [hl]; push_cast; ring
  rcases le_or_gt |l + 2| (2 ^ F.p) with h4 | h4
  · exact (F.rnd_of_has (hx ▸ has_of_quantum h4)).le
  · -- then `l` is not beyond the largest subnormal binade, so `lo + 2η` is just above `2^p η`
    have hhi' : hi = ((l + 3 : ℤ) : ℝ) * 2 ^ F.emin := by push_cast; linarith
    have pe : Even (2 ^ F.p : ℤ) := even_two.pow_of_ne_zero (by omega)
    have hl' : |l| < 2 ^ F.p ∨ |l + 3| < 2 ^ F.p := by
      by_contra hc
      push_neg at hc
      have a := Has.even hlo hl hc.1
      have b := Has.even hhi hhi' hc.2
      rw [Int.even_add] at b
      exact absurd (b.1 a) (by decide)
    have p2 : (0 : ℤ) < 2 ^ F.p := by positivity
    have key : l + 2 = 2 ^ F.p + 1 := by
      rcases hl' with h5 | h5
      · rw [abs_lt] at h5
        rcases lt_abs.1 h4 with h6 | h6
        · -- `l + 2 > 2^p`, `l < 2^p`
          have he : l + 2 ≠ 2 ^ F.p + 2 ∨ True := .inr trivial
          omega
        · omega
      · rw [abs_lt] at h5
        rcases lt_abs.1 h4 with h6 | h6
        · omega
        · -- negative side: `lo = -(2^p + 3)η` is odd, or `hi` would be beyond
          have : l + 3 = -(2 ^ F.p) + 1 ∨ l + 3 ≤ -(2 ^ F.p) := by omega
          rcases this with h7 | h7
          · omega
          · omega
    have e2 : lo + 2 * 2 ^ F.emin = ((2 ^ F.p + 1 : ℤ) : ℝ) * 2 ^ F.emin := by rw [hx, key]
    have hx0 : 0 < lo + 2 * 2 ^ F.emin := by rw [e2]; push_cast; positivity
    have e : F.ex (lo + 2 * 2 ^ F.emin) = F.emin + 1 := by
      refine le_antisymm ?_ ?_
      · have := F.ex_le (y := lo + 2 * 2 ^ F.emin) (k := F.emin + 1 + F.p) hx0.ne' (by
          rw [abs_of_pos hx0, e2, z_add, zpow_add_one₀ (by norm_num), zpow_natCast]
          push_cast
          have : (2 : ℝ) ^ 2 ≤ 2 ^ F.p := pow_le_pow_right₀ (by norm_num) hp
          nlinarith) (by omega)
        omega
      · have := F.ex_ge (y := lo + 2 * 2 ^ F.emin) (k := F.emin + F.p) (by
          rw [abs_of_pos hx0, e2, z_add, zpow_natCast]
          push_cast
          nlinarith)
        omega
    have ee : (2 : ℝ) ^ F.p = 2 * 2 ^ (F.p - 1) := by rw [← pow_succ']; congr 1; omega
    have r : F.rnd (lo + 2 * 2 ^ F.emin) = 2 ^ F.p * 2 ^ F.emin := by
      rw [rnd, e, rne_even (n := 2 ^ (F.p - 1)) (even_two.pow_of_ne_zero (by omega))]
      · push_cast
        rw [zpow_add_one₀ (by norm_num), ee]; ring
      · rw [le_div_iff₀ (z_pos _), e2, zpow_add_one₀ (by norm_num)]
        push_cast
        rw [ee]; nlinarith
      · rw [div_le_iff₀ (z_pos _), e2, zpow_add_one₀ (by norm_num)]
        push_cast
        rw [ee]; nlinarith
    rw [r, e2]
    push_cast
    nlinarith

/-- Bisection makes progress. `D` is the rounded extent. -/
theorem bisect {lo m hi u : ℝ} (hlo : F.Has lo) (hm : F.Has m) (hhi : F.Has hi) (h1 : lo < m) (h2 : m < hi)
    (hu : |F.rnd (hi - lo) - (hi - lo)| ≤ u * (hi - lo)) (hu4 : u ≤ 1 / 4) :
    (lo < F.rnd (lo + F.rnd (F.rnd (hi - lo) / 2)) ∧ F.rnd (lo + F.rnd (F.rnd (hi - lo) / 2)) < hi) ∧
    (u ≤ 1 / 16 → F.rnd (lo + F.rnd (F.rnd (hi - lo) / 2)) - lo ≤ 7 / 8 * (hi - lo) ∧
      hi - F.rnd (lo + F.rnd (F.rnd (hi - lo) / 2)) ≤ 7 / 8 * (hi - lo)) := by
  have hη := z_pos F.emin
  have hp := F.hp
  have hG : 0 < hi - lo := by linarith
  rcases half_extent hlo hhi (h1.trans h2) with h | ⟨n, ho, hn0, hn, hGn, hD⟩
  · rw [h]
    rw [abs_le] at hu
    have a1 : 3 / 8 * (hi - lo) ≤ F.rnd (hi - lo) / 2 := by nlinarith [hu.1]
    have a2 : F.rnd (hi - lo) / 2 ≤ 5 / 8 * (hi - lo) := by nlinarith [hu.2]
    have hg := abs_le.1 (gap hlo hm hhi h1 h2 (x := lo + F.rnd (hi - lo) / 2) (by linarith) (by linarith))
    refine ⟨⟨by linarith [hg.1], by linarith [hg.2]⟩, fun h16 => ?_⟩
    have b1 : 15 / 32 * (hi - lo) ≤ F.rnd (hi - lo) / 2 := by nlinarith [hu.1]
    have b2 : F.rnd (hi - lo) / 2 ≤ 17 / 32 * (hi - lo) := by nlinarith [hu.2]
    exact ⟨by linarith [hg.2], by linarith [hg.1]⟩
  · rw [hD]
    -- at least three quanta
    have hn3 : 3 ≤ n := by
      obtain ⟨a, ha⟩ := hlo.quantum
      obtain ⟨b, hb⟩ := hm.quantum
      obtain ⟨c, hc⟩ := hhi.quantum
      rw [ha, hb] at h1
      rw [hb, hc] at h2
      have i1 : a < b := by exact_mod_cast lt_of_mul_lt_mul_right h1 hη.le
      have i2 : b < c := by exact_mod_cast lt_of_mul_lt_mul_right h2 hη.le
      have i3 : n = c - a := by
        have : (n : ℝ) * 2 ^ F.emin = ((c - a : ℤ) : ℝ) * 2 ^ F.emin := by rw [← hGn, hc, ha]; push_cast; ring
        exact_mod_cast mul_right_cancel₀ hη.ne' this
      obtain ⟨k, hk⟩ := ho
      omega
    rcases hn3.eq_or_lt with rfl | hn3
    · push_cast at hGn
      rw [hGn, rnd_three_half]
      have := bisect_three hlo hm hhi h1 h2 hGn
      refine ⟨⟨by linarith, by linarith⟩, fun _ => ⟨by linarith, by linarith⟩⟩
    · have hn5 : 5 ≤ n := by obtain ⟨k, hk⟩ := ho; omega
      have hn5' : (5 : ℝ) ≤ n := by exact_mod_cast hn5
      have hex : F.ex ((hi - lo) / 2) = F.emin := by
        refine le_antisymm ?_ (F.emin_le_ex _)
        have := F.ex_le (y := (hi - lo) / 2) (k := F.emin + F.p) (by linarith) (by
          rw [abs_of_pos (by linarith), z_add, hGn, zpow_natCast]
          have : (n : ℝ) < 2 ^ F.p := by exact_mod_cast hn
          nlinarith) (by omega)
        omega
      have he := F.rnd_err_ex ((hi - lo) / 2)
      rw [hex, abs_le] at he
      have hq : 2 ^ F.emin ≤ (hi - lo) / 5 := by rw [hGn]; nlinarith
      have hg := abs_le.1 (gap hlo hm hhi h1 h2 (x := lo + F.rnd ((hi - lo) / 2)) (by linarith [he.1]) (by linarith [he.2]))
      refine ⟨⟨by linarith [hg.1, he.1], by linarith [hg.2, he.2]⟩, fun _ => ?_⟩
      -- near the quantum the spacing is at most two quanta
      have hg' : |F.rnd (lo + F.rnd ((hi - lo) / 2)) - (lo + F.rnd ((hi - lo) / 2))| ≤ 2 ^ F.emin := by
        obtain ⟨l, hl⟩ := hlo.quantum
        have hh : hi = ((l + n : ℤ) : ℝ) * 2 ^ F.emin := by push_cast; linarith
        have hn' : (n : ℝ) < 2 ^ F.p := by exact_mod_cast hn
        have hx : |lo + F.rnd ((hi - lo) / 2)| < 2 ^ (F.emin + 1 + F.p) := by
          have c : |l| < 2 ^ F.p ∨ |l + n| < 2 ^ F.p := by
            by_contra hc
            push_neg at hc
            have a := Has.even hlo hl hc.1
            have b := Has.even hhi hh hc.2
            rw [Int.even_add] at b
            exact (Int.not_even_iff_odd.2 ho) (b.1 a)
          have e : (2 : ℝ) ^ (F.emin + 1 + F.p) = 2 * (2 ^ F.p * 2 ^ F.emin) := by
            rw [z_add, zpow_add_one₀ (by norm_num), zpow_natCast]; ring
          have hG' : hi - lo < 2 ^ F.p * 2 ^ F.emin := by rw [hGn]; exact mul_lt_mul_of_pos_right hn' hη
          have sm : ∀ {k : ℤ} {y : ℝ}, y = k * 2 ^ F.emin → |k| < 2 ^ F.p → |y| < 2 ^ F.p * 2 ^ F.emin := by
            intro k y hy hk
            rw [hy, abs_mul, abs_of_pos hη]
            exact mul_lt_mul_of_pos_right (by exact_mod_cast hk) hη
          rw [e, abs_lt]
          rcases c with c | c
          · have := abs_lt.1 (sm hl c)
            constructor <;> linarith [he.1, he.2]
          · have := abs_lt.1 (sm hh c)
            constructor <;> linarith [he.1, he.2]
        by_cases h0 : lo + F.rnd ((hi - lo) / 2) = 0
        · rw [h0, rnd_zero, sub_self, abs_zero]; exact hη.le
        have := F.ex_le h0 hx (by omega)
        refine (F.rnd_err_ex _).trans ?_
        have e1 : (2 : ℝ) ^ F.ex (lo + F.rnd ((hi - lo) / 2)) ≤ 2 ^ (F.emin + 1) := z_le (by omega)
        rw [zpow_add_one₀ (by norm_num)] at e1
        linarith
      rw [abs_le] at hg'
      exact ⟨by linarith [hg'.2, he.2], by linarith [hg'.1, he.1]⟩

end Fmt
end VecMath
