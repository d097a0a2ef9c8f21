import Verif.Lemmas.Bisect
import Verif.Lemmas.Scale
/-!
# Quotients rounded to the nearest number, and integers

`x / s` in rounded arithmetic, compared with an integer. Statements about `Fmt.rnd` only.
-/
open Classical

namespace VecMath

theorem rne_even_shift (t : ℝ) {k : ℤ} (hk : Even k) : rne (t + k) = rne t + k := by
  unfold rne
  have : Even (⌊t⌋ + k) ↔ Even ⌊t⌋ := by simp [Int.even_add, hk]
  rw [Int.fract_add_intCast, Int.floor_add_intCast]
  simp only [this]
  split_ifs <;> ring
theorem rne_eq_of {t : ℝ} {n : ℤ} (h : |t - n| < 1 / 2) : rne t = n := by
  have h1 := rne_err t
  have h2 : |((rne t - n : ℤ) : ℝ)| < 1 := by
    push_cast
    calc |(rne t : ℝ) - n| = |((rne t : ℝ) - t) + (t - n)| := by ring_nf
      _ ≤ |(rne t : ℝ) - t| + |t - n| := abs_add_le _ _
      _ < 1 := by linarith
  have h3 : |rne t - n| < 1 := by exact_mod_cast h2
  have := Int.abs_lt_one_iff.1 h3
  omega

namespace Fmt
variable {F : Fmt}

theorem has_int {m : ℤ} (h : |m| ≤ 2 ^ F.p) : F.Has m := ⟨m, 0, by have := F.emin_le; omega, h, by simp⟩
/-- In a binade of numbers with at least one binary place, rounding commutes with adding 1. -/
theorem rnd_succ {b : ℝ} (h : F.ex (b + 1) = F.ex b) (h1 : F.ex b ≤ -1) : F.rnd (b + 1) = F.rnd b + 1 := by
  have hz := z_pos (F.ex b)
  have e : (2 : ℝ) ^ (-F.ex b) * 2 ^ F.ex b = 1 := by rw [← z_add]; simp
  have hk := z_int (show 0 ≤ -F.ex b by omega)
  have hev : Even (2 ^ (-F.ex b).toNat : ℤ) := by
    refine Even.pow_of_ne_zero (by decide) (by omega)
  have q : (b + 1) / 2 ^ F.ex b = b / 2 ^ F.ex b + ((2 ^ (-F.ex b).toNat : ℤ) : ℝ) := by
    rw [hk, add_div]
    congr 1
    rw [div_eq_iff hz.ne', e]
  unfold rnd
  rw [h, q, rne_even_shift _ hev]
  push_cast at hk ⊢
  rw [add_mul, hk, e]
theorem rnd_near {z : ℝ} {n : ℤ} (h : |z - n * 2 ^ F.ex z| < 2 ^ F.ex z / 2) : F.rnd z = n * 2 ^ F.ex z := by
  have hz := z_pos (F.ex z)
  have : rne (z / 2 ^ F.ex z) = n := by
    apply rne_eq_of
    have e : z / 2 ^ F.ex z - n = (z - n * 2 ^ F.ex z) / 2 ^ F.ex z := by field_simp
    rw [e, abs_div, abs_of_pos hz, div_lt_iff₀ hz]
    linarith
  unfold rnd
  rw [this]
theorem emin_le_p : F.emin ≤ -(F.p : ℤ) := by have := F.hmin; have := F.hp; omega
theorem ex_eq {y : ℝ} {e : ℤ} (h1 : (2 : ℝ) ^ e ≤ |y|) (h2 : |y| < 2 ^ (e + 1)) (he : -1 ≤ e) : F.ex y = e - (F.p - 1) := by
  have a := F.ex_ge h1
  have := F.emin_le_p
  have h0 : y ≠ 0 := by rintro rfl; simp at h1; exact absurd h1 (not_le.2 (z_pos e))
  have b := F.ex_le h0 h2 (by omega)
  omega

/-- Two different numbers of the format, both at least `2^k`, are at least `2^(k - (p - 1))` apart. -/
theorem Has.apart {x y : ℝ} {k : ℤ} (hx : F.Has x) (hy : F.Has y) (h1 : (2 : ℝ) ^ k ≤ x) (h2 : x < y) :
    x + 2 ^ (k - (F.p - 1)) ≤ y := by
  have p1 := z_pos k
  obtain ⟨m, hm⟩ := hx.multiple (F.ex_ge (k := k) (by rw [abs_of_pos (p1.trans_le h1)]; exact h1))
  obtain ⟨n, hn⟩ := hy.multiple (F.ex_ge (k := k) (by rw [abs_of_pos (p1.trans_le (h1.trans h2.le))]; exact h1.trans h2.le))
  have hz := z_pos (k - (F.p - 1))
  rw [hm, hn] at h2 ⊢
  have : m < n := by exact_mod_cast lt_of_mul_lt_mul_right h2 hz.le
  have : (m : ℝ) + 1 ≤ n := by exact_mod_cast this
  nlinarith

theorem binade {s : ℝ} (h : 0 < s) : ∃ f : ℤ, (2 : ℝ) ^ f ≤ s ∧ s < 2 ^ (f + 1) := by
  have h1 := log_le h.ne'
  have h2 := lt_log s
  rw [abs_of_pos h] at h1 h2
  exact ⟨_, h1, h2⟩
theorem Has.scale {s : ℝ} {e : ℤ} (h : F.Has s) (he : 0 ≤ e) : F.Has (2 ^ e * s) := F.has_scale he h

/-- A quotient below a power of two is not rounded up to it. -/
theorem quotient_below {y s : ℝ} {e : ℤ} (hy : F.Has y) (hs : F.Has s) (h0 : 0 < s) (he : 0 ≤ e) (h : y < 2 ^ e * s) :
    F.rnd (y / s) < 2 ^ e := by
  by_contra hc
  rw [not_lt] at hc
  have hp := F.hp
  have hm := F.emin_le_p
  set b := y / s with hb
  have eb : y = b * s := by rw [hb]; field_simp
  have b1 : b < 2 ^ e := by rw [hb, div_lt_iff₀ h0]; exact h
  have b0 : 0 < b := by
    by_contra hb0
    have := F.rnd_mono (not_lt.1 hb0)
    rw [rnd_zero] at this
    linarith [z_pos e]
  have hx := F.ex_le (k := e) b0.ne' (by rw [abs_of_pos b0]; exact b1) (by omega)
  have er := F.rnd_err_ex b
  have b2 : (2 : ℝ) ^ e - 2 ^ (e - F.p) / 2 ≤ b := by
    have := z_le hx
    have := (abs_le.1 er).2
    linarith
  obtain ⟨f, f1, f2⟩ := binade h0
  have g1 : (2 : ℝ) ^ (e - F.p) ≤ 2 ^ e / 4 := by
    have : (2 : ℝ) ^ (e - F.p) ≤ 2 ^ (e - 2) := z_le (by omega)
    have e4 : (2 : ℝ) ^ (e - 2) = 2 ^ e / 4 := by rw [zpow_sub₀ (by norm_num)]; norm_num
    linarith
  have ze := z_pos e
  have zf := z_pos f
  have y1 : (2 : ℝ) ^ (e + f - 1) ≤ y := by
    have : (2 : ℝ) ^ (e + f - 1) = 2 ^ e * 2 ^ f / 2 := by rw [zpow_sub_one₀ (by norm_num), z_add]; ring
    rw [this, eb]
    have : (2 : ℝ) ^ e / 2 ≤ b := by linarith
    nlinarith
  have ap := hy.apart (hs.scale he) y1 h
  have w : (2 : ℝ) ^ (e + f - 1 - (F.p - 1)) = 2 ^ (e - F.p) * 2 ^ f := by rw [← z_add]; congr 1; ring
  rw [w] at ap
  have f3 : s < 2 * 2 ^ f := by rw [z_add] at f2; linarith
  have zp := z_pos (e - F.p)
  nlinarith

/-- **The step from cell to cell.** If `y` is at most `s` above `x` and `y / s` is rounded to `m + 1` or more, then
`x / s` is rounded to `m` or more. -/
theorem quotient_step {x y s : ℝ} (hx : F.Has x) (hy : F.Has y) (hs : F.Has s) (h0 : 0 < s) (h : y ≤ x + s) {m : ℤ}
    (m1 : -(2 ^ (F.p - 1) : ℤ) ≤ m) (m2 : m + 1 ≤ 2 ^ (F.p - 1)) (hb : ((m + 1 : ℤ) : ℝ) ≤ F.rnd (y / s)) :
    (m : ℝ) ≤ F.rnd (x / s) := by
  have hp := F.hp
  have hem := F.emin_le_p
  have two : (2 : ℤ) ^ F.p = 2 * 2 ^ (F.p - 1) := by rw [← pow_succ']; congr 1; omega
  have pow1 : (1 : ℤ) ≤ 2 ^ (F.p - 1) := one_le_pow₀ (by norm_num)
  have pw : ((2 ^ (F.p - 1) : ℤ) : ℝ) = (2 : ℝ) ^ ((F.p : ℤ) - 1) := by
    have := z_int (show 0 ≤ (F.p : ℤ) - 1 by omega)
    rw [← this]; congr 2; omega
  by_contra hc
  rw [not_le] at hc
  set a := x / s with ha
  set b := y / s with hbd
  have ab : b ≤ a + 1 := by
    rw [ha, hbd, div_le_iff₀ h0, add_mul, one_mul, div_mul_cancel₀ _ h0.ne']; exact h
  have rm : F.rnd (m : ℝ) = m := F.rnd_of_has (has_int (by rw [abs_le]; omega))
  have rm1 : F.rnd ((m + 1 : ℤ) : ℝ) = ((m + 1 : ℤ) : ℝ) := F.rnd_of_has (has_int (by rw [abs_le]; omega))
  have am : a < m := by
    by_contra h'
    have := F.rnd_mono (not_lt.1 h')
    rw [rm] at this; linarith
  have bm : b < m + 1 := by linarith
  have rb : F.rnd b = m + 1 := by
    have := F.rnd_mono (show b ≤ ((m + 1 : ℤ) : ℝ) by push_cast; exact bm.le)
    rw [rm1] at this
    push_cast at this hb
    linarith
  have ra : F.rnd (b - 1) ≤ F.rnd a := F.rnd_mono (by linarith)
  rcases lt_trichotomy m 0 with hm | hm | hm
  · rcases eq_or_ne m (-1) with rfl | hm'
    · -- just below zero
      push_cast at rb am bm hc
      have b0 : b < 0 := by linarith
      have b1 : -b < 2 ^ F.emin := by
        by_contra h'
        have := F.rnd_mono (not_lt.1 h')
        rw [F.rnd_of_has (F.has_zpow le_rfl), rnd_neg, rb] at this
        linarith [z_pos F.emin]
      have z1 : (1 : ℝ) < 1 - b := by linarith
      have le : (2 : ℝ) ^ F.emin ≤ 2 ^ (-(F.p : ℤ)) := z_le hem
      have lt1 : (2 : ℝ) ^ (-(F.p : ℤ)) ≤ 1 / 2 := (z_le (show -(F.p : ℤ) ≤ -1 by omega)).trans (by norm_num)
      have ez : F.ex (1 - b) = 0 - (F.p - 1) := ex_eq (by rw [abs_of_pos (by linarith)]; norm_num; linarith)
        (by rw [abs_of_pos (by linarith), show (2 : ℝ) ^ ((0 : ℤ) + 1) = 2 by norm_num]; linarith) (by norm_num)
      have e1 : ((2 ^ (F.p - 1) : ℤ) : ℝ) * 2 ^ F.ex (1 - b) = 1 := by
        rw [ez, pw, ← z_add]; simp
      have := rnd_near (F := F) (z := 1 - b) (n := 2 ^ (F.p - 1)) (by
        rw [e1, abs_of_pos (by linarith)]
        have : (2 : ℝ) ^ F.ex (1 - b) / 2 = 2 ^ (-(F.p : ℤ)) := by
          rw [ez, show (0 : ℤ) - (F.p - 1) = -(F.p : ℤ) + 1 by ring, z_add]; norm_num
        rw [this]; linarith)
      rw [e1] at this
      rw [show b - 1 = -(1 - b) by ring, rnd_neg, this] at ra
      linarith
    · -- negative
      obtain ⟨n, rfl⟩ : ∃ n : ℤ, m = -(n + 1) := ⟨-m - 1, by ring⟩
      have n1 : 1 ≤ n := by omega
      push_cast at rb am bm hc
      clear_value b
      obtain ⟨β, rfl⟩ : ∃ β : ℝ, b = -β := ⟨-b, by ring⟩
      rw [rnd_neg] at rb
      have rβ : F.rnd β = n := by linarith
      have β1 : (n : ℝ) < β := by linarith
      have β2 : β < n + 1 := by
        by_contra h'
        have := F.rnd_mono (show ((n + 1 : ℤ) : ℝ) ≤ β by push_cast; exact not_lt.1 h')
        rw [F.rnd_of_has (has_int (by rw [abs_le]; omega)), rβ] at this
        push_cast at this
        linarith
      have n0 : (0 : ℝ) < n := by exact_mod_cast n1
      obtain ⟨e, e1, e2⟩ := binade n0
      have he0 : 0 ≤ e := by
        by_contra h'
        have h5 : (2 : ℝ) ^ (e + 1) ≤ 2 ^ (0 : ℤ) := z_le (by omega)
        have h6 : (1 : ℝ) ≤ n := by exact_mod_cast n1
        rw [zpow_zero] at h5
        linarith
      have en : n + 1 ≤ 2 ^ (e + 1).toNat := by
        have := z_int (show 0 ≤ e + 1 by omega)
        rw [← this] at e2
        have : n < 2 ^ (e + 1).toNat := by exact_mod_cast e2
        omega
      have en' : (n : ℝ) + 1 ≤ 2 ^ (e + 1) := by
        have := z_int (show 0 ≤ e + 1 by omega)
        rw [← this]; exact_mod_cast en
      have eβ : F.ex β = e - (F.p - 1) := ex_eq (by rw [abs_of_pos (by linarith)]; linarith)
        (by rw [abs_of_pos (by linarith)]; linarith) (by omega)
      have ep : e < (F.p : ℤ) - 1 := by
        by_contra h'
        have : (2 : ℝ) ^ ((F.p : ℤ) - 1) ≤ 2 ^ e := z_le (by omega)
        rw [← pw] at this
        have : ((2 ^ (F.p - 1) : ℤ) : ℝ) ≤ n := this.trans e1
        have : (2 ^ (F.p - 1) : ℤ) ≤ n := by exact_mod_cast this
        omega
      have key : F.rnd (β + 1) = n + 1 := by
        rcases en.lt_or_eq with hlt | heq
        · have lt' : (n : ℝ) + 1 + 1 ≤ 2 ^ (e + 1) := by
            have := z_int (show 0 ≤ e + 1 by omega)
            rw [← this]
            have : n + 1 + 1 ≤ 2 ^ (e + 1).toNat := by omega
            exact_mod_cast this
          have : F.ex (β + 1) = e - (F.p - 1) := ex_eq (by rw [abs_of_pos (by linarith)]; linarith)
            (by rw [abs_of_pos (by linarith)]; linarith) (by omega)
          rw [rnd_succ (by rw [this, eβ]) (by rw [eβ]; omega), rβ]
        · have eq' : (n : ℝ) + 1 = 2 ^ (e + 1) := by
            have := z_int (show 0 ≤ e + 1 by omega)
            rw [← this]; exact_mod_cast heq
          have e22 : (2 : ℝ) ^ (e + 1 + 1) = 2 * 2 ^ (e + 1) := by rw [z_add _ 1]; ring
          have one : (1 : ℝ) ≤ n := by exact_mod_cast n1
          have ez : F.ex (β + 1) = e + 1 - (F.p - 1) := ex_eq (by rw [abs_of_pos (by linarith)]; linarith)
            (by rw [abs_of_pos (by linarith), e22]; linarith) (by omega)
          have e3 : ((2 ^ (F.p - 1) : ℤ) : ℝ) * 2 ^ F.ex (β + 1) = n + 1 := by
            rw [ez, pw, ← z_add, eq']; congr 1; ring
          have er := F.rnd_err_ex β
          rw [rβ, eβ, abs_sub_comm, abs_of_pos (by linarith)] at er
          have := rnd_near (F := F) (z := β + 1) (n := 2 ^ (F.p - 1)) (by
            rw [e3, abs_of_pos (by linarith), ez, show e + 1 - ((F.p : ℤ) - 1) = e - (F.p - 1) + 1 by ring, z_add]
            have := z_pos (e - ((F.p : ℤ) - 1))
            norm_num
            linarith)
          rw [this, e3]
      rw [show -β - 1 = -(β + 1) by ring, rnd_neg, key] at ra
      linarith
  · -- zero
    subst hm
    have := quotient_below (e := 0) hy hs h0 le_rfl (by
      rw [hbd, div_lt_iff₀ h0] at bm
      push_cast at bm
      simpa using bm)
    rw [← hbd, rb] at this
    norm_num at this
  · -- positive
    have mp : (0 : ℝ) < m := by exact_mod_cast hm
    have b1 : (m : ℝ) < b := by
      by_contra h'
      have := F.rnd_mono (not_lt.1 h')
      rw [rm, rb] at this; linarith
    obtain ⟨e, e1, e2⟩ := binade mp
    have he0 : 0 ≤ e := by
      by_contra h'
      have h5 : (2 : ℝ) ^ (e + 1) ≤ 2 ^ (0 : ℤ) := z_le (by omega)
      have h6 : (1 : ℝ) ≤ m := by exact_mod_cast hm
      rw [zpow_zero] at h5
      linarith
    have em : (m : ℝ) + 1 ≤ 2 ^ (e + 1) := by
      have := z_int (show 0 ≤ e + 1 by omega)
      rw [← this] at e2 ⊢
      have : m < 2 ^ (e + 1).toNat := by exact_mod_cast e2
      exact_mod_cast this
    have eb : F.ex b = e - (F.p - 1) := ex_eq (by rw [abs_of_pos (by linarith)]; linarith)
      (by rw [abs_of_pos (by linarith)]; linarith) (by omega)
    have ep : e < (F.p : ℤ) - 1 := by
      by_contra h'
      have : (2 : ℝ) ^ ((F.p : ℤ) - 1) ≤ 2 ^ e := z_le (by omega)
      rw [← pw] at this
      have : ((2 ^ (F.p - 1) : ℤ) : ℝ) ≤ m := this.trans e1
      have : (2 ^ (F.p - 1) : ℤ) ≤ m := by exact_mod_cast this
      omega
    rcases e1.lt_or_eq with hlt | heq
    · have ge : (2 : ℝ) ^ e ≤ m - 1 := by
        have := z_int he0
        rw [← this] at hlt ⊢
        have h3 : (2 ^ e.toNat : ℤ) < m := by exact_mod_cast hlt
        have h4 : (2 ^ e.toNat : ℤ) ≤ m - 1 := by omega
        exact_mod_cast h4
      have ze := z_pos e
      have : F.ex (b - 1) = e - (F.p - 1) := ex_eq (by rw [abs_of_pos (by linarith)]; linarith)
        (by rw [abs_of_pos (by linarith)]; linarith) (by omega)
      have := rnd_succ (F := F) (b := b - 1) (by rw [sub_add_cancel, this, eb]) (by rw [this]; omega)
      rw [sub_add_cancel, rb] at this
      linarith
    · obtain ⟨f, f1, f2⟩ := binade h0
      have ey : y = b * s := by rw [hbd]; field_simp
      have ex' : x = a * s := by rw [ha]; field_simp
      have ze := z_pos e
      have zf := z_pos f
      have one : (1 : ℝ) ≤ 2 ^ e := by have := z_le he0; simpa using this
      rcases f1.lt_or_eq with f1 | f1
      · have er := F.rnd_err_ex b
        rw [rb, eb] at er
        have er := (abs_le.1 er).2
        have T : x < 2 ^ e * s := by rw [ex', heq]; exact mul_lt_mul_of_pos_right am h0
        have w : (2 : ℝ) ^ (e + f - (F.p - 1)) = 2 ^ (e - (F.p - 1)) * 2 ^ f := by rw [← z_add]; congr 1; ring
        have zp := z_pos (e - ((F.p : ℤ) - 1))
        have lo : 2 ^ e * s - 2 ^ (e - ((F.p : ℤ) - 1)) / 2 * s ≤ x := by
          rw [ex', ← sub_mul]
          refine mul_le_mul_of_nonneg_right ?_ h0.le
          linarith
        have f3 : s < 2 * 2 ^ f := by rw [z_add] at f2; linarith
        have up : x + 2 ^ (e + f - ((F.p : ℤ) - 1)) ≤ 2 ^ e * s := by
          rcases le_or_gt ((2 : ℝ) ^ (e + f)) x with h' | h'
          · exact hx.apart (hs.scale he0) h' T
          · have := (F.has_zpow (k := e + f) (by
              by_contra hlow
              have hs2 := F.quantum_le hs.quantum h0.ne'
              rw [abs_of_pos h0] at hs2
              have : (2 : ℝ) ^ (f + 1) ≤ 2 ^ F.emin := z_le (by omega)
              linarith)).apart (hs.scale he0) (k := e + f) le_rfl (by rw [z_add]; exact mul_lt_mul_of_pos_left f1 ze)
            linarith
        rw [w] at up
        nlinarith
      · have hb2 : F.Has b := by
          have y1 : (2 : ℝ) ^ f ≤ |y| := by
            rw [ey, abs_of_pos (mul_pos (by linarith) h0), ← f1]
            nlinarith
          have g := F.ex_ge y1
          refine ⟨rne (y / 2 ^ F.ex y), F.ex y - f, by omega, ?_, ?_⟩
          · have h := abs_lt.1 (F.abs_lt_ex y)
            have e' : (2 : ℝ) ^ (F.p : ℤ) = ((2 ^ F.p : ℤ) : ℝ) := by push_cast; rw [zpow_natCast]
            rw [e'] at h
            rw [abs_le]
            constructor
            · have := rne_mono h.1.le
              rwa [← Int.cast_neg, rne_int] at this
            · have := rne_mono h.2.le
              rwa [rne_int] at this
          · have := F.rnd_of_has hy
            rw [hbd, zpow_sub₀ (by norm_num), f1, ← mul_div_assoc]
            congr 1
            exact this.symm
        rw [F.rnd_of_has hb2] at rb
        linarith
end Fmt
end VecMath
