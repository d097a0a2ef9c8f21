import Verif.Lemmas.Cells
/-!
# The square root of a rounded square

`sqrt(x * x)` in rounded arithmetic is exactly `|x|` while the square does not underflow. Statements about `Fmt.rnd` only.
-/
open Classical

namespace VecMath
namespace Fmt
variable {F : Fmt}

theorem rnd_sqrt_sq_pos {x : ℝ} (hx : F.Has x) (h0 : 0 < x) (hn : (2 : ℝ) ^ (F.emin + F.p - 1) ≤ x ^ 2) : F.rnd √(F.rnd (x ^ 2)) = x := by
  have hp := F.hp
  have hem := F.emin_le_p
  obtain ⟨k, k1, k2⟩ := binade h0
  have zk := z_pos k
  have sq1 : (2 : ℝ) ^ (2 * k) ≤ x ^ 2 := by
    rw [two_mul, z_add]; nlinarith
  have sq2 : x ^ 2 < 2 ^ (2 * k + 2) := by
    rw [show 2 * k + 2 = (k + 1) + (k + 1) by ring, z_add]; nlinarith
  have hk : F.emin + F.p ≤ 2 * k + 2 := by
    by_contra h'
    have : (2 : ℝ) ^ (2 * k + 2) ≤ 2 ^ (F.emin + F.p - 1) := z_le (by omega)
    linarith
  have hg := F.ex_ge (k := k) (by rw [abs_of_pos h0]; exact k1)
  obtain ⟨M, hM⟩ := hx.multiple hg
  set q := k - ((F.p : ℤ) - 1) with hq
  have zq := z_pos q
  have e1 : (2 : ℝ) ^ k = 2 ^ ((F.p : ℤ) - 1) * 2 ^ q := by rw [← z_add]; congr 1; omega
  have e2 : (2 : ℝ) ^ (k + 1) = 2 ^ (F.p : ℤ) * 2 ^ q := by rw [← z_add]; congr 1; omega
  have pw : ((2 ^ (F.p - 1) : ℤ) : ℝ) = (2 : ℝ) ^ ((F.p : ℤ) - 1) := by
    have := z_int (show 0 ≤ (F.p : ℤ) - 1 by omega)
    rw [← this]; congr 2; omega
  have pw' : ((2 ^ F.p : ℤ) : ℝ) = (2 : ℝ) ^ (F.p : ℤ) := by push_cast; rw [zpow_natCast]
  have M1 : 2 ^ (F.p - 1) ≤ M := by
    rw [hM, e1, ← pw] at k1
    exact_mod_cast le_of_mul_le_mul_right k1 zq
  have M2 : M ≤ 2 ^ F.p - 1 := by
    rw [hM, e2, ← pw'] at k2
    have : M < 2 ^ F.p := by exact_mod_cast lt_of_mul_lt_mul_right k2 zq.le
    omega
  rcases M1.lt_or_eq with M1 | M1
  · have hx2 : x ^ 2 ≠ 0 := by positivity
    have hex : F.ex (x ^ 2) ≤ 2 * k + 2 - F.p :=
      F.ex_le hx2 (by rw [abs_of_pos (by positivity)]; exact sq2) (by omega)
    have er := F.rnd_err_ex (x ^ 2)
    have h3 : (2 : ℝ) ^ F.ex (x ^ 2) / 2 ≤ 2 ^ ((F.p : ℤ) - 1) * (2 ^ q) ^ 2 := by
      have := z_le hex
      have e3 : (2 : ℝ) ^ (2 * k + 2 - F.p) = 2 * (2 ^ ((F.p : ℤ) - 1) * (2 ^ q) ^ 2) := by
        rw [pow_two, ← z_add, ← z_add, mul_comm (2 : ℝ), ← zpow_add_one₀ (by norm_num)]
        congr 1; omega
      linarith
    obtain ⟨er1, er2⟩ := abs_le.1 (er.trans h3)
    set y := F.rnd (x ^ 2) with hy
    have y1 : (2 : ℝ) ^ (2 * k) ≤ y := by
      have := F.rnd_mono sq1
      rwa [F.rnd_of_has (F.has_zpow (by omega))] at this
    have y0 : 0 ≤ y := (z_pos _).le.trans y1
    have t0 := Real.sqrt_nonneg y
    have tt := Real.sq_sqrt y0
    set t := √y with ht
    have Mx : ((2 : ℝ) ^ ((F.p : ℤ) - 1) + 1) * 2 ^ q ≤ x := by
      rw [hM, ← pw]
      refine mul_le_mul_of_nonneg_right ?_ zq.le
      exact_mod_cast M1
    have pz := z_pos ((F.p : ℤ) - 1)
    have u1 : t < x + 2 ^ q / 2 := by
      by_contra h'
      rw [not_lt] at h'
      nlinarith
    have u2 : x - 2 ^ q / 2 < t := by
      by_contra h'
      rw [not_lt] at h'
      nlinarith
    have t1 : (2 : ℝ) ^ k ≤ t := by
      rw [ht]
      refine Real.le_sqrt_of_sq_le ?_
      rw [pow_two, ← z_add, ← two_mul]; exact y1
    have Mx2 : x ≤ 2 ^ (k + 1) - 2 ^ q := by
      rw [hM, e2, ← pw']
      have : (M : ℝ) ≤ ((2 ^ F.p : ℤ) : ℝ) - 1 := by exact_mod_cast M2
      nlinarith
    have et : F.ex t = q := by
      have a := F.ex_ge (y := t) (k := k) (by rw [abs_of_nonneg t0]; exact t1)
      have b := F.ex_le (y := t) (k := k + 1) (by linarith) (by rw [abs_of_nonneg t0]; linarith) (by omega)
      omega
    have := rnd_near (F := F) (z := t) (n := M) (by
      rw [et, ← hM, abs_lt]
      constructor <;> linarith)
    rw [this, et, ← hM]
  · have : x = 2 ^ k := by rw [hM, e1, ← M1, pw]
    have e3 : x ^ 2 = 2 ^ (2 * k) := by rw [this, pow_two, ← z_add, ← two_mul]
    have : F.rnd (x ^ 2) = x ^ 2 := by
      rw [e3]; exact F.rnd_of_has (F.has_zpow (by omega))
    rw [this, Real.sqrt_sq h0.le, F.rnd_of_has hx]
/-- `sqrt(x * x) = |x|`, exactly. -/
theorem rnd_sqrt_sq {x : ℝ} (hx : F.Has x) (hn : x = 0 ∨ (2 : ℝ) ^ (F.emin + F.p - 1) ≤ x ^ 2) : F.rnd √(F.rnd (x ^ 2)) = |x| := by
  rcases lt_trichotomy x 0 with h | rfl | h
  · rcases hn with rfl | hn
    · simp at h
    have := rnd_sqrt_sq_pos hx.neg (by linarith) (by rwa [neg_sq])
    rw [neg_sq] at this
    rw [this, abs_of_neg h]
  · simp [rnd_zero]
  · rw [abs_of_pos h]
    exact rnd_sqrt_sq_pos hx h (hn.resolve_left h.ne')
end Fmt
end VecMath
