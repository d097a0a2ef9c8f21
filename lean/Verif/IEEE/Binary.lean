import Verif.IEEE.Val
import Mathlib.Data.Int.Log
/-!
# Binary formats with round-to-nearest-even

IEEE-754 §3.3 and §4.3.1, for any precision and exponent range, with gradual underflow. `Fmt.rounding`
packages the result as a `Rounding`: the laws that layer F assumes of a format are theorems here.
`binary32` and `binary64` are the formats of Rust's `f32` and `f64`. This file is a specification and
its consequences: nothing in it comes from the crate.
-/

namespace VecMath

/-- Nearest integer, ties to even. -/
noncomputable def rne (x : ℝ) : ℤ :=
  if Int.fract x < 1 / 2 then ⌊x⌋
  else if 1 / 2 < Int.fract x then ⌊x⌋ + 1
  else if Even ⌊x⌋ then ⌊x⌋ else ⌊x⌋ + 1

theorem rne_floor (x : ℝ) : rne x = ⌊x⌋ ∨ rne x = ⌊x⌋ + 1 := by
  unfold rne; split_ifs <;> simp
theorem rne_int (n : ℤ) : rne n = n := by simp [rne]
theorem rne_err (x : ℝ) : |(rne x : ℝ) - x| ≤ 1 / 2 := by
  have h := Int.floor_add_fract x
  have h0 := Int.fract_nonneg x
  have h1 := Int.fract_lt_one x
  unfold rne
  rw [abs_le]
  split_ifs <;> push_cast <;> constructor <;> linarith
theorem rne_nearest (x : ℝ) (n : ℤ) : |(rne x : ℝ) - x| ≤ |n - x| := by
  have h := Int.floor_add_fract x
  have h0 := Int.fract_nonneg x
  have h1 := Int.fract_lt_one x
  rcases le_or_gt n ⌊x⌋ with hn | hn
  · have hn' : (n : ℝ) ≤ ⌊x⌋ := by exact_mod_cast hn
    rw [abs_of_nonpos (show (n : ℝ) - x ≤ 0 by linarith)]
    unfold rne
    rw [abs_le]
    split_ifs <;> push_cast <;> constructor <;> linarith
  · have hn' : (⌊x⌋ : ℝ) + 1 ≤ n := by exact_mod_cast hn
    rw [abs_of_nonneg (show 0 ≤ (n : ℝ) - x by linarith)]
    unfold rne
    rw [abs_le]
    split_ifs <;> push_cast <;> constructor <;> linarith
theorem rne_mono {x y : ℝ} (h : x ≤ y) : rne x ≤ rne y := by
  rcases (Int.floor_mono h).lt_or_eq with hf | hf
  · have h1 : rne x ≤ ⌊x⌋ + 1 := by rcases rne_floor x with h | h <;> omega
    have h2 : ⌊y⌋ ≤ rne y := by rcases rne_floor y with h | h <;> omega
    omega
  · have e : Int.fract x ≤ Int.fract y := by
      unfold Int.fract; rw [hf]; linarith
    unfold rne
    rw [hf]
    split_ifs <;> first | omega | (exfalso; linarith)
theorem rne_neg (x : ℝ) : rne (-x) = -rne x := by
  by_cases hx : Int.fract x = 0
  · have : x = ⌊x⌋ := by have := Int.floor_add_fract x; rw [hx] at this; linarith
    rw [this, ← Int.cast_neg, rne_int, rne_int]
  · have hf : Int.fract (-x) = 1 - Int.fract x := Int.fract_neg hx
    have hfl : ⌊-x⌋ = -⌊x⌋ - 1 := by
      have a := Int.floor_add_fract x
      have b := Int.floor_add_fract (-x)
      rw [hf] at b
      have : (⌊-x⌋ : ℝ) = ((-⌊x⌋ - 1 : ℤ) : ℝ) := by push_cast; linarith
      exact_mod_cast this
    have hpar : Even (-⌊x⌋ - 1) ↔ ¬ Even ⌊x⌋ := by
      simp [parity_simps]
    unfold rne
    simp only [hf, hfl, hpar]
    split_ifs <;> first | omega | (exfalso; linarith)

/-- A binary format: `p` bits of precision, quantum `2^emin`, and magnitudes below `2^emax`. -/
structure Fmt where
  p : ℕ
  emin : ℤ
  emax : ℤ
  hp : 2 ≤ p
  hmin : emin ≤ -2 * ((p : ℤ) - 1)
  hmax : (p : ℤ) ≤ emax

/-- The format of `f32`. -/
def binary32 : Fmt := ⟨24, -149, 128, by norm_num, by norm_num, by norm_num⟩
/-- The format of `f64`. -/
def binary64 : Fmt := ⟨53, -1074, 1024, by norm_num, by norm_num, by norm_num⟩

namespace Fmt
variable (F : Fmt)

theorem emin_le : F.emin ≤ -1 := by have := F.hmin; have := F.hp; omega

/-- Exponent of the last place at `x`. -/
noncomputable def ex (x : ℝ) : ℤ := max (Int.log 2 |x| - (F.p - 1)) F.emin
/-- Round `x` to the nearest multiple of its last place, ties to even. -/
noncomputable def rnd (x : ℝ) : ℝ := rne (x / 2 ^ F.ex x) * 2 ^ F.ex x

/-- `x` is an integer of at most `p` bits times a power of two not below the quantum. -/
def Has (x : ℝ) : Prop := ∃ m e : ℤ, F.emin ≤ e ∧ |m| ≤ 2 ^ F.p ∧ x = m * 2 ^ e

theorem z_pos (e : ℤ) : (0 : ℝ) < 2 ^ e := by positivity
theorem z_le {a b : ℤ} (h : a ≤ b) : (2 : ℝ) ^ a ≤ 2 ^ b := zpow_le_zpow_right₀ (by norm_num) h
theorem z_add (a b : ℤ) : (2 : ℝ) ^ (a + b) = 2 ^ a * 2 ^ b := zpow_add₀ (by norm_num) a b
theorem z_int {k : ℤ} (h : 0 ≤ k) : ((2 ^ k.toNat : ℤ) : ℝ) = 2 ^ k := by
  obtain ⟨n, rfl⟩ := Int.eq_ofNat_of_zero_le h
  simp
theorem log_le {x : ℝ} (h : x ≠ 0) : (2 : ℝ) ^ Int.log 2 |x| ≤ |x| := by
  have := Int.zpow_log_le_self (b := 2) (by norm_num) (abs_pos.2 h); exact_mod_cast this
theorem lt_log (x : ℝ) : |x| < (2 : ℝ) ^ (Int.log 2 |x| + 1) := by
  have := Int.lt_zpow_succ_log_self (b := 2) (by norm_num) |x|; exact_mod_cast this
theorem log_ge {x : ℝ} {k : ℤ} (h : (2 : ℝ) ^ k ≤ |x|) : k ≤ Int.log 2 |x| := by
  by_contra hk
  have := (lt_log x).trans_le (z_le (show Int.log 2 |x| + 1 ≤ k by omega))
  linarith
theorem log_lt {x : ℝ} {k : ℤ} (hx : x ≠ 0) (h : |x| < (2 : ℝ) ^ k) : Int.log 2 |x| < k := by
  by_contra hk
  have := (z_le (show k ≤ Int.log 2 |x| by omega)).trans (log_le hx)
  linarith

theorem ex_neg (x : ℝ) : F.ex (-x) = F.ex x := by simp [ex]
theorem emin_le_ex (x : ℝ) : F.emin ≤ F.ex x := le_max_right _ _
theorem ex_mono {x y : ℝ} (hx : x ≠ 0) (h : |x| ≤ |y|) : F.ex x ≤ F.ex y := by
  unfold ex
  have := Int.log_mono_right (b := 2) (abs_pos.2 hx) h
  omega

theorem abs_lt_ex (x : ℝ) : |x / 2 ^ F.ex x| < 2 ^ (F.p : ℤ) := by
  rw [abs_div, abs_of_pos (z_pos _), div_lt_iff₀ (z_pos _), ← z_add]
  refine (lt_log x).trans_le (z_le ?_)
  unfold ex; omega

theorem has_rnd (x : ℝ) : F.Has (F.rnd x) := by
  refine ⟨_, _, F.emin_le_ex x, ?_, rfl⟩
  have h := abs_lt.1 (F.abs_lt_ex x)
  have e : (2 : ℝ) ^ (F.p : ℤ) = ((2 ^ F.p : ℤ) : ℝ) := by push_cast; rw [zpow_natCast]
  rw [e] at h
  rw [abs_le]
  constructor
  · have := rne_mono h.1.le
    rwa [← Int.cast_neg, rne_int] at this
  · have := rne_mono h.2.le
    rwa [rne_int] at this

theorem rnd_of_int {x : ℝ} {n : ℤ} (h : x / 2 ^ F.ex x = n) : F.rnd x = x := by
  unfold rnd; rw [h, rne_int, ← h, div_mul_cancel₀ _ (z_pos _).ne']

theorem rnd_of_mult {x : ℝ} {n e : ℤ} (h : F.ex x ≤ e) (hx : x = n * 2 ^ e) : F.rnd x = x := by
  refine F.rnd_of_int (n := n * 2 ^ (e - F.ex x).toNat) ?_
  have h1 := z_int (show 0 ≤ e - F.ex x by omega)
  push_cast at h1 ⊢
  rw [h1, div_eq_iff (z_pos _).ne', mul_assoc, ← z_add]
  rw [show e - F.ex x + F.ex x = e by ring, ← hx]

theorem rnd_of_has {x : ℝ} (h : F.Has x) : F.rnd x = x := by
  obtain ⟨m, e, he, hm, hx⟩ := h
  by_cases h0 : x = 0
  · rw [h0]; simp [rnd, rne]
  by_cases hle : F.ex x ≤ e
  · exact F.rnd_of_mult hle hx
  have hex : F.ex x = Int.log 2 |x| - (F.p - 1) := by
    have := F.emin_le_ex x
    unfold ex at *; omega
  have hxa : |x| = |m| * 2 ^ e := by rw [hx, abs_mul, abs_of_pos (z_pos e)]; push_cast; rfl
  have hm' : ((|m| : ℤ) : ℝ) ≤ 2 ^ (F.p : ℤ) := by
    rw [zpow_natCast]; exact_mod_cast hm
  have h1 : |x| ≤ (2 : ℝ) ^ ((F.p : ℤ) + e) := by
    rw [hxa, z_add]; exact mul_le_mul_of_nonneg_right hm' (z_pos e).le
  have h2 := log_le h0
  have h3 : (2 : ℝ) ^ ((F.p : ℤ) + e) ≤ 2 ^ Int.log 2 |x| := z_le (by omega)
  have h4 : |x| = 2 ^ Int.log 2 |x| := le_antisymm (h1.trans h3) h2
  have h5 : |x| = 2 ^ ((F.p : ℤ) - 1) * 2 ^ F.ex x := by
    rw [← z_add, hex]; refine h4.trans ?_; congr 1; ring
  have h6 := z_int (show 0 ≤ (F.p : ℤ) - 1 by have := F.hp; omega)
  rw [← h6] at h5
  rcases abs_cases x with ⟨ha, -⟩ | ⟨ha, -⟩ <;> rw [ha] at h5
  · exact F.rnd_of_mult le_rfl h5
  · refine F.rnd_of_mult (n := -(2 ^ ((F.p : ℤ) - 1).toNat)) le_rfl ?_
    push_cast at h5 ⊢; linarith

/-- A number is representable iff rounding leaves it alone. -/
theorem rnd_eq_iff {x : ℝ} : F.rnd x = x ↔ F.Has x :=
  ⟨fun h => h ▸ F.has_rnd x, F.rnd_of_has⟩

theorem has_zpow {k : ℤ} (h : F.emin ≤ k) : F.Has (2 ^ k) :=
  ⟨1, k, h, by simpa using one_le_pow₀ (by norm_num : (1 : ℤ) ≤ 2), by simp⟩

theorem rnd_neg (x : ℝ) : F.rnd (-x) = -F.rnd x := by
  unfold rnd; rw [ex_neg, neg_div, rne_neg]; push_cast; ring

theorem rnd_zero : F.rnd 0 = 0 := by simp [rnd, rne]
theorem rnd_nonneg {x : ℝ} (h : 0 ≤ x) : 0 ≤ F.rnd x := by
  have := rne_mono (div_nonneg h (z_pos (F.ex x)).le)
  rw [show (0 : ℝ) = ((0 : ℤ) : ℝ) by simp, rne_int] at this
  exact mul_nonneg (by exact_mod_cast this) (z_pos _).le

theorem rnd_le_zpow {x : ℝ} {k : ℤ} (hk : F.ex x ≤ k) (h : x ≤ 2 ^ k) : F.rnd x ≤ 2 ^ k := by
  have h1 := z_int (show 0 ≤ k - F.ex x by omega)
  have h2 : x / 2 ^ F.ex x ≤ ((2 ^ (k - F.ex x).toNat : ℤ) : ℝ) := by
    rw [h1, div_le_iff₀ (z_pos _), ← z_add, sub_add_cancel]; exact h
  have h3 := rne_mono h2
  rw [rne_int] at h3
  have h4 : (rne (x / 2 ^ F.ex x) : ℝ) ≤ 2 ^ (k - F.ex x) := by
    rw [← h1]; exact_mod_cast h3
  have := mul_le_mul_of_nonneg_right h4 (z_pos (F.ex x)).le
  rwa [← z_add, sub_add_cancel] at this
theorem zpow_le_rnd {x : ℝ} {k : ℤ} (hk : F.ex x ≤ k) (h : 2 ^ k ≤ x) : 2 ^ k ≤ F.rnd x := by
  have h1 := z_int (show 0 ≤ k - F.ex x by omega)
  have h2 : ((2 ^ (k - F.ex x).toNat : ℤ) : ℝ) ≤ x / 2 ^ F.ex x := by
    rw [h1, le_div_iff₀ (z_pos _), ← z_add, sub_add_cancel]; exact h
  have h3 := rne_mono h2
  rw [rne_int] at h3
  have h4 : (2 : ℝ) ^ (k - F.ex x) ≤ (rne (x / 2 ^ F.ex x) : ℝ) := by
    rw [← h1]; exact_mod_cast h3
  have := mul_le_mul_of_nonneg_right h4 (z_pos (F.ex x)).le
  rwa [← z_add, sub_add_cancel] at this

theorem rnd_mono_pos {x y : ℝ} (hx : 0 < x) (h : x ≤ y) : F.rnd x ≤ F.rnd y := by
  have hy : 0 < y := hx.trans_le h
  have hm := F.ex_mono hx.ne' (abs_le_abs_of_nonneg hx.le h)
  rcases hm.lt_or_eq with hlt | heq
  · have hey : F.ex y = Int.log 2 |y| - (F.p - 1) := by
      have := F.emin_le_ex x
      unfold ex at *; omega
    have hl : Int.log 2 |x| < Int.log 2 |y| := by
      unfold ex at *; omega
    have hp := F.hp
    have h1 : F.rnd x ≤ 2 ^ Int.log 2 |y| := by
      refine F.rnd_le_zpow (by omega) ?_
      have := (lt_log x).trans_le (z_le (show Int.log 2 |x| + 1 ≤ Int.log 2 |y| by omega))
      rw [abs_of_pos hx] at this; exact this.le
    refine h1.trans (F.zpow_le_rnd (by omega) ?_)
    have := log_le hy.ne'
    rwa [abs_of_pos hy] at this ⊢
  · unfold rnd; simp only [heq]
    have := rne_mono (div_le_div_of_nonneg_right h (z_pos (F.ex y)).le)
    have h' : (rne (x / 2 ^ F.ex y) : ℝ) ≤ rne (y / 2 ^ F.ex y) := by exact_mod_cast this
    exact mul_le_mul_of_nonneg_right h' (z_pos _).le

theorem rnd_mono {x y : ℝ} (h : x ≤ y) : F.rnd x ≤ F.rnd y := by
  rcases lt_or_ge 0 x with hx | hx
  · exact F.rnd_mono_pos hx h
  have hx' : F.rnd x ≤ 0 := by
    have := F.rnd_nonneg (x := -x) (by linarith); rw [rnd_neg] at this; linarith
  rcases le_or_gt 0 y with hy | hy
  · exact hx'.trans (F.rnd_nonneg hy)
  have := F.rnd_mono_pos (x := -y) (y := -x) (by linarith) (by linarith)
  rw [rnd_neg, rnd_neg] at this; linarith

theorem Has.neg {F : Fmt} {x : ℝ} (h : F.Has x) : F.Has (-x) := by
  obtain ⟨m, e, he, hm, rfl⟩ := h
  exact ⟨-m, e, he, by simpa using hm, by push_cast; ring⟩

/-- Every number of the format is a multiple of the quantum. -/
theorem Has.quantum {F : Fmt} {x : ℝ} (h : F.Has x) : ∃ n : ℤ, x = n * 2 ^ F.emin := by
  obtain ⟨m, e, he, -, rfl⟩ := h
  refine ⟨m * 2 ^ (e - F.emin).toNat, ?_⟩
  have h1 := z_int (show 0 ≤ e - F.emin by omega)
  push_cast at h1 ⊢
  rw [h1, mul_assoc, ← z_add, sub_add_cancel]

/-- A non-zero multiple of the quantum is at least the quantum. -/
theorem quantum_le {x : ℝ} (h : ∃ n : ℤ, x = n * 2 ^ F.emin) (h0 : x ≠ 0) : 2 ^ F.emin ≤ |x| := by
  obtain ⟨n, rfl⟩ := h
  have hn : n ≠ 0 := by rintro rfl; simp at h0
  rw [abs_mul, abs_of_pos (z_pos _)]
  have : (1 : ℝ) ≤ |(n : ℝ)| := by exact_mod_cast Int.one_le_abs hn
  nlinarith [z_pos F.emin]

theorem sub_quantum {x y : ℝ} (hx : F.Has x) (hy : F.Has y) : ∃ n : ℤ, x - y = n * 2 ^ F.emin := by
  obtain ⟨a, rfl⟩ := hx.quantum
  obtain ⟨b, rfl⟩ := hy.quantum
  exact ⟨a - b, by push_cast; ring⟩

theorem rnd_sub_ne {x y : ℝ} (hx : F.Has x) (hy : F.Has y) (h : x ≠ y) : F.rnd (x - y) ≠ 0 := by
  have h1 := F.quantum_le (F.sub_quantum hx hy) (sub_ne_zero.2 h)
  have h2 : F.rnd (2 ^ F.emin) = 2 ^ F.emin := F.rnd_of_has (F.has_zpow le_rfl)
  have hp := z_pos F.emin
  rcases le_abs.1 h1 with h3 | h3
  · have := F.rnd_mono h3; rw [h2] at this; linarith
  · have := F.rnd_mono h3; rw [h2, rnd_neg] at this; linarith

/-- A number with a fractional part has magnitude at most `2^(p-1)`. -/
theorem Has.cases {F : Fmt} {x : ℝ} (h : F.Has x) : (∃ n : ℤ, x = n) ∨
    ∃ (m : ℤ) (k : ℕ), |m| ≤ 2 ^ F.p ∧ F.emin ≤ -(k : ℤ) ∧ 1 ≤ k ∧ x * 2 ^ k = m := by
  obtain ⟨m, e, he, hm, rfl⟩ := h
  rcases le_or_gt 0 e with h0 | h0
  · left; refine ⟨m * 2 ^ e.toNat, ?_⟩
    have := z_int h0; push_cast at this ⊢; rw [this]
  · right
    obtain ⟨k, rfl⟩ : ∃ k : ℕ, e = -(k : ℤ) := ⟨(-e).toNat, by omega⟩
    refine ⟨m, k, hm, he, by omega, ?_⟩
    rw [zpow_neg, zpow_natCast, mul_assoc, inv_mul_cancel₀ (by positivity), mul_one]

theorem Has.floor_le {F : Fmt} {x : ℝ} (h : F.Has x) : x = ⌊x⌋ ∨ |⌊x⌋| ≤ 2 ^ (F.p - 1) := by
  rcases h.cases with ⟨n, rfl⟩ | ⟨m, k, hm, -, hk, hx⟩
  · left; simp
  · right
    have h2 : (2 : ℝ) ^ 1 ≤ 2 ^ k := pow_le_pow_right₀ (by norm_num) hk
    have hp : (2 : ℝ) ^ F.p = 2 ^ (F.p - 1) * 2 := by
      rw [← pow_succ]; congr 1; have := F.hp; omega
    have ha : |x| ≤ 2 ^ (F.p - 1) := by
      have hm' : |(m : ℝ)| ≤ 2 ^ F.p := by exact_mod_cast hm
      rw [← hx, abs_mul, abs_of_pos (by positivity : (0 : ℝ) < 2 ^ k), hp] at hm'
      have := mul_le_mul_of_nonneg_left h2 (abs_nonneg x)
      linarith
    rw [abs_le] at ha ⊢
    constructor
    · rw [Int.le_floor]; push_cast; exact ha.1
    · have := Int.floor_mono ha.2
      rw [show ((2 : ℝ) ^ (F.p - 1)) = ((2 ^ (F.p - 1) : ℤ) : ℝ) by push_cast; rfl, Int.floor_intCast] at this
      exact this

theorem has_floor {x : ℝ} (h : F.Has x) : F.Has (⌊x⌋ : ℝ) := by
  rcases h.floor_le with h' | h'
  · rwa [← h']
  · refine ⟨⌊x⌋, 0, by have := F.emin_le; omega, h'.trans ?_, by simp⟩
    exact pow_le_pow_right₀ (by norm_num) (by omega)

theorem has_fract {x : ℝ} (h0 : 0 ≤ x) (h : F.Has x) : F.Has (x - ⌊x⌋) := by
  rcases h.cases with ⟨n, rfl⟩ | ⟨m, k, hm, hk, -, hx⟩
  · refine ⟨0, F.emin, le_rfl, by simp, by simp⟩
  · refine ⟨m - ⌊x⌋ * 2 ^ k, -(k : ℤ), hk, ?_, ?_⟩
    · have e : (x - ⌊x⌋) * 2 ^ k = ((m - ⌊x⌋ * 2 ^ k : ℤ) : ℝ) := by push_cast; rw [← hx]; ring
      have hf0 : 0 ≤ x - ⌊x⌋ := by linarith [Int.floor_le x]
      have hfl : (0 : ℝ) ≤ ⌊x⌋ := by exact_mod_cast Int.floor_nonneg.2 h0
      have hp : (0 : ℝ) < 2 ^ k := by positivity
      have a1 : (0 : ℝ) ≤ ((m - ⌊x⌋ * 2 ^ k : ℤ) : ℝ) := by rw [← e]; positivity
      have a2 : ((m - ⌊x⌋ * 2 ^ k : ℤ) : ℝ) ≤ m := by push_cast; nlinarith
      have b1 : 0 ≤ m - ⌊x⌋ * 2 ^ k := by exact_mod_cast a1
      have b2 : m - ⌊x⌋ * 2 ^ k ≤ m := by exact_mod_cast a2
      rw [abs_of_nonneg b1]
      exact b2.trans ((le_abs_self m).trans hm)
    · rw [zpow_neg, zpow_natCast]
      push_cast
      rw [← hx]
      have : (2 : ℝ) ^ k ≠ 0 := by positivity
      field_simp

theorem half_gap {x y : ℝ} (hx : F.Has x) (hy : F.Has y) (h : x ≤ y) :
    F.rnd (F.rnd (y - x) * (1 / 2)) ≤ y - x := by
  rcases h.eq_or_lt with rfl | hlt
  · simp [rnd_zero]
  have hd : 0 < y - x := by linarith
  have hq := F.quantum_le (F.sub_quantum hy hx) hd.ne'
  have hl := log_ge hq
  set L := Int.log 2 |y - x|
  have h1 : F.rnd (y - x) ≤ 2 ^ (L + 1) := by
    refine (F.rnd_mono (y := 2 ^ (L + 1)) ?_).trans (F.rnd_of_has (F.has_zpow (by omega))).le
    have := lt_log (y - x); rw [abs_of_pos hd] at this
    exact (le_abs_self _).trans (lt_log (y - x)).le
  have h2 : F.rnd (y - x) * (1 / 2) ≤ 2 ^ L := by
    rw [z_add] at h1; norm_num at h1; linarith
  have h3 := F.rnd_mono h2
  rw [F.rnd_of_has (F.has_zpow hl)] at h3
  have := log_le hd.ne'
  rw [abs_of_pos hd] at this
  refine h3.trans ?_
  simp only [L, abs_of_pos hd]; exact this

/-- The format with its rounding: `Rounding`'s laws hold for every binary format. -/
noncomputable def rounding : Rounding where
  rnd := F.rnd
  fits y := |y| < 2 ^ F.emax
  rnd_mono := F.rnd_mono
  rnd_neg := F.rnd_neg
  rnd_idem x := F.rnd_of_has (F.has_rnd x)
  fits_mono h h' := h.trans_lt h'
  rnd_one := by
    have := F.rnd_of_has (F.has_zpow (k := 0) (by have := F.emin_le; omega)); simpa using this
  rnd_two := by
    have := F.rnd_of_has (F.has_zpow (k := 1) (by have := F.emin_le; omega)); simpa using this
  rnd_half := by
    have := F.rnd_of_has (F.has_zpow (k := -1) F.emin_le); simpa [zpow_neg] using this
  fits_two := by
    have hp := F.hp
    have hm := F.hmax
    have := z_le (show 2 ≤ F.emax by omega)
    norm_num at this ⊢; linarith
  rnd_sub hx hy := F.rnd_sub_ne (F.rnd_eq_iff.1 hx) (F.rnd_eq_iff.1 hy)
  rnd_floor h := F.rnd_of_has (F.has_floor (F.rnd_eq_iff.1 h))
  fits_floor {x} h h' := by
    rcases (F.rnd_eq_iff.1 h).floor_le with h1 | h1
    · rwa [← h1]
    · have : (|(⌊x⌋ : ℝ)|) ≤ 2 ^ (F.p - 1) := by exact_mod_cast h1
      refine this.trans_lt ?_
      rw [← zpow_natCast]
      refine zpow_lt_zpow_right₀ (by norm_num) ?_
      have hp := F.hp
      have hm := F.hmax
      omega
  rnd_fract h0 h := F.rnd_of_has (F.has_fract h0 (F.rnd_eq_iff.1 h))
  rnd_half_gap hx hy := F.half_gap (F.rnd_eq_iff.1 hx) (F.rnd_eq_iff.1 hy)

/-! ### Accuracy -/

/-- The unit roundoff `2^-p`. -/
noncomputable def u : ℝ := 2 ^ (-(F.p : ℤ))

theorem u_pos : 0 < F.u := z_pos _

/-- Rounding is off by at most half a unit in the last place. -/
theorem rnd_err (x : ℝ) : |F.rnd x - x| ≤ 2 ^ (F.ex x - 1) := by
  have h := rne_err (x / 2 ^ F.ex x)
  have hp := z_pos (F.ex x)
  have e : F.rnd x - x = (rne (x / 2 ^ F.ex x) - x / 2 ^ F.ex x) * 2 ^ F.ex x := by
    unfold rnd; field_simp
  rw [e, abs_mul, abs_of_pos hp, show F.ex x - 1 = -1 + F.ex x by ring, z_add]
  exact mul_le_mul_of_nonneg_right (by norm_num at h ⊢; exact h) hp.le

/-- Rounding to nearest: no number of the format is closer. -/
theorem rnd_nearest (x : ℝ) {y : ℝ} (hy : F.Has y) : |F.rnd x - x| ≤ |y - x| := by
  have mult : ∀ n : ℤ, |F.rnd x - x| ≤ |n * 2 ^ F.ex x - x| := by
    intro n
    have hp := z_pos (F.ex x)
    have e : F.rnd x - x = (rne (x / 2 ^ F.ex x) - x / 2 ^ F.ex x) * 2 ^ F.ex x := by
      unfold rnd; field_simp
    have e' : n * 2 ^ F.ex x - x = (n - x / 2 ^ F.ex x) * 2 ^ F.ex x := by field_simp
    rw [e, e', abs_mul, abs_mul, abs_of_pos hp]
    exact mul_le_mul_of_nonneg_right (rne_nearest _ n) hp.le
  by_cases h0 : x = 0
  · subst h0; rw [rnd_zero]; simp
  obtain ⟨m, e, he, hm, rfl⟩ := hy
  by_cases hle : F.ex x ≤ e
  · have h1 := z_int (show 0 ≤ e - F.ex x by omega)
    have := mult (m * 2 ^ (e - F.ex x).toNat)
    push_cast at this h1
    rwa [h1, mul_assoc, ← z_add, sub_add_cancel] at this
  have hex : F.ex x = Int.log 2 |x| - (F.p - 1) := by
    have := F.emin_le_ex x
    unfold ex at *; omega
  have hp := F.hp
  have hpw := z_int (show 0 ≤ (F.p : ℤ) - 1 by omega)
  have hz : (2 : ℝ) ^ Int.log 2 |x| = ((2 ^ ((F.p : ℤ) - 1).toNat : ℤ) : ℝ) * 2 ^ F.ex x := by
    rw [hpw, ← z_add, hex]; congr 1; ring
  have hm' : |(m : ℝ)| ≤ 2 ^ (F.p : ℤ) := by rw [zpow_natCast]; exact_mod_cast hm
  have hy : |m * (2 : ℝ) ^ e| ≤ 2 ^ Int.log 2 |x| := by
    rw [abs_mul, abs_of_pos (z_pos e)]
    refine (mul_le_mul_of_nonneg_right hm' (z_pos e).le).trans ?_
    rw [← z_add]; exact z_le (by omega)
  have hlx := log_le h0
  generalize (2 : ℝ) ^ Int.log 2 |x| = L at *
  rcases abs_cases x with ⟨ha, hx⟩ | ⟨ha, hx⟩ <;> rw [ha] at hlx
  · have := mult (2 ^ ((F.p : ℤ) - 1).toNat)
    rw [← hz] at this
    refine this.trans ?_
    have := (abs_le.1 hy).2
    rw [abs_of_nonpos (by linarith), abs_of_nonpos (by linarith)]; linarith
  · have := mult (-(2 ^ ((F.p : ℤ) - 1).toNat))
    rw [Int.cast_neg, neg_mul, ← hz] at this
    refine this.trans ?_
    have := (abs_le.1 hy).1
    rw [abs_of_nonneg (by linarith), abs_of_nonneg (by linarith)]; linarith

/-- Standard model with gradual underflow: relative error `2^-p`, plus half a quantum. -/
theorem rnd_err_le (x : ℝ) : |F.rnd x - x| ≤ F.u * |x| + 2 ^ (F.emin - 1) := by
  by_cases h0 : x = 0
  · subst h0; rw [rnd_zero]; simp; positivity
  refine (F.rnd_err x).trans ?_
  rcases max_cases (Int.log 2 |x| - (F.p - 1)) F.emin with ⟨h, -⟩ | ⟨h, -⟩
  · have : F.ex x - 1 = -(F.p : ℤ) + Int.log 2 |x| := by unfold ex; rw [h]; ring
    rw [this, z_add]
    have := mul_le_mul_of_nonneg_left (log_le h0) (z_pos (-(F.p : ℤ))).le
    have := z_pos (F.emin - 1)
    unfold u; linarith
  · have : F.ex x = F.emin := h
    rw [this]
    have := mul_nonneg F.u_pos.le (abs_nonneg x)
    linarith

/-- In the normal range the error is purely relative. -/
theorem rnd_err_normal {x : ℝ} (hx : 2 ^ (F.emin + F.p - 1) ≤ |x|) : |F.rnd x - x| ≤ F.u * |x| := by
  have h0 : x ≠ 0 := by
    rintro rfl; simp at hx; exact absurd hx (not_le.2 (z_pos _))
  refine (F.rnd_err x).trans ?_
  have hl := log_ge hx
  have : F.ex x - 1 = -(F.p : ℤ) + Int.log 2 |x| := by unfold ex; omega
  rw [this, z_add]
  exact mul_le_mul_of_nonneg_left (log_le h0) (z_pos (-(F.p : ℤ))).le

/-- Addition and subtraction never suffer from underflow: the error is purely relative. -/
theorem rnd_err_quantum {x : ℝ} (hx : ∃ n : ℤ, x = n * 2 ^ F.emin) : |F.rnd x - x| ≤ F.u * |x| := by
  by_cases h0 : x = 0
  · subst h0; rw [rnd_zero]; simp
  rcases le_or_gt (2 ^ (F.emin + F.p - 1)) |x| with h | h
  · exact F.rnd_err_normal h
  · obtain ⟨n, hn⟩ := hx
    have hl := log_lt h0 h
    have he : F.ex x = F.emin := by unfold ex; omega
    rw [F.rnd_of_mult (e := F.emin) he.le hn]
    simp; exact mul_nonneg F.u_pos.le (abs_nonneg x)

/-- Rounding loses everything below half the quantum. -/
theorem rnd_tiny {x : ℝ} (hx : |x| < 2 ^ (F.emin - 1)) : F.rnd x = 0 := by
  by_cases h0 : x = 0
  · rw [h0, rnd_zero]
  have hl := log_lt h0 hx
  have hp := F.hp
  have he : F.ex x = F.emin := by unfold ex; omega
  unfold rnd; rw [he]
  have h1 : |x / 2 ^ F.emin| < 1 / 2 := by
    rw [abs_div, abs_of_pos (z_pos _), div_lt_iff₀ (z_pos _)]
    rw [show F.emin - 1 = -1 + F.emin by ring, z_add] at hx
    norm_num at hx ⊢; exact hx
  have h2 := rne_err (x / 2 ^ F.emin)
  have h3 : |(rne (x / 2 ^ F.emin) : ℝ)| < 1 := by
    have := abs_add_le ((rne (x / 2 ^ F.emin) : ℝ) - x / 2 ^ F.emin) (x / 2 ^ F.emin)
    rw [sub_add_cancel] at this; linarith
  have h4 : |rne (x / 2 ^ F.emin)| < 1 := by exact_mod_cast h3
  rw [Int.abs_lt_one_iff] at h4
  rw [h4]; simp

/-- The largest number of the format. -/
noncomputable def maxFin : ℝ := 2 ^ F.emax - 2 ^ (F.emax - F.p)
/-- The overflow threshold: halfway between the largest number of the format and `2^emax`. -/
noncomputable def overflow : ℝ := 2 ^ F.emax - 2 ^ (F.emax - F.p - 1)

theorem has_maxFin : F.Has F.maxFin := by
  refine ⟨2 ^ F.p - 1, F.emax - F.p, ?_, ?_, ?_⟩
  · have h1 := F.emin_le
    have h2 := F.hmax
    omega
  · have : (1 : ℤ) ≤ 2 ^ F.p := one_le_pow₀ (by norm_num)
    rw [abs_of_nonneg (by omega)]; omega
  · push_cast
    rw [sub_mul, one_mul, ← zpow_natCast, ← z_add]; unfold maxFin; congr 2; ring

theorem rnd_overflow : F.rnd F.overflow = 2 ^ F.emax := by
  have hp := F.hp
  have hm := F.hmax
  have hn := F.emin_le
  have e1 : (2 : ℝ) ^ F.emax = 2 * 2 ^ (F.emax - 1) := by
    rw [show F.emax = 1 + (F.emax - 1) by ring, z_add]; norm_num
  have e2 : (2 : ℝ) ^ (F.emax - F.p - 1) ≤ 2 ^ (F.emax - 1) := z_le (by omega)
  have hpos : 0 < F.overflow := by unfold overflow; have := z_pos (F.emax - 1); rw [e1]; linarith
  have hlog : Int.log 2 |F.overflow| = F.emax - 1 := by
    refine le_antisymm ?_ (log_ge ?_)
    · have := log_lt (k := F.emax) hpos.ne' (by
        rw [abs_of_pos hpos]; unfold overflow; have := z_pos (F.emax - F.p - 1); linarith)
      omega
    · rw [abs_of_pos hpos]; unfold overflow; rw [e1]; linarith
  have he : F.ex F.overflow = F.emax - F.p := by unfold ex; rw [hlog]; omega
  have hq : F.overflow / 2 ^ F.ex F.overflow = ((2 ^ F.p - 1 : ℤ) : ℝ) + 1 / 2 := by
    rw [he, div_eq_iff (z_pos _).ne']
    unfold overflow
    push_cast
    rw [show F.emax - F.p - 1 = -1 + (F.emax - F.p) by ring, z_add (-1),
      show (2 : ℝ) ^ F.emax = 2 ^ F.p * 2 ^ (F.emax - F.p) by
        rw [← zpow_natCast, ← z_add]; congr 1; ring]
    norm_num; ring
  have hr : rne (((2 ^ F.p - 1 : ℤ) : ℝ) + 1 / 2) = 2 ^ F.p := by
    have hf : ⌊((2 ^ F.p - 1 : ℤ) : ℝ) + 1 / 2⌋ = 2 ^ F.p - 1 := by
      rw [Int.floor_intCast_add]; norm_num
    have hfr : Int.fract (((2 ^ F.p - 1 : ℤ) : ℝ) + 1 / 2) = 1 / 2 := by
      rw [Int.fract_intCast_add]; norm_num
    have hodd : ¬ Even ((2 : ℤ) ^ F.p - 1) := by
      have : Even ((2 : ℤ) ^ F.p) := (Int.even_pow.2 ⟨by norm_num, by omega⟩)
      simp [parity_simps, this]; omega
    unfold rne
    rw [hfr, hf, if_neg (lt_irrefl _), if_neg (lt_irrefl _), if_neg hodd]; ring
  unfold rnd
  rw [hq, hr, he]
  push_cast
  rw [← zpow_natCast, ← z_add]; congr 1; ring

/-- An operation overflows exactly when the exact result reaches the threshold. -/
theorem fits_rnd_iff (x : ℝ) : F.rounding.fits (F.rnd x) ↔ |x| < F.overflow := by
  have hp := z_pos (F.emax - F.p - 1)
  have key : ∀ x : ℝ, 0 ≤ x → (F.rnd x < 2 ^ F.emax ↔ x < F.overflow) := by
    intro x hx
    constructor
    · intro h
      by_contra h'
      have := F.rnd_mono (not_lt.1 h')
      rw [rnd_overflow] at this; linarith
    · intro h
      by_contra h'
      have h1 := F.rnd_nearest x F.has_maxFin
      have e : (2 : ℝ) ^ (F.emax - F.p) = 2 * 2 ^ (F.emax - F.p - 1) := by
        rw [show F.emax - F.p = 1 + (F.emax - F.p - 1) by ring, z_add]; norm_num
      rcases le_or_gt x F.maxFin with h2 | h2
      · have := F.rnd_mono h2
        rw [F.rnd_of_has F.has_maxFin] at this
        unfold maxFin at this; rw [e] at this; linarith
      · rw [abs_of_neg (show F.maxFin - x < 0 by linarith)] at h1
        unfold overflow at h
        have h3 := le_abs_self (F.rnd x - x)
        unfold maxFin at h1; rw [e] at h1; linarith
  show |F.rnd x| < 2 ^ F.emax ↔ _
  have habs : |F.rnd x| = F.rnd |x| := by
    rcases abs_cases x with ⟨h, h'⟩ | ⟨h, h'⟩
    · rw [h, abs_of_nonneg (F.rnd_nonneg h')]
    · rw [h, rnd_neg, abs_of_nonpos]
      have := F.rnd_mono h'.le; rwa [rnd_zero] at this
  rw [habs]; exact key |x| (abs_nonneg x)

end Fmt

end VecMath
