import Verif.Lemmas.Grid
import Verif.Lemmas.Fl
/-!
# Executing concrete floating-point operations in the kernel

`Fmt.rnd_lit` evaluates the rounding of a positive real given its binade and the nearest integer significand; the
`exec_*` lemmas run one operation. Only used for counterexamples on concrete numbers.
-/
open Classical

namespace VecMath
open Scalar IEEE

theorem rne_eq {x : ℝ} {n : ℤ} (h1 : (n : ℝ) - 1 / 2 < x) (h2 : x < n + 1 / 2) : rne x = n := by
  have e := abs_le.1 (rne_err x)
  have a : ((rne x - n : ℤ) : ℝ) < 1 := by push_cast; linarith
  have b : (-1 : ℝ) < ((rne x - n : ℤ) : ℝ) := by push_cast; linarith
  have a' : rne x - n < 1 := by exact_mod_cast a
  have b' : -1 < rne x - n := by exact_mod_cast b
  omega

/-- ties go to the even neighbour -/
theorem rne_even {x : ℝ} {n : ℤ} (hn : Even n) (h1 : (n : ℝ) - 1 / 2 ≤ x) (h2 : x ≤ n + 1 / 2) : rne x = n := by
  rcases h1.lt_or_eq with h1 | h1
  · rcases h2.lt_or_eq with h2 | h2
    · exact rne_eq h1 h2
    · have f : ⌊x⌋ = n := Int.floor_eq_iff.2 ⟨by linarith, by linarith⟩
      have g : Int.fract x = 1 / 2 := by rw [Int.fract, f]; linarith
      rw [rne, g, f, if_neg (lt_irrefl _), if_neg (lt_irrefl _), if_pos hn]
  · have f : ⌊x⌋ = n - 1 := Int.floor_eq_iff.2 ⟨by push_cast; linarith, by push_cast; linarith⟩
    have g : Int.fract x = 1 / 2 := by rw [Int.fract, f]; push_cast; linarith
    have o : ¬ Even (n - 1) := by rw [Int.even_sub_one]; simpa using hn
    rw [rne, g, f, if_neg (lt_irrefl _), if_neg (lt_irrefl _), if_neg o]
    omega

/-- The rounded value of a real in the binade `[2^k, 2^(k+1))` whose last place is `2^q`: the nearest multiple. -/
theorem Fmt.rnd_lit (F : Fmt) {x : ℝ} (k q n : ℤ) (hq : q = max (k - (F.p - 1)) F.emin) (h1 : (2 : ℝ) ^ k ≤ x)
    (h2 : x < 2 ^ (k + 1)) (h3 : ((n : ℝ) - 1 / 2) * 2 ^ q < x) (h4 : x < (n + 1 / 2) * 2 ^ q) : F.rnd x = n * 2 ^ q := by
  have hx : 0 < x := (Fmt.z_pos k).trans_le h1
  have e : F.ex x = q := by
    rw [hq, Fmt.ex]
    have a := Fmt.log_ge (x := x) (k := k) (by rwa [abs_of_pos hx])
    have b := Fmt.log_lt (x := x) (k := k + 1) hx.ne' (by rwa [abs_of_pos hx])
    rw [show Int.log 2 |x| = k by omega]
  rw [Fmt.rnd, e, rne_eq (n := n)]
  · rwa [lt_div_iff₀ (Fmt.z_pos q)]
  · rwa [div_lt_iff₀ (Fmt.z_pos q)]

/-- The same with an even significand, ties included. -/
theorem Fmt.rnd_lit_even (F : Fmt) {x : ℝ} (k q n : ℤ) (hn : Even n) (hq : q = max (k - (F.p - 1)) F.emin) (h1 : (2 : ℝ) ^ k ≤ x)
    (h2 : x < 2 ^ (k + 1)) (h3 : ((n : ℝ) - 1 / 2) * 2 ^ q ≤ x) (h4 : x ≤ (n + 1 / 2) * 2 ^ q) : F.rnd x = n * 2 ^ q := by
  have hx : 0 < x := (Fmt.z_pos k).trans_le h1
  have e : F.ex x = q := by
    rw [hq, Fmt.ex]
    have a := Fmt.log_ge (x := x) (k := k) (by rwa [abs_of_pos hx])
    have b := Fmt.log_lt (x := x) (k := k + 1) hx.ne' (by rwa [abs_of_pos hx])
    rw [show Int.log 2 |x| = k by omega]
  rw [Fmt.rnd, e, rne_even hn]
  · rwa [le_div_iff₀ (Fmt.z_pos q)]
  · rwa [div_le_iff₀ (Fmt.z_pos q)]

section
variable {S : Type} [Scalar S] [IEEE S] [Binary S] {a b : S} {x y z : ℝ}
theorem exec_add (ha : Exactly a x) (hb : Exactly b y) (h : (Binary.F S).rnd (x + y) = z) (ho : |x + y| < overflowAt S) :
    Exactly (a + b) z := by
  have hf : IsFinite (a + b) := by rwa [(correct_add ha.1 hb.1).1, ha.2, hb.2]
  exact ⟨hf, by rw [real_add hf, rnd_eq, ha.2, hb.2]; exact h⟩
theorem exec_sub (ha : Exactly a x) (hb : Exactly b y) (h : (Binary.F S).rnd (x - y) = z) (ho : |x - y| < overflowAt S) :
    Exactly (a - b) z := by
  have hf : IsFinite (a - b) := by rwa [(correct_sub ha.1 hb.1).1, ha.2, hb.2]
  exact ⟨hf, by rw [real_sub hf, rnd_eq, ha.2, hb.2]; exact h⟩
theorem exec_mul (ha : Exactly a x) (hb : Exactly b y) (h : (Binary.F S).rnd (x * y) = z) (ho : |x * y| < overflowAt S) :
    Exactly (a * b) z := by
  have hf : IsFinite (a * b) := by rwa [(correct_mul ha.1 hb.1).1, ha.2, hb.2]
  exact ⟨hf, by rw [real_mul hf, rnd_eq, ha.2, hb.2]; exact h⟩
theorem exec_div (ha : Exactly a x) (hb : Exactly b y) (h0 : y ≠ 0) (h : (Binary.F S).rnd (x / y) = z)
    (ho : |x / y| < overflowAt S) : Exactly (a / b) z := by
  have h0' : real b ≠ 0 := by rwa [hb.2]
  have hf : IsFinite (a / b) := by rwa [(correct_div ha.1 hb.1 h0').1, ha.2, hb.2]
  exact ⟨hf, by rw [real_div ha.1 hb.1 h0' hf, rnd_eq, ha.2, hb.2]; exact h⟩
theorem exec_sqrt (ha : Exactly a x) (h0 : 0 ≤ x) (h : (Binary.F S).rnd √x = z) (ho : |√x| < overflowAt S) :
    Exactly (Scalar.sqrt a) z := by
  have hf : IsFinite (Scalar.sqrt a) := by rwa [(correct_sqrt ha.1 (by rwa [ha.2])).1, ha.2]
  exact ⟨hf, by rw [real_sqrt hf, rnd_eq, ha.2]; exact h⟩
end

theorem overflow32 : (1000000 : ℝ) ≤ overflowAt (Fl binary32) := by
  show (1000000 : ℝ) ≤ 2 ^ (128 : ℤ) - 2 ^ ((128 : ℤ) - (24 : ℕ) - 1)
  norm_num
theorem overflow64 : (1000000 : ℝ) ≤ overflowAt (Fl binary64) := by
  have h1 : (2 : ℝ) ^ ((1024 : ℤ) - (53 : ℕ) - 1) ≤ 2 ^ (1023 : ℤ) := Fmt.z_le (by norm_num)
  have h2 : (2 : ℝ) ^ (1024 : ℤ) = 2 ^ (1023 : ℤ) * 2 := by rw [← zpow_add_one₀ (by norm_num)]; norm_num
  have h3 : (2 : ℝ) ^ (30 : ℤ) ≤ 2 ^ (1023 : ℤ) := Fmt.z_le (by norm_num)
  show (1000000 : ℝ) ≤ 2 ^ (1024 : ℤ) - 2 ^ ((1024 : ℤ) - (53 : ℕ) - 1)
  have h4 : (1000000 : ℝ) ≤ 2 ^ (30 : ℤ) := by norm_num
  have aux : ∀ a b c d e : ℝ, a ≤ b → c = b * 2 → d ≤ b → e ≤ d → e ≤ c - a := fun a b c d e h1 h2 h3 h4 => by linarith
  exact aux _ _ _ _ _ h1 h2 h3 h4

end VecMath
