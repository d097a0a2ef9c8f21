import Verif.Spec.Grid
import Verif.Lemmas.Fl
/-! # Exact arithmetic on a grid -/

open Classical

namespace VecMath
open Scalar IEEE

namespace OnGrid
variable {e f : ℤ} {M N : ℕ} {x y : ℝ}
theorem mono (h : OnGrid e M x) (hN : M ≤ N) : OnGrid e N x := by
  obtain ⟨n, hn, rfl⟩ := h
  exact ⟨n, hn.trans (by exact_mod_cast hN), rfl⟩
theorem zero : OnGrid e N 0 := ⟨0, by simp, by simp⟩
theorem neg (h : OnGrid e N x) : OnGrid e N (-x) := by
  obtain ⟨n, hn, rfl⟩ := h
  exact ⟨-n, by rwa [abs_neg], by push_cast; ring⟩
theorem add (h : OnGrid e M x) (h' : OnGrid e N y) : OnGrid e (M + N) (x + y) := by
  obtain ⟨n, hn, rfl⟩ := h
  obtain ⟨k, hk, rfl⟩ := h'
  refine ⟨n + k, (abs_add_le _ _).trans (by push_cast; omega), by push_cast; ring⟩
theorem sub (h : OnGrid e M x) (h' : OnGrid e N y) : OnGrid e (M + N) (x - y) := by
  rw [sub_eq_add_neg]; exact h.add h'.neg
theorem mul (h : OnGrid e M x) (h' : OnGrid f N y) : OnGrid (e + f) (M * N) (x * y) := by
  obtain ⟨n, hn, rfl⟩ := h
  obtain ⟨k, hk, rfl⟩ := h'
  refine ⟨n * k, ?_, by rw [Fmt.z_add]; push_cast; ring⟩
  rw [abs_mul]; push_cast
  exact mul_le_mul hn hk (abs_nonneg _) (by positivity)
theorem int {n : ℤ} (h : |n| ≤ N) : OnGrid 0 N n := ⟨n, h, by simp⟩
theorem congr (h : OnGrid e N x) (hx : x = y) : OnGrid e N y := hx ▸ h
theorem exp (h : OnGrid e N x) (he : e = f) : OnGrid f N x := he ▸ h
end OnGrid

section
variable {S : Type} [Scalar S] [IEEE S] [Binary S] {e f : ℤ} {M N : ℕ} {x y : ℝ} {a b c : S}

theorem Fits.mono (h : Fits S e N) (hM : M ≤ N) : Fits S e M := ⟨h.1, hM.trans h.2.1, h.2.2⟩

theorem half_le_overflow : (2 : ℝ) ^ ((Binary.F S).emax - 1) < overflowAt S := by
  have hp := (Binary.F S).hp
  have b : (2 : ℝ) ^ ((Binary.F S).emax - (Binary.F S).p - 1) ≤ 2 ^ ((Binary.F S).emax - 3) :=
    Fmt.z_le (by omega)
  have c : (2 : ℝ) ^ ((Binary.F S).emax - 3) = 2 ^ (Binary.F S).emax / 8 := by
    rw [zpow_sub₀ (by norm_num)]; norm_num
  have d : (2 : ℝ) ^ ((Binary.F S).emax - 1) = 2 ^ (Binary.F S).emax / 2 := by
    rw [zpow_sub₀ (by norm_num)]; norm_num
  have := Fmt.z_pos (Binary.F S).emax
  unfold overflowAt
  rw [d]; rw [c] at b
  linarith

theorem OnGrid.inFormat (h : OnGrid e N x) (hF : Fits S e N) : InFormat S x ∧ |x| < overflowAt S := by
  obtain ⟨n, hn, rfl⟩ := h
  obtain ⟨h1, h2, h3⟩ := hF
  have hb : |(n : ℝ) * 2 ^ e| ≤ 2 ^ ((Binary.F S).emax - 1) := by
    rw [abs_mul, abs_of_pos (Fmt.z_pos e)]
    have hn' : |(n : ℝ)| ≤ 2 ^ ((Binary.F S).p : ℤ) := by
      rw [zpow_natCast]
      have : |n| ≤ 2 ^ (Binary.F S).p := hn.trans (by exact_mod_cast h2)
      exact_mod_cast this
    calc |(n : ℝ)| * 2 ^ e ≤ 2 ^ ((Binary.F S).p : ℤ) * 2 ^ e :=
          mul_le_mul_of_nonneg_right hn' (Fmt.z_pos e).le
      _ = 2 ^ ((Binary.F S).p + e : ℤ) := by rw [Fmt.z_add]
      _ ≤ _ := Fmt.z_le (by omega)
  have ho := hb.trans_lt (half_le_overflow (S := S))
  refine ⟨⟨⟨n, e, h1, hn.trans (by exact_mod_cast h2), rfl⟩, ?_⟩, ho⟩
  refine hb.trans_lt (zpow_lt_zpow_right₀ (by norm_num) (by omega))

theorem Correct.exact (h : Correct c x) (hx : InFormat S x) (ho : |x| < overflowAt S) : Exactly c x := by
  have hf := h.1.2 ho
  have := (h.2 hf).2 x hx
  rw [sub_self, abs_zero] at this
  exact ⟨hf, sub_eq_zero.1 (abs_eq_zero.1 (le_antisymm this (abs_nonneg _)))⟩
theorem Correct.grid (h : Correct c x) (hx : OnGrid e N x) (hF : Fits S e N) : Exactly c x :=
  h.exact (hx.inFormat hF).1 (hx.inFormat hF).2

theorem correct_zero (h : Exactly c 0) : Correct c 0 := by
  obtain ⟨hf, h0⟩ := h
  refine ⟨⟨fun _ => ?_, fun _ => hf⟩, fun _ => ⟨inFormat hf, fun y _ => by simp [h0]⟩⟩
  rw [abs_zero]; linarith [three_le_overflow (S := S)]
theorem correct_sqrt (ha : IsFinite a) (h0 : 0 ≤ real a) : Correct (Scalar.sqrt a) √(real a) := by
  have hd := den_sqrt a
  unfold IsFinite at ha
  cases h : den a with
  | nan => rw [h] at ha; exact ha.elim
  | inf s => rw [h] at ha; exact ha.elim
  | nzero =>
    rw [h] at hd
    have e : real a = 0 := by unfold real; rw [h]; rfl
    rw [e, Real.sqrt_zero]
    refine correct_zero ⟨?_, ?_⟩
    · unfold IsFinite; rw [hd]; trivial
    · unfold real; rw [hd]; rfl
  | fin x =>
    rw [h] at hd
    have e : real a = x := by unfold real; rw [h]; rfl
    rw [e] at h0 ⊢
    refine correct_finish (s := false) (hd.trans ?_)
    simp [Rounding.sqrt, not_lt.2 h0]

/-- `c` is exactly `x`, a grid number. -/
structure G (e : ℤ) (N : ℕ) (c : S) (x : ℝ) : Prop where
  ex : Exactly c x
  on : OnGrid e N x

namespace G
theorem of (hc : IsFinite c) (h : OnGrid e N (real c)) : G e N c (real c) := ⟨⟨hc, rfl⟩, h⟩
theorem mono (h : G e M c x) (hN : M ≤ N) : G e N c x := ⟨h.ex, h.on.mono hN⟩
theorem congr (h : G e N c x) (hx : x = y) : G e N c y := hx ▸ h
theorem zero : G e N (zero : S) 0 := ⟨⟨finite_zero, real_zero⟩, OnGrid.zero⟩
theorem neg (h : G e N c x) : G e N (-c) (-x) :=
  ⟨⟨finite_neg.2 h.ex.1, by rw [IEEE.real_neg, h.ex.2]⟩, h.on.neg⟩
theorem add (ha : G e M a x) (hb : G e N b y) (hF : Fits S e (M + N)) : G e (M + N) (a + b) (x + y) := by
  refine ⟨?_, ha.on.add hb.on⟩
  have := correct_add ha.ex.1 hb.ex.1
  rw [ha.ex.2, hb.ex.2] at this
  exact this.grid (ha.on.add hb.on) hF
theorem sub (ha : G e M a x) (hb : G e N b y) (hF : Fits S e (M + N)) : G e (M + N) (a - b) (x - y) := by
  refine ⟨?_, ha.on.sub hb.on⟩
  have := correct_sub ha.ex.1 hb.ex.1
  rw [ha.ex.2, hb.ex.2] at this
  exact this.grid (ha.on.sub hb.on) hF
theorem mul (ha : G e M a x) (hb : G f N b y) (hF : Fits S (e + f) (M * N)) : G (e + f) (M * N) (a * b) (x * y) := by
  refine ⟨?_, ha.on.mul hb.on⟩
  have := correct_mul ha.ex.1 hb.ex.1
  rw [ha.ex.2, hb.ex.2] at this
  exact this.grid (ha.on.mul hb.on) hF
theorem div {d : ℤ} {K : ℕ} (ha : G e M a x) (hb : G f N b y) (h0 : y ≠ 0) (h : OnGrid d K (x / y))
    (hF : Fits S d K) : G d K (a / b) (x / y) := by
  refine ⟨?_, h⟩
  have := correct_div ha.ex.1 hb.ex.1 (by rw [hb.ex.2]; exact h0)
  rw [ha.ex.2, hb.ex.2] at this
  exact this.grid h hF
theorem sqrt {d : ℤ} {K : ℕ} (ha : G e M a x) (h0 : 0 ≤ x) (h : OnGrid d K √x) (hF : Fits S d K) :
    G d K (Scalar.sqrt a) √x := by
  refine ⟨?_, h⟩
  have := correct_sqrt ha.ex.1 (by rw [ha.ex.2]; exact h0)
  rw [ha.ex.2] at this
  exact this.grid h hF
theorem exp (h : G e N c x) (he : e = f) : G f N c x := he ▸ h

theorem dot2 {a₁ a₂ b₁ b₂ : S} {x₁ x₂ y₁ y₂ : ℝ} (h₁ : G e M a₁ x₁) (h₂ : G e M a₂ x₂) (k₁ : G f N b₁ y₁)
    (k₂ : G f N b₂ y₂) (hF : Fits S (e + f) (2 * (M * N))) :
    G (e + f) (2 * (M * N)) (a₁ * b₁ + a₂ * b₂) (x₁ * y₁ + x₂ * y₂) :=
  ((h₁.mul k₁ (hF.mono (by omega))).add (h₂.mul k₂ (hF.mono (by omega))) (hF.mono (by omega))).mono (by omega)
theorem dot3 {a₁ a₂ a₃ b₁ b₂ b₃ : S} {x₁ x₂ x₃ y₁ y₂ y₃ : ℝ} (h₁ : G e M a₁ x₁) (h₂ : G e M a₂ x₂) (h₃ : G e M a₃ x₃)
    (k₁ : G f N b₁ y₁) (k₂ : G f N b₂ y₂) (k₃ : G f N b₃ y₃) (hF : Fits S (e + f) (3 * (M * N))) :
    G (e + f) (3 * (M * N)) (a₁ * b₁ + a₂ * b₂ + a₃ * b₃) (x₁ * y₁ + x₂ * y₂ + x₃ * y₃) :=
  ((h₁.dot2 h₂ k₁ k₂ (hF.mono (by omega))).add (h₃.mul k₃ (hF.mono (by omega))) (hF.mono (by omega))).mono
    (by omega)
theorem dot4 {a₁ a₂ a₃ a₄ b₁ b₂ b₃ b₄ : S} {x₁ x₂ x₃ x₄ y₁ y₂ y₃ y₄ : ℝ} (h₁ : G e M a₁ x₁) (h₂ : G e M a₂ x₂)
    (h₃ : G e M a₃ x₃) (h₄ : G e M a₄ x₄)
    (k₁ : G f N b₁ y₁) (k₂ : G f N b₂ y₂) (k₃ : G f N b₃ y₃) (k₄ : G f N b₄ y₄) (hF : Fits S (e + f) (4 * (M * N))) :
    G (e + f) (4 * (M * N)) (a₁ * b₁ + a₂ * b₂ + a₃ * b₃ + a₄ * b₄) (x₁ * y₁ + x₂ * y₂ + x₃ * y₃ + x₄ * y₄) :=
  ((h₁.dot3 h₂ h₃ k₁ k₂ k₃ (hF.mono (by omega))).add (h₄.mul k₄ (hF.mono (by omega))) (hF.mono (by omega))).mono
    (by omega)
theorem two {a₁ a₂ b₁ b₂ : S} {x₁ x₂ y₁ y₂ : ℝ} (h₁ : G e M a₁ x₁) (h₂ : G e M a₂ x₂) (k₁ : G f N b₁ y₁)
    (k₂ : G f N b₂ y₂) (hF : Fits S (e + f) (2 * (M * N))) :
    G (e + f) (2 * (M * N)) (a₁ * b₁ - a₂ * b₂) (x₁ * y₁ - x₂ * y₂) :=
  ((h₁.mul k₁ (hF.mono (by omega))).sub (h₂.mul k₂ (hF.mono (by omega))) (hF.mono (by omega))).mono (by omega)
end G
end
end VecMath
