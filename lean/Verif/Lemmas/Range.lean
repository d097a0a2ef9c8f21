import Verif.Spec.Range
import Verif.Lemmas.Grid
/-! # Bounds on results -/

namespace VecMath
open Scalar IEEE

variable {S : Type} [Scalar S] [IEEE S] [Binary S] {e f : ℤ} {M N : ℕ} {x y : ℝ} {a b c d : S}

theorem Room.mono (h : Room S e N) (hM : M ≤ N) : Room S e M :=
  ⟨h.1, hM.trans h.2.1, (mul_le_mul_of_nonneg_right (by exact_mod_cast hM) (Fmt.z_pos e).le).trans h.2.2⟩

theorem Room.inFormat (h : Room S e N) : InFormat S ((N : ℝ) * 2 ^ e) ∧ (N : ℝ) * 2 ^ e < overflowAt S := by
  have h0 : 0 ≤ (N : ℝ) * 2 ^ e := mul_nonneg (Nat.cast_nonneg _) (Fmt.z_pos e).le
  refine ⟨⟨⟨N, e, h.1, ?_, by push_cast; rfl⟩, ?_⟩, h.2.2.trans_lt half_le_overflow⟩
  · rw [abs_of_nonneg (by positivity)]; exact_mod_cast h.2.1
  · rw [abs_of_nonneg h0]
    exact h.2.2.trans_lt (by
      have : (2 : ℝ) ^ (Binary.F S).emax = 2 ^ ((Binary.F S).emax - 1) * 2 := by
        rw [← zpow_add_one₀ (by norm_num)]; congr 1; ring
      rw [this]
      linarith [Fmt.z_pos ((Binary.F S).emax - 1)])

/-- Rounding does not leave an interval whose ends are numbers of the format. -/
theorem Correct.upTo (h : Correct c x) (hx : |x| ≤ N * 2 ^ e) (hR : Room S e N) : UpTo (N * 2 ^ e) c := by
  obtain ⟨hF, hO⟩ := hR.inFormat
  have hf := h.1.2 (hx.trans_lt hO)
  refine ⟨hf, ?_⟩
  have hn := (h.2 hf).2
  have hneg : InFormat S (-((N : ℝ) * 2 ^ e)) := by
    obtain ⟨⟨m, k, h1, h2, h3⟩, h4⟩ := hF
    exact ⟨⟨-m, k, h1, by rwa [abs_neg], by rw [h3]; push_cast; ring⟩, by rwa [abs_neg]⟩
  rw [abs_le] at hx ⊢
  constructor
  · by_contra hc
    push Not at hc
    have := hn _ hneg
    rw [abs_of_neg (by linarith), abs_of_nonpos (by linarith)] at this
    linarith
  · by_contra hc
    push Not at hc
    have := hn _ hF
    rw [abs_of_pos (by linarith), abs_of_nonneg (by linarith)] at this
    linarith

namespace UpTo
omit [Binary S] in
theorem mono {B C : ℝ} (h : UpTo B a) (hC : B ≤ C) : UpTo C a := ⟨h.1, h.2.trans hC⟩
omit [Binary S] in
theorem nat (h : UpTo (M * 2 ^ e) a) (hN : M ≤ N) : UpTo (N * 2 ^ e) a :=
  h.mono (mul_le_mul_of_nonneg_right (by exact_mod_cast hN) (Fmt.z_pos e).le)
omit [Binary S] in
theorem pow (h : UpTo (2 ^ e) a) : UpTo ((1 : ℕ) * 2 ^ e) a := by simpa using h
omit [Binary S] in
theorem neg {B : ℝ} (h : UpTo B a) : UpTo B (-a) := ⟨finite_neg.2 h.1, by rw [IEEE.real_neg, abs_neg]; exact h.2⟩
theorem add (ha : UpTo (M * 2 ^ e) a) (hb : UpTo (N * 2 ^ e) b) (hR : Room S e (M + N)) : UpTo ((M + N : ℕ) * 2 ^ e) (a + b) :=
  (correct_add ha.1 hb.1).upTo ((abs_add_le _ _).trans (by push_cast; linarith [ha.2, hb.2])) hR
theorem sub (ha : UpTo (M * 2 ^ e) a) (hb : UpTo (N * 2 ^ e) b) (hR : Room S e (M + N)) : UpTo ((M + N : ℕ) * 2 ^ e) (a - b) :=
  (correct_sub ha.1 hb.1).upTo ((abs_sub _ _).trans (by push_cast; linarith [ha.2, hb.2])) hR
theorem mul (ha : UpTo (M * 2 ^ e) a) (hb : UpTo (N * 2 ^ f) b) (hR : Room S (e + f) (M * N)) :
    UpTo ((M * N : ℕ) * 2 ^ (e + f)) (a * b) :=
  (correct_mul ha.1 hb.1).upTo (by
    rw [abs_mul]
    refine (mul_le_mul ha.2 hb.2 (abs_nonneg _) (mul_nonneg (Nat.cast_nonneg _) (Fmt.z_pos e).le)).trans (le_of_eq ?_)
    rw [Fmt.z_add]; push_cast; ring) hR
theorem div (ha : UpTo (M * 2 ^ e) a) (hb : IsFinite b) (h : 2 ^ (-f) ≤ |real b|) (hR : Room S (e + f) M) :
    UpTo (M * 2 ^ (e + f)) (a / b) := by
  have hp : 0 < |real b| := (Fmt.z_pos (-f)).trans_le h
  refine (correct_div ha.1 hb (abs_pos.1 hp)).upTo ?_ hR
  rw [abs_div, div_le_iff₀ hp, Fmt.z_add]
  have e1 : (2 : ℝ) ^ f * 2 ^ (-f) = 1 := by rw [← Fmt.z_add]; simp
  calc |real a| ≤ M * 2 ^ e := ha.2
    _ = M * (2 ^ e * 2 ^ f) * 2 ^ (-f) := by rw [mul_assoc, mul_assoc ((2 : ℝ) ^ e), e1, mul_one]
    _ ≤ _ := mul_le_mul_of_nonneg_left h (by positivity)
theorem sqrt (ha : UpTo (M * 2 ^ (2 * e)) a) (h0 : 0 ≤ real a) (hN : M ≤ N ^ 2) (hR : Room S e N) : UpTo (N * 2 ^ e) (Scalar.sqrt a) := by
  refine (correct_sqrt ha.1 h0).upTo ?_ hR
  rw [abs_of_nonneg (Real.sqrt_nonneg _)]
  refine Real.sqrt_le_iff.2 ⟨by positivity, ?_⟩
  have := ha.2
  rw [abs_of_nonneg h0] at this
  refine this.trans ?_
  have e2 : (2 : ℝ) ^ (2 * e) = (2 ^ e) ^ 2 := by rw [← zpow_natCast, ← zpow_mul]; congr 1; push_cast; ring
  rw [mul_pow, e2]
  exact mul_le_mul_of_nonneg_right (by exact_mod_cast hN) (by positivity)
theorem dot2 {a₁ a₂ b₁ b₂ : S} (h₁ : UpTo (M * 2 ^ e) a₁) (h₂ : UpTo (M * 2 ^ e) a₂) (k₁ : UpTo (N * 2 ^ f) b₁)
    (k₂ : UpTo (N * 2 ^ f) b₂) (hF : Room S (e + f) (2 * (M * N))) :
    UpTo ((2 * (M * N) : ℕ) * 2 ^ (e + f)) (a₁ * b₁ + a₂ * b₂) :=
  ((h₁.mul k₁ (hF.mono (by omega))).add (h₂.mul k₂ (hF.mono (by omega))) (hF.mono (by omega))).nat (by omega)
theorem dot3 {a₁ a₂ a₃ b₁ b₂ b₃ : S} (h₁ : UpTo (M * 2 ^ e) a₁) (h₂ : UpTo (M * 2 ^ e) a₂) (h₃ : UpTo (M * 2 ^ e) a₃)
    (k₁ : UpTo (N * 2 ^ f) b₁) (k₂ : UpTo (N * 2 ^ f) b₂) (k₃ : UpTo (N * 2 ^ f) b₃) (hF : Room S (e + f) (3 * (M * N))) :
    UpTo ((3 * (M * N) : ℕ) * 2 ^ (e + f)) (a₁ * b₁ + a₂ * b₂ + a₃ * b₃) :=
  ((h₁.dot2 h₂ k₁ k₂ (hF.mono (by omega))).add (h₃.mul k₃ (hF.mono (by omega))) (hF.mono (by omega))).nat (by omega)
theorem dot4 {a₁ a₂ a₃ a₄ b₁ b₂ b₃ b₄ : S} (h₁ : UpTo (M * 2 ^ e) a₁) (h₂ : UpTo (M * 2 ^ e) a₂)
    (h₃ : UpTo (M * 2 ^ e) a₃) (h₄ : UpTo (M * 2 ^ e) a₄)
    (k₁ : UpTo (N * 2 ^ f) b₁) (k₂ : UpTo (N * 2 ^ f) b₂) (k₃ : UpTo (N * 2 ^ f) b₃) (k₄ : UpTo (N * 2 ^ f) b₄)
    (hF : Room S (e + f) (4 * (M * N))) :
    UpTo ((4 * (M * N) : ℕ) * 2 ^ (e + f)) (a₁ * b₁ + a₂ * b₂ + a₃ * b₃ + a₄ * b₄) :=
  ((h₁.dot3 h₂ h₃ k₁ k₂ k₃ (hF.mono (by omega))).add (h₄.mul k₄ (hF.mono (by omega))) (hF.mono (by omega))).nat (by omega)
theorem two {a₁ a₂ b₁ b₂ : S} (h₁ : UpTo (M * 2 ^ e) a₁) (h₂ : UpTo (M * 2 ^ e) a₂) (k₁ : UpTo (N * 2 ^ f) b₁)
    (k₂ : UpTo (N * 2 ^ f) b₂) (hF : Room S (e + f) (2 * (M * N))) :
    UpTo ((2 * (M * N) : ℕ) * 2 ^ (e + f)) (a₁ * b₁ - a₂ * b₂) :=
  ((h₁.mul k₁ (hF.mono (by omega))).sub (h₂.mul k₂ (hF.mono (by omega))) (hF.mono (by omega))).nat (by omega)
end UpTo
end VecMath
