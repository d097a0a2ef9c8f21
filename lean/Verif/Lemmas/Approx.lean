import Verif.Lemmas.Round
/-! # A calculus of accumulated rounding errors -/

open Classical

namespace VecMath
open Scalar IEEE

variable {S : Type} [Scalar S] [IEEE S] [Binary S]

/-- The computed `c` agrees with the exact `x`, whose terms have absolute values summing to at most `A`, up to
`k` roundings relative to `A` and an absolute underflow error `t`. -/
def Approx (k : ℕ) (t : ℝ) (c : S) (x A : ℝ) : Prop :=
  |x| ≤ A ∧ |real c - x| ≤ ((1 + uro S) ^ k - 1) * A + t

namespace Approx
variable {k l : ℕ} {a b c : S} {x y A B s t : ℝ}

theorem one_le_pow (k : ℕ) : 1 ≤ (1 + uro S) ^ k :=
  one_le_pow₀ (by have := uro_pos (S := S); linarith)

theorem nonneg (h : Approx k t c x A) : 0 ≤ A := (abs_nonneg _).trans h.1
theorem exact (c : S) : Approx 0 0 c (real c) |real c| := by simp [Approx]
theorem mono (h : Approx k s c x A) (hk : k ≤ l) (hs : s ≤ t) : Approx l t c x A := by
  refine ⟨h.1, h.2.trans (add_le_add ?_ hs)⟩
  refine mul_le_mul_of_nonneg_right ?_ h.nonneg
  have := pow_le_pow_right₀ (show 1 ≤ 1 + uro S by have := uro_pos (S := S); linarith) hk
  linarith
theorem congr (h : Approx k t c x A) (hx : x = y) (hA : A = B) : Approx k t c y B := by subst hx hA; exact h
theorem size (h : Approx k t c x A) : |real c| ≤ (1 + uro S) ^ k * A + t := by
  have := abs_add_le (real c - x) x
  rw [sub_add_cancel] at this
  have h1 := h.1
  have h2 := h.2
  linarith

theorem add (ha : Approx k s a x A) (hb : Approx k t b y B) (h : IsFinite (a + b)) :
    Approx (k + 1) ((1 + uro S) * (s + t)) (a + b) (x + y) (A + B) := by
  refine ⟨(abs_add_le x y).trans (add_le_add ha.1 hb.1), ?_⟩
  have h1 := err_add_of h ha.2 hb.2
  have hu := uro_pos (S := S)
  have h3 : uro S * |x + y| ≤ uro S * (A + B) :=
    mul_le_mul_of_nonneg_left ((abs_add_le x y).trans (add_le_add ha.1 hb.1)) hu.le
  refine h1.trans ?_
  have e : (1 + uro S) * (((1 + uro S) ^ k - 1) * A + s + (((1 + uro S) ^ k - 1) * B + t)) + uro S * (A + B) =
      ((1 + uro S) ^ (k + 1) - 1) * (A + B) + (1 + uro S) * (s + t) := by ring
  linarith
theorem sub (ha : Approx k s a x A) (hb : Approx k t b y B) (h : IsFinite (a - b)) :
    Approx (k + 1) ((1 + uro S) * (s + t)) (a - b) (x - y) (A + B) := by
  refine ⟨(abs_sub x y).trans (add_le_add ha.1 hb.1), ?_⟩
  have h1 := err_sub_of h ha.2 hb.2
  have hu := uro_pos (S := S)
  have h3 : uro S * |x - y| ≤ uro S * (A + B) :=
    mul_le_mul_of_nonneg_left ((abs_sub x y).trans (add_le_add ha.1 hb.1)) hu.le
  refine h1.trans ?_
  have e : (1 + uro S) * (((1 + uro S) ^ k - 1) * A + s + (((1 + uro S) ^ k - 1) * B + t)) + uro S * (A + B) =
      ((1 + uro S) ^ (k + 1) - 1) * (A + B) + (1 + uro S) * (s + t) := by ring
  linarith
theorem mul (ha : Approx k s a x A) (hb : Approx l t b y B) (h : IsFinite (a * b)) :
    Approx (k + l + 1) ((1 + uro S) * ((1 + uro S) ^ k * A * t + (1 + uro S) ^ l * B * s + s * t) + tiny S)
      (a * b) (x * y) (A * B) := by
  have hA := ha.nonneg
  have hB := hb.nonneg
  have hu := uro_pos (S := S)
  have hxy : |x * y| ≤ A * B := by
    rw [abs_mul]; exact mul_le_mul ha.1 hb.1 (abs_nonneg _) hA
  refine ⟨hxy, ?_⟩
  have h1 := err_mul h
  set w := 1 + uro S with hw
  have wk : 1 ≤ w ^ k := one_le_pow (S := S) k
  have wl : 1 ≤ w ^ l := one_le_pow (S := S) l
  -- exact product of the computed values
  have e1 : real a * real b - x * y = (real a - x) * (real b - y) + (real a - x) * y + x * (real b - y) := by ring
  have h2 : |real a * real b - x * y| ≤ (w ^ (k + l) - 1) * (A * B) + (w ^ k * A * t + w ^ l * B * s + s * t) := by
    rw [e1]
    have p1 : |(real a - x) * (real b - y)| ≤ ((w ^ k - 1) * A + s) * ((w ^ l - 1) * B + t) := by
      rw [abs_mul]; exact mul_le_mul ha.2 hb.2 (abs_nonneg _) ((abs_nonneg _).trans ha.2)
    have p2 : |(real a - x) * y| ≤ ((w ^ k - 1) * A + s) * B := by
      rw [abs_mul]; exact mul_le_mul ha.2 hb.1 (abs_nonneg _) ((abs_nonneg _).trans ha.2)
    have p3 : |x * (real b - y)| ≤ A * ((w ^ l - 1) * B + t) := by
      rw [abs_mul]; exact mul_le_mul ha.1 hb.2 (abs_nonneg _) hA
    have := (abs_add_le ((real a - x) * (real b - y) + (real a - x) * y) (x * (real b - y))).trans
      (add_le_add_left (abs_add_le ((real a - x) * (real b - y)) ((real a - x) * y)) _)
    have e : ((w ^ k - 1) * A + s) * ((w ^ l - 1) * B + t) + ((w ^ k - 1) * A + s) * B + A * ((w ^ l - 1) * B + t) =
      (w ^ (k + l) - 1) * (A * B) + (w ^ k * A * t + w ^ l * B * s + s * t) := by ring
    linarith
  have h3 : |real a * real b| ≤ w ^ (k + l) * (A * B) + (w ^ k * A * t + w ^ l * B * s + s * t) := by
    have := abs_add_le (real a * real b - x * y) (x * y)
    rw [sub_add_cancel] at this; linarith
  have h4 := abs_add_le (real (a * b) - real a * real b) (real a * real b - x * y)
  rw [sub_add_sub_cancel] at h4
  have h5 := mul_le_mul_of_nonneg_left h3 hu.le
  have e2 : (w ^ (k + l) - 1) * (A * B) + (w ^ k * A * t + w ^ l * B * s + s * t) +
      uro S * (w ^ (k + l) * (A * B) + (w ^ k * A * t + w ^ l * B * s + s * t)) =
      (w ^ (k + l + 1) - 1) * (A * B) + w * (w ^ k * A * t + w ^ l * B * s + s * t) := by
    rw [pow_succ, hw]; ring
  linarith
/-- Product with an exact factor. -/
theorem mul_exact (ha : Approx k s a x A) (h : IsFinite (a * b)) :
    Approx (k + 1) ((1 + uro S) * (|real b| * s) + tiny S) (a * b) (x * real b) (A * |real b|) := by
  refine (ha.mul (exact b) h).mono le_rfl (le_of_eq ?_)
  simp
theorem exact_mul (hb : Approx k s b x A) (h : IsFinite (a * b)) :
    Approx (k + 1) ((1 + uro S) * (|real a| * s) + tiny S) (a * b) (real a * x) (|real a| * A) := by
  refine ((exact a).mul hb h).mono (by omega) (le_of_eq ?_)
  simp
theorem prod (h : IsFinite (a * b)) : Approx 1 (tiny S) (a * b) (real a * real b) (|real a| * |real b|) := by
  refine ((exact a).mul_exact h).mono le_rfl (le_of_eq ?_)
  simp
theorem prod3 {M : ℝ} (h : IsFinite (a * b * c)) (hM : |real c| ≤ M) :
    Approx 2 ((1 + uro S) * (1 + M) * tiny S) (a * b * c) (real a * real b * real c)
      (|real a| * |real b| * |real c|) := by
  refine ((prod (finite_of_mul h).1).mul_exact h).mono le_rfl ?_
  have hu := uro_pos (S := S)
  have ht := tiny_pos (S := S)
  have : (1 + uro S) * (|real c| * tiny S) ≤ (1 + uro S) * (M * tiny S) := by gcongr
  nlinarith [mul_pos hu ht]
/-- Accumulating one more term. -/
theorem acc {n j : ℕ} (ht : 0 ≤ t) (hlk : l ≤ k) (ha : Approx k (n * (1 + uro S) ^ j * t) a x A) (hb : Approx l t b y B)
    (h : IsFinite (a + b)) :
    Approx (k + 1) ((n + 1 : ℕ) * (1 + uro S) ^ (j + 1) * t) (a + b) (x + y) (A + B) := by
  refine (ha.add (hb.mono hlk le_rfl) h).mono le_rfl ?_
  have w := one_le_pow (S := S) j
  have hu := uro_pos (S := S)
  push_cast
  have : 0 ≤ ((1 + uro S) ^ j - 1) * ((1 + uro S) * t) := mul_nonneg (by linarith) (mul_nonneg (by linarith) ht)
  rw [pow_succ]; linarith
theorem acc_sub {n j : ℕ} (ht : 0 ≤ t) (hlk : l ≤ k) (ha : Approx k (n * (1 + uro S) ^ j * t) a x A) (hb : Approx l t b y B)
    (h : IsFinite (a - b)) :
    Approx (k + 1) ((n + 1 : ℕ) * (1 + uro S) ^ (j + 1) * t) (a - b) (x - y) (A + B) := by
  refine (ha.sub (hb.mono hlk le_rfl) h).mono le_rfl ?_
  have w := one_le_pow (S := S) j
  have hu := uro_pos (S := S)
  push_cast
  have : 0 ≤ ((1 + uro S) ^ j - 1) * ((1 + uro S) * t) := mul_nonneg (by linarith) (mul_nonneg (by linarith) ht)
  rw [pow_succ]; linarith
theorem start (h : Approx k t a x A) : Approx k ((1 : ℕ) * (1 + uro S) ^ 0 * t) a x A := by simpa using h

/-- The six-term determinant expression. -/
theorem six {a1 a2 a3 b1 b2 b3 c1 c2 c3 d1 d2 d3 e1 e2 e3 f1 f2 f3 : S} {M : ℝ} (hM : 0 ≤ M)
    (h : IsFinite (a1 * a2 * a3 + b1 * b2 * b3 + c1 * c2 * c3 - d1 * d2 * d3 - e1 * e2 * e3 - f1 * f2 * f3))
    (ha : |real a3| ≤ M) (hb : |real b3| ≤ M) (hc : |real c3| ≤ M) (hd : |real d3| ≤ M) (he : |real e3| ≤ M)
    (hf : |real f3| ≤ M) :
    Approx 7 (6 * (1 + uro S) ^ 6 * (1 + M) * tiny S)
      (a1 * a2 * a3 + b1 * b2 * b3 + c1 * c2 * c3 - d1 * d2 * d3 - e1 * e2 * e3 - f1 * f2 * f3)
      (real a1 * real a2 * real a3 + real b1 * real b2 * real b3 + real c1 * real c2 * real c3
        - real d1 * real d2 * real d3 - real e1 * real e2 * real e3 - real f1 * real f2 * real f3)
      (|real a1| * |real a2| * |real a3| + |real b1| * |real b2| * |real b3| + |real c1| * |real c2| * |real c3|
        + |real d1| * |real d2| * |real d3| + |real e1| * |real e2| * |real e3| + |real f1| * |real f2| * |real f3|) := by
  have h5 := finite_of_sub h
  have h4 := finite_of_sub h5.1
  have h3 := finite_of_sub h4.1
  have h2 := finite_of_add h3.1
  have h1 := finite_of_add h2.1
  have t0 : 0 ≤ (1 + uro S) * (1 + M) * tiny S :=
    mul_nonneg (mul_nonneg (by have := uro_pos (S := S); linarith) (by linarith)) (tiny_pos (S := S)).le
  have := acc_sub t0 (by norm_num) (acc_sub t0 (by norm_num) (acc_sub t0 (by norm_num) (acc t0 (by norm_num)
    (acc t0 le_rfl (prod3 h1.1 ha).start (prod3 h1.2 hb) h2.1) (prod3 h2.2 hc) h3.1)
    (prod3 h3.2 hd) h4.1) (prod3 h4.2 he) h5.1) (prod3 h5.2 hf) h
  refine this.mono le_rfl (le_of_eq ?_)
  push_cast; ring

end Approx
end VecMath
