import Verif.Props.FloatDrift
import Verif.Lemmas.Rotation
/-!
# Layer F: the rotation constructors (C72)
-/

open Classical

namespace VecMath
open Scalar IEEE

variable {S : Type} [Scalar S] [IEEE S]

/-! ## The exact rotations -/

theorem turn_orth (θ : ℝ) : Orthogonal (turn θ) := by
  have h := Real.sin_sq_add_cos_sq θ
  constructor
  · ext i j
    fin_cases i <;> fin_cases j <;> simp [turn, Matrix.mul_apply, Fin.sum_univ_three] <;> nlinarith
  · ext i j
    fin_cases i <;> fin_cases j <;> simp [turn, Matrix.mul_apply, Fin.sum_univ_three] <;> nlinarith
theorem turn_last (θ : ℝ) : turn θ (Fin.last 2) = Pi.single (Fin.last 2) 1 := by
  funext j; fin_cases j <;> rfl
theorem turnAbout_last (k : Fin 3 → ℝ) (θ : ℝ) : turnAbout k θ (Fin.last 3) = Pi.single (Fin.last 3) 1 := by
  funext j; fin_cases j <;> rfl
/-- The specification is Rodrigues' matrix. -/
theorem turnAbout_block (k : Fin 3 → ℝ) (θ : ℝ) (i j : Fin 3) : turnAbout k θ i.castSucc j.castSucc = rod k θ i j := by
  fin_cases i <;> fin_cases j <;>
    simp [turnAbout, rod, crossM, Matrix.vecMulVec_apply]
theorem turnAbout_orth (k : Fin 3 → ℝ) (θ : ℝ) (hk : k 0 ^ 2 + k 1 ^ 2 + k 2 ^ 2 = 1) : Orthogonal (turnAbout k θ) := by
  have hd : k ⬝ᵥ k = 1 := by rw [← hk]; simp [dotProduct, Fin.sum_univ_three, sq]
  have h1 := rod_orth hd θ
  have e1 := fun i j => congrFun (congrFun h1 i) j
  have lc : ∀ i : Fin 3, turnAbout k θ i.castSucc (Fin.last 3) = 0 := fun i => by fin_cases i <;> rfl
  have lr : ∀ i : Fin 3, turnAbout k θ (Fin.last 3) i.castSucc = 0 := fun i => by fin_cases i <;> rfl
  have ll : turnAbout k θ (Fin.last 3) (Fin.last 3) = 1 := rfl
  have key : (turnAbout k θ).transpose * turnAbout k θ = 1 := by
    ext i j
    rw [Matrix.mul_apply, Fin.sum_univ_castSucc]
    simp only [Matrix.transpose_apply]
    refine Fin.lastCases ?_ (fun i => ?_) i
    · refine Fin.lastCases ?_ (fun j => ?_) j
      · simp only [lc, ll, mul_zero, Finset.sum_const_zero, mul_one, zero_add, Matrix.one_apply_eq]
      · simp only [lc, ll, lr, zero_mul, Finset.sum_const_zero, mul_zero, add_zero]
        exact (Matrix.one_apply_ne (Fin.castSucc_lt_last j).ne').symm
    · refine Fin.lastCases ?_ (fun j => ?_) j
      · simp only [lc, ll, lr, zero_mul, Finset.sum_const_zero, mul_zero, add_zero]
        exact (Matrix.one_apply_ne (Fin.castSucc_lt_last i).ne).symm
      · have := e1 i j
        rw [Matrix.mul_apply] at this
        simp only [turnAbout_block, lr]
        simp only [Matrix.transpose_apply] at this
        rw [this]; simp [Matrix.one_apply]
  exact ⟨key, mul_eq_one_comm.1 key⟩

/-! ## The constructors that need no rounding -/

theorem TrigWithin.nonneg {δ : ℝ} {a : S} (h : TrigWithin δ a) : 0 ≤ δ := (abs_nonneg _).trans h.sin
theorem TrigWithin.sq {δ : ℝ} {a : S} (h : TrigWithin δ a) :
    (real (Scalar.sin a) - Real.sin (real a)) ^ 2 ≤ δ ^ 2 ∧ (real (Scalar.cos a) - Real.cos (real a)) ^ 2 ≤ δ ^ 2 :=
  ⟨sq_le_sq' (abs_le.1 h.sin).1 (abs_le.1 h.sin).2, sq_le_sq' (abs_le.1 h.cos).1 (abs_le.1 h.cos).2⟩
theorem near_transpose3 {m : Matrix3x3 S} {Q : Matrix (Fin 3) (Fin 3) ℝ} {ε : ℝ} (h : m.Near Q ε) :
    m.transpose.Near Q.transpose ε := by
  obtain ⟨h1, h2⟩ := h
  have e : m.transpose.toReal = m.toReal.transpose := by
    ext i j; fin_cases i <;> fin_cases j <;> rfl
  refine ⟨?_, ?_⟩
  · rw [Matrix3x3.allFinite, forall_lt_9] at *
    obtain ⟨a0, a1, a2, a3, a4, a5, a6, a7, a8⟩ := h1
    exact ⟨a0, a3, a6, a1, a4, a7, a2, a5, a8⟩
  · rw [e, ← Matrix.transpose_sub, size_transpose]; exact h2
theorem near_transpose4 {m : Matrix4x4 S} {Q : Matrix (Fin 4) (Fin 4) ℝ} {ε : ℝ} (h : m.Near Q ε) :
    m.transpose.Near Q.transpose ε := by
  obtain ⟨h1, h2⟩ := h
  have e : m.transpose.toReal = m.toReal.transpose := by
    ext i j; fin_cases i <;> fin_cases j <;> rfl
  refine ⟨?_, ?_⟩
  · rw [Matrix4x4.allFinite, forall_lt_16] at *
    obtain ⟨a0, a1, a2, a3, a4, a5, a6, a7, a8, a9, a10, a11, a12, a13, a14, a15⟩ := h1
    exact ⟨a0, a4, a8, a12, a1, a5, a9, a13, a2, a6, a10, a14, a3, a7, a11, a15⟩
  · rw [e, ← Matrix.transpose_sub, size_transpose]; exact h2

/-- **C72** `rotate` (2D): the forward matrix is within `2δ` in size of the exact rotation, the inverse is the transpose,
and the last row is exactly `0 0 1`. -/
theorem C72_rotate2 {δ : ℝ} (a : S) (h : TrigWithin δ a) :
    (Transform2.rotate a).forward.Near (turn (real a)) (2 * δ) ∧
    (Transform2.rotate a).inverse.Near (turn (real a)).transpose (2 * δ) ∧
    (∀ (i : ℕ) (hi : i < 9), Same (Transform2.rotate a).inverse.m[i] (Transform2.rotate a).forward.transpose.m[i]) ∧
    (Transform2.rotate a).forward.toReal 2 = ![0, 0, 1] ∧
    Orthogonal (turn (real a)) ∧ turn (real a) (Fin.last 2) = Pi.single (Fin.last 2) 1 := by
  have n : (Transform2.rotate a).forward.Near (turn (real a)) (2 * δ) := by
    constructor
    · rw [Matrix3x3.allFinite, forall_lt_9]
      exact ⟨h.finite_cos, finite_neg.2 h.finite_sin, finite_zero, h.finite_sin, h.finite_cos, finite_zero, finite_zero,
        finite_zero, finite_one⟩
    · refine Real.sqrt_le_iff.2 ⟨by have := h.nonneg; linarith, ?_⟩
      have e : (Transform2.rotate a).forward.toReal =
          !![real (Scalar.cos a), -real (Scalar.sin a), 0; real (Scalar.sin a), real (Scalar.cos a), 0; 0, 0, 1] := by
        ext i j
        fin_cases i <;> fin_cases j <;> first | rfl | exact IEEE.real_neg _ | exact real_zero | exact real_one
      rw [e]
      have := h.sq
      simp only [Fin.sum_univ_three, Matrix.sub_apply, turn]
      simp
      nlinarith
  refine ⟨n, near_transpose3 n, fun i hi => rfl, ?_, turn_orth _, turn_last _⟩
  funext j
  fin_cases j
  exacts [real_zero, real_zero, real_one]

/-- **C72** `rotate_x`. -/
theorem C72_rotate_x {δ : ℝ} (a : S) (h : TrigWithin δ a) :
    (Transform3.rotateX a).forward.Near (turnAbout ![1, 0, 0] (real a)) (2 * δ) ∧
    (Transform3.rotateX a).inverse.Near (turnAbout ![1, 0, 0] (real a)).transpose (2 * δ) ∧
    (∀ (i : ℕ) (hi : i < 16), Same (Transform3.rotateX a).inverse.m[i] (Transform3.rotateX a).forward.transpose.m[i]) ∧
    (Transform3.rotateX a).forward.toReal 3 = ![0, 0, 0, 1] ∧
    Orthogonal (turnAbout ![1, 0, 0] (real a)) ∧ turnAbout ![1, 0, 0] (real a) (Fin.last 3) = Pi.single (Fin.last 3) 1 := by
  have n : (Transform3.rotateX a).forward.Near (turnAbout ![1, 0, 0] (real a)) (2 * δ) := by
    constructor
    · rw [Matrix4x4.allFinite, forall_lt_16]
      exact ⟨finite_one, finite_zero, finite_zero, finite_zero, finite_zero, h.finite_cos, finite_neg.2 h.finite_sin, finite_zero, finite_zero, h.finite_sin, h.finite_cos, finite_zero, finite_zero, finite_zero, finite_zero, finite_one⟩
    · refine Real.sqrt_le_iff.2 ⟨by have := h.nonneg; linarith, ?_⟩
      have e : (Transform3.rotateX a).forward.toReal =
          !![1, 0, 0, 0; 0, real (Scalar.cos a), -real (Scalar.sin a), 0; 0, real (Scalar.sin a), real (Scalar.cos a), 0; 0, 0, 0, 1] := by
        ext i j
        fin_cases i <;> fin_cases j <;> first | rfl | exact IEEE.real_neg _ | exact real_zero | exact real_one
      rw [e]
      have := h.sq
      simp only [Fin.sum_univ_four, Matrix.sub_apply, turnAbout]
      simp
      nlinarith
  refine ⟨n, near_transpose4 n, fun i hi => rfl, ?_, turnAbout_orth _ _ (by simp), turnAbout_last _ _⟩
  funext j
  fin_cases j
  exacts [real_zero, real_zero, real_zero, real_one]
/-- **C72** `rotate_y`. -/
theorem C72_rotate_y {δ : ℝ} (a : S) (h : TrigWithin δ a) :
    (Transform3.rotateY a).forward.Near (turnAbout ![0, 1, 0] (real a)) (2 * δ) ∧
    (Transform3.rotateY a).inverse.Near (turnAbout ![0, 1, 0] (real a)).transpose (2 * δ) ∧
    (∀ (i : ℕ) (hi : i < 16), Same (Transform3.rotateY a).inverse.m[i] (Transform3.rotateY a).forward.transpose.m[i]) ∧
    (Transform3.rotateY a).forward.toReal 3 = ![0, 0, 0, 1] ∧
    Orthogonal (turnAbout ![0, 1, 0] (real a)) ∧ turnAbout ![0, 1, 0] (real a) (Fin.last 3) = Pi.single (Fin.last 3) 1 := by
  have n : (Transform3.rotateY a).forward.Near (turnAbout ![0, 1, 0] (real a)) (2 * δ) := by
    constructor
    · rw [Matrix4x4.allFinite, forall_lt_16]
      exact ⟨h.finite_cos, finite_zero, h.finite_sin, finite_zero, finite_zero, finite_one, finite_zero, finite_zero, finite_neg.2 h.finite_sin, finite_zero, h.finite_cos, finite_zero, finite_zero, finite_zero, finite_zero, finite_one⟩
    · refine Real.sqrt_le_iff.2 ⟨by have := h.nonneg; linarith, ?_⟩
      have e : (Transform3.rotateY a).forward.toReal =
          !![real (Scalar.cos a), 0, real (Scalar.sin a), 0; 0, 1, 0, 0; -real (Scalar.sin a), 0, real (Scalar.cos a), 0; 0, 0, 0, 1] := by
        ext i j
        fin_cases i <;> fin_cases j <;> first | rfl | exact IEEE.real_neg _ | exact real_zero | exact real_one
      rw [e]
      have := h.sq
      simp only [Fin.sum_univ_four, Matrix.sub_apply, turnAbout]
      simp
      nlinarith
  refine ⟨n, near_transpose4 n, fun i hi => rfl, ?_, turnAbout_orth _ _ (by simp), turnAbout_last _ _⟩
  funext j
  fin_cases j
  exacts [real_zero, real_zero, real_zero, real_one]
/-- **C72** `rotate_z`. -/
theorem C72_rotate_z {δ : ℝ} (a : S) (h : TrigWithin δ a) :
    (Transform3.rotateZ a).forward.Near (turnAbout ![0, 0, 1] (real a)) (2 * δ) ∧
    (Transform3.rotateZ a).inverse.Near (turnAbout ![0, 0, 1] (real a)).transpose (2 * δ) ∧
    (∀ (i : ℕ) (hi : i < 16), Same (Transform3.rotateZ a).inverse.m[i] (Transform3.rotateZ a).forward.transpose.m[i]) ∧
    (Transform3.rotateZ a).forward.toReal 3 = ![0, 0, 0, 1] ∧
    Orthogonal (turnAbout ![0, 0, 1] (real a)) ∧ turnAbout ![0, 0, 1] (real a) (Fin.last 3) = Pi.single (Fin.last 3) 1 := by
  have n : (Transform3.rotateZ a).forward.Near (turnAbout ![0, 0, 1] (real a)) (2 * δ) := by
    constructor
    · rw [Matrix4x4.allFinite, forall_lt_16]
      exact ⟨h.finite_cos, finite_neg.2 h.finite_sin, finite_zero, finite_zero, h.finite_sin, h.finite_cos, finite_zero, finite_zero, finite_zero, finite_zero, finite_one, finite_zero, finite_zero, finite_zero, finite_zero, finite_one⟩
    · refine Real.sqrt_le_iff.2 ⟨by have := h.nonneg; linarith, ?_⟩
      have e : (Transform3.rotateZ a).forward.toReal =
          !![real (Scalar.cos a), -real (Scalar.sin a), 0, 0; real (Scalar.sin a), real (Scalar.cos a), 0, 0; 0, 0, 1, 0; 0, 0, 0, 1] := by
        ext i j
        fin_cases i <;> fin_cases j <;> first | rfl | exact IEEE.real_neg _ | exact real_zero | exact real_one
      rw [e]
      have := h.sq
      simp only [Fin.sum_univ_four, Matrix.sub_apply, turnAbout]
      simp
      nlinarith
  refine ⟨n, near_transpose4 n, fun i hi => rfl, ?_, turnAbout_orth _ _ (by simp), turnAbout_last _ _⟩
  funext j
  fin_cases j
  exacts [real_zero, real_zero, real_zero, real_one]

/-! ## Rotation about an arbitrary axis -/

section
variable [Binary S]

theorem normalize_rel {u n x L : ℝ} (hu0 : 0 < u) (hu : u ≤ 1 / 32) (hL : 0 < L) (hs : 0 ≤ n * x)
    (h1 : (1 - u) ^ 2 / (1 + u) ^ 5 * (x ^ 2 / L) ≤ n ^ 2) (h2 : n ^ 2 ≤ (1 + u) ^ 2 / (1 - u) ^ 5 * (x ^ 2 / L)) :
    |n - x / √L| ≤ ((1 + u) ^ 4 - 1) * |x / √L| := by
  set k := x / √L with hk
  have k2 : x ^ 2 / L = k ^ 2 := by rw [hk, div_pow, Real.sq_sqrt hL.le]
  rw [k2] at h1 h2
  have nk : 0 ≤ n * k := by rw [hk, mul_div_assoc']; exact div_nonneg hs (Real.sqrt_nonneg _)
  have hhi : (1 + u) ^ 2 / (1 - u) ^ 5 ≤ (1 + 4 * u) ^ 2 := by
    have b : 1 - 5 * u ≤ (1 - u) ^ 5 := by
      have := one_add_mul_le_pow (a := -u) (by linarith) 5
      push_cast at this
      rw [← sub_eq_add_neg] at this
      linarith
    have p : 0 < (1 - u) ^ 5 := by have : 0 < 1 - u := by linarith
                                   positivity
    rw [div_le_iff₀ p]
    have := mul_le_mul_of_nonneg_left b (sq_nonneg (1 + 4 * u))
    nlinarith [mul_pos hu0 hu0, mul_nonneg (mul_pos hu0 hu0).le (by linarith : 0 ≤ 1 / 32 - u), mul_nonneg hu0.le (by linarith : 0 ≤ 1 / 32 - u)]
  have hlo : (1 - 4 * u) ^ 2 ≤ (1 - u) ^ 2 / (1 + u) ^ 5 := by
    have p : 0 < (1 + u) ^ 5 := by positivity
    rw [le_div_iff₀ p]
    have b : (1 + u) ^ 5 * (1 - 5 * u) ≤ 1 := by
      have b1 : 1 - 5 * u ≤ (1 - u) ^ 5 := by
        have := one_add_mul_le_pow (a := -u) (by linarith) 5
        push_cast at this
        rw [← sub_eq_add_neg] at this
        linarith
      calc (1 + u) ^ 5 * (1 - 5 * u) ≤ (1 + u) ^ 5 * (1 - u) ^ 5 := mul_le_mul_of_nonneg_left b1 p.le
        _ = (1 - u ^ 2) ^ 5 := by rw [← mul_pow]; ring
        _ ≤ 1 := pow_le_one₀ (by nlinarith) (by nlinarith)
    have c : (1 - 4 * u) ^ 2 ≤ (1 - u) ^ 2 * (1 - 5 * u) := by
      nlinarith [mul_pos hu0 hu0, mul_nonneg (mul_pos hu0 hu0).le (by linarith : 0 ≤ 1 / 32 - u),
        mul_nonneg hu0.le (by linarith : 0 ≤ 1 / 32 - u)]
    calc (1 - 4 * u) ^ 2 * (1 + u) ^ 5 ≤ (1 - u) ^ 2 * (1 - 5 * u) * (1 + u) ^ 5 := mul_le_mul_of_nonneg_right c p.le
      _ = (1 - u) ^ 2 * ((1 + u) ^ 5 * (1 - 5 * u)) := by ring
      _ ≤ (1 - u) ^ 2 * 1 := mul_le_mul_of_nonneg_left b (sq_nonneg _)
      _ = (1 - u) ^ 2 := mul_one _
  have u1 : |n| ≤ (1 + 4 * u) * |k| := by
    refine abs_le_of_sq_le_sq ?_ (by positivity : 0 ≤ (1 + 4 * u) * |k|)
    rw [mul_pow, sq_abs]
    exact h2.trans (mul_le_mul_of_nonneg_right hhi (sq_nonneg _))
  have u2 : (1 - 4 * u) * |k| ≤ |n| := by
    have : ((1 - 4 * u) * |k|) ^ 2 ≤ n ^ 2 := by
      rw [mul_pow, sq_abs]
      exact (mul_le_mul_of_nonneg_right hlo (sq_nonneg _)).trans h1
    have h3 := sq_le_sq.1 this
    exact (le_abs_self _).trans h3
  have e : |n - k| = |(|n| - |k|)| := by
    rw [← sq_eq_sq₀ (abs_nonneg _) (abs_nonneg _), sq_abs, sq_abs, sub_sq, sub_sq, sq_abs, sq_abs, mul_assoc 2 |n|,
      ← abs_mul, abs_of_nonneg nk, mul_assoc]
  rw [e]
  have w : 4 * u ≤ (1 + u) ^ 4 - 1 := by
    have := one_add_mul_le_pow (a := u) (by linarith) 4
    push_cast at this
    linarith
  refine le_trans ?_ (mul_le_mul_of_nonneg_right w (abs_nonneg _))
  rw [abs_le]
  constructor <;> linarith

theorem axis_cc {δ : ℝ} {c : S} {C : ℝ} (hC : |C| ≤ 1) (hc : |real c - C| ≤ δ) (h : IsFinite (one - c)) :
    Approx 1 ((1 + uro S) * δ) (one - c) (1 - C) 2 := by
  have h1 : Approx 0 0 (one : S) 1 1 := by
    have := Approx.exact (one : S)
    rwa [real_one, abs_one] at this
  have h2 : Approx 0 δ c C 1 := ⟨hC, by simpa using hc⟩
  refine ((h1.sub h2 h).mono le_rfl (by rw [zero_add])).congr rfl (by norm_num)

/-- One entry `p q (1-c)` -/
theorem axis_T {δ : ℝ} {p q cc : S} {x y C : ℝ} (hp : Approx 4 0 p x |x|) (hq : Approx 4 0 q y |y|)
    (hcc : Approx 1 ((1 + uro S) * δ) cc (1 - C) 2) (h : IsFinite (p * q * cc)) :
    Approx 11 ((1 + uro S) * ((1 + uro S) ^ 9 * (|x| * |y|) * ((1 + uro S) * δ) + (1 + uro S) * 2 * tiny S +
      tiny S * ((1 + uro S) * δ)) + tiny S) (p * q * cc) (x * y * (1 - C)) (|x| * |y| * 2) := by
  have h1 : Approx 9 (tiny S) (p * q) (x * y) (|x| * |y|) :=
    (hp.mul hq (finite_of_mul h).1).mono le_rfl (by simp)
  exact (h1.mul hcc h).mono le_rfl (by rw [pow_one])
theorem axis_U {δ : ℝ} {p s : S} {z X : ℝ} (hp : Approx 4 0 p z |z|) (hX : |X| ≤ 1) (hs : |real s - X| ≤ δ)
    (h : IsFinite (p * s)) :
    Approx 11 ((1 + uro S) * ((1 + uro S) ^ 4 * |z| * δ) + tiny S) (p * s) (z * X) |z| := by
  have h2 : Approx 0 δ s X 1 := ⟨hX, by simpa using hs⟩
  refine ((hp.mul h2 h).mono (by norm_num) ?_).congr rfl (mul_one _)
  simp

/-- The bound on each entry of the matrix of a rotation about an axis. -/
noncomputable def axisErr (S : Type) [Scalar S] [IEEE S] [Binary S] (δ : ℝ) : ℝ :=
  3 * ((1 + uro S) ^ 12 - 1) + 2 * (1 + uro S) ^ 12 * δ + (4 + δ) * (1 + uro S) ^ 3 * tiny S

theorem axis_off_bound {δ : ℝ} {x y z : ℝ} (hδ : 0 ≤ δ) (hk : x ^ 2 + y ^ 2 + z ^ 2 = 1) :
    ((1 + uro S) ^ 12 - 1) * (|x| * |y| * 2 + |z|) + (1 + uro S) * (
      ((1 + uro S) * ((1 + uro S) ^ 9 * (|x| * |y|) * ((1 + uro S) * δ) + (1 + uro S) * 2 * tiny S +
      tiny S * ((1 + uro S) * δ)) + tiny S) + ((1 + uro S) * ((1 + uro S) ^ 4 * |z| * δ) + tiny S)) ≤ axisErr S δ := by
  have hu := uro_pos (S := S)
  have ht := tiny_pos (S := S)
  have hz : |z| ≤ 1 := by rw [abs_le_one_iff_mul_self_le_one]; nlinarith [sq_nonneg x, sq_nonneg y]
  have hxy : |x| * |y| ≤ 1 / 2 := by nlinarith [sq_nonneg (|x| - |y|), sq_abs x, sq_abs y, sq_nonneg z]
  have hxy0 : 0 ≤ |x| * |y| := by positivity
  unfold axisErr
  set w := 1 + uro S with hw
  have w1 : 1 ≤ w := by linarith
  have wk : ∀ {i j : ℕ}, i ≤ j → w ^ i ≤ w ^ j := fun h => pow_le_pow_right₀ w1 h
  have e1 : (w ^ 12 - 1) * (|x| * |y| * 2 + |z|) ≤ (w ^ 12 - 1) * 3 :=
    mul_le_mul_of_nonneg_left (by linarith) (sub_nonneg.2 (one_le_pow₀ w1))
  have e2 : w ^ 12 * δ * (|x| * |y|) ≤ w ^ 12 * δ * (1 / 2) := mul_le_mul_of_nonneg_left hxy (by positivity)
  have e3 : w ^ 6 * δ * |z| ≤ w ^ 12 * δ * 1 :=
    mul_le_mul (mul_le_mul_of_nonneg_right (wk (by norm_num)) hδ) hz (abs_nonneg _) (by positivity)
  have e4 : w * tiny S ≤ w ^ 3 * tiny S :=
    mul_le_mul_of_nonneg_right (by simpa using wk (i := 1) (j := 3) (by norm_num)) ht.le
  have e5 : 0 ≤ w ^ 12 * δ := by positivity
  nlinarith
theorem axis_diag_bound {δ : ℝ} {x y z : ℝ} (hδ : 0 ≤ δ) (hk : x ^ 2 + y ^ 2 + z ^ 2 = 1) :
    ((1 + uro S) ^ 12 - 1) * (|x| * |x| * 2 + 1) + (1 + uro S) * (
      ((1 + uro S) * ((1 + uro S) ^ 9 * (|x| * |x|) * ((1 + uro S) * δ) + (1 + uro S) * 2 * tiny S +
      tiny S * ((1 + uro S) * δ)) + tiny S) + δ) ≤ axisErr S δ := by
  have hu := uro_pos (S := S)
  have ht := tiny_pos (S := S)
  have hxx : |x| * |x| ≤ 1 := by nlinarith [sq_abs x, sq_nonneg y, sq_nonneg z]
  unfold axisErr
  set w := 1 + uro S with hw
  have w1 : 1 ≤ w := by linarith
  have wk : ∀ {i j : ℕ}, i ≤ j → w ^ i ≤ w ^ j := fun h => pow_le_pow_right₀ w1 h
  have e1 : (w ^ 12 - 1) * (|x| * |x| * 2 + 1) ≤ (w ^ 12 - 1) * 3 :=
    mul_le_mul_of_nonneg_left (by linarith) (sub_nonneg.2 (one_le_pow₀ w1))
  have e2 : w ^ 12 * δ * (|x| * |x|) ≤ w ^ 12 * δ * 1 := mul_le_mul_of_nonneg_left hxx (by positivity)
  have e3 : w * δ ≤ w ^ 12 * δ :=
    mul_le_mul_of_nonneg_right (by simpa using wk (i := 1) (j := 12) (by norm_num)) hδ
  have e4 : w * tiny S ≤ w ^ 3 * tiny S :=
    mul_le_mul_of_nonneg_right (by simpa using wk (i := 1) (j := 3) (by norm_num)) ht.le
  have e5 : 0 ≤ w ^ 3 * tiny S := by positivity
  nlinarith

theorem axis_sub {δ : ℝ} {p q r cc s : S} {x y z C X : ℝ} (hδ : 0 ≤ δ) (hk : x ^ 2 + y ^ 2 + z ^ 2 = 1)
    (hp : Approx 4 0 p x |x|) (hq : Approx 4 0 q y |y|) (hr : Approx 4 0 r z |z|)
    (hcc : Approx 1 ((1 + uro S) * δ) cc (1 - C) 2) (hX : |X| ≤ 1) (hs : |real s - X| ≤ δ)
    (h : IsFinite (p * q * cc - r * s)) : |real (p * q * cc - r * s) - (-(X * z) + (1 - C) * (x * y))| ≤ axisErr S δ := by
  have := ((axis_T hp hq hcc (finite_of_sub h).1).sub (axis_U hr hX hs (finite_of_sub h).2) h).2
  rw [show -(X * z) + (1 - C) * (x * y) = x * y * (1 - C) - z * X by ring]
  exact this.trans (axis_off_bound hδ hk)
theorem axis_add {δ : ℝ} {p q r cc s : S} {x y z C X : ℝ} (hδ : 0 ≤ δ) (hk : x ^ 2 + y ^ 2 + z ^ 2 = 1)
    (hp : Approx 4 0 p x |x|) (hq : Approx 4 0 q y |y|) (hr : Approx 4 0 r z |z|)
    (hcc : Approx 1 ((1 + uro S) * δ) cc (1 - C) 2) (hX : |X| ≤ 1) (hs : |real s - X| ≤ δ)
    (h : IsFinite (p * q * cc + r * s)) : |real (p * q * cc + r * s) - (X * z + (1 - C) * (x * y))| ≤ axisErr S δ := by
  have := ((axis_T hp hq hcc (finite_of_add h).1).add (axis_U hr hX hs (finite_of_add h).2) h).2
  rw [show X * z + (1 - C) * (x * y) = x * y * (1 - C) + z * X by ring]
  exact this.trans (axis_off_bound hδ hk)
theorem axis_diag {δ : ℝ} {p cc c : S} {x y z C : ℝ} (hδ : 0 ≤ δ) (hk : x ^ 2 + y ^ 2 + z ^ 2 = 1)
    (hp : Approx 4 0 p x |x|) (hcc : Approx 1 ((1 + uro S) * δ) cc (1 - C) 2) (hC : |C| ≤ 1) (hc : |real c - C| ≤ δ)
    (h : IsFinite (p * p * cc + c)) : |real (p * p * cc + c) - (C + (1 - C) * (x * x))| ≤ axisErr S δ := by
  have h2 : Approx 11 δ c C 1 := Approx.mono ⟨hC, by simpa using hc⟩ (Nat.zero_le _) le_rfl
  have := ((axis_T hp hp hcc (finite_of_add h).1).add h2 h).2
  rw [show C + (1 - C) * (x * x) = x * x * (1 - C) + C by ring]
  exact this.trans (axis_diag_bound hδ hk)

/-- The matrix of a rotation about an axis is finite. -/
theorem axis_finite (hS : Ample S) {δ : ℝ} {n : Vector3 S} {s c : S} {X C : ℝ} {k : Fin 3 → ℝ}
    (hk : k 0 ^ 2 + k 1 ^ 2 + k 2 ^ 2 = 1) (px : Approx 4 0 n.x (k 0) |k 0|) (py : Approx 4 0 n.y (k 1) |k 1|)
    (pz : Approx 4 0 n.z (k 2) |k 2|) (fx : AllFinite n) (hX : |X| ≤ 1) (hs : |real s - X| ≤ δ) (fs : IsFinite s)
    (hC : |C| ≤ 1) (hc : |real c - C| ≤ δ) (fc : IsFinite c) (hδ : δ ≤ 1) :
    let cc := one - c
    let (t1, t2, t3) := (n.x * n.y * cc, n.x * n.z * cc, n.y * n.z * cc)
    let (u1, u2, u3) := (n.x * s, n.y * s, n.z * s)
    IsFinite (n.x * n.x * cc + c) ∧ IsFinite (n.y * n.y * cc + c) ∧ IsFinite (n.z * n.z * cc + c) ∧
    IsFinite (t1 - u3) ∧ IsFinite (t2 + u2) ∧ IsFinite (t1 + u3) ∧ IsFinite (t3 - u1) ∧ IsFinite (t2 - u2) ∧
    IsFinite (t3 + u1) := by
  have hu := hS.uro
  have hu0 := uro_pos (S := S)
  have w4 : (1 + uro S) ^ 4 ≤ 6 / 5 := by
    refine (pow_le_pow_left₀ (by linarith) (show 1 + uro S ≤ 33 / 32 by linarith) 4).trans (by norm_num)
  have kb : ∀ {z : ℝ} {p : S}, z ^ 2 ≤ 1 → IsFinite p → Approx 4 0 p z |z| → Bd (6 / 5) p := by
    intro z p hz fp hp
    refine ⟨fp, ?_⟩
    have h1 := hp.size
    have h2 : |z| ≤ 1 := by rw [abs_le_one_iff_mul_self_le_one]; nlinarith
    have : (1 + uro S) ^ 4 * |z| ≤ 6 / 5 * 1 := mul_le_mul w4 h2 (abs_nonneg _) (by norm_num)
    linarith
  rw [Vector3.allFinite] at fx
  have bx := kb (by nlinarith [sq_nonneg (k 1), sq_nonneg (k 2)]) fx.1 px
  have by' := kb (by nlinarith [sq_nonneg (k 0), sq_nonneg (k 2)]) fx.2.1 py
  have bz := kb (by nlinarith [sq_nonneg (k 1), sq_nonneg (k 0)]) fx.2.2 pz
  have tb : ∀ {s : S} {X : ℝ}, |X| ≤ 1 → |real s - X| ≤ δ → IsFinite s → Bd 2 s := by
    intro s X hX hs fs
    refine ⟨fs, ?_⟩
    have := abs_add_le (real s - X) X
    rw [sub_add_cancel] at this
    linarith
  have bs := tb hX hs fs
  have bc := tb hC hc fc
  have bcc : Bd 4 (one - c) := Bd.sub hS Bd.one bc (by norm_num) (by norm_num)
  have T : ∀ {p q : S}, Bd (6 / 5) p → Bd (6 / 5) q → Bd 8 (p * q * (one - c)) := fun hp hq =>
    Bd.mul hS (Bd.mul (K := 7 / 4) hS hp hq (by norm_num) (by norm_num)) bcc (by norm_num) (by norm_num)
  have U : ∀ {p : S}, Bd (6 / 5) p → Bd 3 (p * s) := fun hp => Bd.mul hS hp bs (by norm_num) (by norm_num)
  have add : ∀ {p q : S} {M N : ℝ}, Bd M p → Bd N q → M + N ≤ 11 → IsFinite (p + q) := fun hp hq hMN =>
    (Bd.add (K := 12) hS hp hq (by linarith) (by norm_num)).1
  have sub : ∀ {p q : S} {M N : ℝ}, Bd M p → Bd N q → M + N ≤ 11 → IsFinite (p - q) := fun hp hq hMN =>
    (Bd.sub (K := 12) hS hp hq (by linarith) (by norm_num)).1
  exact ⟨add (T bx bx) bc (by norm_num), add (T by' by') bc (by norm_num), add (T bz bz) bc (by norm_num),
    sub (T bx by') (U bz) (by norm_num), add (T bx bz) (U by') (by norm_num), add (T bx by') (U bz) (by norm_num),
    sub (T by' bz) (U bx) (by norm_num), sub (T bx bz) (U by') (by norm_num), add (T by' bz) (U bx) (by norm_num)⟩

/-- **C72** `rotate_axis`: in an ample format, if nothing in the normalization of the axis underflows or
overflows, the matrix is finite and within `3 axisErr` in size of the exact rotation about the unit vector in the
direction of the axis. -/
theorem C72_rotate_axis {δ : ℝ} (axis : Vector3 S) (a : S) (hS : Ample S) (h : TrigWithin δ a) (hδ1 : δ ≤ 1)
    (hl : IsFinite (Api.length axis)) (h0 : 0 < real axis.x ^ 2 + real axis.y ^ 2 + real axis.z ^ 2)
    (hx : Normal S (real axis.x ^ 2)) (hy : Normal S (real axis.y ^ 2)) (hz : Normal S (real axis.z ^ 2))
    (qx : Normal S (real axis.x / real (Api.length axis))) (qy : Normal S (real axis.y / real (Api.length axis)))
    (qz : Normal S (real axis.z / real (Api.length axis))) :
    (Transform3.rotateAxis axis a).forward.Near
      (turnAbout (fun i => axis.toReal i / norm2 axis.toReal) (real a)) (3 * axisErr S δ) ∧
    (Transform3.rotateAxis axis a).inverse.Near
      (turnAbout (fun i => axis.toReal i / norm2 axis.toReal) (real a)).transpose (3 * axisErr S δ) ∧
    (∀ (i : ℕ) (hi : i < 16),
      Same (Transform3.rotateAxis axis a).inverse.m[i] (Transform3.rotateAxis axis a).forward.transpose.m[i]) ∧
    (Transform3.rotateAxis axis a).forward.toReal 3 = ![0, 0, 0, 1] ∧
    Orthogonal (turnAbout (fun i => axis.toReal i / norm2 axis.toReal) (real a)) ∧
    turnAbout (fun i => axis.toReal i / norm2 axis.toReal) (real a) (Fin.last 3) = Pi.single (Fin.last 3) 1 := by
  set k : Fin 3 → ℝ := fun i => axis.toReal i / norm2 axis.toReal with hkdef
  have hδ := h.nonneg
  have hu := hS.uro
  set L := real axis.x ^ 2 + real axis.y ^ 2 + real axis.z ^ 2 with hL
  have hn : norm2 axis.toReal = √L := by rw [norm2, Fin.sum_univ_three]; rfl
  have k0 : k 0 = real axis.x / √L := by rw [← hn]; rfl
  have k1 : k 1 = real axis.y / √L := by rw [← hn]; rfl
  have k2 : k 2 = real axis.z / √L := by rw [← hn]; rfl
  have hk : k 0 ^ 2 + k 1 ^ 2 + k 2 ^ 2 = 1 := by
    rw [k0, k1, k2, div_pow, div_pow, div_pow, Real.sq_sqrt h0.le, ← add_div, ← add_div]
    exact div_self h0.ne'
  obtain ⟨fn, s1, s2, s3, -, -, hc⟩ := C62_normalize3 axis hl h0 hx hy hz qx qy qz
  have u0 := uro_pos (S := S)
  have px : Approx 4 0 axis.normalize.x (k 0) |k 0| :=
    ⟨le_rfl, by
      have := normalize_rel u0 hu h0 s1 (hc (axis.x, axis.normalize.x) (by simp)).1 (hc (axis.x, axis.normalize.x) (by simp)).2
      rw [k0]; simpa using this⟩
  have py : Approx 4 0 axis.normalize.y (k 1) |k 1| :=
    ⟨le_rfl, by
      have := normalize_rel u0 hu h0 s2 (hc (axis.y, axis.normalize.y) (by simp)).1 (hc (axis.y, axis.normalize.y) (by simp)).2
      rw [k1]; simpa using this⟩
  have pz : Approx 4 0 axis.normalize.z (k 2) |k 2| :=
    ⟨le_rfl, by
      have := normalize_rel u0 hu h0 s3 (hc (axis.z, axis.normalize.z) (by simp)).1 (hc (axis.z, axis.normalize.z) (by simp)).2
      rw [k2]; simpa using this⟩
  have n : (Transform3.rotateAxis axis a).forward.Near (turnAbout k (real a)) (3 * axisErr S δ) := by
    obtain ⟨f0, f5, f10, f1, f2, f4, f6, f8, f9⟩ := axis_finite hS hk px py pz fn (Real.abs_sin_le_one (real a)) h.sin
      h.finite_sin (Real.abs_cos_le_one (real a)) h.cos h.finite_cos hδ1
    refine ⟨?_, ?_⟩
    · rw [Matrix4x4.allFinite, forall_lt_16]
      exact ⟨f0, f1, f2, finite_zero, f4, f5, f6, finite_zero, f8, f9, f10, finite_zero, finite_zero, finite_zero,
        finite_zero, finite_one⟩
    have fcc : IsFinite (one - Scalar.cos a) := (finite_of_mul (finite_of_add f0).1).2
    have hC := Real.abs_cos_le_one (real a)
    have hS := Real.abs_sin_le_one (real a)
    have cc := axis_cc hC h.cos fcc
    have k021 : k 0 ^ 2 + k 2 ^ 2 + k 1 ^ 2 = 1 := by linarith
    have k120 : k 1 ^ 2 + k 2 ^ 2 + k 0 ^ 2 = 1 := by linarith
    have k201 : k 2 ^ 2 + k 0 ^ 2 + k 1 ^ 2 = 1 := by linarith
    have e00 := axis_diag hδ hk px cc hC h.cos f0
    have e01 := axis_sub hδ hk px py pz cc hS h.sin f1
    have e02 := axis_add hδ k021 px pz py cc hS h.sin f2
    have e10 := axis_add hδ hk px py pz cc hS h.sin f4
    have e11 := axis_diag hδ k120 py cc hC h.cos f5
    have e12 := axis_sub hδ k120 py pz px cc hS h.sin f6
    have e20 := axis_sub hδ k021 px pz py cc hS h.sin f8
    have e21 := axis_add hδ k120 py pz px cc hS h.sin f9
    have e22 := axis_diag hδ k201 pz cc hC h.cos f10
    have hE : 0 ≤ axisErr S δ := (abs_nonneg _).trans e00
    have sqs : ∀ {x : ℝ}, |x| ≤ axisErr S δ → x ^ 2 ≤ axisErr S δ ^ 2 := fun hx =>
      sq_le_sq' (abs_le.1 hx).1 (abs_le.1 hx).2
    refine Real.sqrt_le_iff.2 ⟨by linarith, ?_⟩
    have z0 : (real (zero : S) - 0) ^ 2 = 0 := by rw [real_zero]; norm_num
    have z1 : (real (one : S) - 1) ^ 2 = 0 := by rw [real_one]; norm_num
    have r00 := sqs e00
    have r01 := sqs e01
    have r02 := sqs e02
    have r10 := sqs e10
    have r11 := sqs e11
    have r12 := sqs e12
    have r20 := sqs e20
    have r21 := sqs e21
    have r22 := sqs e22
    rw [mul_comm (k 0) (k 1)] at r10
    rw [mul_comm (k 0) (k 2)] at r20
    rw [mul_comm (k 1) (k 2)] at r21
    simp only [Fin.sum_univ_four, Matrix.sub_apply]
    have := add_le_add (add_le_add (add_le_add (add_le_add (add_le_add (add_le_add (add_le_add (add_le_add r00 r01) r02)
      r10) r11) r12) r20) r21) r22
    refine le_trans (le_of_eq ?_) (this.trans (le_of_eq (by ring)))
    have zz : ∀ i : Fin 3, ((Transform3.rotateAxis axis a).forward.toReal i.castSucc 3 - turnAbout k (real a) i.castSucc 3) ^ 2 = 0 :=
      fun i => by fin_cases i <;> exact z0
    have zr : ∀ i : Fin 3, ((Transform3.rotateAxis axis a).forward.toReal 3 i.castSucc - turnAbout k (real a) 3 i.castSucc) ^ 2 = 0 :=
      fun i => by fin_cases i <;> exact z0
    have zl : ((Transform3.rotateAxis axis a).forward.toReal 3 3 - turnAbout k (real a) 3 3) ^ 2 = 0 := z1
    have q1 := zz 0
    have q2 := zz 1
    have q3 := zz 2
    have q4 := zr 0
    have q5 := zr 1
    have q6 := zr 2
    simp only [Fin.castSucc_zero, Fin.castSucc_one] at q1 q2 q3 q4 q5 q6
    rw [show (Fin.castSucc 2 : Fin 4) = 2 from rfl] at q3 q6
    rw [q1, q2, q3, q4, q5, q6, zl]
    simp only [add_zero, ← add_assoc]
    rfl
  refine ⟨n, near_transpose4 n, fun i hi => rfl, ?_, turnAbout_orth _ _ hk, turnAbout_last _ _⟩
  funext j
  fin_cases j
  exacts [real_zero, real_zero, real_zero, real_one]

end

end VecMath
