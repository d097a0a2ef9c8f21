import Verif.Lemmas.Frob
import Mathlib.Analysis.InnerProductSpace.PiL2
/-! # Nearly orthogonal matrices acting on vectors and points -/

namespace VecMath

variable {n : ℕ}

theorem norm2_eq (v : Fin n → ℝ) : norm2 v = ‖(WithLp.toLp 2 v : EuclideanSpace ℝ (Fin n))‖ := by
  rw [EuclideanSpace.norm_eq, norm2]; simp
theorem norm2_nonneg (v : Fin n → ℝ) : 0 ≤ norm2 v := Real.sqrt_nonneg _
theorem norm2_sq (v : Fin n → ℝ) : norm2 v ^ 2 = ∑ i, v i ^ 2 :=
  Real.sq_sqrt (Finset.sum_nonneg fun i _ => sq_nonneg _)
theorem norm2_add (u v : Fin n → ℝ) : norm2 (u + v) ≤ norm2 u + norm2 v := by
  simp only [norm2_eq, WithLp.toLp_add]; exact norm_add_le _ _
theorem norm2_neg (u : Fin n → ℝ) : norm2 (-u) = norm2 u := by
  unfold norm2; simp
theorem norm2_abs_sub (u v : Fin n → ℝ) : |norm2 u - norm2 v| ≤ norm2 (u - v) := by
  simp only [norm2_eq, WithLp.toLp_sub]; exact abs_norm_sub_norm_le _ _
theorem norm2_mono {u v : Fin n → ℝ} (h : ∀ i, |u i| ≤ v i) : norm2 u ≤ norm2 v := by
  refine Real.sqrt_le_sqrt (Finset.sum_le_sum fun i _ => ?_)
  exact sq_le_sq' (by linarith [(abs_le.1 (h i)).1]) (abs_le.1 (h i)).2
theorem norm2_abs (v : Fin n → ℝ) : norm2 (fun i => |v i|) = norm2 v := by
  unfold norm2; simp
theorem norm2_smul (c : ℝ) (hc : 0 ≤ c) (v : Fin n → ℝ) : norm2 (fun i => c * v i) = c * norm2 v := by
  unfold norm2
  simp only [mul_pow, ← Finset.mul_sum]
  rw [Real.sqrt_mul (sq_nonneg _), Real.sqrt_sq hc]
theorem norm2_const (c : ℝ) (hc : 0 ≤ c) : norm2 (fun _ : Fin n => c) = √n * c := by
  unfold norm2
  simp only [Finset.sum_const, Finset.card_univ, Fintype.card_fin, nsmul_eq_mul]
  rw [Real.sqrt_mul (by positivity), Real.sqrt_sq hc]
theorem norm2_mulVec (A : Matrix (Fin n) (Fin n) ℝ) (v : Fin n → ℝ) : norm2 (A.mulVec v) ≤ size A * norm2 v := by
  have h : ∑ i, A.mulVec v i ^ 2 ≤ (size A * norm2 v) ^ 2 := by
    rw [mul_pow, size_sq, norm2_sq, Finset.sum_mul]
    exact Finset.sum_le_sum fun i _ => by
      rw [Matrix.mulVec, dotProduct]
      exact Finset.sum_mul_sq_le_sq_mul_sq Finset.univ (fun j => A i j) v
  exact Real.sqrt_le_iff.2 ⟨mul_nonneg (size_nonneg _) (norm2_nonneg _), h⟩
theorem norm2_orth {Q : Matrix (Fin n) (Fin n) ℝ} (hQ : Q.transpose * Q = 1) (v : Fin n → ℝ) :
    norm2 (Q.mulVec v) = norm2 v := by
  have e : ∀ w : Fin n → ℝ, ∑ i, w i ^ 2 = w ⬝ᵥ w := fun w => by simp [dotProduct, sq]
  unfold norm2
  rw [e, e, Matrix.dotProduct_mulVec, Matrix.vecMul_mulVec, hQ, Matrix.vecMul_one]

/-- Dropping the last coordinate. -/
theorem norm2_init (v : Fin (n + 1) → ℝ) : norm2 (fun i : Fin n => v i.castSucc) ≤ norm2 v := by
  refine Real.sqrt_le_sqrt ?_
  rw [Fin.sum_univ_castSucc]
  linarith [sq_nonneg (v (Fin.last n))]
theorem norm2_snoc (v : Fin n → ℝ) (a : ℝ) : norm2 (Fin.snoc v a : Fin (n + 1) → ℝ) ^ 2 = norm2 v ^ 2 + a ^ 2 := by
  rw [norm2_sq, norm2_sq, Fin.sum_univ_castSucc]; simp
theorem norm2_snoc_zero (v : Fin n → ℝ) : norm2 (Fin.snoc v 0 : Fin (n + 1) → ℝ) = norm2 v := by
  have := norm2_snoc v 0
  rw [zero_pow two_ne_zero, add_zero] at this
  exact (pow_left_inj₀ (norm2_nonneg _) (norm2_nonneg _) two_ne_zero).1 this
theorem norm2_snoc_one (v : Fin n → ℝ) : norm2 (Fin.snoc v 1 : Fin (n + 1) → ℝ) ≤ norm2 v + 1 := by
  have := norm2_snoc v 1
  have h := norm2_nonneg v
  nlinarith [norm2_nonneg (Fin.snoc v 1 : Fin (n + 1) → ℝ)]

theorem mulVec_snoc (A : Matrix (Fin (n + 1)) (Fin (n + 1)) ℝ) (v : Fin n → ℝ) (a : ℝ) (i : Fin (n + 1)) :
    A.mulVec (Fin.snoc v a) i = ∑ j : Fin n, A i j.castSucc * v j + A i (Fin.last n) * a := by
  rw [Matrix.mulVec, dotProduct, Fin.sum_univ_castSucc]; simp

/-- The rotated vector, computed: `w` is within the usual inner-product bound of `m` applied to the homogeneous
coordinates `(v, a)`. -/
theorem near_apply {m Q : Matrix (Fin (n + 1)) (Fin (n + 1)) ℝ} {ε γ τ a : ℝ} {v w : Fin n → ℝ} (hn : n ≤ 3)
    (hQ : Orthogonal Q) (hm : size (m - Q) ≤ ε) (hγ : 0 ≤ γ) (hτ : 0 ≤ τ)
    (hw : ∀ i : Fin n, |w i - (∑ j : Fin n, m i.castSucc j.castSucc * v j + m i.castSucc (Fin.last n) * a)| ≤
      γ * (∑ j : Fin n, |m i.castSucc j.castSucc * v j| + |m i.castSucc (Fin.last n) * a|) + τ) :
    norm2 (fun i : Fin n => w i - Q.mulVec (Fin.snoc v a) i.castSucc) ≤
      (ε + 2 * γ * (1 + ε)) * norm2 (Fin.snoc v a : Fin (n + 1) → ℝ) + 2 * τ := by
  set x : Fin (n + 1) → ℝ := Fin.snoc v a with hx
  have hε : 0 ≤ ε := (size_nonneg _).trans hm
  have sn : √((n + 1 : ℕ) : ℝ) ≤ 2 := by
    rw [Real.sqrt_le_left (by norm_num)]
    have : ((n + 1 : ℕ) : ℝ) ≤ 4 := by exact_mod_cast (by omega : n + 1 ≤ 4)
    linarith
  have sn' : √(n : ℝ) ≤ 2 := (Real.sqrt_le_sqrt (by push_cast; linarith)).trans sn
  have sm : size m ≤ 2 * (1 + ε) := by
    have e := size_of_orth hQ.1
    have e' : size Q = √((n + 1 : ℕ) : ℝ) := by rw [← e, Real.sqrt_sq (size_nonneg _)]
    have := size_add (A := m - Q) (B := Q)
    rw [sub_add_cancel, e'] at this
    linarith
  -- w - m x
  have h1 : norm2 (fun i : Fin n => w i - m.mulVec x i.castSucc) ≤ γ * (2 * (1 + ε) * norm2 x) + 2 * τ := by
    have p : norm2 (fun i : Fin n => w i - m.mulVec x i.castSucc) ≤
        norm2 ((fun i : Fin n => γ * ((m.map abs).mulVec (fun j => |x j|)) i.castSucc) + fun _ => τ) := by
      refine norm2_mono fun i => ?_
      have := hw i
      rw [hx, mulVec_snoc]
      refine this.trans (le_of_eq ?_)
      show _ = γ * _ + τ
      congr 2
      rw [Matrix.mulVec, dotProduct, Fin.sum_univ_castSucc]
      simp [abs_mul]
    refine p.trans ((norm2_add _ _).trans (add_le_add ?_ ?_))
    · rw [norm2_smul γ hγ (fun i : Fin n => ((m.map abs).mulVec (fun j => |x j|)) i.castSucc)]
      refine mul_le_mul_of_nonneg_left ((norm2_init _).trans ((norm2_mulVec _ _).trans ?_)) hγ
      rw [size_abs, norm2_abs]
      exact mul_le_mul_of_nonneg_right sm (norm2_nonneg _)
    · rw [norm2_const τ hτ]; exact mul_le_mul_of_nonneg_right sn' hτ
  have h2 : norm2 (fun i : Fin n => (m - Q).mulVec x i.castSucc) ≤ ε * norm2 x :=
    (norm2_init _).trans ((norm2_mulVec _ _).trans (mul_le_mul_of_nonneg_right hm (norm2_nonneg _)))
  have e : (fun i : Fin n => w i - Q.mulVec x i.castSucc) =
      (fun i : Fin n => w i - m.mulVec x i.castSucc) + fun i : Fin n => (m - Q).mulVec x i.castSucc := by
    funext i
    rw [Matrix.sub_mulVec]; simp
  rw [e]
  have := norm2_add (fun i : Fin n => w i - m.mulVec x i.castSucc) (fun i : Fin n => (m - Q).mulVec x i.castSucc)
  nlinarith

/-- An orthogonal matrix that keeps the last coordinate acts on the others as an isometry. -/
theorem orth_init {Q : Matrix (Fin (n + 1)) (Fin (n + 1)) ℝ} (hQ : Orthogonal Q)
    (hl : Q (Fin.last n) = Pi.single (Fin.last n) 1) (v : Fin n → ℝ) (a : ℝ) :
    norm2 (fun i : Fin n => Q.mulVec (Fin.snoc v a) i.castSucc) = norm2 v := by
  have h := norm2_orth hQ.1 (Fin.snoc v a : Fin (n + 1) → ℝ)
  have h' : norm2 (Q.mulVec (Fin.snoc v a)) ^ 2 = norm2 (Fin.snoc v a : Fin (n + 1) → ℝ) ^ 2 := by rw [h]
  rw [norm2_snoc, norm2_sq, Fin.sum_univ_castSucc] at h'
  have e : Q.mulVec (Fin.snoc v a) (Fin.last n) = a := by
    rw [Matrix.mulVec, hl]; simp
  rw [e] at h'
  have : norm2 (fun i : Fin n => Q.mulVec (Fin.snoc v a) i.castSucc) ^ 2 = norm2 v ^ 2 := by
    rw [norm2_sq]; linarith
  exact (pow_left_inj₀ (norm2_nonneg _) (norm2_nonneg _) two_ne_zero).1 this

/-- Applying the transpose after an orthogonal map: the triangle inequality for the round trip. -/
theorem norm2_undo {Q : Matrix (Fin (n + 1)) (Fin (n + 1)) ℝ} (hQ : Orthogonal Q)
    (hl : Q (Fin.last n) = Pi.single (Fin.last n) 1) (v w x : Fin n → ℝ) :
    norm2 (x - v) ≤ norm2 (fun i : Fin n => x i - Q.transpose.mulVec (Fin.snoc w 0) i.castSucc) +
      norm2 (w - fun i => Q.mulVec (Fin.snoc v 0) i.castSucc) := by
  set y : Fin n → ℝ := fun i => Q.mulVec (Fin.snoc v 0) i.castSucc with hy
  have e1 : Q.mulVec (Fin.snoc v 0) = Fin.snoc y 0 := by
    funext i
    refine Fin.lastCases ?_ (fun j => ?_) i
    · rw [Matrix.mulVec, hl]; simp
    · simp [hy]
  have e2 : Q.transpose.mulVec (Fin.snoc y 0) = Fin.snoc v 0 := by
    rw [← e1, Matrix.mulVec_mulVec, hQ.1, Matrix.one_mulVec]
  have e3 : x - v = (fun i : Fin n => x i - Q.transpose.mulVec (Fin.snoc w 0) i.castSucc) +
      fun i : Fin n => Q.transpose.mulVec (Fin.snoc (w - y) 0) i.castSucc := by
    funext i
    have : v i = Q.transpose.mulVec (Fin.snoc y 0) i.castSucc := by rw [e2]; simp
    rw [Pi.sub_apply, this, Pi.add_apply]
    simp only [mulVec_snoc, Pi.sub_apply, mul_sub, Finset.sum_sub_distrib]
    ring
  rw [e3]
  refine (norm2_add _ _).trans (add_le_add_right ?_ _)
  refine (norm2_init _).trans (le_of_eq ?_)
  rw [norm2_orth (by rw [Matrix.transpose_transpose]; exact hQ.2), norm2_snoc_zero]

end VecMath
