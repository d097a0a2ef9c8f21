import Verif.Lemmas.Approx
import Verif.Lemmas.Permanent
import Verif.Lemmas.Mat
import Verif.Lemmas.RealInv
import Verif.Props.FloatWitness
/-!
# Layer F: accuracy of the singularity test and of `inverse()` (C66)
-/

open Classical
set_option linter.unusedSimpArgs false

namespace VecMath
open Scalar IEEE

variable {S : Type} [Scalar S] [IEEE S]

/-! ### Preparation -/

/-- A finite nonzero quotient has a finite dividend and a finite nonzero divisor. -/
theorem finite_of_div {a b : S} (h : IsFinite (a / b)) (h0 : real (a / b) ≠ 0) :
    IsFinite a ∧ IsFinite b ∧ real b ≠ 0 := by
  unfold IsFinite real at *; rw [den_div] at h h0
  revert h h0
  induction den a using Val.cases_inf_fin with
  | hn => simp
  | hi s => induction den b using Val.cases_inf_fin with
    | hn => simp
    | hi t => simp
    | hf y hy => rw [Rounding.div_inf_fin _ _ hy]; simp
  | hf x hx => induction den b using Val.cases_inf_fin with
    | hn => simp
    | hi t => rw [Rounding.div_fin_inf _ hx]; cases (x.neg? ^^ t) <;> simp [Val.mkZero]
    | hf y hy =>
      intro h h0
      refine ⟨hx, hy, fun hz => ?_⟩
      rw [Rounding.div_fin _ hx hy, if_pos hz] at h
      split_ifs at h <;> simp at h
/-- A finite quotient by a finite divisor has a finite dividend. -/
theorem finite_dividend {a b : S} (hb : IsFinite b) (h : IsFinite (a / b)) : IsFinite a := by
  unfold IsFinite at *; rw [den_div] at h
  revert h
  induction den a using Val.cases_inf_fin with
  | hn => simp
  | hi s => rw [Rounding.div_inf_fin _ _ hb]; simp
  | hf x hx => intro _; exact hx

theorem isZero_of_not_bne {d : S} (h : ¬ (d != zero) = true) : IsZero d :=
  isZero_iff.2 (by simpa [bne] using h)

theorem Matrix3x3.ent00 (m : Matrix3x3 S) : m.toReal 0 0 = real m.m[0] := rfl
theorem Matrix3x3.ent01 (m : Matrix3x3 S) : m.toReal 0 1 = real m.m[1] := rfl
theorem Matrix3x3.ent02 (m : Matrix3x3 S) : m.toReal 0 2 = real m.m[2] := rfl
theorem Matrix3x3.ent10 (m : Matrix3x3 S) : m.toReal 1 0 = real m.m[3] := rfl
theorem Matrix3x3.ent11 (m : Matrix3x3 S) : m.toReal 1 1 = real m.m[4] := rfl
theorem Matrix3x3.ent12 (m : Matrix3x3 S) : m.toReal 1 2 = real m.m[5] := rfl
theorem Matrix3x3.ent20 (m : Matrix3x3 S) : m.toReal 2 0 = real m.m[6] := rfl
theorem Matrix3x3.ent21 (m : Matrix3x3 S) : m.toReal 2 1 = real m.m[7] := rfl
theorem Matrix3x3.ent22 (m : Matrix3x3 S) : m.toReal 2 2 = real m.m[8] := rfl

theorem Matrix4x4.real_sub (m : Matrix4x4 S) (i j : Fin 4) (r c : Fin 3) :
    real (m.sub i j r c) = m.toReal.submatrix i.succAbove j.succAbove r c := by
  show real (m.elem _ _) = m.toReal (i.succAbove r) (j.succAbove c)
  unfold Matrix4x4.elem Matrix4x4.toReal Fin.succAbove
  congr 2
  omega
theorem Matrix4x4.real_sign (i j : Fin 4) :
    real (if (i.val + j.val) % 2 == 0 then one else -one : S) = (-1) ^ (i.val + j.val) := by
  by_cases h : (i.val + j.val) % 2 = 0
  · simp [h, real_one, (Nat.even_iff.2 h).neg_one_pow]
  · simp [h, real_one, IEEE.real_neg, (Nat.odd_iff.2 (Nat.mod_two_ne_zero.1 h)).neg_one_pow]

variable [Binary S]

namespace Approx
variable {k : ℕ} {a b : S} {x y A B t : ℝ}
/-- Multiplying by a computed `±1` is exact. -/
theorem sign_mul {n : ℕ} (ha : real a = (-1) ^ n) (hb : Approx k t b x A) (h : IsFinite (a * b)) :
    Approx k t (a * b) ((-1) ^ n * x) A := by
  have hf := finite_of_mul h
  have e : real (a * b) = (-1) ^ n * real b := by
    rw [real_mul h, rnd_eq, ha]
    refine (Binary.F S).rnd_of_has ?_
    rcases neg_one_pow_eq_or ℝ n with hn | hn <;> rw [hn]
    · rw [one_mul]; exact isFinite_has hf.2
    · rw [neg_one_mul]; exact (isFinite_has hf.2).neg
  refine ⟨?_, ?_⟩
  · rw [abs_mul, abs_pow, abs_neg, abs_one, one_pow, one_mul]; exact hb.1
  · rw [e, ← mul_sub, abs_mul, abs_pow, abs_neg, abs_one, one_pow, one_mul]; exact hb.2
/-- A computed quotient times the exact denominator is the exact numerator, up to the errors. -/
theorem div {l : ℕ} {s : ℝ} (ha : Approx k s a x A) (hb : Approx l t b y B) (hfa : IsFinite a) (hfb : IsFinite b)
    (h0 : real b ≠ 0) (h : IsFinite (a / b)) :
    |real (a / b) * y - x| ≤ gam S (k + 1) * A + (1 + uro S) * s +
      (|real (a / b)| + tiny S) * (gam S l * B + t) + tiny S * |y| := by
  have hu := uro_pos (S := S)
  have ht := tiny_pos (S := S)
  have h1 := err_div hfa hfb h0 h
  set q := real (a / b) with hq
  set d := real b with hd
  have h2 : |q * d - real a| ≤ uro S * |real a| + tiny S * |d| := by
    have e : q * d - real a = (q - real a / d) * d := by field_simp
    rw [e, abs_mul]
    have := mul_le_mul_of_nonneg_right h1 (abs_nonneg d)
    rw [abs_div, add_mul, mul_assoc, div_mul_cancel₀ _ (abs_ne_zero.2 h0)] at this
    exact this
  have h3 := ha.size
  have h4 := ha.2
  have h5 : |d - y| ≤ gam S l * B + t := hb.2
  have h6 : |d| ≤ |y| + (gam S l * B + t) := by
    have := abs_add_le (d - y) y
    rw [sub_add_cancel] at this; linarith
  have h7 : |q * y - x| ≤ |q * d - real a| + |q| * |d - y| + |real a - x| := by
    have e : q * y - x = (q * d - real a) + -(q * (d - y)) + (real a - x) := by ring
    rw [e, ← abs_mul q, ← abs_neg (q * (d - y))]
    exact (abs_add_le _ _).trans (add_le_add_left (abs_add_le _ _) _)
  have h8 := mul_le_mul_of_nonneg_left h5 (abs_nonneg q)
  have h9 := mul_le_mul_of_nonneg_left h6 ht.le
  have h10 := mul_le_mul_of_nonneg_left h3 hu.le
  have e : gam S (k + 1) * A + (1 + uro S) * s =
      ((1 + uro S) ^ k - 1) * A + s + uro S * ((1 + uro S) ^ k * A + s) := by unfold gam; ring
  rw [e]
  linarith
/-- The two-term entries of the 3x3 adjugate. -/
theorem two {a1 a2 b1 b2 : S} (h : IsFinite (a1 * a2 - b1 * b2)) :
    Approx 2 (2 * (1 + uro S) * tiny S) (a1 * a2 - b1 * b2) (real a1 * real a2 - real b1 * real b2)
      (|real a1| * |real a2| + |real b1| * |real b2|) := by
  have h1 := finite_of_sub h
  refine ((prod h1.1).sub (prod h1.2) h).mono le_rfl (le_of_eq ?_)
  ring
end Approx

/-! ### 3x3 -/

theorem Matrix3x3.approx_det (m : Matrix3x3 S) (h : IsFinite m.det) {M : ℝ} (hM : ∀ i j, |m.toReal i j| ≤ M) :
    Approx 7 (6 * (1 + uro S) ^ 6 * (1 + M) * tiny S) m.det m.toReal.det (absDet m.toReal) := by
  have := Approx.six ((abs_nonneg _).trans (hM 0 0)) h (hM 2 2) (hM 2 0) (hM 2 1) (hM 2 0) (hM 2 2) (hM 2 1)
  refine this.congr ?_ ?_
  · rw [Matrix.det_fin_three]; simp only [Matrix3x3.ent00, Matrix3x3.ent01, Matrix3x3.ent02, Matrix3x3.ent10, Matrix3x3.ent11, Matrix3x3.ent12, Matrix3x3.ent20, Matrix3x3.ent21, Matrix3x3.ent22]; ring
  · rw [absDet_three]; simp only [Matrix3x3.ent00, Matrix3x3.ent01, Matrix3x3.ent02, Matrix3x3.ent10, Matrix3x3.ent11, Matrix3x3.ent12, Matrix3x3.ent20, Matrix3x3.ent21, Matrix3x3.ent22]; ring

/-- **C66**, 3x3: `inverse()` (hence `try_from`) reports a matrix as not invertible only if its exact determinant
is within the rounding error of zero. -/
theorem C66_rejected3x3 (m : Matrix3x3 S) (e : NonInvertibleMatrixError) (h : m.inverse = .error e) (M : ℝ)
    (hM : ∀ i j, |m.toReal i j| ≤ M) : |m.toReal.det| ≤ detErr3 S m.toReal M := by
  have hz : IsZero m.det := by
    refine isZero_of_not_bne fun hb => ?_
    rw [Matrix3x3.inverse] at h
    simp only [hb, if_true] at h
    exact absurd h (by simp)
  have := (m.approx_det hz.1 hM).2
  rw [hz.2, zero_sub, abs_neg] at this
  exact this

theorem Matrix3x3.inverse_bound (m r : Matrix3x3 S) (h : m.inverse = .ok r) (hf : AllFinite r)
    (hd : IsFinite m.det ∧ real m.det ≠ 0) (M : ℝ) (hM : ∀ i j, |m.toReal i j| ≤ M) (i j : Fin 3) :
    |r.toReal i j * m.toReal.det - m.toReal.adjugate i j| ≤
      invErr3 S m.toReal r.toReal M i j := by
  have hb : (m.det != zero) = true := by
    by_contra hb
    rw [Matrix3x3.inverse] at h
    simp only [hb] at h
    exact absurd h (by simp)
  rw [Matrix3x3.inverse] at h
  simp only [hb, if_true] at h
  obtain rfl := Except.ok.inj h
  rw [Matrix3x3.allFinite, forall_lt_9] at hf
  have key : ∀ {a1 a2 b1 b2 : S}, IsFinite ((a1 * a2 - b1 * b2) / m.det) → ∀ i j : Fin 3,
      m.toReal.adjugate i j = real a1 * real a2 - real b1 * real b2 →
      absAdj m.toReal i j = |real a1| * |real a2| + |real b1| * |real b2| →
      |real ((a1 * a2 - b1 * b2) / m.det) * m.toReal.det - m.toReal.adjugate i j| ≤
      gam S 3 * absAdj m.toReal i j + 2 * (1 + uro S) ^ 2 * tiny S +
        (|real ((a1 * a2 - b1 * b2) / m.det)| + tiny S) * detErr3 S m.toReal M + tiny S * |m.toReal.det| := by
    intro a1 a2 b1 b2 hq i j e1 e2
    have hn := finite_dividend hd.1 hq
    have := (Approx.two hn).div (m.approx_det hd.1 hM) hn hd.1 hd.2 hq
    rw [e1, e2]
    refine this.trans (le_of_eq ?_)
    unfold detErr3; ring
  obtain ⟨f0, f1, f2, f3, f4, f5, f6, f7, f8⟩ := hf
  have e1 := fun i j => congrFun (congrFun (Matrix.adjugate_fin_three m.toReal) i) j
  simp only [Matrix3x3.ent00, Matrix3x3.ent01, Matrix3x3.ent02, Matrix3x3.ent10, Matrix3x3.ent11, Matrix3x3.ent12, Matrix3x3.ent20, Matrix3x3.ent21, Matrix3x3.ent22] at e1
  have e2 : ∀ i j, absAdj m.toReal i j = _ := fun i j => absDet_two _
  simp only [Matrix.submatrix_apply] at e2
  fin_cases i <;> fin_cases j
  · refine key f0 0 0 ((e1 0 0).trans ?_) ((e2 0 0).trans ?_)
    · simp; try ring
    · simp [Fin.succAbove, Matrix3x3.ent00, Matrix3x3.ent01, Matrix3x3.ent02, Matrix3x3.ent10, Matrix3x3.ent11, Matrix3x3.ent12, Matrix3x3.ent20, Matrix3x3.ent21, Matrix3x3.ent22]; try ring
  · refine key f1 0 1 ((e1 0 1).trans ?_) ((e2 0 1).trans ?_)
    · simp; try ring
    · simp [Fin.succAbove, Matrix3x3.ent00, Matrix3x3.ent01, Matrix3x3.ent02, Matrix3x3.ent10, Matrix3x3.ent11, Matrix3x3.ent12, Matrix3x3.ent20, Matrix3x3.ent21, Matrix3x3.ent22]; try ring
  · refine key f2 0 2 ((e1 0 2).trans ?_) ((e2 0 2).trans ?_)
    · simp; try ring
    · simp [Fin.succAbove, Matrix3x3.ent00, Matrix3x3.ent01, Matrix3x3.ent02, Matrix3x3.ent10, Matrix3x3.ent11, Matrix3x3.ent12, Matrix3x3.ent20, Matrix3x3.ent21, Matrix3x3.ent22]; try ring
  · refine key f3 1 0 ((e1 1 0).trans ?_) ((e2 1 0).trans ?_)
    · simp; try ring
    · simp [Fin.succAbove, Matrix3x3.ent00, Matrix3x3.ent01, Matrix3x3.ent02, Matrix3x3.ent10, Matrix3x3.ent11, Matrix3x3.ent12, Matrix3x3.ent20, Matrix3x3.ent21, Matrix3x3.ent22]; try ring
  · refine key f4 1 1 ((e1 1 1).trans ?_) ((e2 1 1).trans ?_)
    · simp; try ring
    · simp [Fin.succAbove, Matrix3x3.ent00, Matrix3x3.ent01, Matrix3x3.ent02, Matrix3x3.ent10, Matrix3x3.ent11, Matrix3x3.ent12, Matrix3x3.ent20, Matrix3x3.ent21, Matrix3x3.ent22]; try ring
  · refine key f5 1 2 ((e1 1 2).trans ?_) ((e2 1 2).trans ?_)
    · simp; try ring
    · simp [Fin.succAbove, Matrix3x3.ent00, Matrix3x3.ent01, Matrix3x3.ent02, Matrix3x3.ent10, Matrix3x3.ent11, Matrix3x3.ent12, Matrix3x3.ent20, Matrix3x3.ent21, Matrix3x3.ent22]; try ring
  · refine key f6 2 0 ((e1 2 0).trans ?_) ((e2 2 0).trans ?_)
    · simp; try ring
    · simp [Fin.succAbove, Matrix3x3.ent00, Matrix3x3.ent01, Matrix3x3.ent02, Matrix3x3.ent10, Matrix3x3.ent11, Matrix3x3.ent12, Matrix3x3.ent20, Matrix3x3.ent21, Matrix3x3.ent22]; try ring
  · refine key f7 2 1 ((e1 2 1).trans ?_) ((e2 2 1).trans ?_)
    · simp; try ring
    · simp [Fin.succAbove, Matrix3x3.ent00, Matrix3x3.ent01, Matrix3x3.ent02, Matrix3x3.ent10, Matrix3x3.ent11, Matrix3x3.ent12, Matrix3x3.ent20, Matrix3x3.ent21, Matrix3x3.ent22]; try ring
  · refine key f8 2 2 ((e1 2 2).trans ?_) ((e2 2 2).trans ?_)
    · simp; try ring
    · simp [Fin.succAbove, Matrix3x3.ent00, Matrix3x3.ent01, Matrix3x3.ent02, Matrix3x3.ent10, Matrix3x3.ent11, Matrix3x3.ent12, Matrix3x3.ent20, Matrix3x3.ent21, Matrix3x3.ent22]; try ring


/-- **C66**, 3x3: if `inverse()` returns a finite nonzero matrix, then each of its entries times the exact
determinant is the exact adjugate entry, up to the rounding errors of that entry and of the determinant. -/
theorem C66_inverse3x3 (m r : Matrix3x3 S) (h : m.inverse = .ok r) (hf : AllFinite r) (h0 : r.toReal ≠ 0)
    (M : ℝ) (hM : ∀ i j, |m.toReal i j| ≤ M) (i j : Fin 3) :
    |r.toReal i j * m.toReal.det - m.toReal.adjugate i j| ≤
      invErr3 S m.toReal r.toReal M i j := by
  refine m.inverse_bound r h hf ?_ M hM i j
  have hb : (m.det != zero) = true := by
    by_contra hb
    rw [Matrix3x3.inverse] at h
    simp only [hb] at h
    exact absurd h (by simp)
  rw [Matrix3x3.inverse] at h
  simp only [hb, if_true] at h
  obtain rfl := Except.ok.inj h
  rw [Matrix3x3.allFinite, forall_lt_9] at hf
  by_contra hd
  refine h0 ?_
  ext i j
  by_contra hne
  rw [Matrix.zero_apply] at hne
  apply hd
  fin_cases i <;> fin_cases j <;> first
    | exact (finite_of_div hf.1 hne).2
    | exact (finite_of_div hf.2.1 hne).2
    | exact (finite_of_div hf.2.2.1 hne).2
    | exact (finite_of_div hf.2.2.2.1 hne).2
    | exact (finite_of_div hf.2.2.2.2.1 hne).2
    | exact (finite_of_div hf.2.2.2.2.2.1 hne).2
    | exact (finite_of_div hf.2.2.2.2.2.2.1 hne).2
    | exact (finite_of_div hf.2.2.2.2.2.2.2.1 hne).2
    | exact (finite_of_div hf.2.2.2.2.2.2.2.2 hne).2


/-! ### 4x4 -/

theorem Matrix4x4.approx_cofactor (m : Matrix4x4 S) (i j : Fin 4) (h : IsFinite (m.cofactor i j)) {M : ℝ}
    (hM : ∀ i j, |m.toReal i j| ≤ M) :
    Approx 7 (6 * (1 + uro S) ^ 6 * (1 + M) * tiny S) (m.cofactor i j) (m.toReal.adjugate j i)
      (absAdj m.toReal j i) := by
  have hs : ∀ r c, |real (m.sub i j r c)| ≤ M := fun r c => by rw [Matrix4x4.real_sub]; exact hM _ _
  unfold Matrix4x4.cofactor at h ⊢
  have h6 := Approx.six ((abs_nonneg _).trans (hM 0 0)) (finite_of_mul h).2 (hs 2 2) (hs 2 0) (hs 2 1) (hs 2 1)
    (hs 2 2) (hs 2 0)
  refine (Approx.sign_mul (Matrix4x4.real_sign i j) h6 h).congr ?_ ?_
  · rw [Matrix.adjugate_fin_succ_eq_det_submatrix, Matrix.det_fin_three]
    simp only [Matrix4x4.real_sub]
    ring
  · rw [absAdj, absDet_three]
    simp only [Matrix4x4.real_sub]
theorem Matrix4x4.approx_det (m : Matrix4x4 S) (h : IsFinite (m.detOf m.adjugate)) {M : ℝ}
    (hM : ∀ i j, |m.toReal i j| ≤ M) :
    Approx 11 (24 * (1 + uro S) ^ 10 * (1 + M + M ^ 2) * tiny S) (m.detOf m.adjugate) m.toReal.det
      (absDet m.toReal) := by
  have hu := uro_pos (S := S)
  have ht := tiny_pos (S := S)
  have h0 : 0 ≤ M := (abs_nonneg _).trans (hM 0 0)
  have w6 := Approx.one_le_pow (S := S) 6
  have w7 := Approx.one_le_pow (S := S) 7
  change IsFinite (m.m[0] * m.cofactor 0 0 + m.m[1] * m.cofactor 0 1 + m.m[2] * m.cofactor 0 2
    + m.m[3] * m.cofactor 0 3) at h
  have h3 := finite_of_add h
  have h2 := finite_of_add h3.1
  have h1 := finite_of_add h2.1
  have t0 : 0 ≤ 6 * (1 + uro S) ^ 7 * (1 + M + M ^ 2) * tiny S := by positivity
  have term : ∀ (a : S) (j : Fin 4), real a = m.toReal 0 j → IsFinite (a * m.cofactor 0 j) →
      Approx 8 (6 * (1 + uro S) ^ 7 * (1 + M + M ^ 2) * tiny S) (a * m.cofactor 0 j)
        (m.toReal 0 j * m.toReal.adjugate j 0) (|m.toReal 0 j| * absAdj m.toReal j 0) := by
    intro a j e hf
    have := (m.approx_cofactor 0 j (finite_of_mul hf).2 hM).exact_mul hf
    rw [e] at this
    refine this.mono (by norm_num) ?_
    have := hM 0 j
    have : (1 + uro S) * (|m.toReal 0 j| * (6 * (1 + uro S) ^ 6 * (1 + M) * tiny S)) ≤
        (1 + uro S) * (M * (6 * (1 + uro S) ^ 6 * (1 + M) * tiny S)) := by gcongr
    have e2 : 6 * (1 + uro S) ^ 7 * (1 + M + M ^ 2) * tiny S =
      (1 + uro S) * (M * (6 * (1 + uro S) ^ 6 * (1 + M) * tiny S)) + 6 * (1 + uro S) ^ 7 * tiny S := by ring
    have : tiny S ≤ 6 * (1 + uro S) ^ 7 * tiny S := by nlinarith
    linarith
  have := Approx.acc t0 (by norm_num) (Approx.acc t0 (by norm_num) (Approx.acc t0 le_rfl
    (term _ 0 rfl h1.1).start (term _ 1 rfl h1.2) h2.1) (term _ 2 rfl h2.2) h3.1) (term _ 3 rfl h3.2) h
  refine (this.mono le_rfl (le_of_eq ?_)).congr ?_ ?_
  · push_cast; ring
  · have e := congrFun (congrFun (Matrix.mul_adjugate m.toReal) 0) 0
    rw [Matrix.mul_apply, Fin.sum_univ_four] at e
    simp only [Matrix.smul_apply, Matrix.one_apply_eq, smul_eq_mul, mul_one] at e
    exact e
  · rw [absDet_succ, Fin.sum_univ_four]

/-- **C66**, 4x4: `inverse()` (hence `try_from`) reports a matrix as not invertible only if its exact determinant
is within the rounding error of zero. -/
theorem C66_rejected4x4 (m : Matrix4x4 S) (e : NonInvertibleMatrixError) (h : m.inverse = .error e) (M : ℝ)
    (hM : ∀ i j, |m.toReal i j| ≤ M) : |m.toReal.det| ≤ detErr4 S m.toReal M := by
  have hz : IsZero (m.detOf m.adjugate) := by
    refine isZero_of_not_bne fun hb => ?_
    rw [Matrix4x4.inverse] at h
    simp only [hb, if_true] at h
    exact absurd h (by simp)
  have := (m.approx_det hz.1 hM).2
  rw [hz.2, zero_sub, abs_neg] at this
  exact this

theorem Matrix4x4.inverse_bound (m r : Matrix4x4 S) (h : m.inverse = .ok r) (hf : AllFinite r)
    (hd : IsFinite (m.detOf m.adjugate) ∧ real (m.detOf m.adjugate) ≠ 0) (M : ℝ) (hM : ∀ i j, |m.toReal i j| ≤ M)
    (i j : Fin 4) :
    |r.toReal i j * m.toReal.det - m.toReal.adjugate i j| ≤
      invErr4 S m.toReal r.toReal M i j := by
  have hb : (m.detOf m.adjugate != zero) = true := by
    by_contra hb
    rw [Matrix4x4.inverse] at h
    simp only [hb] at h
    exact absurd h (by simp)
  rw [Matrix4x4.inverse] at h
  simp only [hb, if_true] at h
  obtain rfl := Except.ok.inj h
  set d := m.detOf m.adjugate with hdd
  have ent : ∀ i j : Fin 4, (m.adjugate / d).m[4 * i.val + j.val] = m.cofactor j i / d := by
    intro i j
    rw [Matrix4x4.divs _ _ _ (by omega)]
    fin_cases i <;> fin_cases j <;> rfl
  have fe : ∀ i j : Fin 4, IsFinite (m.cofactor j i / d) := fun i j => by
    rw [← ent]; exact Matrix4x4.allFinite.1 hf _ _
  have re : ∀ i j : Fin 4, (m.adjugate / d).toReal i j = real (m.cofactor j i / d) := fun i j => by
    rw [← ent]; rfl
  have hn := finite_dividend hd.1 (fe i j)
  have := (m.approx_cofactor j i hn hM).div (m.approx_det hd.1 hM) hn hd.1 hd.2 (fe i j)
  unfold invErr4
  rw [re]
  refine this.trans (le_of_eq ?_)
  unfold detErr4; ring

/-- **C66**, 4x4: if `inverse()` returns a finite nonzero matrix, then each of its entries times the exact
determinant is the exact adjugate entry, up to the rounding errors of that entry and of the determinant. -/
theorem C66_inverse4x4 (m r : Matrix4x4 S) (h : m.inverse = .ok r) (hf : AllFinite r) (h0 : r.toReal ≠ 0)
    (M : ℝ) (hM : ∀ i j, |m.toReal i j| ≤ M) (i j : Fin 4) :
    |r.toReal i j * m.toReal.det - m.toReal.adjugate i j| ≤
      invErr4 S m.toReal r.toReal M i j := by
  refine m.inverse_bound r h hf ?_ M hM i j
  have hb : (m.detOf m.adjugate != zero) = true := by
    by_contra hb
    rw [Matrix4x4.inverse] at h
    simp only [hb] at h
    exact absurd h (by simp)
  rw [Matrix4x4.inverse] at h
  simp only [hb, if_true] at h
  obtain rfl := Except.ok.inj h
  set d := m.detOf m.adjugate with hdd
  have ent : ∀ i j : Fin 4, (m.adjugate / d).m[4 * i.val + j.val] = m.cofactor j i / d := by
    intro i j
    rw [Matrix4x4.divs _ _ _ (by omega)]
    fin_cases i <;> fin_cases j <;> rfl
  have fe : ∀ i j : Fin 4, IsFinite (m.cofactor j i / d) := fun i j => by
    rw [← ent]; exact Matrix4x4.allFinite.1 hf _ _
  have re : ∀ i j : Fin 4, (m.adjugate / d).toReal i j = real (m.cofactor j i / d) := fun i j => by
    rw [← ent]; rfl
  by_contra hd
  refine h0 ?_
  ext i j
  by_contra hne
  rw [Matrix.zero_apply, re] at hne
  exact hd (finite_of_div (fe i j) hne).2

/-! ### The product with the returned inverse -/

theorem residual_le {n : ℕ} {A R : Matrix (Fin n) (Fin n) ℝ} {E : Fin n → Fin n → ℝ}
    (h : ∀ i j, |R i j * A.det - A.adjugate i j| ≤ E i j) (i j : Fin n) :
    |(A * R) i j - (1 : Matrix (Fin n) (Fin n) ℝ) i j| * |A.det| ≤ ∑ k, |A i k| * E k j := by
  have e := congrFun (congrFun (Matrix.mul_adjugate A) i) j
  rw [Matrix.mul_apply, Matrix.smul_apply, smul_eq_mul] at e
  have e2 : ((A * R) i j - (1 : Matrix (Fin n) (Fin n) ℝ) i j) * A.det =
      ∑ k, A i k * (R k j * A.det - A.adjugate k j) := by
    rw [sub_mul, mul_comm ((1 : Matrix (Fin n) (Fin n) ℝ) i j), ← e, Matrix.mul_apply, Finset.sum_mul,
      ← Finset.sum_sub_distrib]
    exact Finset.sum_congr rfl fun k _ => by ring
  rw [← abs_mul, e2]
  refine (Finset.abs_sum_le_sum_abs _ _).trans (Finset.sum_le_sum fun k _ => ?_)
  rw [abs_mul]
  exact mul_le_mul_of_nonneg_left (h k j) (abs_nonneg _)
/-- **C66**, 3x3: the exact product of the matrix with the returned inverse differs from the identity by at most
the propagated errors over the determinant. -/
theorem C66_residual3x3 (m r : Matrix3x3 S) (h : m.inverse = .ok r) (hf : AllFinite r) (h0 : r.toReal ≠ 0)
    (M : ℝ) (hM : ∀ i j, |m.toReal i j| ≤ M) (i j : Fin 3) :
    |(m.toReal * r.toReal) i j - (1 : Matrix (Fin 3) (Fin 3) ℝ) i j| * |m.toReal.det| ≤
      ∑ k, |m.toReal i k| * invErr3 S m.toReal r.toReal M k j :=
  residual_le (C66_inverse3x3 m r h hf h0 M hM) i j
/-- **C66**, 4x4. -/
theorem C66_residual4x4 (m r : Matrix4x4 S) (h : m.inverse = .ok r) (hf : AllFinite r) (h0 : r.toReal ≠ 0)
    (M : ℝ) (hM : ∀ i j, |m.toReal i j| ≤ M) (i j : Fin 4) :
    |(m.toReal * r.toReal) i j - (1 : Matrix (Fin 4) (Fin 4) ℝ) i j| * |m.toReal.det| ≤
      ∑ k, |m.toReal i k| * invErr4 S m.toReal r.toReal M k j :=
  residual_le (C66_inverse4x4 m r h hf h0 M hM) i j

/-! ### In range: acceptance, finiteness and accuracy together -/

theorem tiny_le : tiny S ≤ 1 / 4 := by
  unfold tiny
  have := Fmt.z_le (show (Binary.F S).emin - 1 ≤ -2 by have := (Binary.F S).emin_le; omega)
  norm_num at this ⊢; linarith

namespace Approx
variable {k l : ℕ} {a b c : S} {x y A B s t M : ℝ}

theorem pow_le (k : ℕ) : (1 + uro S) ^ k ≤ (5 / 4) ^ k :=
  pow_le_pow_left₀ (by have := uro_pos (S := S); linarith) (by have := uro_le (S := S); linarith) k

/-- A size bound that covers all intermediate results of the six-term expression. -/
theorem num6 (hk : k ≤ 7) (h1 : 1 ≤ M) (h0 : 0 ≤ A) (hA : A ≤ 6 * M ^ 3)
    (ht : t ≤ 6 * (1 + uro S) ^ 6 * (1 + M) * tiny S) : (1 + uro S) ^ k * A + t < 64 * M ^ 3 := by
  have p := (pow_le_pow_right₀ (show 1 ≤ 1 + uro S by have := uro_pos (S := S); linarith) hk).trans (pow_le (S := S) 7)
  have q := pow_le (S := S) 6
  have h3 : 1 ≤ M ^ 3 := one_le_pow₀ h1
  have h4 : M ≤ M ^ 3 := le_self_pow₀ h1 (by norm_num)
  have e1 : (1 + uro S) ^ k * A ≤ (5 / 4) ^ 7 * (6 * M ^ 3) := mul_le_mul p hA h0 (by positivity)
  have e2 : 6 * (1 + uro S) ^ 6 * (1 + M) * tiny S ≤ 6 * (5 / 4) ^ 6 * (2 * M ^ 3) * (1 / 4) := by
    have := tiny_le (S := S)
    have := tiny_pos (S := S)
    have : 1 + M ≤ 2 * M ^ 3 := by linarith
    gcongr
  norm_num at e1 e2
  linarith
theorem sum_size (ha : Approx k s a x A) (hb : Approx k t b y B) :
    |real a + real b| ≤ (1 + uro S) ^ k * (A + B) + (s + t) ∧
    |real a - real b| ≤ (1 + uro S) ^ k * (A + B) + (s + t) := by
  have h1 := ha.size
  have h2 := hb.size
  have h3 := abs_add_le (real a) (real b)
  have h4 := abs_sub (real a) (real b)
  rw [mul_add]; constructor <;> linarith
theorem fin_add (ha : Approx k s a x A) (hb : Approx k t b y B) (fa : IsFinite a) (fb : IsFinite b)
    (h : (1 + uro S) ^ k * (A + B) + (s + t) < overflowAt S) : IsFinite (a + b) :=
  (correct_add fa fb).1.2 ((ha.sum_size hb).1.trans_lt h)
theorem fin_sub (ha : Approx k s a x A) (hb : Approx k t b y B) (fa : IsFinite a) (fb : IsFinite b)
    (h : (1 + uro S) ^ k * (A + B) + (s + t) < overflowAt S) : IsFinite (a - b) :=
  (correct_sub fa fb).1.2 ((ha.sum_size hb).2.trans_lt h)

/-- Products of three factors of size at most `M`. -/
theorem fin_prod3 (h1 : 1 ≤ M) (hO : 64 * M ^ 3 ≤ overflowAt S) (fa : IsFinite a) (fb : IsFinite b)
    (fc : IsFinite c) (ha : |real a| ≤ M) (hb : |real b| ≤ M) (hc : |real c| ≤ M) :
    IsFinite (a * b) ∧ IsFinite (a * b * c) := by
  have h0 : 0 ≤ M := by linarith
  have h3 : 1 ≤ M ^ 3 := one_le_pow₀ h1
  have h4 : M ≤ M ^ 3 := le_self_pow₀ h1 (by norm_num)
  have h5 : M ^ 2 ≤ M ^ 3 := pow_le_pow_right₀ h1 (by norm_num)
  have hab : |real a| * |real b| ≤ M ^ 2 := by
    rw [pow_two]; exact mul_le_mul ha hb (abs_nonneg _) h0
  have f1 : IsFinite (a * b) := by
    refine (correct_mul fa fb).1.2 ?_
    rw [abs_mul]; linarith
  refine ⟨f1, (correct_mul f1 fc).1.2 ?_⟩
  rw [abs_mul]
  have hs := (prod f1).size
  rw [pow_one] at hs
  have hu := uro_le (S := S)
  have hp := uro_pos (S := S)
  have ht := tiny_le (S := S)
  have h6 : |real (a * b)| ≤ 5 / 4 * M ^ 2 + 1 / 4 := by
    refine hs.trans (add_le_add (mul_le_mul (by linarith) hab (by positivity) (by norm_num)) ht)
  have h7 : |real (a * b)| * |real c| ≤ (5 / 4 * M ^ 2 + 1 / 4) * M :=
    mul_le_mul h6 hc (abs_nonneg _) (by positivity)
  have h8 : M ^ 2 * M = M ^ 3 := by ring
  nlinarith

/-- The six-term expression does not overflow. -/
theorem fin_six {a1 a2 a3 b1 b2 b3 c1 c2 c3 d1 d2 d3 e1 e2 e3 f1 f2 f3 : S} (h1 : 1 ≤ M)
    (hO : 64 * M ^ 3 ≤ overflowAt S)
    (h : ∀ z ∈ [a1, a2, a3, b1, b2, b3, c1, c2, c3, d1, d2, d3, e1, e2, e3, f1, f2, f3], IsFinite z ∧ |real z| ≤ M) :
    IsFinite (a1 * a2 * a3 + b1 * b2 * b3 + c1 * c2 * c3 - d1 * d2 * d3 - e1 * e2 * e3 - f1 * f2 * f3) := by
  simp only [List.mem_cons, List.not_mem_nil, or_false, forall_eq_or_imp, forall_eq] at h
  obtain ⟨⟨fa1, ma1⟩, ⟨fa2, ma2⟩, ⟨fa3, ma3⟩, ⟨fb1, mb1⟩, ⟨fb2, mb2⟩, ⟨fb3, mb3⟩, ⟨fc1, mc1⟩, ⟨fc2, mc2⟩, ⟨fc3, mc3⟩,
    ⟨fd1, md1⟩, ⟨fd2, md2⟩, ⟨fd3, md3⟩, ⟨fe1, me1⟩, ⟨fe2, me2⟩, ⟨fe3, me3⟩, ⟨ff1, mf1⟩, ⟨ff2, mf2⟩, ⟨ff3, mf3⟩⟩ := h
  have h0 : 0 ≤ M := by linarith
  have hp := uro_pos (S := S)
  have tp := tiny_pos (S := S)
  have pa := (fin_prod3 h1 hO fa1 fa2 fa3 ma1 ma2 ma3).2
  have pb := (fin_prod3 h1 hO fb1 fb2 fb3 mb1 mb2 mb3).2
  have pc := (fin_prod3 h1 hO fc1 fc2 fc3 mc1 mc2 mc3).2
  have pd := (fin_prod3 h1 hO fd1 fd2 fd3 md1 md2 md3).2
  have pe := (fin_prod3 h1 hO fe1 fe2 fe3 me1 me2 me3).2
  have pf := (fin_prod3 h1 hO ff1 ff2 ff3 mf1 mf2 mf3).2
  have m3 : ∀ {x y z : S}, |real x| ≤ M → |real y| ≤ M → |real z| ≤ M → |real x| * |real y| * |real z| ≤ M ^ 3 := by
    intro x y z hx hy hz
    rw [pow_succ, pow_two]
    exact mul_le_mul (mul_le_mul hx hy (abs_nonneg _) h0) hz (abs_nonneg _) (by positivity)
  have ma := m3 ma1 ma2 ma3
  have mb := m3 mb1 mb2 mb3
  have mc := m3 mc1 mc2 mc3
  have md := m3 md1 md2 md3
  have me := m3 me1 me2 me3
  have mf := m3 mf1 mf2 mf3
  have t0 : 0 ≤ (1 + uro S) * (1 + M) * tiny S := by positivity
  have m0 : 0 ≤ M ^ 3 := by positivity
  -- underflow terms
  have tau : ∀ n j : ℕ, n ≤ 5 → j ≤ 5 → (n : ℝ) * (1 + uro S) ^ j * ((1 + uro S) * (1 + M) * tiny S) +
      (1 + uro S) * (1 + M) * tiny S ≤ 6 * (1 + uro S) ^ 6 * (1 + M) * tiny S := by
    intro n j hn hj
    have w : (1 + uro S) ^ j ≤ (1 + uro S) ^ 5 := pow_le_pow_right₀ (by linarith) hj
    have w1 := one_le_pow (S := S) 5
    have hn' : (n : ℝ) ≤ 5 := by exact_mod_cast hn
    have : (n : ℝ) * (1 + uro S) ^ j ≤ 5 * (1 + uro S) ^ 5 := mul_le_mul hn' w (by positivity) (by norm_num)
    have := mul_le_mul_of_nonneg_right this t0
    have := mul_le_mul_of_nonneg_right w1 t0
    have e : 6 * (1 + uro S) ^ 6 * (1 + M) * tiny S = 5 * (1 + uro S) ^ 5 * ((1 + uro S) * (1 + M) * tiny S) +
      (1 + uro S) ^ 5 * ((1 + uro S) * (1 + M) * tiny S) := by ring
    linarith
  have na : ∀ x y z : S, 0 ≤ |real x| * |real y| * |real z| := fun _ _ _ => by positivity
  have a1' := (prod3 pa ma3).start
  have b1' := prod3 pb mb3
  have s1 := fin_add a1' b1' pa pb ((num6 (by norm_num) h1 (add_nonneg (na _ _ _) (na _ _ _)) (by linarith) (tau 1 0 (by norm_num) (by norm_num))).trans_le hO)
  have a2' := acc t0 le_rfl a1' b1' s1
  have c1' := (prod3 pc mc3).mono (l := 3) (by norm_num) le_rfl
  have s2 := fin_add a2' c1' s1 pc ((num6 (by norm_num) h1 (add_nonneg a2'.nonneg c1'.nonneg) (by linarith) (tau 2 1 (by norm_num) (by norm_num))).trans_le hO)
  have a3' := acc t0 le_rfl a2' c1' s2
  have d1' := (prod3 pd md3).mono (l := 4) (by norm_num) le_rfl
  have s3 := fin_sub a3' d1' s2 pd ((num6 (by norm_num) h1 (add_nonneg a3'.nonneg d1'.nonneg) (by linarith) (tau 3 2 (by norm_num) (by norm_num))).trans_le hO)
  have a4' := acc_sub t0 le_rfl a3' d1' s3
  have e1' := (prod3 pe me3).mono (l := 5) (by norm_num) le_rfl
  have s4 := fin_sub a4' e1' s3 pe ((num6 (by norm_num) h1 (add_nonneg a4'.nonneg e1'.nonneg) (by linarith) (tau 4 3 (by norm_num) (by norm_num))).trans_le hO)
  have a5' := acc_sub t0 le_rfl a4' e1' s4
  have f1' := (prod3 pf mf3).mono (l := 6) (by norm_num) le_rfl
  exact fin_sub a5' f1' s4 pf ((num6 (by norm_num) h1 (add_nonneg a5'.nonneg f1'.nonneg) (by linarith) (tau 5 4 (by norm_num) (by norm_num))).trans_le hO)
end Approx

theorem absDet_nonneg {n : ℕ} (m : Matrix (Fin n) (Fin n) ℝ) : 0 ≤ absDet m := by
  unfold absDet Matrix.permanent
  exact Finset.sum_nonneg fun _ _ => Finset.prod_nonneg fun _ _ => abs_nonneg _
theorem absDet_le {n : ℕ} (m : Matrix (Fin n) (Fin n) ℝ) {M : ℝ} (hM : ∀ i j, |m i j| ≤ M) :
    absDet m ≤ n.factorial * M ^ n := by
  unfold absDet Matrix.permanent
  refine (Finset.sum_le_card_nsmul _ _ (M ^ n) fun σ _ => ?_).trans (le_of_eq ?_)
  · refine (Finset.prod_le_prod (fun _ _ => abs_nonneg _) fun i _ => hM (σ i) i).trans (le_of_eq ?_)
    simp
  · simp [Fintype.card_perm]
theorem absAdj_le {n : ℕ} (m : Matrix (Fin (n + 1)) (Fin (n + 1)) ℝ) {M : ℝ} (hM : ∀ i j, |m i j| ≤ M)
    (i j : Fin (n + 1)) : absAdj m i j ≤ n.factorial * M ^ n := absDet_le _ fun _ _ => hM _ _

/-- **C66**, 3x3: a finite matrix whose entries are bounded by `M` with `64 M³` below the overflow threshold, and
whose determinant exceeds its rounding error (by enough for the quotients not to overflow), is accepted; the
returned matrix is finite, and each of its entries times the exact determinant is the exact adjugate entry up to
the stated error. -/
theorem C66_inRange3x3 (m : Matrix3x3 S) (hm : AllFinite m) (M : ℝ) (h1 : 1 ≤ M) (hM : ∀ i j, |m.toReal i j| ≤ M)
    (hO : 64 * M ^ 3 ≤ overflowAt S) (hd : detErr3 S m.toReal M < |m.toReal.det|)
    (hq : 4 * M ^ 2 ≤ overflowAt S * (|m.toReal.det| - detErr3 S m.toReal M)) :
    ∃ r, m.inverse = .ok r ∧ AllFinite r ∧ ∀ i j, |r.toReal i j * m.toReal.det - m.toReal.adjugate i j| ≤
      invErr3 S m.toReal r.toReal M i j := by
  have hm' := hm
  rw [Matrix3x3.allFinite, forall_lt_9] at hm'
  obtain ⟨f0, f1, f2, f3, f4, f5, f6, f7, f8⟩ := hm'
  have fd : IsFinite m.det := by
    refine Approx.fin_six h1 hO ?_
    have e : ∀ k (hk : k < 9), IsFinite m.m[k] ∧ |real m.m[k]| ≤ M := fun k hk => by
      refine ⟨Matrix3x3.allFinite.1 hm k hk, ?_⟩
      have := hM ⟨k / 3, by omega⟩ ⟨k % 3, by omega⟩
      have e : 3 * (k / 3) + k % 3 = k := by omega
      simpa only [Matrix3x3.toReal, e] using this
    simp only [List.mem_cons, List.not_mem_nil, or_false, forall_eq_or_imp, forall_eq]
    refine ⟨?_, ?_, ?_, ?_, ?_, ?_, ?_, ?_, ?_, ?_, ?_, ?_, ?_, ?_, ?_, ?_, ?_, ?_⟩ <;> exact e _ _
  have hdist : |real m.det - m.toReal.det| ≤ detErr3 S m.toReal M := (m.approx_det fd hM).2
  have hge : |m.toReal.det| - detErr3 S m.toReal M ≤ |real m.det| := by
    have := abs_sub_abs_le_abs_sub m.toReal.det (real m.det)
    rw [abs_sub_comm] at this; linarith
  have hpos : 0 < |real m.det| := by linarith
  have h0 : real m.det ≠ 0 := abs_pos.1 hpos
  have hO0 : 0 < overflowAt S := by
    have : 0 < M ^ 3 := by positivity
    linarith
  have quot : ∀ {a1 a2 b1 b2 : S}, IsFinite a1 → IsFinite a2 → IsFinite b1 → IsFinite b2 → |real a1| ≤ M →
      |real a2| ≤ M → |real b1| ≤ M → |real b2| ≤ M → IsFinite ((a1 * a2 - b1 * b2) / m.det) := by
    intro a1 a2 b1 b2 fa1 fa2 fb1 fb2 ma1 ma2 mb1 mb2
    have fa := (Approx.fin_prod3 h1 hO fa1 fa2 fa1 ma1 ma2 ma1).1
    have fb := (Approx.fin_prod3 h1 hO fb1 fb2 fb1 mb1 mb2 mb1).1
    have hp := uro_pos (S := S)
    have hu := uro_le (S := S)
    have ht := tiny_le (S := S)
    have htp := tiny_pos (S := S)
    have hM0 : 0 ≤ M := by linarith
    have a2' : |real a1| * |real a2| ≤ M ^ 2 := by rw [pow_two]; exact mul_le_mul ma1 ma2 (abs_nonneg _) hM0
    have b2' : |real b1| * |real b2| ≤ M ^ 2 := by rw [pow_two]; exact mul_le_mul mb1 mb2 (abs_nonneg _) hM0
    have m2 : 1 ≤ M ^ 2 := one_le_pow₀ h1
    have m3 : M ^ 2 ≤ M ^ 3 := pow_le_pow_right₀ h1 (by norm_num)
    have q1 : (1 + uro S) ^ 1 * (|real a1| * |real a2| + |real b1| * |real b2|) ≤ 5 / 4 * (2 * M ^ 2) := by
      rw [pow_one]; exact mul_le_mul (by linarith) (by linarith) (by positivity) (by norm_num)
    have fn : IsFinite (a1 * a2 - b1 * b2) :=
      Approx.fin_sub (Approx.prod fa) (Approx.prod fb) fa fb (by linarith)
    refine (correct_div fn fd h0).1.2 ?_
    rw [abs_div, div_lt_iff₀ hpos]
    have hs := (Approx.two fn).size
    have q2 : (1 + uro S) ^ 2 * (|real a1| * |real a2| + |real b1| * |real b2|) ≤ (5 / 4) ^ 2 * (2 * M ^ 2) :=
      mul_le_mul (Approx.pow_le 2) (by linarith) (by positivity) (by norm_num)
    have q3 : 2 * (1 + uro S) * tiny S ≤ 2 * (5 / 4) * (1 / 4) := by gcongr; linarith
    have q4 := mul_le_mul_of_nonneg_left hge hO0.le
    norm_num at q2 q3
    linarith
  have hb : (m.det != zero) = true := by
    by_contra hb
    exact h0 (isZero_of_not_bne hb).2
  have e1 := show m.inverse = _ from if_pos hb
  have n0 := hM 0 0
  have n1 := hM 0 1
  have n2 := hM 0 2
  have n3 := hM 1 0
  have n4 := hM 1 1
  have n5 := hM 1 2
  have n6 := hM 2 0
  have n7 := hM 2 1
  have n8 := hM 2 2
  refine ⟨_, e1, ?_, ?_⟩
  · rw [Matrix3x3.allFinite, forall_lt_9]
    exact ⟨quot f4 f8 f5 f7 n4 n8 n5 n7, quot f2 f7 f1 f8 n2 n7 n1 n8, quot f1 f5 f2 f4 n1 n5 n2 n4,
      quot f5 f6 f3 f8 n5 n6 n3 n8, quot f0 f8 f2 f6 n0 n8 n2 n6, quot f2 f3 f0 f5 n2 n3 n0 n5,
      quot f3 f7 f4 f6 n3 n7 n4 n6, quot f1 f6 f0 f7 n1 n6 n0 n7, quot f0 f4 f1 f3 n0 n4 n1 n3⟩
  · refine m.inverse_bound _ e1 ?_ ⟨fd, h0⟩ M hM
    rw [Matrix3x3.allFinite, forall_lt_9]
    exact ⟨quot f4 f8 f5 f7 n4 n8 n5 n7, quot f2 f7 f1 f8 n2 n7 n1 n8, quot f1 f5 f2 f4 n1 n5 n2 n4,
      quot f5 f6 f3 f8 n5 n6 n3 n8, quot f0 f8 f2 f6 n0 n8 n2 n6, quot f2 f3 f0 f5 n2 n3 n0 n5,
      quot f3 f7 f4 f6 n3 n7 n4 n6, quot f1 f6 f0 f7 n1 n6 n0 n7, quot f0 f4 f1 f3 n0 n4 n1 n3⟩

/-- **C66**, 4x4: the same with bounds `512 M⁴` and `64 M³`. -/
theorem C66_inRange4x4 (m : Matrix4x4 S) (hm : AllFinite m) (M : ℝ) (h1 : 1 ≤ M) (hM : ∀ i j, |m.toReal i j| ≤ M)
    (hO : 512 * M ^ 4 ≤ overflowAt S) (hd : detErr4 S m.toReal M < |m.toReal.det|)
    (hq : 64 * M ^ 3 ≤ overflowAt S * (|m.toReal.det| - detErr4 S m.toReal M)) :
    ∃ r, m.inverse = .ok r ∧ AllFinite r ∧ ∀ i j, |r.toReal i j * m.toReal.det - m.toReal.adjugate i j| ≤
      invErr4 S m.toReal r.toReal M i j := by
  have h0 : 0 ≤ M := by linarith
  have hu := uro_pos (S := S)
  have ht := tiny_pos (S := S)
  have m34 : M ^ 3 ≤ M ^ 4 := pow_le_pow_right₀ h1 (by norm_num)
  have m4 : 1 ≤ M ^ 4 := one_le_pow₀ h1
  have hO3 : 64 * M ^ 3 ≤ overflowAt S := by linarith
  have hO0 : 0 < overflowAt S := by linarith
  have fc : ∀ i j, IsFinite (m.cofactor i j) ∧ |real (m.cofactor i j)| < 64 * M ^ 3 := by
    intro i j
    have fs : ∀ r c, IsFinite (m.sub i j r c) ∧ |real (m.sub i j r c)| ≤ M := fun r c =>
      ⟨Matrix4x4.allFinite.1 hm _ _, by rw [Matrix4x4.real_sub]; exact hM _ _⟩
    have f6 : IsFinite (m.sub i j 0 0 * m.sub i j 1 1 * m.sub i j 2 2 + m.sub i j 0 1 * m.sub i j 1 2 * m.sub i j 2 0
        + m.sub i j 0 2 * m.sub i j 1 0 * m.sub i j 2 1 - m.sub i j 0 0 * m.sub i j 1 2 * m.sub i j 2 1
        - m.sub i j 0 1 * m.sub i j 1 0 * m.sub i j 2 2 - m.sub i j 0 2 * m.sub i j 1 1 * m.sub i j 2 0) := by
      refine Approx.fin_six h1 hO3 ?_
      simp only [List.mem_cons, List.not_mem_nil, or_false, forall_eq_or_imp, forall_eq]
      refine ⟨?_, ?_, ?_, ?_, ?_, ?_, ?_, ?_, ?_, ?_, ?_, ?_, ?_, ?_, ?_, ?_, ?_, ?_⟩ <;> exact fs _ _
    have a6 := Approx.six h0 f6 (fs 2 2).2 (fs 2 0).2 (fs 2 1).2 (fs 2 1).2 (fs 2 2).2 (fs 2 0).2
    have le6 : |real (m.sub i j 0 0)| * |real (m.sub i j 1 1)| * |real (m.sub i j 2 2)|
        + |real (m.sub i j 0 1)| * |real (m.sub i j 1 2)| * |real (m.sub i j 2 0)|
        + |real (m.sub i j 0 2)| * |real (m.sub i j 1 0)| * |real (m.sub i j 2 1)|
        + |real (m.sub i j 0 0)| * |real (m.sub i j 1 2)| * |real (m.sub i j 2 1)|
        + |real (m.sub i j 0 1)| * |real (m.sub i j 1 0)| * |real (m.sub i j 2 2)|
        + |real (m.sub i j 0 2)| * |real (m.sub i j 1 1)| * |real (m.sub i j 2 0)| ≤ 6 * M ^ 3 := by
      have := absAdj_le m.toReal hM j i
      rw [absAdj, absDet_three] at this
      simp only [Matrix4x4.real_sub]
      refine this.trans (le_of_eq ?_)
      norm_num [Nat.factorial]
    have sz := a6.size.trans_lt (Approx.num6 le_rfl h1 a6.nonneg le6 le_rfl)
    have fcof : IsFinite (m.cofactor i j) := by
      unfold Matrix4x4.cofactor
      refine (correct_mul ?_ f6).1.2 ?_
      · split_ifs <;> simp [finite_neg, finite_one]
      · rw [abs_mul, Matrix4x4.real_sign, abs_pow, abs_neg, abs_one, one_pow, one_mul]
        exact sz.trans_le hO3
    have ac := m.approx_cofactor i j fcof hM
    exact ⟨fcof, ac.size.trans_lt (Approx.num6 le_rfl h1 ac.nonneg
      ((absAdj_le m.toReal hM j i).trans (le_of_eq (by norm_num [Nat.factorial]))) le_rfl)⟩
  -- the four products
  have ft : ∀ (a : S) (j : Fin 4), IsFinite a → |real a| ≤ M → IsFinite (a * m.cofactor 0 j) := by
    intro a j fa ma
    refine (correct_mul fa (fc 0 j).1).1.2 ?_
    rw [abs_mul]
    have := mul_le_mul ma (fc 0 j).2.le (abs_nonneg _) h0
    have e : M * (64 * M ^ 3) = 64 * M ^ 4 := by ring
    linarith
  have st : ∀ (a : S) (j : Fin 4), |real a| ≤ M → |real a * real (m.cofactor 0 j)| ≤ 64 * M ^ 4 := by
    intro a j ma
    rw [abs_mul]
    have := mul_le_mul ma (fc 0 j).2.le (abs_nonneg _) h0
    have e : M * (64 * M ^ 3) = 64 * M ^ 4 := by ring
    linarith
  have add54 : ∀ {a b : S}, IsFinite (a + b) → |real (a + b)| ≤ 5 / 4 * |real a + real b| := by
    intro a b hf
    have h2 := err_add hf
    have h3 := uro_le (S := S)
    have h4 := abs_add_le (real (a + b) - (real a + real b)) (real a + real b)
    rw [sub_add_cancel] at h4
    nlinarith [abs_nonneg (real a + real b)]
  have pt : ∀ (a : S) (j : Fin 4), IsFinite a → |real a| ≤ M → |real (a * m.cofactor 0 j)| ≤ 81 * M ^ 4 := by
    intro a j fa ma
    have h2 := err_mul (ft a j fa ma)
    have h3 := uro_le (S := S)
    have h4 := abs_add_le (real (a * m.cofactor 0 j) - real a * real (m.cofactor 0 j)) (real a * real (m.cofactor 0 j))
    rw [sub_add_cancel] at h4
    have h5 := st a j ma
    have h6 := tiny_le (S := S)
    nlinarith [abs_nonneg (real a * real (m.cofactor 0 j))]
  have fe := fun k hk => Matrix4x4.allFinite.1 hm k hk
  have p0 := pt m.m[0] 0 (fe _ _) (hM 0 0)
  have p1 := pt m.m[1] 1 (fe _ _) (hM 0 1)
  have p2 := pt m.m[2] 2 (fe _ _) (hM 0 2)
  have p3 := pt m.m[3] 3 (fe _ _) (hM 0 3)
  have f0 := ft m.m[0] 0 (fe _ _) (hM 0 0)
  have f1 := ft m.m[1] 1 (fe _ _) (hM 0 1)
  have f2 := ft m.m[2] 2 (fe _ _) (hM 0 2)
  have f3 := ft m.m[3] 3 (fe _ _) (hM 0 3)
  have s1 := (correct_add f0 f1).1.2 (by
    have := abs_add_le (real (m.m[0] * m.cofactor 0 0)) (real (m.m[1] * m.cofactor 0 1))
    linarith)
  have q1 := add54 s1
  have r1 := abs_add_le (real (m.m[0] * m.cofactor 0 0)) (real (m.m[1] * m.cofactor 0 1))
  have s2 := (correct_add s1 f2).1.2 (by
    have := abs_add_le (real (m.m[0] * m.cofactor 0 0 + m.m[1] * m.cofactor 0 1)) (real (m.m[2] * m.cofactor 0 2))
    linarith)
  have q2 := add54 s2
  have r2 := abs_add_le (real (m.m[0] * m.cofactor 0 0 + m.m[1] * m.cofactor 0 1)) (real (m.m[2] * m.cofactor 0 2))
  have fd : IsFinite (m.detOf m.adjugate) := (correct_add s2 f3).1.2 (by
    have := abs_add_le (real (m.m[0] * m.cofactor 0 0 + m.m[1] * m.cofactor 0 1 + m.m[2] * m.cofactor 0 2))
      (real (m.m[3] * m.cofactor 0 3))
    linarith)
  have hdist : |real (m.detOf m.adjugate) - m.toReal.det| ≤ detErr4 S m.toReal M := (m.approx_det fd hM).2
  have hge : |m.toReal.det| - detErr4 S m.toReal M ≤ |real (m.detOf m.adjugate)| := by
    have := abs_sub_abs_le_abs_sub m.toReal.det (real (m.detOf m.adjugate))
    rw [abs_sub_comm] at this; linarith
  have hpos : 0 < |real (m.detOf m.adjugate)| := by linarith
  have hne : real (m.detOf m.adjugate) ≠ 0 := abs_pos.1 hpos
  have hb : (m.detOf m.adjugate != zero) = true := by
    by_contra hb
    exact hne (isZero_of_not_bne hb).2
  have e1 := show m.inverse = _ from if_pos hb
  have fr : AllFinite (m.adjugate / m.detOf m.adjugate) := by
    have fq : ∀ i j, IsFinite (m.cofactor i j / m.detOf m.adjugate) := by
      intro i j
      refine (correct_div (fc i j).1 fd hne).1.2 ?_
      rw [abs_div, div_lt_iff₀ hpos]
      have := mul_le_mul_of_nonneg_left hge hO0.le
      have := (fc i j).2
      linarith
    rw [Matrix4x4.allFinite]
    intro k hk
    rw [Matrix4x4.divs _ _ _ hk]
    revert k
    rw [forall_lt_16]
    exact ⟨fq _ _, fq _ _, fq _ _, fq _ _, fq _ _, fq _ _, fq _ _, fq _ _, fq _ _, fq _ _, fq _ _, fq _ _,
      fq _ _, fq _ _, fq _ _, fq _ _⟩
  exact ⟨_, e1, fr, m.inverse_bound _ e1 fr ⟨fd, hne⟩ M hM⟩

/-! ### Hypotheses are met -/

theorem uroE_f32 : uro F32 = 2 ^ (-24 : ℤ) := rfl
theorem tinyE_f32 : tiny F32 = 2 ^ (-150 : ℤ) := rfl
theorem overflowE_f32 : (2 : ℝ) ^ 100 ≤ overflowAt F32 := by
  show (2 : ℝ) ^ 100 ≤ 2 ^ (128 : ℤ) - 2 ^ (128 - (24 : ℕ) - 1 : ℤ)
  norm_num
theorem detErr3_f32 {m : Matrix (Fin 3) (Fin 3) ℝ} (hm : ∀ i j, |m i j| ≤ 1) : detErr3 F32 m 1 ≤ 1 / 2 := by
  have h := absDet_le m hm
  unfold detErr3 gam
  rw [uroE_f32, tinyE_f32]
  have : ((1 + (2 : ℝ) ^ (-24 : ℤ)) ^ 7 - 1) * absDet m ≤ ((1 + (2 : ℝ) ^ (-24 : ℤ)) ^ 7 - 1) * 6 :=
    mul_le_mul_of_nonneg_left (by norm_num [Nat.factorial] at h; linarith) (by norm_num)
  refine (add_le_add_left this _).trans ?_
  norm_num
theorem detErr4_f32 {m : Matrix (Fin 4) (Fin 4) ℝ} (hm : ∀ i j, |m i j| ≤ 1) : detErr4 F32 m 1 ≤ 1 / 2 := by
  have h := absDet_le m hm
  unfold detErr4 gam
  rw [uroE_f32, tinyE_f32]
  have : ((1 + (2 : ℝ) ^ (-24 : ℤ)) ^ 11 - 1) * absDet m ≤ ((1 + (2 : ℝ) ^ (-24 : ℤ)) ^ 11 - 1) * 24 :=
    mul_le_mul_of_nonneg_left (by norm_num [Nat.factorial] at h; linarith) (by norm_num)
  refine (add_le_add_left this _).trans ?_
  norm_num

/-- A shear in `f32` meets the hypotheses of `C66_inRange3x3`, and its inverse those of `C66_inverse3x3` and
`C66_residual3x3` (it is nonzero, since the residual bound would fail for zero). -/
example : ∃ m r : Matrix3x3 F32, AllFinite m ∧ m.toReal 0 1 = 1 ∧ m.toReal.det = 1 ∧
    detErr3 F32 m.toReal 1 < |m.toReal.det| ∧ m.inverse = .ok r ∧ AllFinite r ∧ r.toReal ≠ 0 := by
  let m : Matrix3x3 F32 := .new #v[one, one, zero, zero, one, zero, zero, zero, one]
  have hm : AllFinite m := by
    rw [Matrix3x3.allFinite, forall_lt_9]
    exact ⟨finite_one, finite_one, finite_zero, finite_zero, finite_one, finite_zero, finite_zero, finite_zero, finite_one⟩
  have e : m.toReal = !![1, 1, 0; 0, 1, 0; 0, 0, 1] := by
    ext i j; fin_cases i <;> fin_cases j <;> first | exact real_one | exact real_zero
  have hM : ∀ i j, |m.toReal i j| ≤ 1 := by
    rw [e]; intro i j; fin_cases i <;> fin_cases j <;> simp
  have hd : m.toReal.det = 1 := by rw [e, Matrix.det_fin_three]; simp
  have he := detErr3_f32 hM
  have ho := overflowE_f32
  have hl : detErr3 F32 m.toReal 1 < |m.toReal.det| := by rw [hd, abs_one]; linarith
  obtain ⟨r, h1, h2, h3⟩ := C66_inRange3x3 m hm 1 le_rfl hM (by norm_num; norm_num at ho; linarith) hl
    (by rw [hd, abs_one]; norm_num at ho ⊢; nlinarith)
  refine ⟨m, r, hm, by rw [e]; simp, hd, hl, h1, h2, fun hz => ?_⟩
  have h00 := h3 0 0
  rw [hz, hd, Matrix.zero_apply, zero_mul, zero_sub, abs_neg] at h00
  have e1 : m.toReal.adjugate 0 0 = 1 := by
    rw [Matrix.adjugate_fin_three, e]; simp
  have e2 := absAdj_le m.toReal hM 0 0
  unfold invErr3 gam at h00
  rw [e1, uroE_f32, tinyE_f32, hd, Matrix.zero_apply, abs_zero, abs_one] at h00
  have e3 : ((1 + (2 : ℝ) ^ (-24 : ℤ)) ^ 3 - 1) * absAdj m.toReal 0 0 ≤ ((1 + (2 : ℝ) ^ (-24 : ℤ)) ^ 3 - 1) * 2 :=
    mul_le_mul_of_nonneg_left (by norm_num [Nat.factorial] at e2; linarith) (by norm_num)
  norm_num at h00 e3
  linarith
/-- The same in 4x4. -/
example : ∃ m r : Matrix4x4 F32, AllFinite m ∧ m.toReal 0 1 = 1 ∧ m.toReal.det = 1 ∧
    detErr4 F32 m.toReal 1 < |m.toReal.det| ∧ m.inverse = .ok r ∧ AllFinite r ∧ r.toReal ≠ 0 := by
  let m : Matrix4x4 F32 := .new #v[one, one, zero, zero, zero, one, zero, zero, zero, zero, one, zero, zero, zero, zero, one]
  have hm : AllFinite m := by
    rw [Matrix4x4.allFinite, forall_lt_16]
    exact ⟨finite_one, finite_one, finite_zero, finite_zero, finite_zero, finite_one, finite_zero, finite_zero,
      finite_zero, finite_zero, finite_one, finite_zero, finite_zero, finite_zero, finite_zero, finite_one⟩
  have e : m.toReal = !![1, 1, 0, 0; 0, 1, 0, 0; 0, 0, 1, 0; 0, 0, 0, 1] := by
    ext i j; fin_cases i <;> fin_cases j <;> first | exact real_one | exact real_zero
  have hM : ∀ i j, |m.toReal i j| ≤ 1 := by
    rw [e]; intro i j; fin_cases i <;> fin_cases j <;> simp
  have hd : m.toReal.det = 1 := by rw [e]; simp [Matrix.det_succ_row_zero, Fin.sum_univ_succ, Fin.succAbove]
  have he := detErr4_f32 hM
  have ho := overflowE_f32
  have hl : detErr4 F32 m.toReal 1 < |m.toReal.det| := by rw [hd, abs_one]; linarith
  obtain ⟨r, h1, h2, h3⟩ := C66_inRange4x4 m hm 1 le_rfl hM (by norm_num; norm_num at ho; linarith) hl
    (by rw [hd, abs_one]; norm_num at ho ⊢; nlinarith)
  refine ⟨m, r, hm, by rw [e]; simp, hd, hl, h1, h2, fun hz => ?_⟩
  have h00 := h3 0 0
  rw [hz, hd, Matrix.zero_apply, zero_mul, zero_sub, abs_neg] at h00
  have e1 : m.toReal.adjugate 0 0 = 1 := by
    rw [Matrix.adjugate_fin_succ_eq_det_submatrix, e, Matrix.det_fin_three]; simp [Fin.succAbove]
  have e2 := absAdj_le m.toReal hM 0 0
  unfold invErr4 gam at h00
  rw [e1, uroE_f32, tinyE_f32, hd, Matrix.zero_apply, abs_zero, abs_one] at h00
  have e3 : ((1 + (2 : ℝ) ^ (-24 : ℤ)) ^ 8 - 1) * absAdj m.toReal 0 0 ≤ ((1 + (2 : ℝ) ^ (-24 : ℤ)) ^ 8 - 1) * 6 :=
    mul_le_mul_of_nonneg_left (by norm_num [Nat.factorial] at e2; linarith) (by norm_num)
  norm_num at h00 e3
  linarith
/-- Rejected matrices exist in `f32` (C45), so `C66_rejected4x4` and `C66_rejected3x3` have instances. -/
example : ∃ m : Matrix4x4 F32, m.toReal.det ≠ 0 ∧ m.inverse = .error .mk ∧
    ∀ M, (∀ i j, |m.toReal i j| ≤ M) → |m.toReal.det| ≤ detErr4 F32 m.toReal M := by
  obtain ⟨⟨m, -, h1, h2, -⟩, -⟩ := C45_float_rejected3 (F := binary32)
  exact ⟨m, h1, h2, C66_rejected4x4 m _ h2⟩
example : ∃ m : Matrix3x3 F32, m.toReal.det ≠ 0 ∧ m.inverse = .error .mk ∧
    ∀ M, (∀ i j, |m.toReal i j| ≤ M) → |m.toReal.det| ≤ detErr3 F32 m.toReal M := by
  obtain ⟨⟨m, -, h1, h2, -⟩, -⟩ := C45_float_rejected2 (F := binary32)
  exact ⟨m, h1, h2, C66_rejected3x3 m _ h2⟩

end VecMath
