
/-! ### In range: acceptance, finiteness and accuracy together -/

theorem tiny_le : tiny S ≤ 1 / 4 := by
  unfold tiny
  have := Fmt.z_le (show (Binary.F S).emin - 1 ≤ -2 by have := (Binary.F S).emin_le; omega)
  norm_num at this ⊢; linarith

namespace Approx
variable {k l : ℕ} {a b c : S} {x y A B s t M : ℝ}

theorem pow_le (k : ℕ) : (1 + uro S) ^ k ≤ (5 / 4) ^ k :=
  pow_le_pow_left₀ (by have := uro_pos (S := S); linarith) (by have := uro_le (S := S); linarith) k

/-- A size bound that covers all intermediate results of the six-term expression. -/
theorem num6 (hk : k ≤ 7) (h1 : 1 ≤ M) (h0 : 0 ≤ A) (hA : A ≤ 6 * M ^ 3)
    (ht : t ≤ 6 * (1 + uro S) ^ 6 * (1 + M) * tiny S) : (1 + uro S) ^ k * A + t < 64 * M ^ 3 := by
  have p := (pow_le_pow_right₀ (show 1 ≤ 1 + uro S by have := uro_pos (S := S); linarith) hk).trans (pow_le (S := S) 7)
  have q := pow_le (S := S) 6
  have h3 : 1 ≤ M ^ 3 := one_le_pow₀ h1
  have h4 : M ≤ M ^ 3 := le_self_pow₀ h1 (by norm_num)
  have e1 : (1 + uro S) ^ k * A ≤ (5 / 4) ^ 7 * (6 * M ^ 3) := mul_le_mul p hA h0 (by positivity)
  have e2 : 6 * (1 + uro S) ^ 6 * (1 + M) * tiny S ≤ 6 * (5 / 4) ^ 6 * (2 * M ^ 3) * (1 / 4) := by
    have := tiny_le (S := S)
    have := tiny_pos (S := S)
    have : 1 + M ≤ 2 * M ^ 3 := by linarith
    gcongr
  norm_num at e1 e2
  linarith
theorem sum_size (ha : Approx k s a x A) (hb : Approx k t b y B) :
    |real a + real b| ≤ (1 + uro S) ^ k * (A + B) + (s + t) ∧
    |real a - real b| ≤ (1 + uro S) ^ k * (A + B) + (s + t) := by
  have h1 := ha.size
  have h2 := hb.size
  have h3 := abs_add_le (real a) (real b)
  have h4 := abs_sub (real a) (real b)
  rw [mul_add]; constructor <;> linarith
theorem fin_add (ha : Approx k s a x A) (hb : Approx k t b y B) (fa : IsFinite a) (fb : IsFinite b)
    (h : (1 + uro S) ^ k * (A + B) + (s + t) < overflowAt S) : IsFinite (a + b) :=
  (correct_add fa fb).1.2 ((ha.sum_size hb).1.trans_lt h)
theorem fin_sub (ha : Approx k s a x A) (hb : Approx k t b y B) (fa : IsFinite a) (fb : IsFinite b)
    (h : (1 + uro S) ^ k * (A + B) + (s + t) < overflowAt S) : IsFinite (a - b) :=
  (correct_sub fa fb).1.2 ((ha.sum_size hb).2.trans_lt h)

/-- Products of three factors of size at most `M`. -/
theorem fin_prod3 (h1 : 1 ≤ M) (hO : 64 * M ^ 3 ≤ overflowAt S) (fa : IsFinite a) (fb : IsFinite b)
    (fc : IsFinite c) (ha : |real a| ≤ M) (hb : |real b| ≤ M) (hc : |real c| ≤ M) :
    IsFinite (a * b) ∧ IsFinite (a * b * c) := by
  have h0 : 0 ≤ M := by linarith
  have h3 : 1 ≤ M ^ 3 := one_le_pow₀ h1
  have h4 : M ≤ M ^ 3 := le_self_pow₀ h1 (by norm_num)
  have h5 : M ^ 2 ≤ M ^ 3 := pow_le_pow_right₀ h1 (by norm_num)
  have hab : |real a| * |real b| ≤ M ^ 2 := by
    rw [pow_two]; exact mul_le_mul ha hb (abs_nonneg _) h0
  have f1 : IsFinite (a * b) := by
    refine (correct_mul fa fb).1.2 ?_
    rw [abs_mul]; linarith
  refine ⟨f1, (correct_mul f1 fc).1.2 ?_⟩
  rw [abs_mul]
  have hs := (prod f1).size
  rw [pow_one] at hs
  have hu := uro_le (S := S)
  have hp := uro_pos (S := S)
  have ht := tiny_le (S := S)
  have h6 : |real (a * b)| ≤ 5 / 4 * M ^ 2 + 1 / 4 := by
    refine hs.trans (add_le_add (mul_le_mul (by linarith) hab (by positivity) (by norm_num)) ht)
  have h7 : |real (a * b)| * |real c| ≤ (5 / 4 * M ^ 2 + 1 / 4) * M :=
    mul_le_mul h6 hc (abs_nonneg _) (by positivity)
  have h8 : M ^ 2 * M = M ^ 3 := by ring
  nlinarith

/-- The six-term expression does not overflow. -/
theorem fin_six {a1 a2 a3 b1 b2 b3 c1 c2 c3 d1 d2 d3 e1 e2 e3 f1 f2 f3 : S} (h1 : 1 ≤ M)
    (hO : 64 * M ^ 3 ≤ overflowAt S)
    (h : ∀ z ∈ [a1, a2, a3, b1, b2, b3, c1, c2, c3, d1, d2, d3, e1, e2, e3, f1, f2, f3], IsFinite z ∧ |real z| ≤ M) :
    IsFinite (a1 * a2 * a3 + b1 * b2 * b3 + c1 * c2 * c3 - d1 * d2 * d3 - e1 * e2 * e3 - f1 * f2 * f3) := by
  simp only [List.mem_cons, List.not_mem_nil, or_false, forall_eq_or_imp, forall_eq] at h
  obtain ⟨⟨fa1, ma1⟩, ⟨fa2, ma2⟩, ⟨fa3, ma3⟩, ⟨fb1, mb1⟩, ⟨fb2, mb2⟩, ⟨fb3, mb3⟩, ⟨fc1, mc1⟩, ⟨fc2, mc2⟩, ⟨fc3, mc3⟩,
    ⟨fd1, md1⟩, ⟨fd2, md2⟩, ⟨fd3, md3⟩, ⟨fe1, me1⟩, ⟨fe2, me2⟩, ⟨fe3, me3⟩, ⟨ff1, mf1⟩, ⟨ff2, mf2⟩, ⟨ff3, mf3⟩⟩ := h
  have h0 : 0 ≤ M := by linarith
  have hp := uro_pos (S := S)
  have tp := tiny_pos (S := S)
  have pa := (fin_prod3 h1 hO fa1 fa2 fa3 ma1 ma2 ma3).2
  have pb := (fin_prod3 h1 hO fb1 fb2 fb3 mb1 mb2 mb3).2
  have pc := (fin_prod3 h1 hO fc1 fc2 fc3 mc1 mc2 mc3).2
  have pd := (fin_prod3 h1 hO fd1 fd2 fd3 md1 md2 md3).2
  have pe := (fin_prod3 h1 hO fe1 fe2 fe3 me1 me2 me3).2
  have pf := (fin_prod3 h1 hO ff1 ff2 ff3 mf1 mf2 mf3).2
  have m3 : ∀ {x y z : S}, |real x| ≤ M → |real y| ≤ M → |real z| ≤ M → |real x| * |real y| * |real z| ≤ M ^ 3 := by
    intro x y z hx hy hz
    rw [pow_succ, pow_two]
    exact mul_le_mul (mul_le_mul hx hy (abs_nonneg _) h0) hz (abs_nonneg _) (by positivity)
  have ma := m3 ma1 ma2 ma3
  have mb := m3 mb1 mb2 mb3
  have mc := m3 mc1 mc2 mc3
  have md := m3 md1 md2 md3
  have me := m3 me1 me2 me3
  have mf := m3 mf1 mf2 mf3
  have t0 : 0 ≤ (1 + uro S) * (1 + M) * tiny S := by positivity
  have m0 : 0 ≤ M ^ 3 := by positivity
  -- underflow terms
  have tau : ∀ n j : ℕ, n ≤ 5 → j ≤ 5 → (n : ℝ) * (1 + uro S) ^ j * ((1 + uro S) * (1 + M) * tiny S) +
      (1 + uro S) * (1 + M) * tiny S ≤ 6 * (1 + uro S) ^ 6 * (1 + M) * tiny S := by
    intro n j hn hj
    have w : (1 + uro S) ^ j ≤ (1 + uro S) ^ 5 := pow_le_pow_right₀ (by linarith) hj
    have w1 := one_le_pow (S := S) 5
    have hn' : (n : ℝ) ≤ 5 := by exact_mod_cast hn
    have : (n : ℝ) * (1 + uro S) ^ j ≤ 5 * (1 + uro S) ^ 5 := mul_le_mul hn' w (by positivity) (by norm_num)
    have := mul_le_mul_of_nonneg_right this t0
    have := mul_le_mul_of_nonneg_right w1 t0
    have e : 6 * (1 + uro S) ^ 6 * (1 + M) * tiny S = 5 * (1 + uro S) ^ 5 * ((1 + uro S) * (1 + M) * tiny S) +
      (1 + uro S) ^ 5 * ((1 + uro S) * (1 + M) * tiny S) := by ring
    linarith
  have na : ∀ x y z : S, 0 ≤ |real x| * |real y| * |real z| := fun _ _ _ => by positivity
  have a1' := (prod3 pa ma3).start
  have b1' := prod3 pb mb3
  have s1 := fin_add a1' b1' pa pb ((num6 (by norm_num) h1 (add_nonneg (na _ _ _) (na _ _ _)) (by linarith) (tau 1 0 (by norm_num) (by norm_num))).trans_le hO)
  have a2' := acc t0 le_rfl a1' b1' s1
  have c1' := (prod3 pc mc3).mono (l := 3) (by norm_num) le_rfl
  have s2 := fin_add a2' c1' s1 pc ((num6 (by norm_num) h1 (add_nonneg a2'.nonneg c1'.nonneg) (by linarith) (tau 2 1 (by norm_num) (by norm_num))).trans_le hO)
  have a3' := acc t0 le_rfl a2' c1' s2
  have d1' := (prod3 pd md3).mono (l := 4) (by norm_num) le_rfl
  have s3 := fin_sub a3' d1' s2 pd ((num6 (by norm_num) h1 (add_nonneg a3'.nonneg d1'.nonneg) (by linarith) (tau 3 2 (by norm_num) (by norm_num))).trans_le hO)
  have a4' := acc_sub t0 le_rfl a3' d1' s3
  have e1' := (prod3 pe me3).mono (l := 5) (by norm_num) le_rfl
  have s4 := fin_sub a4' e1' s3 pe ((num6 (by norm_num) h1 (add_nonneg a4'.nonneg e1'.nonneg) (by linarith) (tau 4 3 (by norm_num) (by norm_num))).trans_le hO)
  have a5' := acc_sub t0 le_rfl a4' e1' s4
  have f1' := (prod3 pf mf3).mono (l := 6) (by norm_num) le_rfl
  exact fin_sub a5' f1' s4 pf ((num6 (by norm_num) h1 (add_nonneg a5'.nonneg f1'.nonneg) (by linarith) (tau 5 4 (by norm_num) (by norm_num))).trans_le hO)
end Approx
