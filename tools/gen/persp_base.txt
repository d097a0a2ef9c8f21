theorem proj_two {f g w α : ℝ} (hw : w ≠ 0)
    (h : ∀ s : ℝ, w + s * α ≠ 0 → (f + s * g) / (w + s * α) = f / w + s * g) : α * g = 0 ∧ g * (1 - w) = α * (f / w) := by
  have key : ∀ s : ℝ, s ≠ 0 → w + s * α ≠ 0 → g * (1 - w) = α * (f / w) + s * (α * g) := by
    intro s hs hq
    have e := h s hq
    rw [div_eq_iff hq] at e
    have e2 : s * (g * (1 - w)) = s * (α * (f / w) + s * (α * g)) := by
      have : f / w * w = f := div_mul_cancel₀ f hw
      linear_combination e + this
    exact mul_left_cancel₀ hs e2
  have ex : ∃ s t : ℝ, s ≠ 0 ∧ t ≠ 0 ∧ s ≠ t ∧ w + s * α ≠ 0 ∧ w + t * α ≠ 0 := by
    by_cases a1 : w + 1 * α = 0
    · have hα : α = -w := by linarith
      exact ⟨2, 3, by norm_num, by norm_num, by norm_num, by rw [hα]; intro h; apply hw; linarith, by rw [hα]; intro h; apply hw; linarith⟩
    · by_cases a2 : w + 2 * α = 0
      · have hα : w = -2 * α := by linarith
        have : α ≠ 0 := by intro h; apply hw; rw [hα, h]; ring
        exact ⟨1, 3, by norm_num, by norm_num, by norm_num, a1, by rw [hα]; intro h; apply this; linarith⟩
      · exact ⟨1, 2, by norm_num, by norm_num, by norm_num, a1, a2⟩
  obtain ⟨s, t, s0, t0, st, h1, h2⟩ := ex
  have k1 := key s s0 h1
  have k2 := key t t0 h2
  have : (s - t) * (α * g) = 0 := by linarith
  have z := (mul_eq_zero.1 this).resolve_left (sub_ne_zero.2 st)
  exact ⟨z, by rw [k1, z]; ring⟩
/-- A matrix that maps points projectively and vectors linearly, and rays consistently with that, has the last row `0 .. 0 1`. -/
theorem proj_ray {k : ℕ} (M : Matrix (Fin (k + 1)) (Fin (k + 1)) ℝ) (inj : ∀ x, M.mulVec x = 0 → x = 0)
    (h : ∀ (o v : Fin (k + 1) → ℝ) (s : ℝ), o (Fin.last k) = 1 → v (Fin.last k) = 0 → (M.mulVec o) (Fin.last k) ≠ 0 →
      (M.mulVec (o + s • v)) (Fin.last k) ≠ 0 → ∀ i : Fin k, (M.mulVec (o + s • v)) i.castSucc / (M.mulVec (o + s • v)) (Fin.last k) =
        (M.mulVec o) i.castSucc / (M.mulVec o) (Fin.last k) + s * (M.mulVec v) i.castSucc) (hl : ∃ j, M (Fin.last k) j ≠ 0) (j₀ : Fin k) :
    ∀ j, M (Fin.last k) j = if j = Fin.last k then 1 else 0 := by
  -- the value at a unit vector
  have unit : ∀ (i j : Fin (k + 1)), (M.mulVec (Pi.single j 1)) i = M i j := by
    intro i j; rw [Matrix.mulVec_single_one]; rfl
  -- a point of nonzero weight
  have hz : (Pi.single (Fin.last k) 1 : Fin (k + 1) → ℝ) (Fin.last k) = 1 := by simp
  obtain ⟨o, o1, ow⟩ : ∃ o : Fin (k + 1) → ℝ, o (Fin.last k) = 1 ∧ (M.mulVec o) (Fin.last k) ≠ 0 := by
    by_contra hc
    push Not at hc
    have d0 := hc _ hz
    obtain ⟨j, hj⟩ := hl
    refine Fin.lastCases (motive := fun j => M (Fin.last k) j ≠ 0 → False) (fun hj => ?_) (fun j hj => ?_) j hj
    · exact hj (by rw [← unit]; exact d0)
    · have := hc (Pi.single (Fin.last k) 1 + Pi.single j.castSucc 1) (by simp [(Fin.castSucc_lt_last j).ne'])
      rw [Matrix.mulVec_add, Pi.add_apply, d0, zero_add, unit] at this
      exact hj this
  have main : ∀ v : Fin (k + 1) → ℝ, v (Fin.last k) = 0 → v ≠ 0 → (M.mulVec v) (Fin.last k) = 0 ∧ (M.mulVec o) (Fin.last k) = 1 := by
    intro v v0 vn
    have K : ∀ i : Fin k, (M.mulVec v) (Fin.last k) * (M.mulVec v) i.castSucc = 0 ∧
        (M.mulVec v) i.castSucc * (1 - (M.mulVec o) (Fin.last k)) = (M.mulVec v) (Fin.last k) * ((M.mulVec o) i.castSucc / (M.mulVec o) (Fin.last k)) := by
      intro i
      refine proj_two ow (fun s hs => ?_)
      have := h o v s o1 v0 ow (by rw [Matrix.mulVec_add, Matrix.mulVec_smul]; exact hs) i
      rw [Matrix.mulVec_add, Matrix.mulVec_smul] at this
      exact this
    by_cases ha : (M.mulVec v) (Fin.last k) = 0
    · refine ⟨ha, ?_⟩
      by_contra hne
      apply vn
      apply inj
      funext i
      refine Fin.lastCases ha (fun i => ?_) i
      have := (K i).2
      rw [ha, zero_mul] at this
      exact (mul_eq_zero.1 this).resolve_right (sub_ne_zero.2 (Ne.symm hne))
    · exfalso
      have g0 : ∀ i : Fin k, (M.mulVec v) i.castSucc = 0 := fun i => (mul_eq_zero.1 (K i).1).resolve_left ha
      have f0 : ∀ i : Fin k, (M.mulVec o) i.castSucc = 0 := by
        intro i
        have := (K i).2
        rw [g0, zero_mul] at this
        have := (mul_eq_zero.1 this.symm).resolve_left ha
        exact (div_eq_zero_iff.1 this).resolve_right ow
      have z := inj ((M.mulVec v) (Fin.last k) • o - (M.mulVec o) (Fin.last k) • v) (by
        rw [Matrix.mulVec_sub, Matrix.mulVec_smul, Matrix.mulVec_smul]
        funext i
        refine Fin.lastCases ?_ (fun i => ?_) i
        · simp [mul_comm]
        · simp [f0, g0])
      have := congrFun z (Fin.last k)
      simp [o1, v0] at this
      exact ha this
  have col : ∀ j : Fin k, M (Fin.last k) j.castSucc = 0 ∧ (M.mulVec o) (Fin.last k) = 1 := by
    intro j
    have := main (Pi.single j.castSucc 1) (by simp [(Fin.castSucc_lt_last j).ne']) (by simp)
    rwa [unit] at this
  have dd : M (Fin.last k) (Fin.last k) = 1 := by
    rw [← (col j₀).2, Matrix.mulVec, dotProduct, Fin.sum_univ_castSucc, o1, mul_one, Finset.sum_eq_zero, zero_add]
    intro j _
    rw [(col j).1, zero_mul]
  intro j
  refine Fin.lastCases (by simpa using dd) (fun j => ?_) j
  rw [(col j).1, if_neg (Fin.castSucc_lt_last j).ne]
