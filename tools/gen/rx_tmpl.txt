/-! ## $M -/
section
variable {a b c m n : $M Ideal} {p q : $P Ideal} {u v : $V Ideal} {s t : Ideal}

/-- **C41** in real arithmetic: `*` is the matrix product; it is associative and compatible with scalar
multiplication; finite matrices stay finite. -/
theorem C41_real$D (a b c : $M Ideal) (s : Ideal) (ha : AllFinite a) (hb : AllFinite b) (hc : AllFinite c)
    (hs : IsFinite s) :
    AllFinite (a * b) ∧ (∀ i j, (a * b).toReal i j = ∑ k, a.toReal i k * b.toReal k j) ∧
    ((a * b) * c == a * (b * c)) = true ∧ ((a * s) * b == (a * b) * s) = true ∧
    (a * (b * s) == (a * b) * s) = true ∧
    (a * b).toReal.det = a.toReal.det * b.toReal.det := by
  have hab := $M.fin_mul ha hb
  have hbc := $M.fin_mul hb hc
  refine ⟨hab, fun i j => ?_, ?_, ?_, ?_, ?_⟩
  · rw [$M.toReal_mul ha hb, Matrix.mul_apply]
  · rw [$M.beq_toReal ($M.fin_mul hab hc) ($M.fin_mul ha hbc), $M.toReal_mul hab hc, $M.toReal_mul ha hbc,
      $M.toReal_mul ha hb, $M.toReal_mul hb hc, mul_assoc]
  · rw [$M.beq_toReal ($M.fin_mul ($M.fin_muls ha hs) hb) ($M.fin_muls hab hs),
      $M.toReal_mul ($M.fin_muls ha hs) hb, $M.toReal_muls ha hs, $M.toReal_muls hab hs, $M.toReal_mul ha hb,
      Matrix.smul_mul]
  · rw [$M.beq_toReal ($M.fin_mul ha ($M.fin_muls hb hs)) ($M.fin_muls hab hs),
      $M.toReal_mul ha ($M.fin_muls hb hs), $M.toReal_muls hb hs, $M.toReal_muls hab hs, $M.toReal_mul ha hb,
      Matrix.mul_smul]
  · rw [$M.toReal_mul ha hb, Matrix.det_mul]

/-- **C42** in real arithmetic: scaling a matrix and dividing again (or the other way round) gives it
back, and scalings compose. -/
theorem C42_real$D (m : $M Ideal) (s t : Ideal) (hm : AllFinite m) (hs : IsFinite s) (ht : IsFinite t) :
    ((m * s) * t == m * (s * t)) = true ∧ (m * (one : Ideal) == m) = true ∧
    (real s ≠ 0 → ((m * s) / s == m) = true ∧ ((m / s) * s == m) = true) := by
  refine ⟨?_, ?_, fun h0 => ⟨?_, ?_⟩⟩
  · rw [$M.beq_toReal ($M.fin_muls ($M.fin_muls hm hs) ht) ($M.fin_muls hm (Ideal.finite_mul hs ht)),
      $M.toReal_muls ($M.fin_muls hm hs) ht, $M.toReal_muls hm hs, $M.toReal_muls hm (Ideal.finite_mul hs ht),
      Ideal.real_mul hs ht, smul_smul, mul_comm]
  · rw [$M.beq_toReal ($M.fin_muls hm finite_one) hm, $M.toReal_muls hm finite_one, real_one, one_smul]
  · rw [$M.beq_toReal ($M.fin_divs ($M.fin_muls hm hs) hs h0) hm, $M.toReal_divs ($M.fin_muls hm hs) hs h0,
      $M.toReal_muls hm hs, smul_smul, inv_mul_cancel₀ h0, one_smul]
  · rw [$M.beq_toReal ($M.fin_muls ($M.fin_divs hm hs h0) hs) hm, $M.toReal_muls ($M.fin_divs hm hs h0) hs,
      $M.toReal_divs hm hs h0, smul_smul, mul_inv_cancel₀ h0, one_smul]

/-- **C43** in real arithmetic: `m * p` is the projective action. With nonzero homogeneous weight
`w = (M (p,1))_last` the result is finite and equals the first coordinates of `M (p,1)` divided by `w`; with
weight zero no coordinate of the result is finite. -/
theorem C43_real_point$D (m : $M Ideal) (p : $P Ideal) (hm : AllFinite m) (hp : AllFinite p) :
    (m.weight p ≠ 0 → AllFinite (m * p) ∧
      ∀ i : Fin $D, (m * p).toReal i = (m.toReal.mulVec p.hom) i.castSucc / m.weight p) ∧
    (m.weight p = 0 → ∀ s ∈ Comps.comps (m * p), ¬ IsFinite s) := by
  refine ⟨fun h => $M.mulp_aux hm hp h, fun h => ?_⟩
  rw [$M.allFinite, forall_lt_$N] at hm
  rw [$P.allFinite] at hp
  have hd : IsFinite ($WEXP) := by
    simp (maxDischargeDepth := 20) only [Ideal.finite_add, Ideal.finite_mul, hm, hp]
  have hr : real ($WEXP) = m.weight p := by
    simp (maxDischargeDepth := 20) only [Ideal.real_add, Ideal.finite_add, Ideal.finite_mul, Ideal.real_mul, hm, hp]
    rw [$M.weight, $M.toReal_eq]
    simp [Matrix.mulVec, dotProduct, Fin.sum_univ_succ, $P.hom, Fin.last, add_assoc]
  rw [h] at hr
  intro s hs
  have : ∃ x : Ideal, s = x / ($WEXP) := by
    simp only [Comps.comps, List.mem_cons, List.not_mem_nil, or_false] at hs
    rcases hs with $RH <;> exact ⟨_, rfl⟩
  obtain ⟨x, rfl⟩ := this
  exact not_finite_div_zero hd hr

/-- **C43**: `m * v` is the linear part of the matrix applied to the vector. -/
theorem C43_real_vector$D (m : $M Ideal) (v : $V Ideal) (hm : AllFinite m) (hv : AllFinite v) :
    AllFinite (m * v) ∧ ∀ i : Fin $D, (m * v).toReal i = ∑ j, m.linear i j * v.toReal j := by
  refine ⟨$M.fin_mulv hm hv, fun i => ?_⟩
  rw [$M.toReal_mulv hm hv, Matrix.mulVec, dotProduct, Fin.sum_univ_castSucc]
  simp only [← $V.toReal_hom hv]
  rw [$V.hom_last, mul_zero, add_zero]
  rfl

theorem $M.weight_mul (ha : AllFinite a) (hb : AllFinite b) (hp : AllFinite p) (hw : b.weight p ≠ 0) :
    (a * b).weight p = a.weight (b * p) * b.weight p := by
  unfold $M.weight
  rw [$M.toReal_mul ha hb, $M.hom_mulp hb hp hw, Matrix.mulVec_smul, ← Matrix.mulVec_mulVec, Pi.smul_apply,
    smul_eq_mul]
  change _ = (b.weight p)⁻¹ * _ * b.weight p
  field_simp

/-- **C43**: the product of matrices acts as the composition, on points of nonzero weight. -/
theorem C43_real_compose$D (a b : $M Ideal) (p : $P Ideal) (ha : AllFinite a) (hb : AllFinite b)
    (hp : AllFinite p) (h1 : b.weight p ≠ 0) (h2 : a.weight (b * p) ≠ 0) :
    (a * b).weight p ≠ 0 ∧ ((a * b) * p == a * (b * p)) = true := by
  have hw : (a * b).weight p ≠ 0 := by
    rw [$M.weight_mul ha hb hp h1]; exact mul_ne_zero h2 h1
  refine ⟨hw, ?_⟩
  have f1 := $M.fin_mulp hb hp h1
  rw [$P.beq_toReal ($M.fin_mulp ($M.fin_mul ha hb) hp hw) ($M.fin_mulp ha f1 h2)]
  apply $P.hom_inj
  rw [$M.hom_mulp ($M.fin_mul ha hb) hp hw, $M.hom_mulp ha f1 h2, $M.hom_mulp hb hp h1, $M.weight_mul ha hb hp h1,
    $M.toReal_mul ha hb, Matrix.mulVec_smul, ← Matrix.mulVec_mulVec, smul_smul, mul_inv]

/-- **C43**: an affine matrix (last row `0 .. 0 1`) gives every point weight 1, respects the affine
structure, and its products act by composition on points and vectors. -/
theorem C43_real_affine$D (m a : $M Ideal) (p q : $P Ideal) (u v : $V Ideal) (s : Ideal) (hm : AllFinite m)
    (h : m.Affine) (ha : AllFinite a) (hp : AllFinite p) (hq : AllFinite q) (hu : AllFinite u)
    (hv : AllFinite v) (hs : IsFinite s) :
    m.weight p = 1 ∧ AllFinite (m * p) ∧ (m * (p + v) == m * p + m * v) = true ∧
    ((m * p) - (m * q) == m * (p - q)) = true ∧ (m * (u + v) == m * u + m * v) = true ∧
    (m * (v * s) == (m * v) * s) = true ∧ ((a * m) * v == a * (m * v)) = true := by
  have hpv := $P.fin_addv hp hv
  have hpq := $V.fin_subp hp hq
  have huv := $V.fin_add hu hv
  have hvs := $V.fin_mul hv hs
  have fp := h.fin_mulp hm hp
  have fq := h.fin_mulp hm hq
  have fv := $M.fin_mulv hm hv
  have fu := $M.fin_mulv hm hu
  refine ⟨h.weight p, fp, ?_, ?_, ?_, ?_, ?_⟩
  · rw [$P.beq_toReal (h.fin_mulp hm hpv) ($P.fin_addv fp fv), $P.toReal_addv fp fv]
    ext i
    rw [Pi.add_apply, $P.toReal_hom, $P.toReal_hom, $V.toReal_hom fv, h.hom_mulp hm hpv, h.hom_mulp hm hp,
      h.hom_mulv hm hv, $P.hom_addv hp hv, Matrix.mulVec_add, Pi.add_apply]
  · rw [$V.beq_toReal ($V.fin_subp fp fq) ($M.fin_mulv hm hpq), $V.toReal_subp fp fq]
    ext i
    rw [Pi.sub_apply, $P.toReal_hom, $P.toReal_hom, $V.toReal_hom ($M.fin_mulv hm hpq), h.hom_mulp hm hp, h.hom_mulp hm hq,
      h.hom_mulv hm hpq, $V.hom_subp hp hq, Matrix.mulVec_sub, Pi.sub_apply]
  · rw [$V.beq_toReal ($M.fin_mulv hm huv) ($V.fin_add fu fv), $V.toReal_add fu fv, $M.toReal_mulv' hm huv,
      $M.toReal_mulv' hm hu, $M.toReal_mulv' hm hv, $V.toReal_add hu hv, Matrix.mulVec_add]
  · rw [$V.beq_toReal ($M.fin_mulv hm hvs) ($V.fin_mul fv hs), $V.toReal_mul fv hs, $M.toReal_mulv' hm hvs,
      $M.toReal_mulv' hm hv, $V.toReal_mul hv hs, Matrix.mulVec_smul]
  · rw [$V.beq_toReal ($M.fin_mulv ($M.fin_mul ha hm) hv) ($M.fin_mulv ha fv)]
    ext i
    rw [$M.toReal_mulv ($M.fin_mul ha hm) hv, $M.toReal_mulv ha fv, h.hom_mulv hm hv, $M.toReal_mul ha hm, Matrix.mulVec_mulVec]

/-- **C44**: a returned inverse is a two-sided inverse, and inverting again gives the matrix back. -/
theorem C44_real$D (m n : $M Ideal) (hm : AllFinite m) (e : m.inverse = .ok n) :
    AllFinite n ∧ (m * n == $M.identity) = true ∧ (n * m == $M.identity) = true ∧
    ∃ m', n.inverse = .ok m' ∧ (m' == m) = true := by
  obtain ⟨h0, fn, hr⟩ := $M.inverse_ok hm e
  have hu : IsUnit m.toReal.det := isUnit_iff_ne_zero.2 h0
  refine ⟨fn, ?_, ?_, ?_⟩
  · rw [$M.beq_toReal ($M.fin_mul hm fn) $M.fin_identity, $M.toReal_mul hm fn, hr, $M.toReal_identity,
      Matrix.mul_nonsing_inv _ hu]
  · rw [$M.beq_toReal ($M.fin_mul fn hm) $M.fin_identity, $M.toReal_mul fn hm, hr, $M.toReal_identity,
      Matrix.nonsing_inv_mul _ hu]
  · rcases $M.inverse_cases fn with ⟨h, _⟩ | ⟨h, m', e', hf, hr'⟩
    · exfalso
      rw [hr] at h
      have := Matrix.det_nonsing_inv_mul_det m.toReal hu
      rw [h, zero_mul] at this
      exact zero_ne_one this
    · refine ⟨m', e', ?_⟩
      rw [$M.beq_toReal hf hm, hr', hr, Matrix.nonsing_inv_nonsing_inv _ hu]

/-- **C44**: any one-sided inverse `n` of `m` is the matrix that `m.inverse()` returns. -/
theorem C44_unique$D (m n : $M Ideal) (hm : AllFinite m) (hn : AllFinite n)
    (h : (m * n == $M.identity) = true ∨ (n * m == $M.identity) = true) :
    ∃ n', m.inverse = .ok n' ∧ (n' == n) = true := by
  have h1 : m.toReal * n.toReal = 1 := by
    rcases h with h | h
    · rwa [$M.beq_toReal ($M.fin_mul hm hn) $M.fin_identity, $M.toReal_mul hm hn, $M.toReal_identity] at h
    · rw [$M.beq_toReal ($M.fin_mul hn hm) $M.fin_identity, $M.toReal_mul hn hm, $M.toReal_identity] at h
      exact mul_eq_one_comm.1 h
  rcases $M.inverse_cases hm with ⟨h0, _⟩ | ⟨_, n', e, hf, hr⟩
  · exfalso
    have := congrArg Matrix.det h1
    rw [Matrix.det_mul, h0, zero_mul, Matrix.det_one] at this
    exact zero_ne_one this
  · refine ⟨n', e, ?_⟩
    rw [$M.beq_toReal hf hn, hr]
    exact Matrix.inv_eq_right_inv h1

/-- **C45**: in real arithmetic `inverse()` fails exactly on matrices of determinant zero, that is, exactly
when some nonzero combination of the columns vanishes. -/
theorem C45_real$D (m : $M Ideal) (hm : AllFinite m) :
    (m.inverse = .error .mk ↔ m.toReal.det = 0) ∧
    (m.inverse = .error .mk ↔ ∃ x : Fin $n → ℝ, x ≠ 0 ∧ m.toReal.mulVec x = 0) := by
  have key : m.inverse = .error .mk ↔ m.toReal.det = 0 := by
    rcases $M.inverse_cases hm with ⟨h0, e⟩ | ⟨h0, n', e, hf, hr⟩
    · simp [h0, e]
    · simp [h0, e]
  exact ⟨key, key.trans Matrix.exists_mulVec_eq_zero_iff.symm⟩

/-- **C41**: a product is invertible exactly when both factors are, and its inverse is the product of the
inverses in the opposite order. -/
theorem C41_real_inverse$D (a b : $M Ideal) (ha : AllFinite a) (hb : AllFinite b) :
    ((∃ n, (a * b).inverse = .ok n) ↔ (∃ a', a.inverse = .ok a') ∧ ∃ b', b.inverse = .ok b') ∧
    ∀ a' b', a.inverse = .ok a' → b.inverse = .ok b' →
      ∃ n, (a * b).inverse = .ok n ∧ (n == b' * a') = true := by
  have hab := $M.fin_mul ha hb
  have key : ∀ {m : $M Ideal}, AllFinite m → ((∃ n, m.inverse = .ok n) ↔ m.toReal.det ≠ 0) := by
    intro m hm
    rcases $M.inverse_cases hm with ⟨h0, e⟩ | ⟨h0, n', e, hf, hr⟩
    · simp [h0, e]
    · simp [h0, e]
  refine ⟨?_, fun a' b' ea eb => ?_⟩
  · rw [key hab, key ha, key hb, $M.toReal_mul ha hb, Matrix.det_mul, mul_ne_zero_iff]
  · obtain ⟨da, fa, ra⟩ := $M.inverse_ok ha ea
    obtain ⟨db, fb, rb⟩ := $M.inverse_ok hb eb
    obtain ⟨n, en⟩ := (key hab).2 (by rw [$M.toReal_mul ha hb, Matrix.det_mul]; exact mul_ne_zero da db)
    obtain ⟨_, fn, rn⟩ := $M.inverse_ok hab en
    refine ⟨n, en, ?_⟩
    rw [$M.beq_toReal fn ($M.fin_mul fb fa), $M.toReal_mul fb fa, rn, ra, rb, $M.toReal_mul ha hb, Matrix.mul_inv_rev]

/-- **C57** in real arithmetic: `try_from(m)` succeeds exactly when the determinant is nonzero; the result
has `m` as its forward matrix and the true inverse. -/
theorem C57_real$D (m : $M Ideal) (hm : AllFinite m) :
    ((∃ t, $Tr.tryFrom m = .ok t) ↔ m.toReal.det ≠ 0) ∧
    ∀ t, $Tr.tryFrom m = .ok t → t.forward = m ∧ t.Paired := by
  rcases $M.inverse_cases hm with ⟨h0, e⟩ | ⟨h0, n', e, hf, hr⟩
  · have : $Tr.tryFrom m = .error .mk := by unfold $Tr.tryFrom; rw [e]; rfl
    simp [this, h0]
  · have : $Tr.tryFrom m = .ok ⟨m, n'⟩ := by unfold $Tr.tryFrom; rw [e]; rfl
    have ⟨_, c1, c2, _⟩ := C44_real$D m n' hm e
    refine ⟨by simp [this, h0], fun t ht => ?_⟩
    rw [this] at ht; cases ht
    exact ⟨rfl, c1, c2⟩
end

