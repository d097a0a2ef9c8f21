/-! ## $Tr -/
section
variable {a b m n : $M Ideal} {p q : $P Ideal} {u v : $V Ideal} {s : Ideal} {t t' : $Tr Ideal}

theorem $Tr.tr_point (t : $Tr Ideal) (p : $P Ideal) : (Transform.transform t p : $P Ideal) = t.forward * p := rfl
theorem $Tr.tr_vector (t : $Tr Ideal) (p : $V Ideal) : (Transform.transform t p : $V Ideal) = t.forward * p := rfl
theorem $Tr.tr_ray (t : $Tr Ideal) (r : Ray$D Ideal) :
    (Transform.transform t r : Ray$D Ideal) = ⟨t.forward * r.origin, t.forward * r.direction⟩ := rfl

theorem $Tr.paired_iff (hf : AllFinite t.forward) (hi : AllFinite t.inverse) :
    t.Paired ↔ t.forward.toReal * t.inverse.toReal = 1 := by
  unfold $Tr.Paired
  rw [$M.beq_toReal ($M.fin_mul hf hi) $M.fin_identity, $M.beq_toReal ($M.fin_mul hi hf) $M.fin_identity,
    $M.toReal_mul hf hi, $M.toReal_mul hi hf, $M.toReal_identity]
  exact ⟨fun h => h.1, fun h => ⟨h, mul_eq_one_comm.1 h⟩⟩
theorem $Tr.paired_of_affine (hf : AllFinite t.forward) (hi : AllFinite t.inverse) (af : t.forward.Affine)
    (ai : t.inverse.Affine) (hl : t.forward.linear * t.inverse.linear = 1)
    (ho : t.forward.linear.mulVec t.inverse.offset + t.forward.offset = 0) : t.Paired := by
  rw [$Tr.paired_iff hf hi, ← $M.toReal_mul hf hi, ← $M.toReal_identity]
  refine $M.Affine.ext (af.mul ai hf hi) $M.identity_affine ?_ ?_
  · rw [ai.linear_mul hf hi, hl, $M.linear_identity]
  · rw [ai.offset_mul hf hi, ho, $M.offset_identity]
theorem $M.Affine.transpose (h : m.Affine) (ho : m.offset = 0) : m.transpose.Affine := by
  intro j
  rw [$M.toReal_transpose, Matrix.transpose_apply]
  refine Fin.lastCases ?_ (fun j => ?_) j
  · rw [h]
  · rw [if_neg (Fin.castSucc_lt_last j).ne]
    exact congrFun ho j
theorem $M.linear_transpose (m : $M Ideal) : m.transpose.linear = m.linear.transpose := by
  ext i j
  show m.transpose.toReal _ _ = _
  rw [$M.toReal_transpose]; rfl
theorem $M.Affine.offset_transpose (h : m.Affine) : m.transpose.offset = 0 := by
  ext i
  show m.transpose.toReal _ _ = _
  rw [$M.toReal_transpose, Matrix.transpose_apply, h, if_neg (Fin.castSucc_lt_last i).ne]; rfl
theorem $Tr.paired_transpose (hf : AllFinite m) (ha : m.Affine) (ho : m.offset = 0)
    (h : m.linear.transpose * m.linear = 1) : ($Tr.new m m.transpose).Paired := by
  refine $Tr.paired_of_affine hf ($M.fin_transpose hf) ha (ha.transpose ho) ?_ ?_
  · show m.linear * m.transpose.linear = 1
    rw [$M.linear_transpose]; exact mul_eq_one_comm.1 h
  · show m.linear.mulVec m.transpose.offset + m.offset = 0
    rw [ho, ha.offset_transpose, Matrix.mulVec_zero, add_zero]
theorem $M.Affine.sub_mulp (h : m.Affine) (hm : AllFinite m) (hp : AllFinite p) (hq : AllFinite q) :
    (m * p - m * q).toReal = m.linear.mulVec (p.toReal - q.toReal) := by
  rw [$V.toReal_subp (h.fin_mulp hm hp) (h.fin_mulp hm hq), h.toReal_mulp hm hp, h.toReal_mulp hm hq, Matrix.mulVec_sub]
  abel
theorem $Tr.dot_mulVec {n : ℕ} (L : Matrix (Fin n) (Fin n) ℝ) (h : L.transpose * L = 1) (x y : Fin n → ℝ) :
    L.mulVec x ⬝ᵥ L.mulVec y = x ⬝ᵥ y := by
  rw [Matrix.dotProduct_mulVec, ← Matrix.mulVec_transpose, Matrix.mulVec_mulVec, h, Matrix.one_mulVec]
theorem $V.real_length' (hu : AllFinite u) : real (Api.length u) = √(u.toReal ⬝ᵥ u.toReal) := by
  rw [$V.length_def, Ideal.real_sqrt ($V.fin_dot hu hu) ($V.real_dot_self_nonneg hu), $V.real_dot hu hu]
theorem $Tr.rigid_of (hf : AllFinite t.forward) (ha : t.forward.Affine)
    (ho : t.forward.linear.transpose * t.forward.linear = 1) (hd : t.forward.linear.det = 1) : t.Rigid where
  dot u v hu hv := by
    rw [$Tr.tr_vector, $Tr.tr_vector, Ideal.beq_real ($V.fin_dot ($M.fin_mulv hf hu) ($M.fin_mulv hf hv)) ($V.fin_dot hu hv),
      $V.real_dot ($M.fin_mulv hf hu) ($M.fin_mulv hf hv), $V.real_dot hu hv, $M.toReal_mulv' hf hu,
      $M.toReal_mulv' hf hv, $Tr.dot_mulVec _ ho]
  length v hv := by
    rw [$Tr.tr_vector, Ideal.beq_real ($V.fin_length ($M.fin_mulv hf hv)) ($V.fin_length hv), $V.real_length' hv,
      $V.real_length' ($M.fin_mulv hf hv), $M.toReal_mulv' hf hv, $Tr.dot_mulVec _ ho]
  distance p q hp hq := by
    have fp := ha.fin_mulp hf hp
    have fq := ha.fin_mulp hf hq
    rw [$Tr.tr_point, $Tr.tr_point, Ideal.beq_real ($P.fin_distance fp fq) ($P.fin_distance hp hq), $P.distance_def,
      $P.distance_def, $V.real_length' ($V.fin_subp fq fp), $V.real_length' ($V.fin_subp hq hp), ha.sub_mulp hf hq hp,
      $Tr.dot_mulVec _ ho, $V.toReal_subp hq hp]
  orientation := hd

theorem $M.fin_translate (hv : AllFinite v) : AllFinite ($M.translate v) := by
  rw [$V.allFinite] at hv
  rw [$M.allFinite, forall_lt_$N]
  mat_simp []
  simp only [finite_zero, finite_one, hv, and_self]
theorem $M.translate_affine (v : $V Ideal) : ($M.translate v).Affine := by
  intro j; rw [$M.toReal_eq]; fin_cases j <;> mat_simp [] <;> simp [Fin.last, real_zero, real_one]
theorem $M.linear_translate (v : $V Ideal) : ($M.translate v).linear = 1 := by
  unfold $M.linear
  rw [$M.toReal_eq]; mat_simp []
  ext i j; fin_cases i <;> fin_cases j <;> simp [real_zero, real_one, Fin.last]
theorem $M.offset_translate (v : $V Ideal) : ($M.translate v).offset = v.toReal := by
  unfold $M.offset
  rw [$M.toReal_eq]; mat_simp []
  ext i; fin_cases i <;> simp [real_zero, real_one, Fin.last, $V.toReal]
theorem $M.fin_scale {$SXS : Ideal} (hs : $SFIN) : AllFinite ($M.scale $SXS) := by
  rw [$M.allFinite, forall_lt_$N]
  mat_simp []
  simp only [finite_zero, finite_one, hs, and_self]
theorem $M.scale_affine ($SXS : Ideal) : ($M.scale $SXS).Affine := by
  intro j; rw [$M.toReal_eq]; fin_cases j <;> mat_simp [] <;> simp [Fin.last, real_zero, real_one]
theorem $M.linear_scale ($SXS : Ideal) : ($M.scale $SXS).linear = Matrix.diagonal ![$SREAL] := by
  unfold $M.linear
  rw [$M.toReal_eq]; mat_simp []
  ext i j; fin_cases i <;> fin_cases j <;> simp [real_zero, real_one, Fin.last]
theorem $M.offset_scale ($SXS : Ideal) : ($M.scale $SXS).offset = 0 := by
  unfold $M.offset
  rw [$M.toReal_eq]; mat_simp []
  ext i; fin_cases i <;> simp [real_zero, real_one, Fin.last]
theorem $M.scaleUniform_eq (s : Ideal) : ($M.scaleUniform s) = $M.scale $SSS := rfl
end

