/-! ## $M -/
section
variable {a b m : $M Ideal} {p q : $P Ideal} {u v : $V Ideal} {s : Ideal}

theorem $M.toReal_eq (m : $M Ideal) : m.toReal = !![$MAT] := by
  ext i j; fin_cases i <;> fin_cases j <;> rfl
theorem $M.beq_toReal (ha : AllFinite a) (hb : AllFinite b) : (a == b) = true ↔ a.toReal = b.toReal := by
  rw [$M.allFinite] at ha hb
  rw [$M.beq_iff]
  constructor
  · intro h
    ext i j
    exact (Ideal.beq_real (ha _ (by omega)) (hb _ (by omega))).1 (h _ (by omega))
  · intro h k hk
    rw [Ideal.beq_real (ha k hk) (hb k hk)]
    have := congrFun (congrFun h ⟨k / $n, by omega⟩) ⟨k % $n, by omega⟩
    simp only [$M.toReal, Nat.div_add_mod] at this
    exact this
theorem $M.fin_mul (ha : AllFinite a) (hb : AllFinite b) : AllFinite (a * b) := by
  rw [$M.allFinite, forall_lt_$N] at ha hb ⊢
  mat_simp []
  refine ⟨$HOLES⟩ <;> simp (maxDischargeDepth := 20) only [Ideal.finite_add, Ideal.finite_mul, ha, hb]
theorem $M.toReal_mul (ha : AllFinite a) (hb : AllFinite b) : (a * b).toReal = a.toReal * b.toReal := by
  rw [$M.allFinite, forall_lt_$N] at ha hb
  rw [$M.toReal_eq, $M.toReal_eq a, $M.toReal_eq b]
  mat_simp []
  simp (maxDischargeDepth := 20) only [Ideal.real_add, Ideal.finite_add, Ideal.finite_mul, Ideal.real_mul, ha, hb]
  ext i j
  fin_cases i <;> fin_cases j <;> simp [Matrix.mul_apply, Fin.sum_univ_succ$ASSOC]
theorem $M.fin_transpose (ha : AllFinite a) : AllFinite a.transpose := by
  rw [$M.allFinite, forall_lt_$N] at ha ⊢
  mat_simp []
  simp only [ha, and_self]
theorem $M.toReal_transpose (a : $M Ideal) : a.transpose.toReal = a.toReal.transpose := by
  ext i j; fin_cases i <;> fin_cases j <;> rfl
theorem $M.fin_muls (ha : AllFinite a) (hs : IsFinite s) : AllFinite (a * s) := by
  rw [$M.allFinite] at ha ⊢
  intro i hi
  rw [$M.muls]; exact Ideal.finite_mul (ha i hi) hs
theorem $M.toReal_muls (ha : AllFinite a) (hs : IsFinite s) : (a * s).toReal = real s • a.toReal := by
  rw [$M.allFinite] at ha
  ext i j
  show real ((a * s).m[$n * i.val + j.val]) = real s * real _
  rw [$M.muls, Ideal.real_mul (ha _ (by omega)) hs, mul_comm]
theorem $M.fin_divs (ha : AllFinite a) (hs : IsFinite s) (h0 : real s ≠ 0) : AllFinite (a / s) := by
  rw [$M.allFinite] at ha ⊢
  intro i hi
  rw [$M.divs]; exact Ideal.finite_div (ha i hi) hs h0
theorem $M.toReal_divs (ha : AllFinite a) (hs : IsFinite s) (h0 : real s ≠ 0) :
    (a / s).toReal = (real s)⁻¹ • a.toReal := by
  rw [$M.allFinite] at ha
  ext i j
  show real ((a / s).m[$n * i.val + j.val]) = (real s)⁻¹ * real _
  rw [$M.divs, Ideal.real_div (ha _ (by omega)) hs h0, div_eq_inv_mul]
theorem $M.fin_identity : AllFinite ($M.identity : $M Ideal) := by
  rw [$M.allFinite, forall_lt_$N]
  mat_simp []
  simp only [finite_zero, finite_one, and_self]
theorem $M.toReal_identity : ($M.identity : $M Ideal).toReal = 1 := by
  rw [$M.toReal_eq]
  mat_simp []
  ext i j
  fin_cases i <;> fin_cases j <;> simp

theorem $V.toReal_hom (hv : AllFinite v) (i : Fin $D) : v.toReal i = v.hom i.castSucc := by
  fin_cases i <;> rfl
theorem $P.toReal_hom (i : Fin $D) : p.toReal i = p.hom i.castSucc := by
  fin_cases i <;> rfl
theorem $P.hom_last : p.hom (Fin.last $D) = 1 := rfl
theorem $V.hom_last : v.hom (Fin.last $D) = 0 := rfl
theorem $P.hom_inj (h : p.hom = q.hom) : p.toReal = q.toReal := by
  ext i; rw [$P.toReal_hom, $P.toReal_hom, h]
theorem $V.hom_inj (h : u.hom = v.hom) : u.toReal = v.toReal := by
  ext i; fin_cases i
  $VINJ

theorem $M.fin_mulv (hm : AllFinite m) (hv : AllFinite v) : AllFinite (m * v) := by
  rw [$M.allFinite, forall_lt_$N] at hm
  rw [$V.allFinite] at hv ⊢
  mat_simp []
  simp (maxDischargeDepth := 20) only [Ideal.finite_add, Ideal.finite_mul, hm, hv, and_self]
theorem $M.toReal_mulv (hm : AllFinite m) (hv : AllFinite v) (i : Fin $D) :
    (m * v).toReal i = (m.toReal.mulVec v.hom) i.castSucc := by
  rw [$M.allFinite, forall_lt_$N] at hm
  rw [$V.allFinite] at hv
  rw [$M.toReal_eq, $V.toReal]
  mat_simp []
  simp (maxDischargeDepth := 20) only [Ideal.real_add, Ideal.finite_add, Ideal.finite_mul, Ideal.real_mul, hm, hv]
  fin_cases i <;> simp [Matrix.mulVec, dotProduct, Fin.sum_univ_succ, $V.hom$ASSOC]
theorem $M.mulp_aux (hm : AllFinite m) (hp : AllFinite p) (hw : m.weight p ≠ 0) :
    AllFinite (m * p) ∧ ∀ i : Fin $D, (m * p).toReal i = (m.toReal.mulVec p.hom) i.castSucc / m.weight p := by
  rw [$M.allFinite, forall_lt_$N] at hm
  rw [$P.allFinite] at hp ⊢
  have hd : IsFinite ($WEXP) := by
    simp (maxDischargeDepth := 20) only [Ideal.finite_add, Ideal.finite_mul, hm, hp]
  have hr : real ($WEXP) = m.weight p := by
    simp (maxDischargeDepth := 20) only [Ideal.real_add, Ideal.finite_add, Ideal.finite_mul, Ideal.real_mul, hm, hp]
    rw [$M.weight, $M.toReal_eq]
    simp [Matrix.mulVec, dotProduct, Fin.sum_univ_succ, $P.hom, Fin.last$ASSOC]
  rw [← hr] at hw ⊢
  mat_simp []
  have hf : ∀ x : Ideal, IsFinite x → IsFinite (x / ($WEXP)) := fun x hx => Ideal.finite_div hx hd hw
  refine ⟨⟨$HFP⟩, fun i => ?_⟩
  rotate_right
  · rw [$P.toReal]
    mat_simp []
    have hr' : ∀ x : Ideal, IsFinite x → real (x / ($WEXP)) = real x / real ($WEXP) :=
      fun x hx => Ideal.real_div hx hd hw
    generalize ($WEXP) = w at *
    fin_cases i
    all_goals
      refine (hr' _ ?_).trans ?_
      · simp (maxDischargeDepth := 20) only [Ideal.finite_add, Ideal.finite_mul, hm, hp]
      · simp (maxDischargeDepth := 20) only [Ideal.real_add, Ideal.finite_add, Ideal.finite_mul, Ideal.real_mul, hm, hp]
        congr 1
        rw [$M.toReal_eq]
        simp [Matrix.mulVec, dotProduct, Fin.sum_univ_succ, $P.hom$ASSOC]
  all_goals simp (maxDischargeDepth := 20) only [Ideal.finite_add, Ideal.finite_mul, hm, hp]
theorem $M.fin_mulp (hm : AllFinite m) (hp : AllFinite p) (hw : m.weight p ≠ 0) : AllFinite (m * p) :=
  ($M.mulp_aux hm hp hw).1
theorem $M.hom_mulp (hm : AllFinite m) (hp : AllFinite p) (hw : m.weight p ≠ 0) :
    (m * p).hom = (m.weight p)⁻¹ • m.toReal.mulVec p.hom := by
  ext i
  refine Fin.lastCases ?_ (fun i => ?_) i
  · rw [$P.hom_last, Pi.smul_apply, smul_eq_mul]
    exact (inv_mul_cancel₀ hw).symm
  · rw [← $P.toReal_hom, ($M.mulp_aux hm hp hw).2, Pi.smul_apply, smul_eq_mul, div_eq_inv_mul]
theorem $M.hom_mulv (hm : AllFinite m) (hv : AllFinite v)
    (h : (m.toReal.mulVec v.hom) (Fin.last $D) = 0) :
    (m * v).hom = m.toReal.mulVec v.hom := by
  ext i
  refine Fin.lastCases ?_ (fun i => ?_) i
  · rw [$V.hom_last, h]
  · rw [← $V.toReal_hom ($M.fin_mulv hm hv), $M.toReal_mulv hm hv]

theorem $M.Affine.weight (h : m.Affine) (p : $P Ideal) : m.weight p = 1 := by
  unfold $M.weight Matrix.mulVec dotProduct
  simp only [h _]
  simp only [ite_mul, one_mul, zero_mul, Finset.sum_ite_eq', Finset.sum_ite_eq, Finset.mem_univ, if_true]
  rfl
theorem $M.Affine.vec (h : m.Affine) (v : $V Ideal) : (m.toReal.mulVec v.hom) (Fin.last $D) = 0 := by
  unfold Matrix.mulVec dotProduct
  simp only [h _]
  simp only [ite_mul, one_mul, zero_mul, Finset.sum_ite_eq', Finset.sum_ite_eq, Finset.mem_univ, if_true]
  rfl
theorem $M.Affine.hom_mulp (h : m.Affine) (hm : AllFinite m) (hp : AllFinite p) :
    (m * p).hom = m.toReal.mulVec p.hom := by
  rw [$M.hom_mulp hm hp (by rw [h.weight]; exact one_ne_zero), h.weight, inv_one, one_smul]
theorem $M.Affine.hom_mulv (h : m.Affine) (hm : AllFinite m) (hv : AllFinite v) :
    (m * v).hom = m.toReal.mulVec v.hom := $M.hom_mulv hm hv (h.vec v)
theorem $M.Affine.fin_mulp (h : m.Affine) (hm : AllFinite m) (hp : AllFinite p) : AllFinite (m * p) :=
  $M.fin_mulp hm hp (by rw [h.weight]; exact one_ne_zero)
theorem $M.Affine.mul (ha : a.Affine) (hb : b.Affine) (fa : AllFinite a) (fb : AllFinite b) :
    (a * b).Affine := by
  intro j
  rw [$M.toReal_mul fa fb, Matrix.mul_apply]
  simp only [ha _]
  simp only [ite_mul, one_mul, zero_mul, Finset.sum_ite_eq', Finset.sum_ite_eq, Finset.mem_univ, if_true]
  exact hb j
theorem $M.identity_affine : ($M.identity : $M Ideal).Affine := by
  intro j
  rw [$M.toReal_identity, Matrix.one_apply]
  simp only [eq_comm]

theorem $P.hom_snoc (p : $P Ideal) : p.hom = Fin.snoc p.toReal (1 : ℝ) := by
  ext i; refine Fin.lastCases ?_ (fun i => ?_) i
  · rw [Fin.snoc_last]; rfl
  · rw [Fin.snoc_castSucc, $P.toReal_hom]
theorem $V.hom_snoc (hv : AllFinite v) : v.hom = Fin.snoc v.toReal (0 : ℝ) := by
  ext i; refine Fin.lastCases ?_ (fun i => ?_) i
  · rw [Fin.snoc_last]; rfl
  · rw [Fin.snoc_castSucc, $V.toReal_hom hv]
theorem $P.hom_addv (hp : AllFinite p) (hv : AllFinite v) : (p + v).hom = p.hom + v.hom := by
  ext i; refine Fin.lastCases ?_ (fun i => ?_) i
  · rw [Pi.add_apply, $P.hom_last, $P.hom_last, $V.hom_last, add_zero]
  · rw [Pi.add_apply, ← $P.toReal_hom, ← $P.toReal_hom, ← $V.toReal_hom hv, $P.toReal_addv hp hv, Pi.add_apply]
theorem $V.hom_subp (hp : AllFinite p) (hq : AllFinite q) : (p - q).hom = p.hom - q.hom := by
  have hf := $V.fin_subp hp hq
  ext i; refine Fin.lastCases ?_ (fun i => ?_) i
  · rw [Pi.sub_apply, $P.hom_last, $P.hom_last, $V.hom_last, sub_self]
  · rw [Pi.sub_apply, ← $P.toReal_hom, ← $P.toReal_hom, ← $V.toReal_hom hf, $V.toReal_subp hp hq, Pi.sub_apply]
theorem $M.mulVec_vhom (hv : AllFinite v) (i : Fin $n) :
    (m.toReal.mulVec v.hom) i = ∑ j, m.toReal i j.castSucc * v.toReal j := by
  rw [Matrix.mulVec, dotProduct, Fin.sum_univ_castSucc]
  simp only [← $V.toReal_hom hv]
  rw [$V.hom_last, mul_zero, add_zero]
theorem $M.mulVec_phom (i : Fin $n) :
    (m.toReal.mulVec p.hom) i = ∑ j, m.toReal i j.castSucc * p.toReal j + m.toReal i (Fin.last $D) := by
  rw [Matrix.mulVec, dotProduct, Fin.sum_univ_castSucc]
  simp only [← $P.toReal_hom]
  rw [$P.hom_last, mul_one]
theorem $M.toReal_mulv' (hm : AllFinite m) (hv : AllFinite v) : (m * v).toReal = m.linear.mulVec v.toReal := by
  ext i
  rw [$M.toReal_mulv hm hv, $M.mulVec_vhom hv]
  rfl
theorem $M.Affine.toReal_mulp (h : m.Affine) (hm : AllFinite m) (hp : AllFinite p) :
    (m * p).toReal = m.linear.mulVec p.toReal + m.offset := by
  ext i
  rw [$P.toReal_hom, h.hom_mulp hm hp, $M.mulVec_phom]
  rfl
theorem $M.Affine.ext (ha : a.Affine) (hb : b.Affine) (hl : a.linear = b.linear) (ho : a.offset = b.offset) :
    a.toReal = b.toReal := by
  ext i j
  refine Fin.lastCases ?_ (fun i => ?_) i
  · rw [ha, hb]
  · refine Fin.lastCases ?_ (fun j => ?_) j
    · exact congrFun ho i
    · exact congrFun (congrFun hl i) j
theorem $M.Affine.linear_mul (hb : b.Affine) (fa : AllFinite a) (fb : AllFinite b) :
    (a * b).linear = a.linear * b.linear := by
  ext i j
  show (a * b).toReal _ _ = _
  rw [$M.toReal_mul fa fb, Matrix.mul_apply, Fin.sum_univ_castSucc, hb, if_neg (Fin.castSucc_lt_last j).ne, mul_zero,
    add_zero]
  rfl
theorem $M.Affine.offset_mul (hb : b.Affine) (fa : AllFinite a) (fb : AllFinite b) :
    (a * b).offset = a.linear.mulVec b.offset + a.offset := by
  ext i
  show (a * b).toReal _ _ = _
  rw [$M.toReal_mul fa fb, Matrix.mul_apply, Fin.sum_univ_castSucc, hb, if_pos rfl, mul_one]
  rfl
theorem $M.linear_identity : ($M.identity : $M Ideal).linear = 1 := by
  ext i j
  show ($M.identity : $M Ideal).toReal _ _ = _
  rw [$M.toReal_identity, Matrix.one_apply, Matrix.one_apply]
  simp
theorem $M.offset_identity : ($M.identity : $M Ideal).offset = 0 := by
  ext i
  show ($M.identity : $M Ideal).toReal _ _ = _
  rw [$M.toReal_identity, Matrix.one_apply, if_neg (Fin.castSucc_lt_last i).ne]
  rfl
theorem $M.Affine.det (h : m.Affine) : m.toReal.det = m.linear.det := by
  rw [Matrix.det_succ_row m.toReal (Fin.last $D), Fin.sum_univ_castSucc]
  simp only [h _]
  rw [Finset.sum_eq_zero]
  · simp only [if_true, zero_add, mul_one]
    rw [← two_mul, pow_mul, neg_one_sq, one_pow, one_mul]
    congr 1
    ext i j
    rw [Matrix.submatrix_apply, Fin.succAbove_last]
    rfl
  · intro j _
    rw [if_neg (Fin.castSucc_lt_last j).ne]; simp
end

