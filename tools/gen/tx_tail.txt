
/-! ## look_at -/
section
variable (o t : Point3 Ideal) (up : Vector3 Ideal)

theorem cross_degenerate {o t : Point3 Ideal} {up : Vector3 Ideal} (ho : AllFinite o) (ht : AllFinite t) (hu : AllFinite up) :
    (Api.cross up (t - o : Vector3 Ideal) == (Vector3.zero : Vector3 Ideal)) = true ↔
      crossProduct up.toReal (t.toReal - o.toReal) = 0 := by
  have fD := Vector3.fin_subp ht ho
  have fz : AllFinite (Vector3.zero : Vector3 Ideal) := Vector3.fin_zero
  rw [Vector3.beq_toReal (Vector3.fin_cross hu fD) fz, Vector3.toReal_cross hu fD, Vector3.toReal_subp ht ho]
  have : (Vector3.zero : Vector3 Ideal).toReal = 0 := by
    ext i; fin_cases i <;> simp [Vector3.toReal, Vector3.zero, real_zero]
  rw [this]

/-- **C53**: unless `up` is parallel to the view direction (their cross product is zero, which includes
`from == target` and a zero `up`), `look_at` returns a transform that takes `from` to the origin, `target` to the
point at its distance on the z axis, `up` into the half plane `x = 0, y > 0`; it is affine, a rigid motion, and its
stored inverse is the true inverse. -/
theorem C53_real (ho : AllFinite o) (ht : AllFinite t) (hu : AllFinite up)
    (h : (Api.cross up (t - o : Vector3 Ideal) == (Vector3.zero : Vector3 Ideal)) = false) :
    ∃ f, Transform3.lookAt o t up = .ok f ∧ AllFinite f ∧ f.forward.Affine ∧ f.Paired ∧ f.Rigid ∧ f.inv.Rigid ∧
      ((Transform.transform f o : Point3 Ideal) == Point3.origin) = true ∧
      ((Transform.transform f t : Point3 Ideal) == Point3.new zero zero (Api.distance o t)) = true ∧
      ((Transform.transform f up : Vector3 Ideal).x == zero) = true ∧
      Scalar.lt zero (Transform.transform f up : Vector3 Ideal).y = true := by
  have hc : crossProduct up.toReal (t.toReal - o.toReal) ≠ 0 := by
    intro h'; rw [(cross_degenerate ho ht hu).2 h'] at h; cases h
  obtain ⟨r, d, f, hd, hr, hrd, hD, hru, hnu, fM, aM, e, ff, af, hm, hl, hof⟩ := lookAt_ok ho ht hu hc
  refine ⟨_, e, Transform3.allFinite.2 ⟨ff, fM⟩, af, (Transform3.paired_iff ff fM).2 hm,
    (C52_rigid3 _ (.lookAt o t up _ ho ht hu hc e)).1, (C52_rigid3 _ (.lookAt o t up _ ho ht hu hc e)).2, ?_, ?_, ?_, ?_⟩
  · have f0 : AllFinite (Point3.origin : Point3 Ideal) := by rw [Point3.allFinite]; exact ⟨finite_zero, finite_zero, finite_zero⟩
    rw [Transform3.tr_point, Point3.beq_toReal (af.fin_mulp ff ho) f0, af.toReal_mulp ff ho, hl, hof, add_neg_cancel]
    ext i; fin_cases i <;> simp [Point3.toReal, Point3.origin, real_zero]
  · have f0 : AllFinite (Point3.new zero zero (Api.distance o t) : Point3 Ideal) := by
      rw [Point3.allFinite]; exact ⟨finite_zero, finite_zero, Point3.fin_distance ho ht⟩
    rw [Transform3.tr_point, Point3.beq_toReal (af.fin_mulp ff ht) f0, af.toReal_mulp ff ht, hl, hof, ← sub_eq_add_neg, ← Matrix.mulVec_sub, hD]
    have hdist : real (Api.distance o t) = √((t.toReal - o.toReal) ⬝ᵥ (t.toReal - o.toReal)) := by
      rw [Point3.distance_def, Vector3.real_length' (Vector3.fin_subp ht ho), Vector3.toReal_subp ht ho]
    rw [← hdist]
    have hnd : crossProduct d r ⬝ᵥ d = 0 := by rw [dotProduct_comm, dot_self_cross]
    rw [dot3] at hrd hnd hd
    rw [Matrix.mulVec_smul]
    ext i; fin_cases i
    · simp [Matrix.mulVec, dotProduct, Fin.sum_univ_succ, cols, Point3.toReal, Point3.new, real_zero]
      right; linarith
    · simp [Matrix.mulVec, dotProduct, Fin.sum_univ_succ, cols, Point3.toReal, Point3.new, real_zero]
      right; linarith
    · simp [Matrix.mulVec, dotProduct, Fin.sum_univ_succ, cols, Point3.toReal, Point3.new]
      rw [show d 0 * d 0 + (d 1 * d 1 + d 2 * d 2) = 1 by linarith, mul_one]
  · rw [Transform3.tr_vector]
    have fv := Matrix4x4.fin_mulv ff hu
    have hx := congrFun (Matrix4x4.toReal_mulv' ff hu) 0
    rw [Vector3.allFinite] at fv
    rw [Ideal.beq_real fv.1 finite_zero, real_zero]
    change real (f * up).x = _ at hx
    rw [hx, hl]
    rw [dot3] at hru
    simp [Matrix.mulVec, dotProduct, Fin.sum_univ_succ, cols]; linarith
  · rw [Transform3.tr_vector]
    have fv := Matrix4x4.fin_mulv ff hu
    have hx := congrFun (Matrix4x4.toReal_mulv' ff hu) 1
    rw [Vector3.allFinite] at fv
    rw [Ideal.lt_real finite_zero fv.2.1, real_zero]
    change real (f * up).y = _ at hx
    rw [hx, hl]
    rw [dot3] at hnu
    simp [Matrix.mulVec, dotProduct, Fin.sum_univ_succ, cols]; linarith

/-- **C54** is false of the code: whenever `up` is parallel to the view direction (including `from == target` and a
zero `up`), even in exact arithmetic `look_at` returns `Ok` of a transform whose forward matrix is entirely NaN, not
the documented error. -/
theorem C54_real (ho : AllFinite o) (ht : AllFinite t) (hu : AllFinite up)
    (h : (Api.cross up (t - o : Vector3 Ideal) == (Vector3.zero : Vector3 Ideal)) = true) :
    ∃ f, Transform3.lookAt o t up = .ok f ∧ AllNaN f.forward := by
  have fD := Vector3.fin_subp ht ho
  have rD := Vector3.toReal_subp ht ho
  rw [cross_degenerate ho ht hu] at h
  by_cases hD0 : (t - o).toReal = 0
  · refine C54_from_eq_target o t up ho ht ?_
    rw [Point3.beq_toReal ho ht]
    rw [rD, sub_eq_zero] at hD0
    exact hD0.symm
  have fz : AllFinite (Vector3.zero : Vector3 Ideal) := Vector3.fin_zero
  have ez : (Vector3.zero : Vector3 Ideal).toReal = 0 := by
    ext i; fin_cases i <;> simp [Vector3.toReal, Vector3.zero, real_zero]
  by_cases hU0 : up.toReal = 0
  · refine C54_zero_up o t up ?_
    rw [Vector3.beq_toReal hu fz, hU0, ez]
  obtain ⟨α, hα, eα, -⟩ := normalize_pos fD hD0
  obtain ⟨β, hβ, eβ, -⟩ := normalize_pos hu hU0
  have fd := Vector3.fin_normalize fD hD0
  have fu := Vector3.fin_normalize hu hU0
  apply lookAt_of_nan
  refine (normalize_zero_nan (CrossProduct.cross up.normalize (t - o).normalize) ?_).1
  show ((Api.cross up.normalize (t - o).normalize : Vector3 Ideal) == Vector3.zero) = true
  rw [Vector3.beq_toReal (Vector3.fin_cross fu fd) fz, Vector3.toReal_cross fu fd, eα, eβ, rD, map_smul, map_smul, LinearMap.smul_apply, h, ez,
    smul_zero, smul_zero]

/-- **C54**: so in exact arithmetic `look_at` never returns the documented error on finite input. -/
theorem C54_never_err (ho : AllFinite o) (ht : AllFinite t) (hu : AllFinite up) :
    ∀ e, Transform3.lookAt o t up ≠ .error e := by
  intro e he
  rcases hb : (Api.cross up (t - o : Vector3 Ideal) == (Vector3.zero : Vector3 Ideal)) with _ | _
  · obtain ⟨f, hf, -⟩ := C53_real o t up ho ht hu hb
    rw [hf] at he; cases he
  · obtain ⟨f, hf, -⟩ := C54_real o t up ho ht hu hb
    rw [hf] at he; cases he
end

/-! ## The hypotheses are met by concrete, non-trivial values -/

noncomputable def exV2 : Vector2 Ideal := ⟨.of 1, .of (-2)⟩
noncomputable def exV3 : Vector3 Ideal := ⟨.of 1, .of (-2), .of 4⟩
theorem exV2_fin : AllFinite exV2 := by rw [Vector2.allFinite]; exact ⟨trivial, trivial⟩
theorem exV3_fin : AllFinite exV3 := by rw [Vector3.allFinite]; exact ⟨trivial, trivial, trivial⟩
theorem exV3_ne : exV3.toReal ≠ 0 := fun h => by
  have := congrFun h 0; simp [Vector3.toReal, exV3] at this
example := C49_real2 exV2 exV2_fin (.of 3) (.of (-2)) (.of 5) ⟨⟨trivial, by norm_num⟩, ⟨trivial, by norm_num⟩⟩ ⟨trivial, by norm_num⟩
example := C49_real3 exV3 exV3_fin (.of 3) (.of (-2)) (.of 7) (.of 5)
  ⟨⟨trivial, by norm_num⟩, ⟨trivial, by norm_num⟩, ⟨trivial, by norm_num⟩⟩ ⟨trivial, by norm_num⟩
example := C49_real_rotate_axis exV3 (.of 2) exV3_fin exV3_ne trivial

/-- a projective transform and an affine one, both obtained from `try_from` -/
theorem exists_tr2 : ∃ t : Transform2 Ideal, t.forward = exM3 ∧ Built2 AllFinite t := by
  rcases Matrix3x3.inverse_cases exM3_fin with ⟨h, _⟩ | ⟨_, n, e, _⟩
  · rw [exM3_det] at h; norm_num at h
  · exact ⟨⟨exM3, n⟩, rfl, .tryFrom exM3 _ exM3_fin (by unfold Transform2.tryFrom; rw [e]; rfl)⟩
theorem exists_tr3 : ∃ t : Transform3 Ideal, t.forward = exA4 ∧ Built3 (fun m => AllFinite m ∧ m.Affine) t := by
  rcases Matrix4x4.inverse_cases exA4_fin with ⟨h, _⟩ | ⟨_, n, e, _⟩
  · rw [exA4_det] at h; norm_num at h
  · exact ⟨⟨exA4, n⟩, rfl, .tryFrom exA4 _ ⟨exA4_fin, exA4_affine⟩ (by unfold Transform3.tryFrom; rw [e]; rfl)⟩
example : ∃ (t : Transform2 Ideal) (p : Point2 Ideal), t.Paired ∧ ¬ t.forward.Affine ∧ t.forward.weight p ≠ 0 := by
  obtain ⟨t, e, h⟩ := exists_tr2
  refine ⟨t, exP2, (C52_paired2 t h).2.2.1, ?_, ?_⟩
  · rw [e]; intro h; have := h 0
    rw [Matrix3x3.toReal_eq] at this
    simp [exM3, Fin.last] at this
  · rw [e, exM3_weight]; norm_num
example := C50_real_point2 ⟨exM3, exM3⟩ ⟨exA3, exA3⟩ exP2 exM3_fin exA3_fin exP2_fin (by show exM3.weight _ ≠ 0; rw [exM3_weight]; norm_num)
  (by show exA3.weight _ ≠ 0; rw [exA3_affine.weight]; norm_num)
example := C50_real_vector3 ⟨exA4, exA4⟩ ⟨exM4, exM4⟩ exV3 exA4_fin exM4_fin exV3_fin exA4_affine
example := C50_real_chain3 [⟨exA4, exA4⟩, ⟨exA4, exM4⟩] (by simp [exA4_fin, exA4_affine]) exP3 exP3_fin
example : ∃ (t : Transform3 Ideal) (r : Ray3 Ideal), AllFinite t ∧ t.Paired ∧ t.forward.Affine ∧ AllFinite r := by
  obtain ⟨t, e, h⟩ := exists_tr3
  obtain ⟨h1, h2, h3⟩ := built_inv3 (fun m hm => hm.1) t h
  exact ⟨t, ⟨exP3, exV3⟩, Transform3.allFinite.2 ⟨h1, h2⟩, h3, by rw [e]; exact exA4_affine,
    by rw [Ray3.allFinite]; exact ⟨exP3_fin, exV3_fin⟩⟩
/-- a history with every kind of step -/
theorem exBuilt : ∃ t, Built3 (fun m => AllFinite m ∧ m.Affine) t ∧ ¬ t.Rigid := by
  refine ⟨((Transform3.scale (.of 2) (.of 1) (.of 1)).andThen (Transform3.rotateAxis exV3 (.of 1))).inv,
    .inverse _ (.andThen _ _ (.scale (.of 2) (.of 1) (.of 1) ⟨⟨trivial, by norm_num⟩, ⟨trivial, by norm_num⟩, ⟨trivial, by norm_num⟩⟩)
      (.rotateAxis exV3 (.of 1) exV3_fin exV3_ne trivial)), ?_⟩
  intro h
  have h := h.orientation
  have hs : (IsFinite (Ideal.of 2) ∧ real (Ideal.of 2) ≠ 0) ∧ (IsFinite (Ideal.of 1) ∧ real (Ideal.of 1) ≠ 0) ∧
    (IsFinite (Ideal.of 1) ∧ real (Ideal.of 1) ≠ 0) := ⟨⟨trivial, by norm_num⟩, ⟨trivial, by norm_num⟩, ⟨trivial, by norm_num⟩⟩
  have ir := (isRot_rotateAxis exV3_fin exV3_ne hs.2.1.1).transpose
  have fs : AllFinite (Matrix4x4.scale (recip (Ideal.of 2)) (recip (Ideal.of 1)) (recip (Ideal.of 1))) := Matrix4x4.fin_scale
    ⟨Ideal.finite_recip hs.1.1 hs.1.2, Ideal.finite_recip hs.2.1.1 hs.2.1.2, Ideal.finite_recip hs.2.2.1 hs.2.2.2⟩
  change (Matrix4x4.scale (recip (Ideal.of 2)) (recip (Ideal.of 1)) (recip (Ideal.of 1)) * (Matrix4x4.rotateAxis exV3 (.of 1)).transpose).linear.det = 1 at h
  rw [ir.affine.linear_mul fs ir.fin, Matrix.det_mul, ir.linear, rod_det (unit_normalize exV3_fin exV3_ne), Matrix4x4.linear_scale, Matrix.det_diagonal,
    Ideal.real_recip hs.1.1 hs.1.2, Ideal.real_recip hs.2.1.1 hs.2.1.2, mul_one] at h
  simp [Fin.prod_univ_succ] at h
example : ∃ t, Motion2 t ∧ t.forward.linear ≠ 1 := by
  refine ⟨_, .andThen _ _ (.translate exV2 exV2_fin) (.rotate (.of Real.pi) trivial), ?_⟩
  change (Matrix3x3.rotate (Ideal.of Real.pi) * Matrix3x3.translate exV2).linear ≠ 1
  have fp : IsFinite (Ideal.of Real.pi) := trivial
  rw [(Matrix3x3.translate_affine exV2).linear_mul (Matrix3x3.fin_rotate fp) (Matrix3x3.fin_translate exV2_fin),
    Matrix3x3.linear_rotate fp, Matrix3x3.linear_translate, mul_one]
  intro h
  have := congrFun (congrFun h 0) 0
  simp [rot2] at this
  norm_num at this
/-- a non-degenerate view, and a degenerate one (`up` along the view direction) -/
example := C53_real exP3 ⟨.of 3, .of (-4), .of 9⟩ exV3 exP3_fin (by rw [Point3.allFinite]; exact ⟨trivial, trivial, trivial⟩) exV3_fin
  (by
    rw [← Bool.not_eq_true, cross_degenerate exP3_fin (by rw [Point3.allFinite]; exact ⟨trivial, trivial, trivial⟩) exV3_fin]
    intro h
    have := congrFun h 0
    rw [cross_apply] at this
    simp [exP3, exV3, Point3.toReal, Vector3.toReal] at this
    norm_num at this)
example := C54_real exP3 ⟨.of 5, .of (-8), .of 13⟩ exV3 exP3_fin (by rw [Point3.allFinite]; exact ⟨trivial, trivial, trivial⟩) exV3_fin
  (by
    rw [cross_degenerate exP3_fin (by rw [Point3.allFinite]; exact ⟨trivial, trivial, trivial⟩) exV3_fin]
    rw [cross_apply]
    ext i; fin_cases i <;> simp [exP3, exV3, Point3.toReal, Vector3.toReal] <;> norm_num)
