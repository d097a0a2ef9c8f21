/-- **C56** fails for rotations: in the plane, `rotate(a)` bounds correctly if and only if `a` is a multiple of a
quarter turn (`sin a` or `cos a` is 0). -/
theorem C56_real_rotate (a : Ideal) (ha : IsFinite a) :
    (∀ (b : BoundingBox2 Ideal) (p : Point2 Ideal), AllFinite b → LeAll b.min b.max → AllFinite p → b.isInside p = true →
      (Transform.transform (Transform2.rotate a) b : BoundingBox2 Ideal).isInside
        (Transform.transform (Transform2.rotate a) p : Point2 Ideal) = true) ↔
    Real.sin (real a) = 0 ∨ Real.cos (real a) = 0 := by
  rw [C56_real_iff2 (Transform2.rotate a) (Matrix3x3.fin_rotate ha) (Matrix3x3.rotate_affine ha)]
  show (∀ i, (∀ j, 0 ≤ (Matrix3x3.rotate a).linear i j) ∨ (∀ j, (Matrix3x3.rotate a).linear i j ≤ 0)) ↔ _
  rw [Matrix3x3.linear_rotate ha]
  simp only [rot2, Fin.forall_fin_two]
  simp
  constructor
  · rintro ⟨h1 | h1, h2 | h2⟩
    · exact .inl (le_antisymm h1.2 h2.1)
    · exact .inr (le_antisymm h2.2 h1.1)
    · exact .inr (le_antisymm h1.1 h2.2)
    · exact .inl (le_antisymm h2.1 h1.2)
  · rintro (h | h)
    · rw [h]; rcases le_total 0 (Real.cos (real a)) with h | h <;> simp [h]
    · rw [h]; rcases le_total 0 (Real.sin (real a)) with h | h <;> simp [h]
/-- **C56** fails for `rotate_z` in space at every other angle. -/
theorem C56_real_rotate_z (a : Ideal) (ha : IsFinite a) (hs : Real.sin (real a) ≠ 0) (hc : Real.cos (real a) ≠ 0) :
    ∃ (b : BoundingBox3 Ideal) (p : Point3 Ideal), AllFinite b ∧ LeAll b.min b.max ∧ AllFinite p ∧ b.isInside p = true ∧
      (Transform.transform (Transform3.rotateZ a) b : BoundingBox3 Ideal).isInside
        (Transform.transform (Transform3.rotateZ a) p : Point3 Ideal) = false := by
  by_contra hno
  have h : ∀ (b : BoundingBox3 Ideal) (p : Point3 Ideal), AllFinite b → LeAll b.min b.max → AllFinite p → b.isInside p = true →
      (Transform.transform (Transform3.rotateZ a) b : BoundingBox3 Ideal).isInside
        (Transform.transform (Transform3.rotateZ a) p : Point3 Ideal) = true := by
    intro b p h1 h2 h3 h4
    by_contra h5
    exact hno ⟨b, p, h1, h2, h3, h4, by simpa using h5⟩
  rw [C56_real_iff3 (Transform3.rotateZ a) (isRot_rotateZ ha).fin (isRot_rotateZ ha).affine] at h
  change ∀ i, (∀ j, 0 ≤ (Matrix4x4.rotateZ a).linear i j) ∨ (∀ j, (Matrix4x4.rotateZ a).linear i j ≤ 0) at h
  rw [(isRot_rotateZ ha).linear] at h
  simp only [rod, crossM, Fin.forall_fin_succ] at h
  simp [Matrix.vecMulVec_apply, Matrix.one_apply] at h
  obtain ⟨h1, h2⟩ := h
  rcases lt_or_gt_of_ne hs with s | s <;> rcases lt_or_gt_of_ne hc with c | c <;>
    rcases h1 with h1 | h1 <;> rcases h2 with h2 | h2 <;> obtain ⟨p, q⟩ := h1 <;>
    first | linarith | (obtain ⟨r, t⟩ := h2; linarith)

/-! ## The hypotheses are met by concrete, non-trivial values -/

noncomputable def exB2 : BoundingBox2 Ideal := ⟨⟨.of (-1), .of 2⟩, ⟨.of 3, .of 5⟩⟩
noncomputable def exB3 : BoundingBox3 Ideal := ⟨⟨.of (-1), .of 2, .of 0⟩, ⟨.of 3, .of 5, .of 7⟩⟩
theorem exB2_fin : AllFinite exB2 := by
  rw [BoundingBox2.allFinite, Point2.allFinite, Point2.allFinite]; exact ⟨⟨trivial, trivial⟩, ⟨trivial, trivial⟩⟩
theorem exB3_fin : AllFinite exB3 := by
  rw [BoundingBox3.allFinite, Point3.allFinite, Point3.allFinite]
  exact ⟨⟨trivial, trivial, trivial⟩, ⟨trivial, trivial, trivial⟩⟩
theorem exB2_wf : LeAll exB2.min exB2.max := by
  rw [BoundingBox2.wf_real exB2_fin]
  intro i; fin_cases i <;> simp [exB2, Point2.toReal] <;> norm_num
theorem exB3_wf : LeAll exB3.min exB3.max := by
  rw [BoundingBox3.wf_real exB3_fin]
  intro i; fin_cases i <;> simp [exB3, Point3.toReal] <;> norm_num
/-- a ray that runs parallel to an axis (zero direction component) and yet hits, entering at 2 and leaving at 5 -/
noncomputable def exR2 : Ray2 Ideal := ⟨⟨.of 0, .of 0⟩, ⟨.of 0, .of 1⟩⟩
theorem exR2_fin : AllFinite exR2 := by
  rw [Ray2.allFinite, Point2.allFinite, Vector2.allFinite]; exact ⟨⟨trivial, trivial⟩, ⟨trivial, trivial⟩⟩
example := C31_real_monotone2 exB2 exB2 exB2_fin exB2_fin exB2_wf (fun _ h => h)
example := C31_real_monotone3 exB3 exB3 exB3_fin exB3_fin exB3_wf (fun _ h => h)
example := C32_real2 exB2 exB2_fin exB2_wf
example := C32_real3 exB3 exB3_fin exB3_wf
example : FaceFree2 exB2 exR2 ∧ exR2.direction.toReal ≠ 0 ∧
    exB2.isInside (exR2.at (.of 3)) = true := by
  refine ⟨?_, ?_, ?_⟩
  · intro i; fin_cases i <;> simp [exR2, exB2, Point2.toReal, Vector2.toReal]
  · intro h; have := congrFun h 1; simp [exR2, Vector2.toReal] at this
  · rw [BoundingBox2.ray_inside exB2_fin exR2_fin (Ideal.finite_of 3)]
    simp [exB2, exR2]; norm_num
/-- a ray in a face plane, passing through the face -/
example : ¬ FaceFree2 exB2 ⟨⟨.of (-1), .of 0⟩, ⟨.of 0, .of 1⟩⟩ := by
  intro h; have := h 0; simp [exB2, Point2.toReal, Vector2.toReal] at this; norm_num at this
example := C56_real_translate_scale3 exV3 exV3_fin (.of 2) (.of (-3)) (.of 0) ⟨trivial, trivial, trivial⟩ exB3 exB3.max exB3_fin
  exB3_wf (BoundingBox3.allFinite.1 exB3_fin).2 (wf3_max exB3_wf)
/-- an affine transform that is no translation or scaling and still bounds correctly (a shear) -/
example : ∀ i, (∀ j, 0 ≤ exA3.linear i j) ∨ (∀ j, exA3.linear i j ≤ 0) := by
  intro i; left; intro j
  unfold Matrix3x3.linear
  rw [Matrix3x3.toReal_eq]
  fin_cases i <;> fin_cases j <;> simp [exA3]
/-- the rotation by one eighth turn does not -/
example : ¬ (Real.sin (real (Ideal.of (Real.pi / 4))) = 0 ∨ Real.cos (real (Ideal.of (Real.pi / 4))) = 0) := by
  simp
