/-! ## The hypotheses are met by concrete, non-trivial values -/

/-- a projective, invertible matrix -/
noncomputable def exM3 : Matrix3x3 Ideal := ⟨(#v[2, 1, 3, 0, 1, -1, 1, 0, 1] : Vector ℝ 9).map Ideal.of⟩
/-- a projective, invertible matrix -/
noncomputable def exM4 : Matrix4x4 Ideal :=
  ⟨(#v[2, 1, 0, 3, 0, 1, 1, -1, 0, 0, 3, 2, 1, 0, 0, 1] : Vector ℝ 16).map Ideal.of⟩
/-- an affine shear with translation -/
noncomputable def exA3 : Matrix3x3 Ideal := ⟨(#v[2, 1, 3, 0, 1, -1, 0, 0, 1] : Vector ℝ 9).map Ideal.of⟩
/-- an affine shear with translation -/
noncomputable def exA4 : Matrix4x4 Ideal :=
  ⟨(#v[2, 1, 0, 3, 0, 1, 1, -1, 0, 0, 3, 2, 0, 0, 0, 1] : Vector ℝ 16).map Ideal.of⟩
noncomputable def exP2 : Point2 Ideal := ⟨.of 3, .of (-4)⟩
noncomputable def exP3 : Point3 Ideal := ⟨.of 3, .of (-4), .of 5⟩

theorem exM3_fin : AllFinite exM3 := by
  rw [Matrix3x3.allFinite]; intro i hi; rw [exM3, Vector.getElem_map]; exact Ideal.finite_of _
theorem exM4_fin : AllFinite exM4 := by
  rw [Matrix4x4.allFinite]; intro i hi; rw [exM4, Vector.getElem_map]; exact Ideal.finite_of _
theorem exA3_fin : AllFinite exA3 := by
  rw [Matrix3x3.allFinite]; intro i hi; rw [exA3, Vector.getElem_map]; exact Ideal.finite_of _
theorem exA4_fin : AllFinite exA4 := by
  rw [Matrix4x4.allFinite]; intro i hi; rw [exA4, Vector.getElem_map]; exact Ideal.finite_of _
theorem exP2_fin : AllFinite exP2 := by rw [Point2.allFinite]; exact ⟨trivial, trivial⟩
theorem exP3_fin : AllFinite exP3 := by rw [Point3.allFinite]; exact ⟨trivial, trivial, trivial⟩
theorem exM3_det : exM3.toReal.det = -2 := by
  rw [Matrix3x3.toReal_eq, Matrix.det_fin_three]
  simp [exM3]; norm_num
theorem exA3_det : exA3.toReal.det = 2 := by
  rw [Matrix3x3.toReal_eq, Matrix.det_fin_three]
  simp [exA3]
theorem exA3_affine : exA3.Affine := by
  intro j; rw [Matrix3x3.toReal_eq]; fin_cases j <;> simp [exA3, Fin.last]
theorem exA4_affine : exA4.Affine := by
  intro j; rw [Matrix4x4.toReal_eq]; fin_cases j <;> simp [exA4, Fin.last]
theorem exA4_det : exA4.toReal.det = 6 := by
  rw [exA4_affine.det, Matrix.det_fin_three]
  simp only [Matrix4x4.linear]
  rw [Matrix4x4.toReal_eq]
  simp [exA4]; norm_num
theorem exM3_weight : exM3.weight exP2 = 4 := by
  rw [Matrix3x3.weight, Matrix3x3.toReal_eq]
  simp [Matrix.mulVec, dotProduct, Fin.sum_univ_succ, Point2.hom, Fin.last, exM3, exP2]; norm_num
theorem exM4_weight : exM4.weight exP3 = 4 := by
  rw [Matrix4x4.weight, Matrix4x4.toReal_eq]
  simp [Matrix.mulVec, dotProduct, Fin.sum_univ_succ, Point3.hom, Fin.last, exM4, exP3]; norm_num

example := C41_real2 exM3 exA3 exM3 (.of 7) exM3_fin exA3_fin exM3_fin trivial
example := C41_real3 exM4 exA4 exM4 (.of 7) exM4_fin exA4_fin exM4_fin trivial
example := (C42_real2 exM3 (.of 3) (.of 5) exM3_fin trivial trivial).2.2 (by norm_num)
example := (C42_real3 exM4 (.of 3) (.of 5) exM4_fin trivial trivial).2.2 (by norm_num)
/-- nonzero weight is met -/
example : AllFinite (exM3 * exP2) :=
  ((C43_real_point2 exM3 exP2 exM3_fin exP2_fin).1 (by rw [exM3_weight]; norm_num)).1
example : AllFinite (exM4 * exP3) :=
  ((C43_real_point3 exM4 exP3 exM4_fin exP3_fin).1 (by rw [exM4_weight]; norm_num)).1
/-- weight zero is met: the point `(-1, 0)` -/
example : exM3.weight ⟨.of (-1), .of 0⟩ = 0 := by
  rw [Matrix3x3.weight, Matrix3x3.toReal_eq]
  simp [Matrix.mulVec, dotProduct, Fin.sum_univ_succ, Point2.hom, Fin.last, exM3]
example : exM4.weight ⟨.of (-1), .of 0, .of 0⟩ = 0 := by
  rw [Matrix4x4.weight, Matrix4x4.toReal_eq]
  simp [Matrix.mulVec, dotProduct, Fin.sum_univ_succ, Point3.hom, Fin.last, exM4]
/-- composition of a projective and an affine map -/
example := C43_real_compose2 exA3 exM3 exP2 exA3_fin exM3_fin exP2_fin (by rw [exM3_weight]; norm_num)
  (by rw [exA3_affine.weight]; norm_num)
example := C43_real_compose3 exA4 exM4 exP3 exA4_fin exM4_fin exP3_fin (by rw [exM4_weight]; norm_num)
  (by rw [exA4_affine.weight]; norm_num)
example := C43_real_affine2 exA3 exM3 exP2 exP2 ⟨.of 1, .of 2⟩ ⟨.of 1, .of 2⟩ (.of 3) exA3_fin exA3_affine
  exM3_fin exP2_fin exP2_fin (by rw [Vector2.allFinite]; exact ⟨trivial, trivial⟩)
  (by rw [Vector2.allFinite]; exact ⟨trivial, trivial⟩) trivial
example := C43_real_affine3 exA4 exM4 exP3 exP3 ⟨.of 1, .of 2, .of 0⟩ ⟨.of 1, .of 2, .of 6⟩ (.of 3) exA4_fin
  exA4_affine exM4_fin exP3_fin exP3_fin (by rw [Vector3.allFinite]; exact ⟨trivial, trivial, trivial⟩)
  (by rw [Vector3.allFinite]; exact ⟨trivial, trivial, trivial⟩) trivial
/-- invertible matrices exist -/
example : ∃ n, exM3.inverse = .ok n := by
  rcases Matrix3x3.inverse_cases exM3_fin with ⟨h, _⟩ | ⟨_, n, e, _⟩
  · rw [exM3_det] at h; norm_num at h
  · exact ⟨n, e⟩
example : ∃ n, exA4.inverse = .ok n := by
  rcases Matrix4x4.inverse_cases exA4_fin with ⟨h, _⟩ | ⟨_, n, e, _⟩
  · rw [exA4_det] at h; norm_num at h
  · exact ⟨n, e⟩
/-- singular matrices exist and are rejected -/
example : (Matrix3x3.scale (.of 2) (.of 0) : Matrix3x3 Ideal).inverse = .error .mk := by
  refine (C45_real2 _ ?_).1.2 ?_
  · rw [Matrix3x3.allFinite, forall_lt_9]; mat_simp []; simp [finite_zero, finite_one]
  · rw [Matrix3x3.toReal_eq, Matrix.det_fin_three]; mat_simp []; simp [real_zero]
example : (Matrix4x4.scale (.of 2) (.of 0) (.of 1) : Matrix4x4 Ideal).inverse = .error .mk := by
  refine (C45_real3 _ ?_).2.2 ⟨![0, 1, 0, 0], ?_, ?_⟩
  · rw [Matrix4x4.allFinite, forall_lt_16]; mat_simp []; simp [finite_zero, finite_one]
  · intro h; have := congrFun h 1; simp at this
  · rw [Matrix4x4.toReal_eq]; mat_simp []
    ext i; fin_cases i <;> simp [Matrix.mulVec, dotProduct, Fin.sum_univ_succ, real_zero]

end VecMath
