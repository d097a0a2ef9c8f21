/-! ## Cross product -/

/-- **C11** in real arithmetic: `cross` is the right-handed vector product. -/
theorem C11_real (u v w : Vector3 Ideal) (s : Ideal) (hu : AllFinite u) (hv : AllFinite v)
    (hw : AllFinite w) (hs : IsFinite s) :
    (Api.dot (Api.cross u v) u == zero) = true ∧ (Api.dot (Api.cross u v) v == zero) = true ∧
    (Api.cross (u + w) v == Api.cross u v + Api.cross w v) = true ∧
    (Api.cross (u * s) v == Api.cross u v * s) = true ∧
    (Api.cross u v == -(Api.cross v u)) = true ∧
    (Api.dot (Api.cross u v) (Api.cross u v) + Api.dot u v * Api.dot u v ==
      Api.dot u u * Api.dot v v) = true ∧
    (Api.cross u (Api.cross v w) == v * Api.dot u w - w * Api.dot u v) = true := by
  have e3 : ∀ x : Fin 3 → ℝ, x = ![x 0, x 1, x 2] := fun x => by ext i; fin_cases i <;> rfl
  refine ⟨?_, ?_, ?_, ?_, ?_, ?_, ?_⟩
  · rw [Ideal.beq_real (by rv_simp [hu, hv]) (by rv_simp [hu, hv])]
    rv_simp [hu, hv]
    rw [dotProduct_comm]; exact dot_self_cross _ _
  · rw [Ideal.beq_real (by rv_simp [hu, hv]) (by rv_simp [hu, hv])]
    rv_simp [hu, hv]
    rw [dotProduct_comm]; exact dot_cross_self _ _
  · rv_simp [hu, hv, hw]; rw [map_add]; rfl
  · rv_simp [hu, hv, hw, hs]; rw [map_smul]; rfl
  · rv_simp [hu, hv]; exact (cross_anticomm v.toReal u.toReal).symm
  · rw [Ideal.beq_real (by rv_simp [hu, hv]) (by rv_simp [hu, hv])]
    rv_simp [hu, hv]
    rw [cross_dot_cross, dotProduct_comm v.toReal u.toReal]; ring
  · rv_simp [hu, hv, hw]
    simp only [cross_apply]
    ext i; fin_cases i <;> simp [dotProduct, Fin.sum_univ_succ] <;> ring

/-- Linear dependence of two vectors: some non-trivial real combination vanishes. -/
def Dependent (u v : Vector3 Ideal) : Prop :=
  ∃ a b : ℝ, (a ≠ 0 ∨ b ≠ 0) ∧ a • u.toReal + b • v.toReal = 0

/-- **C11** in real arithmetic: the cross product vanishes exactly on linearly dependent pairs. -/
theorem C11_real_dependent (u v : Vector3 Ideal) (hu : AllFinite u) (hv : AllFinite v) :
    (Api.cross u v == Vector3.zero) = true ↔ Dependent u v := by
  rv_simp [hu, hv]
  unfold Dependent
  generalize u.toReal = x
  generalize v.toReal = y
  rw [cross_apply]
  constructor
  · intro h
    have h0 := congrFun h 0
    have h1 := congrFun h 1
    have h2 := congrFun h 2
    simp at h0 h1 h2
    by_cases hx : x = 0
    · exact ⟨1, 0, .inl one_ne_zero, by simp [hx]⟩
    · obtain ⟨i, hi⟩ : ∃ i, x i ≠ 0 := by
        by_contra hc; push Not at hc; exact hx (funext hc)
      refine ⟨y i, -(x i), .inr (neg_ne_zero.2 hi), ?_⟩
      ext j
      fin_cases i <;> fin_cases j <;> simp <;> linarith
  · rintro ⟨a, b, hab, h⟩
    have h0 := congrFun h 0
    have h1 := congrFun h 1
    have h2 := congrFun h 2
    simp at h0 h1 h2
    rcases hab with ha | hb
    · ext j
      fin_cases j <;> simp <;> apply mul_left_cancel₀ ha
      · linear_combination y 2 * h1 - y 1 * h2
      · linear_combination y 0 * h2 - y 2 * h0
      · linear_combination y 1 * h0 - y 0 * h1
    · ext j
      fin_cases j <;> simp <;> apply mul_left_cancel₀ hb
      · linear_combination x 1 * h2 - x 2 * h1
      · linear_combination x 2 * h0 - x 0 * h2
      · linear_combination x 0 * h1 - x 1 * h0

/-- **C11**: right-handedness: x × y = z and cyclically. -/
theorem C11_axes :
    (Api.cross (Vector3.xAxis : Vector3 Ideal) (Vector3.yAxis : Vector3 Ideal) == (Vector3.zAxis : Vector3 Ideal)) = true ∧
    (Api.cross (Vector3.yAxis : Vector3 Ideal) (Vector3.zAxis : Vector3 Ideal) == (Vector3.xAxis : Vector3 Ideal)) = true ∧
    (Api.cross (Vector3.zAxis : Vector3 Ideal) (Vector3.xAxis : Vector3 Ideal) == (Vector3.yAxis : Vector3 Ideal)) = true := by
  have fx : AllFinite (Vector3.xAxis : Vector3 Ideal) := by
    rw [Vector3.allFinite]; exact ⟨trivial, trivial, trivial⟩
  have fy : AllFinite (Vector3.yAxis : Vector3 Ideal) := by
    rw [Vector3.allFinite]; exact ⟨trivial, trivial, trivial⟩
  have fz : AllFinite (Vector3.zAxis : Vector3 Ideal) := by
    rw [Vector3.allFinite]; exact ⟨trivial, trivial, trivial⟩
  have rx : (Vector3.xAxis : Vector3 Ideal).toReal = ![1, 0, 0] := rfl
  have ry : (Vector3.yAxis : Vector3 Ideal).toReal = ![0, 1, 0] := rfl
  have rz : (Vector3.zAxis : Vector3 Ideal).toReal = ![0, 0, 1] := rfl
  rv_simp [fx, fy, fz, rx, ry, rz]
  simp [cross_apply]

/-! ## permute -/

/-- **C04** in real arithmetic: a true permutation of the components preserves the length. -/
theorem C04_length2 (v : Vector2 Ideal) (hv : AllFinite v) (a b : Dimension2) (hab : a ≠ b) :
    (Api.length (v.permute a b) == Api.length v) = true := by
  rw [Vector2.allFinite] at hv
  have fv : AllFinite v := Vector2.allFinite.2 hv
  have fp : AllFinite (v.permute a b) := by
    rw [Vector2.allFinite]; cases a <;> cases b <;> simp_all [Vector2.permute, Vector2.new, Vector2.index]
  rw [Ideal.beq_real (Vector2.fin_length fp) (Vector2.fin_length fv), (C12_real_norm2 _ fp).2,
    (C12_real_norm2 _ fv).2]
  congr 1
  cases a <;> cases b <;>
    simp_all [Vector2.permute, Vector2.new, Vector2.index, Vector2.toReal, Fin.sum_univ_succ] <;> ring
theorem C04_length3 (v : Vector3 Ideal) (hv : AllFinite v) (a b c : Dimension3) (hab : a ≠ b)
    (hbc : b ≠ c) (hac : a ≠ c) :
    (Api.length (v.permute a b c) == Api.length v) = true := by
  rw [Vector3.allFinite] at hv
  have fv : AllFinite v := Vector3.allFinite.2 hv
  have fp : AllFinite (v.permute a b c) := by
    rw [Vector3.allFinite]
    cases a <;> cases b <;> cases c <;> simp_all [Vector3.permute, Vector3.new, Vector3.index]
  rw [Ideal.beq_real (Vector3.fin_length fp) (Vector3.fin_length fv), (C12_real_norm3 _ fp).2,
    (C12_real_norm3 _ fv).2]
  congr 1
  cases a <;> cases b <;> cases c <;>
    simp_all [Vector3.permute, Vector3.new, Vector3.index, Vector3.toReal, Fin.sum_univ_succ] <;> ring

/-! ## Non-vacuity -/

/-- A non-trivial vector: (3, 4, 12), of length 13. -/
noncomputable def exV : Vector3 Ideal := Vector3.new (Ideal.of 3) (Ideal.of 4) (Ideal.of 12)
theorem exV_finite : AllFinite exV := Vector3.allFinite.2 ⟨trivial, trivial, trivial⟩
theorem exV_ne_zero : (exV == Vector3.zero) = false := by
  rw [Bool.eq_false_iff, ne_eq, Vector3.beq_toReal exV_finite Vector3.fin_zero, Vector3.toReal_zero]
  intro h
  have := congrFun h 0
  simp [exV, Vector3.toReal, Vector3.new] at this
example : real (Api.length exV) = 13 := by
  rw [(C12_real_norm3 _ exV_finite).2]
  have : (∑ i, exV.toReal i ^ 2) = 13 ^ 2 := by
    simp [exV, Vector3.toReal, Vector3.new, Fin.sum_univ_succ]; norm_num
  rw [this]; exact Real.sqrt_sq (by norm_num)
example := C13_real3 exV exV_finite exV_ne_zero
example := C06_real3 exV exV exV exV_finite exV_finite exV_finite
example := C08_real3 exV exV (Point3.fromVector exV) (Ideal.of 2) (Ideal.of 5) exV_finite exV_finite
  (Point3.allFinite.2 ⟨trivial, trivial, trivial⟩) trivial trivial
example := C11_real exV exV exV (Ideal.of 2) exV_finite exV_finite exV_finite trivial
example := C15_real3 (Point3.fromVector exV) (Point3.fromVector exV) (Point3.fromVector exV) exV
  (Point3.allFinite.2 ⟨trivial, trivial, trivial⟩) (Point3.allFinite.2 ⟨trivial, trivial, trivial⟩)
  (Point3.allFinite.2 ⟨trivial, trivial, trivial⟩) exV_finite
example := C23_real3 (Ray3.new (Point3.fromVector exV) exV) (Ideal.of 2) (Ideal.of 5)
  (Ray3.allFinite.2 ⟨Point3.allFinite.2 ⟨trivial, trivial, trivial⟩, exV_finite⟩) trivial trivial

end VecMath
