/-! ## NaN from degenerate axes -/

theorem normalize_zero_nan (a : Vector3 S) (h : (a == Vector3.zero) = true) :
    IsNaN a.normalize.x ∧ IsNaN a.normalize.y ∧ IsNaN a.normalize.z := by
  have := C13_zero3 a h
  simpa [AllNaN, Comps.comps] using this

/-- **C48**: rotation about a zero axis is not rejected; every entry of the rotation block is NaN, in
every arithmetic and for every angle. -/
theorem C48_zero_axis (axis : Vector3 S) (h : (axis == Vector3.zero) = true) (angle : S) (b : Build)
    (r c : UInt32) (hr : r < 3) (hc : c < 3) :
    (∃ s, (Transform3.rotateAxis axis angle).forward.get b r c = .ok s ∧ IsNaN s) ∧
    (∃ s, (Transform3.rotateAxis axis angle).inverse.get b r c = .ok s ∧ IsNaN s) := by
  obtain ⟨hx, hy, hz⟩ := normalize_zero_nan axis h
  have key : ∀ (i j : ℕ) (hi : i < 3) (hj : j < 3),
      IsNaN ((Matrix4x4.rotateAxis axis angle).m[i * 4 + j]'(by omega)) := by
    intro i j hi hj
    interval_cases i <;> interval_cases j <;>
      simp only [Matrix4x4.rotateAxis, Matrix4x4.new, Vector.getElem_mk, List.getElem_toArray,
        List.getElem_cons_zero, List.getElem_cons_succ] <;>
      first
        | exact isNaN_add_left (isNaN_mul_left (isNaN_mul_left (by assumption)))
        | exact isNaN_sub_left (isNaN_mul_left (isNaN_mul_left (by assumption)))
  have h4 : r < 4 := UInt32.lt_trans hr (by decide : (3 : UInt32) < 4)
  have h4' : c < 4 := UInt32.lt_trans hc (by decide : (3 : UInt32) < 4)
  have hr' : r.toNat < 3 := hr
  have hc' : c.toNat < 3 := hc
  constructor
  · exact ⟨_, Matrix4x4.get_ok _ b h4 h4', key _ _ hr' hc'⟩
  · refine ⟨_, Matrix4x4.get_ok _ b h4 h4', ?_⟩
    have e := Matrix4x4.transpose_m (Matrix4x4.rotateAxis axis angle) ⟨r.toNat, by omega⟩ ⟨c.toNat, by omega⟩
    have k := key c.toNat r.toNat hc' hr'
    show IsNaN ((Matrix4x4.rotateAxis axis angle).transpose.m[r.toNat * 4 + c.toNat]'(by omega))
    simp only [Nat.mul_comm 4] at e
    rw [e]; exact k

example : ∃ s : Ideal, (Transform3.rotateAxis Vector3.zero one).forward.get .debug 1 2 = .ok s ∧ IsNaN s :=
  (C48_zero_axis Vector3.zero (by
    rw [Vector3.beq_iff]; exact ⟨beq_self_iff.2 not_nan_zero, beq_self_iff.2 not_nan_zero,
      beq_self_iff.2 not_nan_zero⟩) one .debug 1 2 (by decide) (by decide)).1

/-- If the first entry of a 4x4 matrix is NaN, the determinant the crate computes is NaN, so `inverse`
does not report an error and returns an all-NaN matrix. -/
theorem inverse_of_nan (m : Matrix4x4 S) (h : IsNaN m.m[0]) :
    ∃ n, m.inverse = .ok n ∧ AllNaN n := by
  have hd : IsNaN (m.detOf m.adjugate) :=
    isNaN_add_left (isNaN_add_left (isNaN_add_left (isNaN_mul_left h)))
  have hne : (m.detOf m.adjugate != zero) = true := by
    have : ¬ (m.detOf m.adjugate == zero) = true := fun h' => (beq_iff.1 h').1 hd
    simpa [bne] using this
  refine ⟨m.adjugate / m.detOf m.adjugate, if_pos hne, ?_⟩
  intro s hs
  simp only [Comps.comps, Vector.mem_toList_iff] at hs
  obtain ⟨i, hi, rfl⟩ := Vector.getElem_of_mem hs
  rw [Matrix4x4.divs]
  exact isNaN_div_right hd

/-- What `look_at` returns once the computed "right" axis is NaN. -/
theorem lookAt_of_nan (origin target : Point3 S) (up : Vector3 S)
    (h : IsNaN (CrossProduct.cross up.normalize (target - origin).normalize).normalize.x) :
    ∃ t, Transform3.lookAt origin target up = .ok t ∧ AllNaN t.forward := by
  obtain ⟨n, hn, hnan⟩ := inverse_of_nan (Matrix4x4.inverseLookAt origin target up) h
  refine ⟨⟨n, Matrix4x4.inverseLookAt origin target up⟩, ?_, hnan⟩
  simp only [Transform3.lookAt, hn]; rfl

theorem isNaN_normalize_x {v : Vector3 S} (h : ¬ NoNaN v) : IsNaN v.normalize.x :=
  isNaN_div_right (length_isNaN3.2 h)

/-- **C54** in floats: `look_at` with `from == target` (finite) does not return the documented error; it
returns a transform whose forward matrix is entirely NaN. -/
theorem C54_from_eq_target (origin target : Point3 S) (up : Vector3 S) (hf : AllFinite origin)
    (ht : AllFinite target) (h : (origin == target) = true) :
    ∃ t, Transform3.lookAt origin target up = .ok t ∧ AllNaN t.forward := by
  have hz : ((target - origin : Vector3 S) == Vector3.zero) = true := by
    rw [Point3.beq_iff] at h
    rw [Point3.allFinite] at hf ht
    rw [Vector3.beq_iff]
    have key : ∀ a b : S, IsFinite a → IsFinite b → (a == b) = true → (b - a == zero) = true := by
      intro a b ha hb hab
      refine beq_of_num' ?_ not_nan_zero
      rw [num_sub_congr (num_of_beq (beq_symm hab)) (rfl : num a = num a), (same_sub_self ha).num]
    exact ⟨key _ _ hf.1 ht.1 h.1, key _ _ hf.2.1 ht.2.1 h.2.1, key _ _ hf.2.2 ht.2.2 h.2.2⟩
  obtain ⟨hx, hy, hz⟩ := normalize_zero_nan _ hz
  apply lookAt_of_nan
  apply isNaN_normalize_x
  rw [Vector3.noNaN]
  intro hn
  exact hn.1 (isNaN_sub_left (isNaN_mul_right hz))

/-- **C54** in floats: the same for a zero `up` vector. -/
theorem C54_zero_up (origin target : Point3 S) (up : Vector3 S) (h : (up == Vector3.zero) = true) :
    ∃ t, Transform3.lookAt origin target up = .ok t ∧ AllNaN t.forward := by
  obtain ⟨hx, hy, hz⟩ := normalize_zero_nan _ h
  apply lookAt_of_nan
  apply isNaN_normalize_x
  rw [Vector3.noNaN]
  intro hn
  exact hn.1 (isNaN_sub_left (isNaN_mul_left hy))

/-- **C45**: a 4x4 matrix whose first entry is NaN is accepted by `inverse`, which returns an all-NaN
matrix instead of an error; the same for 3x3. -/
theorem C45_nan_accepted (m : Matrix4x4 S) (h : IsNaN m.m[0]) : ∃ n, m.inverse = .ok n ∧ AllNaN n :=
  inverse_of_nan m h
theorem C45_nan_accepted2 (m : Matrix3x3 S) (h : IsNaN m.m[0]) : ∃ n, m.inverse = .ok n ∧ AllNaN n := by
  have hd : IsNaN m.det :=
    isNaN_sub_left (isNaN_sub_left (isNaN_sub_left (isNaN_add_left (isNaN_add_left
      (isNaN_mul_left (isNaN_mul_left h))))))
  have hne : (m.det != zero) = true := by
    have : ¬ (m.det == zero) = true := fun h' => (beq_iff.1 h').1 hd
    simpa [bne] using this
  refine ⟨_, if_pos hne, ?_⟩
  intro s hs
  simp only [Comps.comps, Matrix3x3.new, Vector.mem_toList_iff] at hs
  simp at hs
  rcases hs with h | h | h | h | h | h | h | h | h <;> rw [h] <;> exact isNaN_div_right hd

/-! ## Non-vacuity -/

private theorem ex_fin3 : AllFinite (Point3.new (Ideal.of 3) (Ideal.of (-2)) (Ideal.of 7)) := by
  rw [Point3.allFinite]; exact ⟨trivial, trivial, trivial⟩
private theorem ex_finv3 : AllFinite (Vector3.new (Ideal.of 3) (Ideal.of (-2)) (Ideal.of 7)) := by
  rw [Vector3.allFinite]; exact ⟨trivial, trivial, trivial⟩

example := C46_float_translate3 _ _ _ ex_fin3 ex_finv3.noNaN ex_finv3
example := C46_float_scale3 (Ideal.of 2) (Ideal.of 0) (Ideal.of (-1)) _ _ trivial trivial trivial ex_fin3 ex_finv3
example := C49_float_translate3 _ ex_finv3
example := C54_from_eq_target _ _ (Vector3.yAxis : Vector3 Ideal) ex_fin3 ex_fin3
  (by rw [Point3.beq_iff]; exact ⟨beq_self_iff.2 (by simp [IsNaN, Point3.new, den, Ideal.of]),
      beq_self_iff.2 (by simp [IsNaN, Point3.new, den, Ideal.of]),
      beq_self_iff.2 (by simp [IsNaN, Point3.new, den, Ideal.of])⟩)
example : ∃ s ∈ Comps.comps (Transform3.scale (Ideal.of 2) (Ideal.of 0) (Ideal.of 1)).inverse,
    ¬ IsNaN s ∧ ¬ IsFinite s :=
  C49_float_scale_zero3 _ _ _ (.inr (.inl (beq_iff.2 ⟨by simp [IsNaN, den, Ideal.of], not_nan_zero, by
    simp [val, den, Ideal.of, zero]⟩)))
example := C41_float_identity3 (Matrix4x4.translate (Vector3.new (Ideal.of 3) (Ideal.of (-2)) (Ideal.of 7)))
  (by rw [Matrix4x4.allFinite, forall_lt_16]; mat_simp []; simp [IsFinite, den, Ideal.of, Vector3.new, one, zero])

end VecMath
