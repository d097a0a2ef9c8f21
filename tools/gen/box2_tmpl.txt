/-! ## %nD boxes -/

section dim%n
variable {a b c : BoundingBox%n S} {p q r : Point%n S}

/-! ### C31: extents and measures -/

/-- The accessors agree with each other. -/
theorem C31_extents%n (b : BoundingBox%n S) :
    b.width = b.max.x - b.min.x ∧ b.height = b.max.y - b.min.y ∧#3{ b.depth = b.max.z - b.min.z ∧}#
    b.size = #2{(b.width, b.height)}##3{(b.width, b.height, b.depth)}# ∧
    b.extent .X = b.width ∧ b.extent .Y = b.height ∧#3{ b.extent .Z = b.depth ∧}#
    b.diagonal = #2{⟨b.width, b.height⟩}##3{⟨b.width, b.height, b.depth⟩}# := by
  refine ⟨rfl, rfl, #3{rfl, }#rfl, rfl, rfl, #3{rfl, }#rfl⟩

/-- For a finite well-formed box no extent is negative or NaN, in every rounding. -/
theorem C31_float_nonneg%n (b : BoundingBox%n S) (hf : AllFinite b) (hb : LeAll b.min b.max) (d : Dimension%n) :
    (Scalar.zero ≤? b.extent d) = true := by
  rw [BoundingBox%n.allFinite, Point%n.allFinite, Point%n.allFinite] at hf
  rw [wf%n_iff] at hb
  cases d
  · exact extent_nonneg hf.1.1 hf.2.1 hb.1
  #2{· exact extent_nonneg hf.1.2 hf.2.2 hb.2}##3{· exact extent_nonneg hf.1.2.1 hf.2.2.1 hb.2.1
  · exact extent_nonneg hf.1.2.2 hf.2.2.2 hb.2.2}#

#2{/-- The area is `>= 0`, or NaN exactly when one extent overflowed to infinity and the other is zero. -/
theorem C31_float_area (b : BoundingBox2 S) (hf : AllFinite b) (hb : LeAll b.min b.max) :
    ((Scalar.zero ≤? b.area) = true ∨ IsNaN b.area) ∧
    (IsNaN b.area ↔ ((b.width == infinity) = true ∧ (b.height == Scalar.zero) = true) ∨
      ((b.width == Scalar.zero) = true ∧ (b.height == infinity) = true)) ∧
    (AllFinite b.diagonal → (Scalar.zero ≤? b.area) = true) := by
  have hx : (Scalar.zero ≤? b.width) = true := C31_float_nonneg2 b hf hb .X
  have hy : (Scalar.zero ≤? b.height) = true := C31_float_nonneg2 b hf hb .Y
  have e : b.area = b.width * b.height := rfl
  rw [e]
  refine ⟨?_, ?_, fun h => ?_⟩
  · by_cases hn : IsNaN (b.width * b.height)
    · exact .inr hn
    · exact .inl ((mul_nonneg' hx hy).2 hn)
  · rw [(mul_nonneg' hx hy).1]
    simp only [IEEE.beq_iff, val_infinity, val_zero, not_nan_infinity, not_nan_zero, not_false_eq_true,
      true_and, (le_nn hx).2, (le_nn hy).2]
  · rw [Vector2.allFinite] at h
    exact mul_nonneg_finite hx hy h.1 h.2}#
#3{/-- The surface area is `>= 0` if no extent overflows; the volume too, unless the product of the first
two extents overflows and the third is zero (then it is NaN). -/
theorem C31_float_measures (b : BoundingBox3 S) (hf : AllFinite b) (hb : LeAll b.min b.max)
    (hd : AllFinite b.diagonal) :
    (Scalar.zero ≤? b.surfaceArea) = true ∧
    ((Scalar.zero ≤? b.volume) = true ∨ IsNaN b.volume) ∧
    (IsNaN b.volume ↔ (b.width * b.height == infinity) = true ∧ (b.depth == Scalar.zero) = true) := by
  have hx : (Scalar.zero ≤? b.width) = true := C31_float_nonneg3 b hf hb .X
  have hy : (Scalar.zero ≤? b.height) = true := C31_float_nonneg3 b hf hb .Y
  have hz : (Scalar.zero ≤? b.depth) = true := C31_float_nonneg3 b hf hb .Z
  rw [Vector3.allFinite] at hd
  have fx : IsFinite b.width := hd.1
  have fy : IsFinite b.height := hd.2.1
  have fz : IsFinite b.depth := hd.2.2
  have hxy := mul_nonneg_finite hx hy fx fy
  have e : b.volume = b.width * b.height * b.depth := rfl
  refine ⟨?_, ?_, ?_⟩
  · exact two_mul_nonneg (add_nonneg' (add_nonneg' hxy (mul_nonneg_finite hx hz fx fz))
      (mul_nonneg_finite hy hz fy fz))
  · rw [e]
    by_cases hn : IsNaN (b.width * b.height * b.depth)
    · exact .inr hn
    · exact .inl ((mul_nonneg' hxy hz).2 hn)
  · rw [e, (mul_nonneg' hxy hz).1]
    simp only [IEEE.beq_iff, val_infinity, val_zero, not_nan_infinity, not_nan_zero, not_false_eq_true,
      true_and, (le_nn hxy).2, (le_nn hz).2]
    rw [fz.val]; simp}#
example : AllFinite (BoundingBox%n.new (Point%n.new ⟪_(Ideal.of 0)⟫) (Point%n.new ⟪_(Ideal.of 1)⟫)) ∧
    AllFinite (BoundingBox%n.new (Point%n.new ⟪_(Ideal.of 0)⟫) (Point%n.new ⟪_(Ideal.of 1)⟫)).diagonal ∧
    LeAll (BoundingBox%n.new (Point%n.new ⟪_(Ideal.of 0)⟫) (Point%n.new ⟪_(Ideal.of 1)⟫)).min
      (BoundingBox%n.new (Point%n.new ⟪_(Ideal.of 0)⟫) (Point%n.new ⟪_(Ideal.of 1)⟫)).max := by
  simp [BoundingBox%n.allFinite, Point%n.allFinite, Vector%n.allFinite, Point%n.leAll, BoundingBox%n.diagonal,
    Ideal.le_real]

/-! ### C32: center, in floats -/

/-- If no extent overflows, the computed center is inside the box, in every rounding. -/
theorem C32_float%n (b : BoundingBox%n S) (hf : AllFinite b) (hb : LeAll b.min b.max)
    (hd : AllFinite b.diagonal) : b.isInside b.center = true := by
  rw [BoundingBox%n.allFinite, Point%n.allFinite, Point%n.allFinite] at hf
  rw [wf%n_iff] at hb
  rw [Vector%n.allFinite] at hd
  exact isInside%n_iff.2 ⟪center1 hf.1%s hf.2%s hb%s hd%s⟫

/-! ### C33: corners -/

/-- Bit `i` of the index selects `max` (set) or `min` (clear) in dimension `i`; in a debug build an index
out of range panics, in a release build only the low bits count. -/
theorem C33_corner%n (b : BoundingBox%n S) (index : UInt32) :
    b.corner .release index = .ok ⟨⟪;if index.toNat.testBit (Dimension%n.pos .%D) then b.max.%d else b.min.%d⟫⟩ ∧
    (index < #2{4}##3{8}# → b.corner .debug index = b.corner .release index) ∧
    (¬ index < #2{4}##3{8}# → b.corner .debug index = .error .debugAssert) := by
  have e : ∀ (k : ℕ) (hk : k < 3), (index &&& (UInt32.ofNat (2 ^ k)) == 0) = !index.toNat.testBit k := by
    intro k hk
    rw [Bool.eq_iff_iff, beq_iff_eq, Bool.not_eq_true', ← UInt32.toNat_inj, UInt32.toNat_and]
    have h2 : (UInt32.ofNat (2 ^ k)).toNat = 2 ^ k := by interval_cases k <;> rfl
    rw [h2]
    constructor
    · intro h
      have := congrArg (fun n => Nat.testBit n k) h
      simpa [Nat.testBit_and, Nat.testBit_two_pow_self] using this
    · intro h
      apply Nat.eq_of_testBit_eq
      intro j
      rw [Nat.testBit_and, Nat.testBit_two_pow]
      by_cases hj : k = j
      · subst hj; simp [h]
      · simp [hj]
  have e0 : (index &&& 1 == 0) = !index.toNat.testBit 0 := e 0 (by omega)
  have e1 : (index &&& 2 == 0) = !index.toNat.testBit 1 := e 1 (by omega)
  #3{have e2 : (index &&& 4 == 0) = !index.toNat.testBit 2 := e 2 (by omega)
  }#refine ⟨?_, fun h => ?_, fun h => ?_⟩
  · simp only [BoundingBox%n.corner, reduceCtorEq, false_and, if_false, e0, e1, #3{e2, }#Point%n.new, Dimension%n.pos]
    congr 2
    · by_cases h : index.toNat.testBit 0 = true <;> simp [h]
    · by_cases h : index.toNat.testBit 1 = true <;> simp [h]
    #3{· by_cases h : index.toNat.testBit 2 = true <;> simp [h]}#
  · simp [BoundingBox%n.corner, h]
  · simp [BoundingBox%n.corner, h]

/-- Every combination of min/max per dimension is named by exactly one index in range. -/
theorem C33_enumerates%n (c : Dimension%n → Bool) :
    ∃! index : UInt32, index < #2{4}##3{8}# ∧ ∀ (b : BoundingBox%n S) (build : Build),
      b.corner build index = .ok ⟨⟪;if c .%D then b.max.%d else b.min.%d⟫⟩ := by
  have ex : ∃ index : UInt32, index < #2{4}##3{8}# ∧ ∀ d, index.toNat.testBit (Dimension%n.pos d) = c d := by
    refine ⟨(if c .X then 1 else 0) + (if c .Y then 2 else 0)#3{ + (if c .Z then 4 else 0)}#, ?_, ?_⟩
    · cases c .X <;> cases c .Y#3{ <;> cases c .Z}# <;> decide
    · intro d
      cases hx : c .X <;> cases hy : c .Y#3{ <;> cases hz : c .Z}# <;> cases d <;>
        simp only [hx, hy, #3{hz, }#Dimension%n.pos] <;> decide
  obtain ⟨i, hi, hb⟩ := ex
  refine ⟨i, ⟨hi, fun b build => ?_⟩, ?_⟩
  · obtain ⟨h1, h2, -⟩ := C33_corner%n b i
    have h1 : b.corner build i = .ok ⟨⟪;if i.toNat.testBit (Dimension%n.pos .%D) then b.max.%d else b.min.%d⟫⟩ := by
      cases build
      · exact (h2 hi).trans h1
      · exact h1
    rw [h1]; simp only [hb]
  · rintro j ⟨hj, hj'⟩
    have h1 := hj' ⟨⟨⟪;Scalar.zero⟫⟩, ⟨⟪;Scalar.one⟫⟩⟩ .release
    rw [(C33_corner%n _ j).1] at h1
    have h1 := Except.ok.inj h1
    have key : ∀ x y : Bool, (if x then (Scalar.one : S) else Scalar.zero) = (if y then Scalar.one else Scalar.zero) → x = y := by
      have ne : (Scalar.zero : S) ≠ Scalar.one := by
        intro h
        have := zero_beq_one_false (S := S)
        rw [h, (Same.refl (Scalar.one : S)).beq not_nan_one] at this
        exact absurd this (by simp)
      intro x y h; cases x <;> cases y <;> simp_all
    simp only [Point%n.mk.injEq] at h1
    have hd : ∀ d, j.toNat.testBit (Dimension%n.pos d) = c d := by
      intro d; cases d
      · exact key _ _ h1.1
      #2{· exact key _ _ h1.2}##3{· exact key _ _ h1.2.1
      · exact key _ _ h1.2.2}#
    apply UInt32.toNat_inj.1
    have hi' : i.toNat < #2{2 ^ 2}##3{2 ^ 3}# := by simpa [UInt32.lt_iff_toNat_lt] using hi
    have hj'' : j.toNat < #2{2 ^ 2}##3{2 ^ 3}# := by simpa [UInt32.lt_iff_toNat_lt] using hj
    apply Nat.eq_of_testBit_eq
    intro k
    by_cases hk : k < #2{2}##3{3}#
    · have := fun d => (hd d).trans (hb d).symm
      interval_cases k
      · exact this .X
      · exact this .Y
      #3{· exact this .Z}#
    · rw [Nat.testBit_lt_two_pow (lt_of_lt_of_le hi' (Nat.pow_le_pow_right (by omega) (by omega))),
        Nat.testBit_lt_two_pow (lt_of_lt_of_le hj'' (Nat.pow_le_pow_right (by omega) (by omega)))]

theorem C33_inside%n (b : BoundingBox%n S) (hb : LeAll b.min b.max) (build : Build) (index : UInt32) (p : Point%n S)
    (h : b.corner build index = .ok p) : b.isInside p = true := by
  obtain ⟨h1, h2, h3⟩ := C33_corner%n b index
  have h1 : b.corner .release index = .ok p := by
    cases build
    · by_cases hi : index < #2{4}##3{8}#
      · rw [← h2 hi]; exact h
      · rw [h3 hi] at h; cases h
    · exact h
  rw [(C33_corner%n b index).1] at h1
  obtain rfl := Except.ok.inj h1
  rw [wf%n_iff] at hb
  have key : ∀ {l h : S} (t : Bool), (l ≤? h) = true → In1 l h (if t then h else l) := by
    intro l h t hlh; cases t
    · exact ⟨le_self (le_nn hlh).1, hlh⟩
    · exact ⟨hlh, le_self (le_nn hlh).2⟩
  exact isInside%n_iff.2 ⟪key _ hb%s⟫

/-- A box contains a well-formed box iff it contains all its corners. -/
theorem C33_contains%n (a b : BoundingBox%n S) (ha : LeAll a.min a.max) (build : Build) :
    (∀ p, a.isInside p = true → b.isInside p = true) ↔
    ∀ (index : UInt32) (p : Point%n S), index < #2{4}##3{8}# → a.corner build index = .ok p → b.isInside p = true := by
  constructor
  · intro h i p _ hp; exact h p (C33_inside%n a ha build i p hp)
  · intro h
    have cor : ∀ i : UInt32, i < #2{4}##3{8}# → a.corner build i = a.corner .release i := by
      intro i hi; cases build
      · exact (C33_corner%n a i).2.1 hi
      · rfl
    have h0 := h 0 a.min (by decide) (by rw [cor 0 (by decide), (C33_corner%n a 0).1]; rfl)
    have h3 := h #2{3}##3{7}# a.max (by decide) (by rw [cor _ (by decide), (C33_corner%n a _).1]; rfl)
    rw [isInside%n_iff] at h0 h3
    exact (subset%n_iff ha).2 ⟨Point%n.leAll.2 ⟪h0%s.1⟫, Point%n.leAll.2 ⟪h3%s.2⟫⟩
example : (BoundingBox%n.new (Point%n.new ⟪_(Ideal.of 0)⟫) (Point%n.new ⟪_(Ideal.of 1)⟫)).corner .debug #2{3}##3{7}# =
    .ok (BoundingBox%n.new (Point%n.new ⟪_(Ideal.of 0)⟫) (Point%n.new ⟪_(Ideal.of 1)⟫)).max := by
  rw [(C33_corner%n _ _).2.1 (by decide), (C33_corner%n _ _).1]; rfl

/-! ### C37: a ray in a face plane -/

/-- The claim is false in every arithmetic: the ray from the corner `0` along the face `x = 0` of the
unit box lies inside the box for `t = 0` and `t = 1`, but `intersect` returns `None`. (The slab of the
parallel dimension gives `0/0 = NaN`, which `min`/`max` drop, leaving `inf`.) -/
theorem C37_face_plane_missed%n :
    ∃ (b : BoundingBox%n S) (ray : Ray%n S),
      AllFinite b ∧ LeAll b.min b.max ∧ AllFinite ray ∧
      b.isInside (ray.at Scalar.zero) = true ∧ b.isInside (ray.at Scalar.one) = true ∧
      Api.intersect b ray = none := by
  have h00 : (Scalar.zero ≤? (Scalar.zero : S)) = true := le_self not_nan_zero
  have h11 : (Scalar.one ≤? (Scalar.one : S)) = true := le_self not_nan_one
  have h01 : (Scalar.zero ≤? (Scalar.one : S)) = true := le_of_vals not_nan_zero not_nan_one (by simp)
  have z0 : den ((Scalar.zero : S) + Scalar.zero) = .fin 0 := by
    rw [den_add, den_zero, Rounding.add_fin _ (by simp) (by simp)]; simp
  have zz : den ((Scalar.zero : S) * Scalar.zero) = .fin 0 := by
    rw [den_mul, den_zero, Rounding.mul_fin _ (by simp) (by simp)]; simp
  have o1 : Same ((Scalar.one : S) * Scalar.one) Scalar.one := same_mul_one _
  have o0 : den ((Scalar.one : S) * Scalar.zero) = .fin 0 := by
    rw [den_mul, den_zero, den_one, Rounding.mul_fin _ (by simp) (by simp)]
    simp [show ¬ (1:ℝ) < 0 by norm_num]
  have zo : den ((Scalar.zero : S) * Scalar.one) = .fin 0 := by
    rw [den_mul, den_zero, den_one, Rounding.mul_fin _ (by simp) (by simp)]
    simp [show ¬ (1:ℝ) < 0 by norm_num]
  have in0 : ∀ x : S, den x = .fin 0 → In1 Scalar.zero Scalar.one (Scalar.zero + x) := by
    intro x hx
    have : Same (Scalar.zero + x) Scalar.zero := by
      show den _ = den _
      rw [den_add, hx, ← den_zero (S := S), ← den_add, z0, den_zero]
    have n := this.isNaN.not.2 not_nan_zero
    exact ⟨le_of_vals not_nan_zero n this.val.ge, le_of_vals n not_nan_one (by rw [this.val]; simp)⟩
  have in1 : ∀ x : S, Same x Scalar.one → In1 Scalar.zero Scalar.one (Scalar.zero + x) := by
    intro x hx
    have h2 : Same (Scalar.zero + x) (Scalar.zero + Scalar.one) := Same.add (Same.refl _) hx
    have h3 := IEEE.beq_iff.1 (zero_add_beq (S := S) not_nan_one)
    have n := h2.isNaN.not.2 h3.1
    have v : val (Scalar.zero + x) = 1 := by rw [h2.val, h3.2.2, val_one]
    exact ⟨le_of_vals not_nan_zero n (by rw [v]; simp), le_of_vals n not_nan_one (by rw [v]; simp)⟩
  refine ⟨⟨⟨⟪;Scalar.zero⟫⟩, ⟨⟪;Scalar.one⟫⟩⟩, ⟨⟨⟪;Scalar.zero⟫⟩, ⟨Scalar.zero, Scalar.one#3{, Scalar.zero}#⟩⟩, ?_, ?_, ?_, ?_, ?_, ?_⟩
  · simp [BoundingBox%n.allFinite, Point%n.allFinite]
  · exact Point%n.leAll.2 ⟪h01⟫
  · simp [Ray%n.allFinite, Point%n.allFinite, Vector%n.allFinite]
  · exact isInside%n_iff.2 #2{⟨in0 _ zz, in0 _ o0⟩}##3{⟨in0 _ zz, in0 _ o0, in0 _ zz⟩}#
  · exact isInside%n_iff.2 #2{⟨in0 _ zo, in1 _ o1⟩}##3{⟨in0 _ zo, in1 _ o1, in0 _ zo⟩}#
  · show BoundingBox%n.intersectRay _ _ = none
    have nx := sub_div_zero_nan (S := S)
    have dx := one_div_zero (S := S)
    generalize hd1 : ((Scalar.zero : S) - Scalar.zero) / Scalar.zero = d1 at nx
    generalize hd2 : ((Scalar.one : S) - Scalar.zero) / Scalar.zero = d2 at dx
    have vd2 : ¬ IsNaN d2 ∧ val d2 = ⊤ := by unfold IsNaN val; rw [dx]; simp
    have s1 : ¬ IsNaN (fmax Scalar.zero (fmin d1 d2)) ∧ val (fmax Scalar.zero (fmin d1 d2)) = ⊤ := by
      have hm : Same (fmin d1 d2) d2 := min_nan_left nx
      have hn : ¬ IsNaN (fmin d1 d2) := hm.isNaN.not.2 vd2.1
      exact ⟨max_nn not_nan_zero, by rw [val_max not_nan_zero hn, hm.val, vd2.2]; simp⟩
    have t1 : ¬ IsNaN (fmin infinity (fmax d1 d2)) := min_nn not_nan_infinity
    -- the y slab is [0, 1]
    have ey : Same (((Scalar.one : S) - Scalar.zero) / Scalar.one) Scalar.one :=
      (same_div_one _).trans (same_sub_zero _)
    have ez : Same (((Scalar.zero : S) - Scalar.zero) / Scalar.one) Scalar.zero :=
      (same_div_one _).trans (same_sub_zero _)
    generalize hd3 : ((Scalar.zero : S) - Scalar.zero) / Scalar.one = d3 at ez
    generalize hd4 : ((Scalar.one : S) - Scalar.zero) / Scalar.one = d4 at ey
    have n3 : ¬ IsNaN d3 := ez.isNaN.not.2 not_nan_zero
    have n4 : ¬ IsNaN d4 := ey.isNaN.not.2 not_nan_one
    have s2 : ¬ IsNaN (fmax (fmax Scalar.zero (fmin d1 d2)) (fmin d3 d4)) ∧
        val (fmax (fmax Scalar.zero (fmin d1 d2)) (fmin d3 d4)) = ⊤ :=
      ⟨max_nn s1.1, by rw [val_max s1.1 (min_nn n3), s1.2]; simp⟩
    have t2 : ¬ IsNaN (fmin (fmin infinity (fmax d1 d2)) (fmax d3 d4)) ∧
        val (fmin (fmin infinity (fmax d1 d2)) (fmax d3 d4)) ≤ 1 :=
      ⟨min_nn t1, by
        rw [val_min t1 (max_nn n3), val_max n3 n4, ez.val, ey.val, val_zero, val_one]
        exact (min_le_right _ _).trans (by simp)⟩
    have one_lt : (1 : EReal) < ⊤ := by exact_mod_cast EReal.coe_lt_top 1
    simp only [BoundingBox%n.intersectRay, Api.min, Api.max, MinMax.min, MinMax.max, hd1, hd2, hd3, hd4]
    split_ifs with g1 g2#3{ g3}#
    · rfl
    #2{· rw [le_iff] at g2
      exact absurd (g2.2.2.trans t2.2) (by rw [s2.2]; exact not_le.2 one_lt)
    · rfl}##3{· rfl
    · exact absurd (lt_iff.2 ⟨t2.1, s2.1, by rw [s2.2]; exact t2.2.trans_lt one_lt⟩) g2
    · rfl}#

end dim%n
