/-! ## Dimension $D -/

/-- **C06** in real arithmetic: finite vectors form a commutative group under `+`. -/
theorem C06_real$D (u v w : Vector$D Ideal) (hu : AllFinite u) (hv : AllFinite v) (hw : AllFinite w) :
    (u + v == v + u) = true ∧ ((u + v) + w == u + (v + w)) = true ∧ (u + Vector$D.zero == u) = true ∧
    (Vector$D.zero + u == u) = true ∧ (u + -u == Vector$D.zero) = true ∧ (-u + u == Vector$D.zero) = true ∧
    (u - v == u + -v) = true ∧ ((u - v) + v == u) = true ∧ AllFinite (u + v) ∧ AllFinite (-u) := by
  rv_simp [hu, hv, hw]
  refine ⟨?_, ?_, ?_, ?_, ?_, ?_, ?_, ?_, trivial, trivial⟩ <;> abel

/-- **C07** in real arithmetic: points and vectors form an affine space. -/
theorem C07_real$D (p q r : Point$D Ideal) (u v : Vector$D Ideal) (hp : AllFinite p) (hq : AllFinite q)
    (hr : AllFinite r) (hu : AllFinite u) (hv : AllFinite v) :
    (p + (q - p) == q) = true ∧ ((p + v) - p == v) = true ∧ ((p + v) - v == p) = true ∧
    ((p + u) + v == p + (u + v)) = true ∧ ((p - q) + (q - r) == p - r) = true ∧
    (p - v == p + -v) = true ∧ ((p - q == Vector$D.zero) = true ↔ (p == q) = true) := by
  rv_simp [hp, hq, hr, hu, hv]
  refine ⟨?_, ?_, ?_, ?_, ?_, ?_, sub_eq_zero⟩ <;> abel

/-- **C08** in real arithmetic: scaling laws of vectors and points. -/
theorem C08_real$D (u v : Vector$D Ideal) (p : Point$D Ideal) (s t : Ideal) (hu : AllFinite u)
    (hv : AllFinite v) (hp : AllFinite p) (hs : IsFinite s) (ht : IsFinite t) :
    ((u + v) * s == u * s + v * s) = true ∧ (u * (s + t) == u * s + u * t) = true ∧
    ((u * s) * t == u * (s * t)) = true ∧ (u * (zero : Ideal) == Vector$D.zero) = true ∧
    ((p + u) * s == p * s + u * s) = true ∧ ((p * s) * t == p * (s * t)) = true ∧
    (real s ≠ 0 → ((u * s) / s == u) = true ∧ ((u / s) * s == u) = true ∧
      ((u + v) / s == u / s + v / s) = true ∧
      ((p * s) / s == p) = true ∧ ((p / s) * s == p) = true) := by
  refine ⟨?_, ?_, ?_, ?_, ?_, ?_, ?_⟩
  rotate_right
  · intro h0
    refine ⟨?_, ?_, ?_, ?_, ?_⟩
    all_goals rv_simp [hu, hv, hs, ht, hp, ne_eq, h0, not_false_eq_true]
    all_goals first
      | module
      | rw [smul_smul, inv_mul_cancel₀ h0, one_smul]
      | rw [smul_smul, mul_inv_cancel₀ h0, one_smul]
  all_goals rv_simp [hu, hv, hs, ht, hp]
  all_goals module

/-- **C10**: in real arithmetic `dot` is the Euclidean inner product: the sum of the products of the
components, bilinear, symmetric, positive definite, and it satisfies the Cauchy-Schwarz inequality. -/
theorem C10_sum$D (u v : Vector$D Ideal) (hu : AllFinite u) (hv : AllFinite v) :
    IsFinite (Api.dot u v) ∧ real (Api.dot u v) = ∑ i, u.toReal i * v.toReal i :=
  ⟨Vector$D.fin_dot hu hv, Vector$D.real_dot hu hv⟩
theorem C10_bilinear$D (u v w : Vector$D Ideal) (s : Ideal) (hu : AllFinite u) (hv : AllFinite v)
    (hw : AllFinite w) (hs : IsFinite s) :
    (Api.dot (u + v) w == Api.dot u w + Api.dot v w) = true ∧
    (Api.dot w (u + v) == Api.dot w u + Api.dot w v) = true ∧
    (Api.dot (u * s) w == Api.dot u w * s) = true ∧ (Api.dot u (w * s) == Api.dot u w * s) = true ∧
    (Api.dot u v == Api.dot v u) = true := by
  refine ⟨?_, ?_, ?_, ?_, ?_⟩
  all_goals
    rw [Ideal.beq_real (by rv_simp [hu, hv, hw, hs]) (by rv_simp [hu, hv, hw, hs])]
    rv_simp [hu, hv, hw, hs]
  · exact add_dotProduct _ _ _
  · exact dotProduct_add _ _ _
  · rw [smul_dotProduct, smul_eq_mul, mul_comm]
  · rw [dotProduct_smul, smul_eq_mul, mul_comm]
  · exact dotProduct_comm _ _
theorem C10_definite$D (u v : Vector$D Ideal) (hu : AllFinite u) (hv : AllFinite v) :
    (zero ≤? Api.dot u u) = true ∧ ((Api.dot u u == zero) = true ↔ (u == Vector$D.zero) = true) ∧
    (Api.dot u v * Api.dot u v ≤? Api.dot u u * Api.dot v v) = true := by
  refine ⟨?_, ?_, ?_⟩
  · rw [Ideal.le_real finite_zero (Vector$D.fin_dot hu hu), real_zero]
    exact Vector$D.real_dot_self_nonneg hu
  · rw [Ideal.beq_real (Vector$D.fin_dot hu hu) finite_zero]
    rv_simp [hu]
    exact dotProduct_self_eq_zero
  · rw [Ideal.le_real (by rv_simp [hu, hv]) (by rv_simp [hu, hv])]
    rv_simp [hu, hv]
    simp only [dotProduct]
    have := Finset.sum_mul_sq_le_sq_mul_sq Finset.univ u.toReal v.toReal
    simpa [sq] using this

/-- **C12** in real arithmetic: `length` is the Euclidean norm; zero only for the zero vector,
homogeneous, and it satisfies the triangle inequality. -/
theorem C12_real_norm$D (u : Vector$D Ideal) (hu : AllFinite u) :
    IsFinite (Api.length u) ∧ real (Api.length u) = √(∑ i, u.toReal i ^ 2) := by
  refine ⟨Vector$D.fin_length hu, ?_⟩
  rw [Vector$D.real_length hu, EuclideanSpace.norm_eq]
  simp [Vector$D.toE]
theorem C12_real$D (u v : Vector$D Ideal) (s : Ideal) (hu : AllFinite u) (hv : AllFinite v)
    (hs : IsFinite s) :
    (zero ≤? Api.length u) = true ∧ ((Api.length u == zero) = true ↔ (u == Vector$D.zero) = true) ∧
    (Api.length (u * s) == Api.length u * Scalar.abs s) = true ∧
    (Api.length (u + v) ≤? Api.length u + Api.length v) = true := by
  have fu := Vector$D.fin_length hu
  have fv := Vector$D.fin_length hv
  have fs := Vector$D.fin_mul hu hs
  have fa := Vector$D.fin_add hu hv
  refine ⟨?_, ?_, ?_, ?_⟩
  · rw [Ideal.le_real finite_zero fu, real_zero, Vector$D.real_length hu]; exact norm_nonneg _
  · rw [Ideal.beq_real fu finite_zero, real_zero, Vector$D.real_length_eq_zero hu]
    rv_simp [hu]
  · rw [Ideal.beq_real (Vector$D.fin_length fs) (Ideal.finite_mul fu (finite_abs.2 hs)),
      Ideal.real_mul fu (finite_abs.2 hs), Vector$D.real_length fs, Vector$D.real_length hu, real_abs]
    unfold Vector$D.toE
    rw [Vector$D.toReal_mul hu hs, WithLp.toLp_smul, norm_smul, Real.norm_eq_abs, mul_comm]
  · rw [Ideal.le_real (Vector$D.fin_length fa) (Ideal.finite_add fu fv), Ideal.real_add fu fv,
      Vector$D.real_length fa, Vector$D.real_length hu, Vector$D.real_length hv]
    have : (u + v).toE = u.toE + v.toE := by
      unfold Vector$D.toE; rw [Vector$D.toReal_add hu hv, WithLp.toLp_add]
    rw [this]; exact norm_add_le _ _

/-- **C13** in real arithmetic: for a finite non-zero vector, `normalize` returns a vector of length 1 that
is a positive multiple of it, and normalizing again changes nothing. -/
theorem C13_real$D (v : Vector$D Ideal) (hv : AllFinite v) (h : (v == Vector$D.zero) = false) :
    AllFinite v.normalize ∧ (Api.length v.normalize == one) = true ∧
    (v.normalize * Api.length v == v) = true ∧ (zero <? Api.length v) = true ∧
    (v.normalize.normalize == v.normalize) = true := by
  have h0 : v.toReal ≠ 0 := by
    rwa [Bool.eq_false_iff, ne_eq, Vector$D.beq_toReal hv Vector$D.fin_zero, Vector$D.toReal_zero] at h
  have fl := Vector$D.fin_length hv
  have fn := Vector$D.fin_normalize hv h0
  have hl : real (Api.length v) ≠ 0 := mt (Vector$D.real_length_eq_zero hv).1 h0
  have hn : ‖v.toE‖ ≠ 0 := by rwa [← Vector$D.real_length hv]
  have h1 : real (Api.length v.normalize) = 1 := by
    rw [Vector$D.real_length fn]
    unfold Vector$D.toE
    rw [Vector$D.toReal_normalize hv h0, WithLp.toLp_smul, norm_smul, norm_inv, norm_norm]
    exact inv_mul_cancel₀ hn
  refine ⟨fn, ?_, ?_, ?_, ?_⟩
  · rw [Ideal.beq_real (Vector$D.fin_length fn) finite_one, real_one]; exact h1
  · rw [Vector$D.beq_toReal (Vector$D.fin_mul fn fl) hv, Vector$D.toReal_mul fn fl,
      Vector$D.toReal_normalize hv h0, Vector$D.real_length hv, smul_smul, mul_inv_cancel₀ hn, one_smul]
  · rw [Ideal.lt_real finite_zero fl, real_zero]
    exact lt_of_le_of_ne (by rw [Vector$D.real_length hv]; exact norm_nonneg _) (Ne.symm hl)
  · have hl1 : real (Api.length v.normalize) ≠ 0 := by rw [h1]; exact one_ne_zero
    have h0' : v.normalize.toReal ≠ 0 := mt (Vector$D.real_length_eq_zero fn).2 hl1
    rw [Vector$D.beq_toReal (Vector$D.fin_normalize fn h0') fn, Vector$D.toReal_normalize fn h0',
      ← Vector$D.real_length fn, h1, inv_one, one_smul]

/-- **C14** in real arithmetic: the square-root-free comparisons are the comparisons of lengths. -/
theorem C14_real$D (u v : Vector$D Ideal) (hu : AllFinite u) (hv : AllFinite v) :
    RelativeLength.isShorterThan u v = (Api.length u <? Api.length v) ∧
    RelativeLength.isLongerThan u v = (Api.length u >? Api.length v) := by
  have key : ∀ a b : Vector$D Ideal, AllFinite a → AllFinite b →
      (Api.dot a a <? Api.dot b b) = (Api.length a <? Api.length b) := by
    intro a b ha hb
    rw [Bool.eq_iff_iff, Ideal.lt_real (Vector$D.fin_dot ha ha) (Vector$D.fin_dot hb hb),
      Ideal.lt_real (Vector$D.fin_length ha) (Vector$D.fin_length hb), Vector$D.length_def, Vector$D.length_def,
      Ideal.real_sqrt (Vector$D.fin_dot ha ha) (Vector$D.real_dot_self_nonneg ha),
      Ideal.real_sqrt (Vector$D.fin_dot hb hb) (Vector$D.real_dot_self_nonneg hb)]
    exact (Real.sqrt_lt_sqrt_iff (Vector$D.real_dot_self_nonneg ha)).symm
  exact ⟨key u v hu hv, key v u hv hu⟩

/-- **C15** in real arithmetic: `distance` is the Euclidean metric, and translation invariant. -/
theorem C15_real$D (p q r : Point$D Ideal) (v : Vector$D Ideal) (hp : AllFinite p) (hq : AllFinite q)
    (hr : AllFinite r) (hv : AllFinite v) :
    real (Api.distance p q) = √(∑ i, (p.toReal i - q.toReal i) ^ 2) ∧
    (zero ≤? Api.distance p q) = true ∧ ((Api.distance p q == zero) = true ↔ (p == q) = true) ∧
    (Api.distance p q == Api.distance q p) = true ∧
    (Api.distance p r ≤? Api.distance p q + Api.distance q r) = true ∧
    (Api.distance (p + v) (q + v) == Api.distance p q) = true := by
  have fpq := Point$D.fin_distance hp hq
  have fqr := Point$D.fin_distance hq hr
  have fpv := Point$D.fin_addv hp hv
  have fqv := Point$D.fin_addv hq hv
  refine ⟨?_, ?_, ?_, ?_, ?_, ?_⟩
  · rw [Point$D.real_distance hp hq, EuclideanSpace.dist_eq]
    simp [Point$D.toE, Real.dist_eq]
  · rw [Ideal.le_real finite_zero fpq, real_zero, Point$D.real_distance hp hq]; exact dist_nonneg
  · rw [Ideal.beq_real fpq finite_zero, real_zero, Point$D.real_distance hp hq, dist_eq_zero,
      Point$D.beq_toReal hp hq]
    unfold Point$D.toE; simp
  · rw [Ideal.beq_real fpq (Point$D.fin_distance hq hp), Point$D.real_distance hp hq,
      Point$D.real_distance hq hp, dist_comm]
  · rw [Ideal.le_real (Point$D.fin_distance hp hr) (Ideal.finite_add fpq fqr), Ideal.real_add fpq fqr,
      Point$D.real_distance hp hq, Point$D.real_distance hq hr, Point$D.real_distance hp hr]
    exact dist_triangle _ _ _
  · rw [Ideal.beq_real (Point$D.fin_distance fpv fqv) fpq, Point$D.real_distance hp hq,
      Point$D.real_distance fpv fqv]
    have : ∀ x : Point$D Ideal, AllFinite x → (x + v).toE = x.toE + v.toE := by
      intro x hx
      unfold Point$D.toE Vector$D.toE; rw [Point$D.toReal_addv hx hv, WithLp.toLp_add]
    rw [this p hp, this q hq, dist_add_right]

/-- **C16** in real arithmetic: the square-root-free comparisons are the comparisons of distances. -/
theorem C16_real$D (p a b : Point$D Ideal) (hp : AllFinite p) (ha : AllFinite a) (hb : AllFinite b) :
    RelativeDistance.isCloserTo p a b = (Api.distance p a <? Api.distance p b) ∧
    RelativeDistance.isFartherFrom p a b = (Api.distance p a >? Api.distance p b) :=
  C14_real$D (a - p) (b - p) (Vector$D.fin_subp ha hp) (Vector$D.fin_subp hb hp)

/-- **C23** in real arithmetic: a ray is an affine parameterisation of a line by multiples of its
direction. -/
theorem C23_real$D (r : Ray$D Ideal) (s t : Ideal) (hr : AllFinite r) (hs : IsFinite s) (ht : IsFinite t) :
    (r.at zero == r.origin) = true ∧ (r.at (s + t) == r.at s + r.direction * t) = true ∧
    (Api.distance r.origin (r.at t) == Scalar.abs t * Api.length r.direction) = true ∧
    ((r.direction == Vector$D.zero) = false → (r.at s == r.at t) = true → (s == t) = true) := by
  rw [Ray$D.allFinite] at hr
  obtain ⟨ho, hd⟩ := hr
  have fat : ∀ {t : Ideal}, IsFinite t → AllFinite (r.at t) := fun ht =>
    Point$D.fin_addv ho (Vector$D.fin_mul hd ht)
  have rat : ∀ {t : Ideal}, IsFinite t → (r.at t).toReal = r.origin.toReal + real t • r.direction.toReal :=
    fun ht => by
      unfold Ray$D.at
      rw [Point$D.toReal_addv ho (Vector$D.fin_mul hd ht), Vector$D.toReal_mul hd ht]
  refine ⟨?_, ?_, ?_, ?_⟩
  · rw [Point$D.beq_toReal (fat finite_zero) ho, rat finite_zero, real_zero, zero_smul, add_zero]
  · have fst := Ideal.finite_add hs ht
    rw [Point$D.beq_toReal (fat fst) (Point$D.fin_addv (fat hs) (Vector$D.fin_mul hd ht)), rat fst,
      Point$D.toReal_addv (fat hs) (Vector$D.fin_mul hd ht), rat hs, Vector$D.toReal_mul hd ht,
      Ideal.real_add hs ht, add_smul, add_assoc]
  · have fa := finite_abs.2 ht
    rw [Ideal.beq_real (Point$D.fin_distance ho (fat ht)) (Ideal.finite_mul fa (Vector$D.fin_length hd)),
      Ideal.real_mul fa (Vector$D.fin_length hd), Point$D.real_distance ho (fat ht), real_abs,
      Vector$D.real_length hd, dist_comm, dist_eq_norm]
    have : (r.at t).toE - r.origin.toE = real t • r.direction.toE := by
      unfold Point$D.toE Vector$D.toE
      rw [rat ht, ← WithLp.toLp_sub, ← WithLp.toLp_smul]; simp
    rw [this, norm_smul, Real.norm_eq_abs]
  · intro h0 h
    rw [Bool.eq_false_iff, ne_eq, Vector$D.beq_toReal hd Vector$D.fin_zero, Vector$D.toReal_zero] at h0
    rw [Point$D.beq_toReal (fat hs) (fat ht), rat hs, rat ht] at h
    rw [Ideal.beq_real hs ht]
    have h' := add_left_cancel h
    by_contra hne
    have : (real s - real t) • r.direction.toReal = 0 := by rw [sub_smul, h', sub_self]
    rcases smul_eq_zero.1 this with h | h
    · exact hne (sub_eq_zero.1 h)
    · exact h0 h

