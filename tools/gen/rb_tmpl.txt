/-! ## $B -/
section
variable {b a : $B Ideal} {p q : $P Ideal} {t : $Tr Ideal}

theorem $B.inside_real (hb : AllFinite b) (hp : AllFinite p) :
    b.isInside p = true ↔ ∀ i, b.min.toReal i ≤ p.toReal i ∧ p.toReal i ≤ b.max.toReal i := by
  rw [$B.allFinite, $P.allFinite, $P.allFinite] at hb
  rw [$P.allFinite] at hp
  rw [isInside${D}_iff]
  simp only [In1, Ideal.le_real, hb, hp, $P.toReal]
  simp [Fin.forall_fin_succ]
theorem $B.wf_real (hb : AllFinite b) : LeAll b.min b.max ↔ ∀ i, b.min.toReal i ≤ b.max.toReal i := by
  rw [$B.allFinite, $P.allFinite, $P.allFinite] at hb
  rw [wf${D}_iff]
  simp only [Ideal.le_real, hb, $P.toReal]
  simp [Fin.forall_fin_succ]
theorem $B.fin_diagonal (hb : AllFinite b) : AllFinite b.diagonal := by
  rw [$B.allFinite] at hb; exact $V.fin_subp hb.2 hb.1
theorem $B.toReal_diagonal (hb : AllFinite b) : b.diagonal.toReal = b.max.toReal - b.min.toReal := by
  rw [$B.allFinite] at hb; exact $V.toReal_subp hb.2 hb.1

/-- The box of given real corners. -/
noncomputable def $P.ofReal (f : Fin $D → ℝ) : $P Ideal := ⟨$OFS⟩
theorem $P.fin_ofReal (f : Fin $D → ℝ) : AllFinite ($P.ofReal f) := by rw [$P.allFinite]; exact ⟨$TRIVS⟩
theorem $P.toReal_ofReal (f : Fin $D → ℝ) : ($P.ofReal f).toReal = f := by
  ext i; fin_cases i <;> rfl

/-! ### C31, C32 -/

/-- **C31**: the extents and measures are the geometric ones. -/
theorem C31_real$D (b : $B Ideal) (hb : AllFinite b) :
    $MEAS := by
  rw [$B.allFinite, $P.allFinite, $P.allFinite] at hb
  simp (maxDischargeDepth := 20) only [$MUNF,
    Ideal.real_sub, Ideal.real_mul, Ideal.real_add, Ideal.finite_sub, Ideal.finite_mul, Ideal.finite_add, finite_two, real_two, hb, $P.toReal]
  simp
/-- **C31**: a box inside another one is smaller in every extent and measure. -/
theorem C31_real_monotone$D (a b : $B Ideal) (ha : AllFinite a) (hb : AllFinite b) (wa : LeAll a.min a.max)
    (h : ∀ p, a.isInside p = true → b.isInside p = true) :
    (∀ d, (a.extent d ≤? b.extent d) = true) ∧ $MLE := by
  have h1 := h _ (wf${D}_min wa)
  have h2 := h _ (wf${D}_max wa)
  rw [$B.wf_real ha] at wa
  have ha' := ha
  have hb' := hb
  rw [$B.allFinite] at ha' hb'
  rw [$B.inside_real hb ha'.1] at h1
  rw [$B.inside_real hb ha'.2] at h2
  have key : ∀ i, 0 ≤ a.max.toReal i - a.min.toReal i ∧
      a.max.toReal i - a.min.toReal i ≤ b.max.toReal i - b.min.toReal i :=
    fun i => ⟨by linarith [wa i], by linarith [(h1 i).1, (h2 i).2]⟩
  obtain ⟨$EAS⟩ := C31_real$D a ha
  obtain ⟨$EBS⟩ := C31_real$D b hb
  have fin : ∀ b : $B Ideal, AllFinite b → (∀ d, IsFinite (b.extent d)) ∧ $FMEAS := by
    intro b hb
    rw [$B.allFinite, $P.allFinite, $P.allFinite] at hb
    refine ⟨fun d => ?_, $FHOLES⟩
    · cases d <;> simp only [$B.extent, $MUNF, Ideal.finite_sub, hb]
    all_goals simp (maxDischargeDepth := 20) only [$MUNF, Ideal.finite_sub, Ideal.finite_mul, Ideal.finite_add, finite_two, hb]
  have fa := fin a ha
  have fb := fin b hb
$K01
  refine ⟨fun d => ?_, $FHOLES⟩
  · rw [Ideal.le_real (fa.1 d) (fb.1 d)]
    cases d
$EXTLE$MEASLE

/-- **C32**: the center is the midpoint of the two corners, inside the box, and at half the diagonal's length from
every corner. -/
theorem C32_real$D (b : $B Ideal) (hb : AllFinite b) (wb : LeAll b.min b.max) :
    AllFinite b.center ∧ (∀ i, b.center.toReal i = (b.min.toReal i + b.max.toReal i) / 2) ∧ b.isInside b.center = true ∧
    ∀ (build : Build) (index : UInt32) (p : $P Ideal), b.corner build index = .ok p →
      (Api.distance b.center p == Api.length b.diagonal * half) = true := by
  have hb' := hb
  rw [$B.allFinite] at hb'
  have fd := $B.fin_diagonal hb
  have fh := $V.fin_mul fd finite_half
  have fc : AllFinite b.center := $P.fin_addv hb'.1 fh
  have hc : ∀ i, b.center.toReal i = (b.min.toReal i + b.max.toReal i) / 2 := by
    intro i
    show (b.min + b.diagonal * (half : Ideal)).toReal i = _
    rw [$P.toReal_addv hb'.1 fh, $V.toReal_mul fd finite_half, $B.toReal_diagonal hb, real_half]
    simp; ring
  refine ⟨fc, hc, ?_, ?_⟩
  · rw [$B.inside_real hb fc]
    rw [$B.wf_real hb] at wb
    intro i; rw [hc]; constructor <;> linarith [wb i]
  · intro build index p hp
    obtain ⟨h1, h2, h3⟩ := C33_corner$D b index
    have hrel : b.corner .release index = .ok p := by
      cases build
      · by_cases hi : index < $NC
        · rw [← h2 hi]; exact hp
        · rw [h3 hi] at hp; cases hp
      · exact hp
    have hpe := Except.ok.inj (hrel.symm.trans h1)
    have hb'' := hb'
    rw [$P.allFinite, $P.allFinite] at hb''
    have hp' : ∀ i, p.toReal i = b.min.toReal i ∨ p.toReal i = b.max.toReal i := by
      intro i
      rw [hpe]
      fin_cases i <;> simp only [$P.toReal] <;> simp <;> split_ifs <;> simp
    have fp : AllFinite p := by
      rw [hpe, $P.allFinite]
      refine ⟨$CHOLES⟩ <;> (dsimp only; split_ifs <;> simp only [hb''])
    have fs := $V.fin_subp fp fc
    have fl := $V.fin_length fd
    rw [Ideal.beq_real ($P.fin_distance fc fp) (Ideal.finite_mul fl finite_half), $P.distance_def, $V.real_length' fs,
      Ideal.real_mul fl finite_half, $V.real_length' fd, real_half]
    have e : ((p - b.center).toReal ⬝ᵥ (p - b.center).toReal) = (1 / 2) ^ 2 * (b.diagonal.toReal ⬝ᵥ b.diagonal.toReal) := by
      rw [$V.toReal_subp fp fc, $B.toReal_diagonal hb]
      unfold dotProduct
      rw [Finset.mul_sum]
      refine Finset.sum_congr rfl fun i _ => ?_
      simp only [Pi.sub_apply, hc]
      rcases hp' i with h | h <;> rw [h] <;> ring
    rw [e, Real.sqrt_mul (by positivity), Real.sqrt_sq (by norm_num), mul_comm]

/-! ### C35, C37: ray against box -/

theorem $B.ray_inside (hb : AllFinite b) {ray : Ray$D Ideal} (hr : AllFinite ray) {s : Ideal} (hs : IsFinite s) :
    b.isInside (ray.at s) = true ↔ $RINS := by
  rw [Ray$D.allFinite] at hr
  have fp : AllFinite (ray.at s) := $P.fin_addv hr.1 ($V.fin_mul hr.2 hs)
  rw [$B.inside_real hb fp]
  have e : ∀ i, (ray.at s).toReal i = ray.origin.toReal i + ray.direction.toReal i * real s := by
    intro i
    show (ray.origin + ray.direction * s).toReal i = _
    rw [$P.toReal_addv hr.1 ($V.fin_mul hr.2 hs), $V.toReal_mul hr.2 hs]
    simp [mul_comm]
  simp only [e]
  simp [Fin.forall_fin_succ, $P.toReal, $V.toReal]

/-- In no dimension does the ray run inside exactly one of the two planes bounding the box. -/
def FaceFree$D (b : $B Ideal) (ray : Ray$D Ideal) : Prop :=
  ∀ i : Fin $D, ray.direction.toReal i = 0 → (ray.origin.toReal i = b.min.toReal i ↔ ray.origin.toReal i = b.max.toReal i)

theorem faceFree${D}_iff {b : $B Ideal} {ray : Ray$D Ideal} :
    FaceFree$D b ray ↔ $GOODS := by
  unfold FaceFree$D Slab.Good
  simp only [Fin.forall_fin_succ, $P.toReal, $V.toReal]
  simp only [Matrix.cons_val_zero, Matrix.cons_val_succ, IsEmpty.forall_iff, and_true]
  have key : ∀ d o lo hi : ℝ, (d = 0 → (o = lo ↔ o = hi)) ↔ (d ≠ 0 ∨ (o ≠ lo ∧ o ≠ hi) ∨ lo = hi) := by
    intro d o lo hi
    grind
  exact ⟨fun h => ⟨$KMP⟩, fun h => ⟨$KMPR⟩⟩

theorem $B.ray_spec (hb : AllFinite b) (wb : LeAll b.min b.max) {ray : Ray$D Ideal} (hr : AllFinite ray)
    (hd : ray.direction.toReal ≠ 0) :
    (FaceFree$D b ray → ∃ s e : Ideal, ¬ IsNaN s ∧ ¬ IsNaN e ∧ 0 ≤ val s ∧ val e < ⊤ ∧
      (Api.intersect b ray = if s ≤? e then some ⟨s, e⟩ else (none : Option (Range Ideal))) ∧
      ∀ t : ℝ, (val s ≤ t ∧ (t : EReal) ≤ val e) ↔ 0 ≤ t ∧ $RINST) ∧
    (¬ FaceFree$D b ray → Api.intersect b ray = (none : Option (Range Ideal))) := by
  rw [$B.allFinite, $P.allFinite, $P.allFinite] at hb
  rw [wf${D}_iff] at wb
  rw [Ray$D.allFinite, $P.allFinite, $V.allFinite] at hr
  have z0 : ¬ IsNaN (zero : Ideal) := not_nan_zero
  have i0 : ¬ IsNaN (infinity : Ideal) := Slab.not_nan_of_inf den_infinity
  have vz : val (zero : Ideal) = 0 := by rw [finite_zero.val, real_zero]; rfl
  have vi : val (infinity : Ideal) = ⊤ := Slab.val_of_inf den_infinity
  have hd0 : $DNZ := by
    by_contra hc
    simp only [not_or, not_not] at hc
    apply hd
    ext i; fin_cases i <;> simp [$V.toReal, hc]
$WBS  rw [faceFree${D}_iff]
  change (_ → ∃ s e : Ideal, _ ∧ _ ∧ _ ∧ _ ∧ b.intersectRay ray = _ ∧ _) ∧ (_ → b.intersectRay ray = _)
$SETS
  have hI : b.intersectRay ray = $ITE := rfl
  rw [hI]
  constructor
  · intro hg
$STEPS    refine ⟨s$D, e$D, $LASTN.1.1, $LASTN.1.2.1, ?_, ?_, ?_, ?_⟩
    · rw [← vz]; exact $ZCHAIN
    · $TOPCASES
    · $COLLAPSE
    · intro u
      rw [$RWS, vz, vi, EReal.coe_nonneg]
      simp only [le_top, and_true]
      tauto
  · intro hg
$FSTEPS    have inf : val s$D = ⊤ ∨ val e$D = ⊥ := by
$INFS    have htop : val e$D < ⊤ := by
$TOPF    have h0 : 0 ≤ val s$D := by rw [← vz]; exact $ZCHAINF
    have : ¬ (s$D ≤? e$D) = true := by
      rw [le_of_not_nan $LASTF.1 $LASTF.2.1, not_le]
      rcases inf with h | h
      · rw [h]; exact htop
      · rw [h]; exact lt_of_lt_of_le EReal.bot_lt_zero h0
    split_ifs <;> rfl

/-- **C35**: for a finite well-formed box and a finite ray with nonzero direction that does not run inside a face
plane, `intersect` returns exactly the interval of parameters `t >= 0` at which the ray is inside the box (a finite
interval), and `None` exactly if there is none. -/
theorem C35_real$D (b : $B Ideal) (hb : AllFinite b) (wb : LeAll b.min b.max) (ray : Ray$D Ideal) (hr : AllFinite ray)
    (hd : ray.direction.toReal ≠ 0) (hf : FaceFree$D b ray) :
    (∀ r : Range Ideal, Api.intersect b ray = some r → IsFinite r.start ∧ IsFinite r.stop ∧
      ∀ t : Ideal, IsFinite t →
        ((zero ≤? t) = true ∧ b.isInside (ray.at t) = true ↔ (r.start ≤? t) = true ∧ (t ≤? r.stop) = true)) ∧
    (Api.intersect b ray = (none : Option (Range Ideal)) ↔
      ∀ t : Ideal, IsFinite t → (zero ≤? t) = true → b.isInside (ray.at t) = false) := by
  obtain ⟨s, e, ns, ne, hs0, het, hI, ht⟩ := ($B.ray_spec hb wb hr hd).1 hf
  have fin : val s ≤ val e → IsFinite s ∧ IsFinite e := by
    intro h
    exact ⟨finite_iff.2 ⟨ns, (lt_of_le_of_lt h het).ne, (lt_of_lt_of_le EReal.bot_lt_zero hs0).ne'⟩,
      finite_iff.2 ⟨ne, het.ne, (lt_of_lt_of_le EReal.bot_lt_zero (hs0.trans h)).ne'⟩⟩
  have ht' : ∀ t : Ideal, IsFinite t → ((zero ≤? t) = true ∧ b.isInside (ray.at t) = true ↔
      (val s ≤ (real t : EReal) ∧ (real t : EReal) ≤ val e)) := by
    intro t h
    rw [ht, $B.ray_inside hb hr h, Ideal.le_real finite_zero h, real_zero]
  rw [hI]
  constructor
  · intro r hr
    split_ifs at hr with hse
    obtain rfl := Option.some.inj hr
    obtain ⟨fs, fe⟩ := fin ((le_of_not_nan ns ne).1 hse)
    refine ⟨fs, fe, fun t h => ?_⟩
    rw [ht' t h, le_of_not_nan ns h.not_nan, le_of_not_nan h.not_nan ne, h.val]
  · constructor
    · intro h t hft h0
      split_ifs at h with hse
      rw [Bool.eq_false_iff]
      intro hi
      have := (ht' t hft).1 ⟨h0, hi⟩
      exact hse ((le_of_not_nan ns ne).2 (this.1.trans this.2))
    · intro h
      split_ifs with hse
      · have hle := (le_of_not_nan ns ne).1 hse
        obtain ⟨fs, fe⟩ := fin hle
        have := (ht' s fs).2 ⟨by rw [fs.val], by rw [← fs.val]; exact hle⟩
        have h2 := h s fs this.1
        rw [this.2] at h2; cases h2
      · rfl

/-- **C37** is false of the code: whenever the ray runs inside a face plane of the box (in some dimension its
direction is zero and its origin is on exactly one of the two planes), `intersect` returns `None`, whether or not the
ray passes through that face. -/
theorem C37_real$D (b : $B Ideal) (hb : AllFinite b) (wb : LeAll b.min b.max) (ray : Ray$D Ideal) (hr : AllFinite ray)
    (hd : ray.direction.toReal ≠ 0) (hf : ¬ FaceFree$D b ray) :
    Api.intersect b ray = (none : Option (Range Ideal)) :=
  ($B.ray_spec hb wb hr hd).2 hf

/-! ### C56: transforming a box -/

/-- **C56**: for an affine transform, the code computes the box spanned by the images of the two extreme corners. -/
theorem C56_real_span$D (t : $Tr Ideal) (ht : AllFinite t.forward) (ha : t.forward.Affine) (b : $B Ideal) (hb : AllFinite b) :
    AllFinite (Transform.transform t b : $B Ideal) ∧
    (∀ i, (Transform.transform t b : $B Ideal).min.toReal i =
      min ((Transform.transform t b.min : $P Ideal).toReal i) ((Transform.transform t b.max : $P Ideal).toReal i)) ∧
    (∀ i, (Transform.transform t b : $B Ideal).max.toReal i =
      max ((Transform.transform t b.min : $P Ideal).toReal i) ((Transform.transform t b.max : $P Ideal).toReal i)) := by
  have hb' := hb
  rw [$B.allFinite] at hb'
  have fd := $B.fin_diagonal hb
  have fo := ha.fin_mulp ht hb'.1
  have fv := $M.fin_mulv ht fd
  have e : ∀ i, (t.forward * b.max).toReal i = (t.forward * b.min).toReal i + (t.forward * b.diagonal).toReal i := by
    intro i
    rw [ha.toReal_mulp ht hb'.1, ha.toReal_mulp ht hb'.2, $M.toReal_mulv' ht fd, $B.toReal_diagonal hb, Matrix.mulVec_sub]
    simp only [Pi.add_apply, Pi.sub_apply]; ring
  simp only [$Tr.tr_point]
  simp only [e]
  have hT : (Transform.transform t b : $B Ideal) =
      (fun (mm : $P Ideal × $P Ideal) => $B.new mm.1 mm.2)
        ($CIDX.foldl ($Tr.boxStep (t.forward * b.min) (t.forward * b.diagonal)) (t.forward * b.min, t.forward * b.min)) := rfl
  rw [hT]
  generalize (t.forward * b.min : $P Ideal) = o at *
  generalize (t.forward * b.diagonal : $V Ideal) = d at *
  rw [$P.allFinite] at fo
  rw [$V.allFinite] at fv
$CORN
theorem C56_monotone$D {t : $Tr Ideal} (ht : AllFinite t.forward) (ha : t.forward.Affine) {b : $B Ideal} (hb : AllFinite b)
    (wb : LeAll b.min b.max) {p : $P Ideal} (hp : AllFinite p) :
    (Transform.transform t b : $B Ideal).isInside (Transform.transform t p : $P Ideal) = true ↔
      ∀ i, min ((t.forward * b.min).toReal i) ((t.forward * b.max).toReal i) ≤ (t.forward * p).toReal i ∧
        (t.forward * p).toReal i ≤ max ((t.forward * b.min).toReal i) ((t.forward * b.max).toReal i) := by
  obtain ⟨f, h1, h2⟩ := C56_real_span$D t ht ha b hb
  rw [$Tr.tr_point t p, $B.inside_real f (ha.fin_mulp ht hp)]
  simp only [h1, h2]; rfl

/-- **C56**, the exact truth: the transformed box contains the images of all points of every box if and only if no row
of the linear part of the transform has entries of opposite signs. -/
theorem C56_real_iff$D (t : $Tr Ideal) (ht : AllFinite t.forward) (ha : t.forward.Affine) :
    (∀ (b : $B Ideal) (p : $P Ideal), AllFinite b → LeAll b.min b.max → AllFinite p → b.isInside p = true →
      (Transform.transform t b : $B Ideal).isInside (Transform.transform t p : $P Ideal) = true) ↔
    ∀ i, (∀ j, 0 ≤ t.forward.linear i j) ∨ (∀ j, t.forward.linear i j ≤ 0) := by
  constructor
  · intro h i
    by_contra hc
    push Not at hc
    obtain ⟨⟨j, hj⟩, ⟨k, hk⟩⟩ := hc
    have hjk : j ≠ k := by rintro rfl; linarith
    have fb : AllFinite (⟨$P.ofReal 0, $P.ofReal (Pi.single j 1 + Pi.single k 1)⟩ : $B Ideal) :=
      $B.allFinite.2 ⟨$P.fin_ofReal _, $P.fin_ofReal _⟩
    have fp := $P.fin_ofReal (Pi.single k 1)
    have s0 : ∀ j i : Fin $D, (0 : ℝ) ≤ (Pi.single j 1 : Fin $D → ℝ) i := by
      intro j i; by_cases hij : i = j
      · subst hij; simp
      · simp [hij]
    have wb : LeAll ($P.ofReal 0) ($P.ofReal (Pi.single j 1 + Pi.single k 1)) := by
      refine ($B.wf_real fb).2 fun l => ?_
      simp only [$P.toReal_ofReal, Pi.zero_apply, Pi.add_apply]
      linarith [s0 j l, s0 k l]
    have := h _ _ fb wb fp (($B.inside_real fb fp).2 fun l => by
      simp only [$P.toReal_ofReal, Pi.zero_apply, Pi.add_apply]
      exact ⟨s0 k l, by linarith [s0 j l]⟩)
    rw [C56_monotone$D ht ha fb wb fp] at this
    have := (this i).2
    rw [ha.toReal_mulp ht fp, ha.toReal_mulp ht ($P.fin_ofReal _), ha.toReal_mulp ht ($P.fin_ofReal _)] at this
    simp only [$P.toReal_ofReal, Matrix.mulVec_add, Matrix.mulVec_zero, Matrix.mulVec_single_one, Pi.add_apply, Pi.zero_apply, zero_add] at this
    simp only [Matrix.col_apply] at this
    rcases le_max_iff.1 this with h | h <;> linarith
  · intro h b p hb wb hp hi
    rw [C56_monotone$D ht ha hb wb hp]
    have hb' := hb
    rw [$B.allFinite] at hb'
    rw [$B.inside_real hb hp] at hi
    intro i
    have d1 : (t.forward * p).toReal i - (t.forward * b.min).toReal i =
        ∑ j, t.forward.linear i j * (p.toReal j - b.min.toReal j) := by
      rw [ha.toReal_mulp ht hp, ha.toReal_mulp ht hb'.1]
      simp only [Pi.add_apply, Matrix.mulVec, dotProduct, mul_sub, Finset.sum_sub_distrib]; ring
    have d2 : (t.forward * b.max).toReal i - (t.forward * p).toReal i =
        ∑ j, t.forward.linear i j * (b.max.toReal j - p.toReal j) := by
      rw [ha.toReal_mulp ht hp, ha.toReal_mulp ht hb'.2]
      simp only [Pi.add_apply, Matrix.mulVec, dotProduct, mul_sub, Finset.sum_sub_distrib]; ring
    rcases h i with h | h
    · have p1 : 0 ≤ ∑ j, t.forward.linear i j * (p.toReal j - b.min.toReal j) :=
        Finset.sum_nonneg fun j _ => mul_nonneg (h j) (by linarith [(hi j).1])
      have p2 : 0 ≤ ∑ j, t.forward.linear i j * (b.max.toReal j - p.toReal j) :=
        Finset.sum_nonneg fun j _ => mul_nonneg (h j) (by linarith [(hi j).2])
      exact ⟨min_le_iff.2 (.inl (by linarith)), le_max_iff.2 (.inr (by linarith))⟩
    · have p1 : ∑ j, t.forward.linear i j * (p.toReal j - b.min.toReal j) ≤ 0 :=
        Finset.sum_nonpos fun j _ => mul_nonpos_of_nonpos_of_nonneg (h j) (by linarith [(hi j).1])
      have p2 : ∑ j, t.forward.linear i j * (b.max.toReal j - p.toReal j) ≤ 0 :=
        Finset.sum_nonpos fun j _ => mul_nonpos_of_nonpos_of_nonneg (h j) (by linarith [(hi j).2])
      exact ⟨min_le_iff.2 (.inr (by linarith)), le_max_iff.2 (.inl (by linarith))⟩

/-- **C56**: translations and scalings (of any sign) bound correctly. -/
theorem C56_real_translate_scale$D (v : $V Ideal) (hv : AllFinite v) ($SXS : Ideal) (hs : $SFIN) (b : $B Ideal) (p : $P Ideal)
    (hb : AllFinite b) (wb : LeAll b.min b.max) (hp : AllFinite p) (hi : b.isInside p = true) :
    (Transform.transform ($Tr.translate v) b : $B Ideal).isInside (Transform.transform ($Tr.translate v) p : $P Ideal) = true ∧
    (Transform.transform ($Tr.scale $SXS) b : $B Ideal).isInside (Transform.transform ($Tr.scale $SXS) p : $P Ideal) = true := by
  constructor
  · refine (C56_real_iff$D ($Tr.translate v) ($M.fin_translate hv) ($M.translate_affine v)).2 ?_ b p hb wb hp hi
    intro i; left; intro j
    show 0 ≤ ($M.translate v).linear i j
    rw [$M.linear_translate, Matrix.one_apply]; split_ifs <;> norm_num
  · refine (C56_real_iff$D ($Tr.scale $SXS) ($M.fin_scale hs) ($M.scale_affine $SXS)).2 ?_ b p hb wb hp hi
    intro i
    show (∀ j, 0 ≤ ($M.scale $SXS).linear i j) ∨ (∀ j, ($M.scale $SXS).linear i j ≤ 0)
    rw [$M.linear_scale]
    rcases le_total 0 (![$SREAL] i) with h | h
    · left; intro j; rw [Matrix.diagonal_apply]; split_ifs; exacts [h, le_rfl]
    · right; intro j; rw [Matrix.diagonal_apply]; split_ifs; exacts [h, le_rfl]
end

