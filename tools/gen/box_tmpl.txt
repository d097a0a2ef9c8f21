/-! ## %nD boxes -/

section dim%n
variable {a b c : BoundingBox%n S} {p q r : Point%n S}

omit [IEEE S] in
theorem isInside%n_iff : b.isInside p = true ↔ ⟪∧In1 b.min.%d b.max.%d p.%d⟫ := by
  simp only [BoundingBox%n.isInside, In1, Bool.and_eq_true]; tauto
theorem wf%n_iff : LeAll b.min b.max ↔ ⟪∧(b.min.%d ≤? b.max.%d) = true⟫ := Point%n.leAll
theorem wf%n_min (h : LeAll b.min b.max) : b.isInside b.min = true := by
  rw [wf%n_iff] at h
  exact isInside%n_iff.2 ⟪⟨le_self (le_nn h%s).1, h%s⟩⟫
theorem wf%n_max (h : LeAll b.min b.max) : b.isInside b.max = true := by
  rw [wf%n_iff] at h
  exact isInside%n_iff.2 ⟪⟨h%s, le_self (le_nn h%s).2⟩⟫

/-! ### C24: new -/

theorem C24_new%n (p q : Point%n S) (hp : NoNaN p) (hq : NoNaN q) :
    LeAll (BoundingBox%n.new p q).min (BoundingBox%n.new p q).max ∧
    (BoundingBox%n.new p q).isInside p = true ∧ (BoundingBox%n.new p q).isInside q = true ∧
    (∀ b : BoundingBox%n S, b.isInside p = true → b.isInside q = true →
      ∀ r, (BoundingBox%n.new p q).isInside r = true → b.isInside r = true) ∧
    (BoundingBox%n.new p q == BoundingBox%n.new q p) = true := by
  rw [Point%n.noNaN] at hp hq
  refine ⟨wf%n_iff.2 ⟪new_lo_hi hp%s hq%s⟫,
    isInside%n_iff.2 ⟪⟨min_le_left' hp%s hq%s, le_max_left' hp%s hq%s⟩⟫,
    isInside%n_iff.2 ⟪⟨min_le_right' hp%s hq%s, le_max_right' hp%s hq%s⟩⟫,
    fun b h1 h2 r h3 => ?_,
    BoundingBox%n.beq_iff.2 ⟨Point%n.beq_iff.2 ⟪min_comm' hp%s hq%s⟫,
      Point%n.beq_iff.2 ⟪max_comm' hp%s hq%s⟫⟩⟩
  rw [isInside%n_iff] at *
  exact ⟪⟨le_trans' (le_min' h1%s.1 h2%s.1) h3%s.1, le_trans' h3%s.2 (max_le' h1%s.2 h2%s.2)⟩⟫

/-- A NaN coordinate of one point is replaced by the other's. -/
theorem C24_new_nan%n (p q : Point%n S) :
    ⟪∧(IsNaN p.%d → Same (BoundingBox%n.new p q).min.%d q.%d ∧ Same (BoundingBox%n.new p q).max.%d q.%d) ∧
     (IsNaN q.%d → Same (BoundingBox%n.new p q).min.%d p.%d ∧ Same (BoundingBox%n.new p q).max.%d p.%d)⟫ :=
  ⟪⟨fun h => ⟨min_nan_left h, max_nan_left h⟩, fun h => ⟨min_nan_right h, max_nan_right h⟩⟩⟫

example : NoNaN (Point%n.new ⟪_(Ideal.of 0)⟫) ∧ NoNaN (Point%n.new ⟪_(infinity : Ideal)⟫) := by
  simp [Point%n.noNaN]

/-! ### C25: membership -/

theorem C25_inside%n (b : BoundingBox%n S) (p : Point%n S) :
    (b.isInside p = true ↔ LeAll b.min p ∧ LeAll p b.max) ∧
    (BoundingBox%n.empty : BoundingBox%n S).isInside p = false ∧
    (NoNaN p → (BoundingBox%n.infinite : BoundingBox%n S).isInside p = true) ∧
    (¬ NoNaN p → b.isInside p = false) := by
  refine ⟨?_, ?_, fun h => ?_, fun h => ?_⟩
  · rw [isInside%n_iff, Point%n.leAll, Point%n.leAll]; unfold In1; tauto
  · rw [Bool.eq_false_iff]; intro h
    rw [isInside%n_iff] at h
    exact not_inf_le_negInf (le_trans' h.1.1 h.1.2)
  · rw [Point%n.noNaN] at h
    exact isInside%n_iff.2 ⟪⟨negInf_le h%s, le_inf h%s⟩⟫
  · rw [Bool.eq_false_iff]; intro h'
    rw [isInside%n_iff] at h'
    exact h (Point%n.noNaN.2 ⟪(le_nn h'%s.1).2⟫)

/-! ### C26: union of boxes -/

theorem union%n_wf (ha : LeAll a.min a.max) (hb : LeAll b.min b.max) :
    LeAll (Api.union a b).min (Api.union a b).max := by
  rw [wf%n_iff] at *
  exact ⟪un_wf ha%s hb%s⟫
theorem union%n_le (ha : LeAll a.min a.max) (hb : LeAll b.min b.max)
    (h1 : LeAll c.min a.min) (h2 : LeAll c.min b.min) (h3 : LeAll a.max c.max) (h4 : LeAll b.max c.max) :
    LeAll c.min (Api.union a b).min ∧ LeAll (Api.union a b).max c.max := by
  simp only [Point%n.leAll] at *
  exact ⟨⟪un_lo_g ha%s hb%s h1%s h2%s⟫, ⟪un_hi_g ha%s hb%s h3%s h4%s⟫⟩
theorem union%n_ge (ha : LeAll a.min a.max) (hb : LeAll b.min b.max) :
    (LeAll (Api.union a b).min a.min ∧ LeAll a.max (Api.union a b).max) ∧
    (LeAll (Api.union a b).min b.min ∧ LeAll b.max (Api.union a b).max) := by
  simp only [Point%n.leAll] at *
  exact ⟨⟨⟪un_lo_l ha%s hb%s⟫, ⟪un_hi_l ha%s hb%s⟫⟩,
    ⟪un_lo_r ha%s hb%s⟫, ⟪un_hi_r ha%s hb%s⟫⟩
theorem inside%n_mono (h1 : LeAll c.min a.min) (h2 : LeAll a.max c.max) (h : a.isInside p = true) :
    c.isInside p = true := by
  rw [Point%n.leAll] at h1 h2
  rw [isInside%n_iff] at *
  exact ⟪⟨le_trans' h1%s h%s.1, le_trans' h%s.2 h2%s⟩⟫
/-- For a well-formed box, containing all its points is containing its corners. -/
theorem subset%n_iff (ha : LeAll a.min a.max) :
    (∀ p, a.isInside p = true → c.isInside p = true) ↔ LeAll c.min a.min ∧ LeAll a.max c.max := by
  constructor
  · intro h
    have h1 := h _ (wf%n_min ha)
    have h2 := h _ (wf%n_max ha)
    rw [isInside%n_iff] at h1 h2
    exact ⟨Point%n.leAll.2 ⟪h1%s.1⟫, Point%n.leAll.2 ⟪h2%s.2⟫⟩
  · rintro ⟨h1, h2⟩ p hp; exact inside%n_mono h1 h2 hp
/-- Two well-formed boxes with the same points are equal. -/
theorem ext%n_inside (ha : LeAll a.min a.max) (hb : LeAll b.min b.max)
    (h : ∀ p, a.isInside p = true ↔ b.isInside p = true) : (a == b) = true := by
  obtain ⟨h1, h2⟩ := (subset%n_iff ha).1 fun p => (h p).1
  obtain ⟨h3, h4⟩ := (subset%n_iff hb).1 fun p => (h p).2
  rw [Point%n.leAll] at *
  exact BoundingBox%n.beq_iff.2 ⟨Point%n.beq_iff.2 ⟪le_antisymm' h3%s h1%s⟫,
    Point%n.beq_iff.2 ⟪le_antisymm' h2%s h4%s⟫⟩

theorem C26_union%n (a b : BoundingBox%n S) (ha : LeAll a.min a.max) (hb : LeAll b.min b.max) :
    LeAll (Api.union a b).min (Api.union a b).max ∧
    (∀ p, (a.isInside p = true ∨ b.isInside p = true) → (Api.union a b).isInside p = true) ∧
    (∀ c : BoundingBox%n S, (∀ p, a.isInside p = true → c.isInside p = true) →
      (∀ p, b.isInside p = true → c.isInside p = true) →
      ∀ p, (Api.union a b).isInside p = true → c.isInside p = true) := by
  refine ⟨union%n_wf ha hb, ?_, ?_⟩
  · obtain ⟨⟨h1, h2⟩, h3, h4⟩ := union%n_ge ha hb
    rintro p (h | h)
    · exact inside%n_mono h1 h2 h
    · exact inside%n_mono h3 h4 h
  · intro c h1 h2
    obtain ⟨h3, h4⟩ := (subset%n_iff ha).1 h1
    obtain ⟨h5, h6⟩ := (subset%n_iff hb).1 h2
    obtain ⟨h7, h8⟩ := union%n_le ha hb h3 h5 h4 h6
    exact fun p hp => inside%n_mono h7 h8 hp
theorem C26_laws%n (a b c : BoundingBox%n S) (ha : LeAll a.min a.max) (hb : LeAll b.min b.max)
    (hc : LeAll c.min c.max) :
    (Api.union a b == Api.union b a) = true ∧
    (Api.union (Api.union a b) c == Api.union a (Api.union b c)) = true ∧
    (Api.union a a == a) = true := by
  have wab := union%n_wf ha hb
  have wbc := union%n_wf hb hc
  have i := fun (x y : BoundingBox%n S) (hx : LeAll x.min x.max) (hy : LeAll y.min y.max) =>
    C26_union%n x y hx hy
  refine ⟨ext%n_inside wab (union%n_wf hb ha) fun p => ⟨?_, ?_⟩,
    ext%n_inside (union%n_wf wab hc) (union%n_wf ha wbc) fun p => ⟨?_, ?_⟩,
    ext%n_inside (union%n_wf ha ha) ha fun p => ⟨?_, ?_⟩⟩
  · exact (i a b ha hb).2.2 _ (fun p h => (i b a hb ha).2.1 p (.inr h))
      (fun p h => (i b a hb ha).2.1 p (.inl h)) p
  · exact (i b a hb ha).2.2 _ (fun p h => (i a b ha hb).2.1 p (.inr h))
      (fun p h => (i a b ha hb).2.1 p (.inl h)) p
  · refine (i _ c wab hc).2.2 _ ?_ (fun p h => (i a _ ha wbc).2.1 p (.inr ((i b c hb hc).2.1 p (.inr h)))) p
    exact (i a b ha hb).2.2 _ (fun p h => (i a _ ha wbc).2.1 p (.inl h))
      (fun p h => (i a _ ha wbc).2.1 p (.inr ((i b c hb hc).2.1 p (.inl h))))
  · refine (i a _ ha wbc).2.2 _ (fun p h => (i _ c wab hc).2.1 p (.inl ((i a b ha hb).2.1 p (.inl h)))) ?_ p
    exact (i b c hb hc).2.2 _ (fun p h => (i _ c wab hc).2.1 p (.inl ((i a b ha hb).2.1 p (.inr h))))
      (fun p h => (i _ c wab hc).2.1 p (.inr h))
  · exact (i a a ha ha).2.2 _ (fun _ h => h) (fun _ h => h) p
  · exact fun h => (i a a ha ha).2.1 p (.inl h)

/-- Well-formed boxes exist: everything `new` makes from NaN-free points. -/
example (p q : Point%n S) (hp : NoNaN p) (hq : NoNaN q) :
    LeAll (BoundingBox%n.new p q).min (BoundingBox%n.new p q).max := (C24_new%n p q hp hq).1

/-! ### C27: growing a box by points -/

theorem union_pt%n_eq (b : BoundingBox%n S) (p : Point%n S) :
    Api.union b p = Api.union b (⟨p, p⟩ : BoundingBox%n S) := rfl
theorem wf_pt%n (hp : NoNaN p) : LeAll (⟨p, p⟩ : BoundingBox%n S).min (⟨p, p⟩ : BoundingBox%n S).max := by
  rw [Point%n.noNaN] at hp
  exact Point%n.leAll.2 ⟪le_self hp%s⟫
theorem in_pt%n (hp : NoNaN p) : (⟨p, p⟩ : BoundingBox%n S).isInside p = true := wf%n_min (wf_pt%n hp)

/-- One step: for a well-formed box, the union with a point contains both and is contained in every box
that contains both. -/
theorem C27_step%n (b : BoundingBox%n S) (p : Point%n S) (hb : LeAll b.min b.max) (hp : NoNaN p) :
    LeAll (Api.union b p).min (Api.union b p).max ∧
    (Api.union b p).isInside p = true ∧
    (∀ r, b.isInside r = true → (Api.union b p).isInside r = true) ∧
    (∀ c : BoundingBox%n S, (∀ r, b.isInside r = true → c.isInside r = true) → c.isInside p = true →
      ∀ r, (Api.union b p).isInside r = true → c.isInside r = true) := by
  rw [union_pt%n_eq]
  obtain ⟨h1, h2, h3⟩ := C26_union%n b ⟨p, p⟩ hb (wf_pt%n hp)
  refine ⟨h1, h2 p (.inr (in_pt%n hp)), fun r h => h2 r (.inl h), fun c hc hcp => h3 c hc ?_⟩
  refine (subset%n_iff (wf_pt%n hp)).2 ?_
  rw [isInside%n_iff] at hcp
  exact ⟨Point%n.leAll.2 ⟪hcp%s.1⟫, Point%n.leAll.2 ⟪hcp%s.2⟫⟩

theorem union_emp%n (hp : NoNaN p) :
    (Api.union (BoundingBox%n.empty : BoundingBox%n S) p == (⟨p, p⟩ : BoundingBox%n S)) = true := by
  rw [Point%n.noNaN] at hp
  exact BoundingBox%n.beq_iff.2 ⟨Point%n.beq_iff.2 ⟪(emp_pt hp%s).1⟫,
    Point%n.beq_iff.2 ⟪(emp_pt hp%s).2⟫⟩
theorem beq_inside%n (h : (a == b) = true) (p : Point%n S) : a.isInside p = true ↔ b.isInside p = true := by
  simp only [BoundingBox%n.beq_iff, Point%n.beq_iff] at h
  obtain ⟨h1, h2⟩ := h
  rw [isInside%n_iff, isInside%n_iff]
  constructor
  · intro h
    exact ⟪⟨le_trans' (beq_le (beq_symm h1%s)) h%s.1, le_trans' h%s.2 (beq_le h2%s)⟩⟫
  · intro h
    exact ⟪⟨le_trans' (beq_le h1%s) h%s.1, le_trans' h%s.2 (beq_le (beq_symm h2%s))⟩⟫

theorem fold_pts%n (b : BoundingBox%n S) (ps : List (Point%n S)) (hb : LeAll b.min b.max)
    (hps : ∀ p ∈ ps, NoNaN p) :
    LeAll (ps.foldl (fun b p => Api.union b p) b).min (ps.foldl (fun b p => Api.union b p) b).max ∧
    (∀ p ∈ ps, (ps.foldl (fun b p => Api.union b p) b).isInside p = true) ∧
    (∀ r, b.isInside r = true → (ps.foldl (fun b p => Api.union b p) b).isInside r = true) ∧
    (∀ c : BoundingBox%n S, (∀ r, b.isInside r = true → c.isInside r = true) →
      (∀ p ∈ ps, c.isInside p = true) →
      ∀ r, (ps.foldl (fun b p => Api.union b p) b).isInside r = true → c.isInside r = true) := by
  induction ps generalizing b with
  | nil => exact ⟨hb, by simp, fun r h => h, fun c h _ => h⟩
  | cons p ps ih =>
    obtain ⟨s1, s2, s3, s4⟩ := C27_step%n b p hb (hps p (by simp))
    obtain ⟨i1, i2, i3, i4⟩ := ih (Api.union b p) s1 (fun q hq => hps q (by simp [hq]))
    refine ⟨i1, ?_, fun r h => i3 r (s3 r h), fun c h1 h2 => ?_⟩
    · intro q hq
      rcases List.mem_cons.1 hq with rfl | hq
      · exact i3 _ s2
      · exact i2 q hq
    · exact i4 c (s4 c h1 (h2 p (by simp))) (fun q hq => h2 q (by simp [hq]))

/-- Any non-empty sequence of NaN-free points, added one by one to `empty()`. -/
theorem C27_points%n (ps : List (Point%n S)) (hne : ps ≠ []) (hps : ∀ p ∈ ps, NoNaN p) :
    LeAll (ps.foldl (fun b p => Api.union b p) (BoundingBox%n.empty : BoundingBox%n S)).min
      (ps.foldl (fun b p => Api.union b p) (BoundingBox%n.empty : BoundingBox%n S)).max ∧
    (∀ p ∈ ps, (ps.foldl (fun b p => Api.union b p) (BoundingBox%n.empty : BoundingBox%n S)).isInside p = true) ∧
    (∀ c : BoundingBox%n S, (∀ p ∈ ps, c.isInside p = true) →
      ∀ r, (ps.foldl (fun b p => Api.union b p) (BoundingBox%n.empty : BoundingBox%n S)).isInside r = true →
        c.isInside r = true) := by
  obtain ⟨p, ps, rfl⟩ := List.exists_cons_of_ne_nil hne
  have hp : NoNaN p := hps p (by simp)
  have he := union_emp%n (S := S) hp
  have hw : LeAll (Api.union (BoundingBox%n.empty : BoundingBox%n S) p).min
      (Api.union (BoundingBox%n.empty : BoundingBox%n S) p).max := by
    simp only [BoundingBox%n.beq_iff, Point%n.beq_iff] at he
    obtain ⟨h1, h2⟩ := he
    exact Point%n.leAll.2 ⟪le_trans' (beq_le h1%s) (beq_le (beq_symm h2%s))⟫
  obtain ⟨i1, i2, i3, i4⟩ := fold_pts%n _ ps hw (fun q hq => hps q (by simp [hq]))
  refine ⟨i1, ?_, fun c hc => i4 c ?_ (fun q hq => hc q (by simp [hq]))⟩
  · intro q hq
    rcases List.mem_cons.1 hq with rfl | hq
    · exact i3 _ ((beq_inside%n he _).2 (in_pt%n hp))
    · exact i2 q hq
  · intro r hr
    have hcp := isInside%n_iff.1 (hc p (by simp))
    refine (subset%n_iff (wf_pt%n hp)).2 ⟨Point%n.leAll.2 ⟪hcp%s.1⟫, Point%n.leAll.2 ⟪hcp%s.2⟫⟩ r ?_
    exact (beq_inside%n he _).1 hr
/-- The result does not depend on the order (or on repetitions) of the points. -/
theorem C27_order%n (ps qs : List (Point%n S)) (hne : ps ≠ []) (hps : ∀ p ∈ ps, NoNaN p)
    (h : ∀ p, p ∈ ps ↔ p ∈ qs) :
    (ps.foldl (fun b p => Api.union b p) (BoundingBox%n.empty : BoundingBox%n S) ==
     qs.foldl (fun b p => Api.union b p) (BoundingBox%n.empty : BoundingBox%n S)) = true := by
  have hne' : qs ≠ [] := by
    rintro rfl
    obtain ⟨p, ps, rfl⟩ := List.exists_cons_of_ne_nil hne
    exact absurd ((h p).1 (by simp)) (by simp)
  obtain ⟨a1, a2, a3⟩ := C27_points%n ps hne hps
  obtain ⟨b1, b2, b3⟩ := C27_points%n qs hne' (fun p hp => hps p ((h p).2 hp))
  refine ext%n_inside a1 b1 fun p => ⟨a3 _ (fun q hq => b2 q ((h q).1 hq)) p,
    b3 _ (fun q hq => a2 q ((h q).2 hq)) p⟩

example : ∀ p ∈ [Point%n.new ⟪_(Ideal.of 3)⟫, Point%n.new ⟪_(Ideal.of (-1))⟫, Point%n.origin], NoNaN p := by
  intro p hp; fin_cases hp <;> simp [Point%n.noNaN, Point%n.origin, Point%n.new]

/-! ### C28: union with empty() -/

/-- `empty()` is neutral exactly for the well-formed boxes. -/
theorem C28_neutral%n (b : BoundingBox%n S) :
    ((Api.union (BoundingBox%n.empty : BoundingBox%n S) b == b) = true ↔ LeAll b.min b.max) ∧
    ((Api.union b (BoundingBox%n.empty : BoundingBox%n S) == b) = true ↔ LeAll b.min b.max) := by
  simp only [BoundingBox%n.beq_iff, Point%n.beq_iff, Point%n.leAll]
  constructor
  · constructor
    · rintro ⟨h1, h2⟩
      exact ⟪emp_un_iff.1 ⟨h1%s, h2%s⟩⟫
    · intro h
      exact ⟨⟪(emp_un_iff.2 h%s).1⟫, ⟪(emp_un_iff.2 h%s).2⟫⟩
  · constructor
    · rintro ⟨h1, h2⟩
      exact ⟪un_emp_iff.1 ⟨h1%s, h2%s⟩⟫
    · intro h
      exact ⟨⟪(un_emp_iff.2 h%s).1⟫, ⟪(un_emp_iff.2 h%s).2⟫⟩
/-- The full claim fails for `b = empty()`: the union of two empty boxes is the infinite box, because the
corners pass through `new`, which swaps them. -/
theorem C28_empty_empty%n :
    (Api.union (BoundingBox%n.empty : BoundingBox%n S) (BoundingBox%n.empty : BoundingBox%n S) ==
      BoundingBox%n.infinite) = true ∧
    (Api.union (BoundingBox%n.empty : BoundingBox%n S) (BoundingBox%n.empty : BoundingBox%n S) ==
      BoundingBox%n.empty) = false := by
  have lo : (fmin (fmin infinity infinity) (fmax negInfinity negInfinity) == (negInfinity : S)) = true :=
    beq_iff.2 ⟨min_nn (min_nn not_nan_infinity), not_nan_negInfinity, by
      rw [emp_un_lo not_nan_infinity not_nan_negInfinity]; simp⟩
  have hi : (fmax (fmin infinity infinity) (fmax negInfinity negInfinity) == (infinity : S)) = true :=
    beq_iff.2 ⟨max_nn (min_nn not_nan_infinity), not_nan_infinity, by
      rw [emp_un_hi not_nan_infinity not_nan_negInfinity]; simp⟩
  constructor
  · simp only [BoundingBox%n.beq_iff, Point%n.beq_iff]
    exact ⟨⟪lo⟫, ⟪hi⟫⟩
  · rw [Bool.eq_false_iff]; intro h
    rw [(C28_neutral%n _).1, Point%n.leAll] at h
    exact not_inf_le_negInf h.1

/-! ### C29: overlaps -/

omit [IEEE S] in
theorem overlaps%n_iff : a.overlaps b = true ↔
    ⟪∧(b.min.%d ≤? a.max.%d) = true ∧ (a.min.%d ≤? b.max.%d) = true⟫ := by
  simp only [BoundingBox%n.overlaps, Bool.and_eq_true]; tauto
omit [IEEE S] in
theorem C29_symmetric%n (a b : BoundingBox%n S) : a.overlaps b = b.overlaps a := by
  rw [Bool.eq_iff_iff, overlaps%n_iff, overlaps%n_iff]; tauto
theorem C29_common_point%n (a b : BoundingBox%n S) (ha : LeAll a.min a.max) (hb : LeAll b.min b.max) :
    a.overlaps b = true ↔ ∃ p, a.isInside p = true ∧ b.isInside p = true := by
  rw [overlaps%n_iff]
  rw [wf%n_iff] at ha hb
  constructor
  · intro h
    refine ⟨⟪fmax a.min.%d b.min.%d⟫, ?_⟩
    rw [isInside%n_iff, isInside%n_iff]
    exact ⟨⟪⟨le_max_left' (le_nn ha%s).1 (le_nn hb%s).1, max_le' ha%s h%s.1⟩⟫,
      ⟪⟨le_max_right' (le_nn ha%s).1 (le_nn hb%s).1, max_le' h%s.2 hb%s⟩⟫⟩
  · rintro ⟨p, h1, h2⟩
    rw [isInside%n_iff] at h1 h2
    exact ⟪⟨le_trans' h2%s.1 h1%s.2, le_trans' h1%s.1 h2%s.2⟩⟫
/-- `empty()` overlaps no box except the infinite one. -/
theorem C29_empty%n (a : BoundingBox%n S) :
    (a.overlaps (BoundingBox%n.empty : BoundingBox%n S) = true ↔
      (a == (BoundingBox%n.infinite : BoundingBox%n S)) = true) ∧
    ((BoundingBox%n.empty : BoundingBox%n S).overlaps a = true ↔
      (a == (BoundingBox%n.infinite : BoundingBox%n S)) = true) := by
  rw [C29_symmetric%n BoundingBox%n.empty a]
  simp only [and_self]
  rw [overlaps%n_iff, BoundingBox%n.beq_iff, Point%n.beq_iff, Point%n.beq_iff]
  constructor
  · intro h
    exact ⟨⟪(overlap_emp.1 h%s).1⟫, ⟪(overlap_emp.1 h%s).2⟫⟩
  · rintro ⟨h1, h2⟩
    exact ⟪overlap_emp.2 ⟨h1%s, h2%s⟩⟫
/-- The claim "no box overlaps `empty()`" fails for the infinite box. -/
theorem C29_infinite_overlaps_empty%n :
    (BoundingBox%n.infinite : BoundingBox%n S).overlaps (BoundingBox%n.empty : BoundingBox%n S) = true := by
  rw [(C29_empty%n _).1, BoundingBox%n.beq_iff, Point%n.beq_iff, Point%n.beq_iff]
  exact ⟨⟪(Same.refl (negInfinity : S)).beq not_nan_negInfinity⟫,
    ⟪(Same.refl (infinity : S)).beq not_nan_infinity⟫⟩

/-- Two boxes with exactly a corner in common, and two disjoint ones. -/
example : (BoundingBox%n.new (Point%n.new ⟪_(Ideal.of 0)⟫) (Point%n.new ⟪_(Ideal.of 1)⟫)).overlaps
      (BoundingBox%n.new (Point%n.new ⟪_(Ideal.of 1)⟫) (Point%n.new ⟪_(Ideal.of 2)⟫)) = true ∧
    (BoundingBox%n.new (Point%n.new ⟪_(Ideal.of 0)⟫) (Point%n.new ⟪_(Ideal.of 1)⟫)).overlaps
      (BoundingBox%n.new (Point%n.new ⟪_(Ideal.of 2)⟫) (Point%n.new ⟪_(Ideal.of 3)⟫)) = false := by
  rw [Bool.eq_false_iff, ne_eq, overlaps%n_iff, overlaps%n_iff]
  simp [Point%n.new, Ideal.le_real]

/-! ### C30: intersection of boxes -/

theorem C30_intersect%n (a b : BoundingBox%n S) (ha : LeAll a.min a.max) (hb : LeAll b.min b.max) :
    ((Api.intersect a b).isSome = true ↔ ∃ p, a.isInside p = true ∧ b.isInside p = true) ∧
    (∀ c, Api.intersect a b = some c → LeAll c.min c.max ∧
      ∀ p, c.isInside p = true ↔ a.isInside p = true ∧ b.isInside p = true) ∧
    (∀ c, Api.intersect a b = some c → ∃ c', Api.intersect b a = some c' ∧ (c == c') = true) := by
  rw [← C29_common_point%n a b ha hb]
  have e1 : Api.intersect a b = if a.overlaps b then
      some (BoundingBox%n.new (Api.max a.min b.min) (Api.min a.max b.max)) else none := rfl
  have e2 : Api.intersect b a = if b.overlaps a then
      some (BoundingBox%n.new (Api.max b.min a.min) (Api.min b.max a.max)) else none := rfl
  rw [e1, e2, C29_symmetric%n b a]
  by_cases h : a.overlaps b = true
  · rw [if_pos h, if_pos h]
    rw [overlaps%n_iff] at h
    rw [wf%n_iff] at ha hb
    refine ⟨by simp [overlaps%n_iff, h], ?_, ?_⟩
    · rintro c hc
      obtain rfl := Option.some.inj hc
      refine ⟨wf%n_iff.2 ⟪new_lo_hi (max_nn (le_nn ha%s).1) (min_nn (le_nn ha%s).2)⟫, fun p => ?_⟩
      rw [isInside%n_iff, isInside%n_iff, isInside%n_iff]
      constructor
      · intro h'
        exact ⟨⟪((int_in ha%s hb%s h%s.1 h%s.2).1 h'%s).1⟫, ⟪((int_in ha%s hb%s h%s.1 h%s.2).1 h'%s).2⟫⟩
      · rintro ⟨h1, h2⟩
        exact ⟪(int_in ha%s hb%s h%s.1 h%s.2).2 ⟨h1%s, h2%s⟩⟫
    · rintro c hc
      obtain rfl := Option.some.inj hc
      refine ⟨_, rfl, BoundingBox%n.beq_iff.2 ⟨Point%n.beq_iff.2 ⟪(int_comm ha%s hb%s h%s.1 h%s.2).1⟫,
        Point%n.beq_iff.2 ⟪(int_comm ha%s hb%s h%s.1 h%s.2).2⟫⟩⟩
  · rw [if_neg h]; simp [h]
/-- Intersecting with `empty()` gives `None` for every box but the infinite one, ... -/
theorem C30_empty%n (a : BoundingBox%n S)
    (h : (a == (BoundingBox%n.infinite : BoundingBox%n S)) = false) :
    Api.intersect a (BoundingBox%n.empty : BoundingBox%n S) = none ∧
    Api.intersect (BoundingBox%n.empty : BoundingBox%n S) a = none := by
  have h1 := mt (C29_empty%n a).1.1 (by simp [h])
  have h2 := mt (C29_empty%n a).2.1 (by simp [h])
  exact ⟨if_neg h1, if_neg h2⟩
/-- ... for which it gives back the infinite box: the claim fails there. -/
theorem C30_infinite_empty%n :
    ∃ c, Api.intersect (BoundingBox%n.infinite : BoundingBox%n S) (BoundingBox%n.empty : BoundingBox%n S) = some c ∧
      (c == BoundingBox%n.infinite) = true := by
  refine ⟨_, if_pos C29_infinite_overlaps_empty%n, ?_⟩
  have lo : (fmin (fmax negInfinity infinity) (fmin infinity negInfinity) == (negInfinity : S)) = true :=
    beq_iff.2 ⟨min_nn (max_nn not_nan_negInfinity), not_nan_negInfinity, by
      rw [val_min (max_nn not_nan_negInfinity) (min_nn not_nan_infinity),
        val_max not_nan_negInfinity not_nan_infinity, val_min not_nan_infinity not_nan_negInfinity]; simp⟩
  have hi : (fmax (fmax negInfinity infinity) (fmin infinity negInfinity) == (infinity : S)) = true :=
    beq_iff.2 ⟨max_nn (max_nn not_nan_negInfinity), not_nan_infinity, by
      rw [val_max (max_nn not_nan_negInfinity) (min_nn not_nan_infinity),
        val_max not_nan_negInfinity not_nan_infinity, val_min not_nan_infinity not_nan_negInfinity]; simp⟩
  simp only [BoundingBox%n.beq_iff, Point%n.beq_iff]
  exact ⟨⟪lo⟫, ⟪hi⟫⟩

example : ((BoundingBox%n.empty : BoundingBox%n S) == (BoundingBox%n.infinite : BoundingBox%n S)) = false := by
  rw [Bool.eq_false_iff, ne_eq, BoundingBox%n.beq_iff, Point%n.beq_iff, Point%n.beq_iff]
  rintro ⟨h, -⟩
  exact not_inf_le_negInf (beq_le h.1)

/-! ### C34: a reported range is well-formed -/

theorem C34_range%n (b : BoundingBox%n S) (ray : Ray%n S) (i : Range S)
    (h : Api.intersect b ray = some i) :
    (Scalar.zero ≤? i.start) = true ∧ (i.start ≤? i.stop) = true ∧ ¬ IsNaN i.start ∧ ¬ IsNaN i.stop := by
  change b.intersectRay ray = some i at h
  simp only [BoundingBox%n.intersectRay] at h
  have h0 : (Scalar.zero ≤? (Scalar.zero : S)) = true := le_self not_nan_zero
  #3{split_ifs at h with h1 h2 h3
  obtain rfl := Option.some.inj h
  exact ⟨nonneg_max (nonneg_max (nonneg_max h0)), h3, (le_nn h3).1, (le_nn h3).2⟩}##2{split_ifs at h with h1 h3
  obtain rfl := Option.some.inj h
  exact ⟨nonneg_max (nonneg_max h0), h3, (le_nn h3).1, (le_nn h3).2⟩}#

/-! ### C36: from strictly inside -/

theorem C36_inside%n (b : BoundingBox%n S) (ray : Ray%n S) (hd : NoNaN ray.direction)
    (h : ⟪∧(b.min.%d <? ray.origin.%d) = true ∧ (ray.origin.%d <? b.max.%d) = true⟫) :
    ∃ i, Api.intersect b ray = some i ∧ (i.start == Scalar.zero) = true := by
  rw [Vector%n.noNaN] at hd
  have z0 : ((Scalar.zero : S) == Scalar.zero) = true := (Same.refl _).beq not_nan_zero
  have i0 : (Scalar.zero ≤? (infinity : S)) = true := le_inf not_nan_zero
  have sx := slab_strict h.1.1 h.1.2 hd.1
  have ax := start_step z0 sx.1
  have bx := stop_step i0 sx.2
  #3{have sy := slab_strict h.2.1.1 h.2.1.2 hd.2.1
  have ay := start_step ax sy.1
  have by' := stop_step bx sy.2
  have sz := slab_strict h.2.2.1 h.2.2.2 hd.2.2
  have az := start_step ay sz.1
  have bz := stop_step by' sz.2
  show ∃ i, b.intersectRay ray = some i ∧ (i.start == Scalar.zero) = true
  simp only [BoundingBox3.intersectRay, Api.min, Api.max, MinMax.min, MinMax.max]
  exact ⟨_, (if_neg (not_gt_of ax bx).1).trans ((if_neg (not_gt_of ay by').1).trans
    (if_pos (not_gt_of az bz).2)), az⟩}##2{have sy := slab_strict h.2.1 h.2.2 hd.2
  have ay := start_step ax sy.1
  have by' := stop_step bx sy.2
  show ∃ i, b.intersectRay ray = some i ∧ (i.start == Scalar.zero) = true
  simp only [BoundingBox2.intersectRay, Api.min, Api.max, MinMax.min, MinMax.max]
  exact ⟨_, (if_neg (not_gt_of ax bx).1).trans (if_pos (not_gt_of ay by').2), ay⟩}#
/-- Hypotheses of C36 (and so of C34) are met, e.g. in the box `[0, 2]` from `1` in direction `(1, 0, ..)`. -/
example : ∃ i, Api.intersect (BoundingBox%n.mk (Point%n.new ⟪_(Ideal.of 0)⟫) (Point%n.new ⟪_(Ideal.of 2)⟫))
    (Ray%n.new (Point%n.new ⟪_(Ideal.of 1)⟫) (Vector%n.new (Ideal.of 1) (Ideal.of 0)#3{ (Ideal.of 0)}#)) = some i := by
  obtain ⟨i, hi, -⟩ := C36_inside%n (BoundingBox%n.mk (Point%n.new ⟪_(Ideal.of 0)⟫) (Point%n.new ⟪_(Ideal.of 2)⟫))
    (Ray%n.new (Point%n.new ⟪_(Ideal.of 1)⟫) (Vector%n.new (Ideal.of 1) (Ideal.of 0)#3{ (Ideal.of 0)}#))
    (by simp [Vector%n.noNaN, Ray%n.new, Vector%n.new]) (by simp [Ray%n.new, Point%n.new, Ideal.lt_real])
  exact ⟨i, hi⟩

end dim%n

