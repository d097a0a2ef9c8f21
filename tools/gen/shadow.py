pre=open('/tmp/d/FS1.lean').read()
i=pre.index("theorem first_max"); j=pre.index("theorem highest_real")
pre=pre[:i]+'''theorem first_max {d : S} (h : IsFinite d) : IsFinite (fmax negInfinity d) ∧ real (fmax negInfinity d) = real d := by
  have e : num (fmax negInfinity d) = num d := by
    have a := val_max (not_nan_negInfinity (S := S)) h.not_nan
    refine num_eq_iff.2 (Or.inr (beq_iff.2 ⟨?_, h.not_nan, ?_⟩))
    · exact (val_fmax (n := d) (not_nan_negInfinity (S := S))).1
    · rw [a, val_negInfinity]; simp
  exact ⟨(finite_num e).2 h, real_num e⟩
theorem first_min {d : S} (h : IsFinite d) : IsFinite (fmin infinity d) ∧ real (fmin infinity d) = real d := by
  have e : num (fmin infinity d) = num d := by
    have a := val_min (not_nan_infinity (S := S)) h.not_nan
    refine num_eq_iff.2 (Or.inr (beq_iff.2 ⟨?_, h.not_nan, ?_⟩))
    · exact (val_fmin (n := d) (not_nan_infinity (S := S))).1
    · rw [a, val_infinity]; simp
  exact ⟨(finite_num e).2 h, real_num e⟩
'''+pre[j:]
k=pre.index("end\nend VecMath")
hr=pre[pre.index("theorem highest_real"):k]
lr=hr.replace("highest","lowest").replace("real d ≤ real (lowest ds)","real (lowest ds) ≤ real d").replace("first_max","first_min").replace("fold_max_real","fold_min_real")
pre=pre[:k]+lr+'''/-- There is a gap between two sets of finite numbers. -/
theorem gap_iff {as bs : List S} (ha : as ≠ []) (hb : bs ≠ []) (fa : ∀ a ∈ as, IsFinite a) (fb : ∀ b ∈ bs, IsFinite b) :
    (highest as <? lowest bs) = true ↔ ∀ a ∈ as, ∀ b ∈ bs, real a < real b := by
  obtain ⟨f1, m1, a, ha', e1⟩ := highest_real ha fa
  obtain ⟨f2, m2, b, hb', e2⟩ := lowest_real hb fb
  rw [olt_real f1 f2]
  constructor
  · intro h x hx y hy
    exact (m1 x hx).trans_lt (h.trans_le (m2 y hy))
  · intro h
    rw [e1, e2]
    exact h a ha' b hb'
theorem gap_map {P : Type} (f : P → S) {ps qs : List P} (hp : ps ≠ []) (hq : qs ≠ []) (fp : ∀ p ∈ ps, IsFinite (f p)) (fq : ∀ q ∈ qs, IsFinite (f q)) :
    (highest (ps.map f) <? lowest (qs.map f)) = true ↔ ∀ p ∈ ps, ∀ q ∈ qs, real (f p) < real (f q) := by
  rw [gap_iff (by simpa using hp) (by simpa using hq) (by simpa using fp) (by simpa using fq)]
  simp
theorem linear_dot {k : ℕ} (n : Fin k → ℝ) : IsLinearMap ℝ (fun x : Fin k → ℝ => n ⬝ᵥ x) :=
  ⟨dotProduct_add n, fun c x => by rw [dotProduct_smul]⟩
/-- What separates two sets separates their convex hulls. -/
theorem hull_lt {k : ℕ} {n : Fin k → ℝ} {s t : Set (Fin k → ℝ)} (h : ∀ p ∈ s, ∀ q ∈ t, n ⬝ᵥ p < n ⬝ᵥ q) :
    ∀ x ∈ convexHull ℝ s, ∀ y ∈ convexHull ℝ t, n ⬝ᵥ x < n ⬝ᵥ y := by
  have a : ∀ q ∈ t, ∀ x ∈ convexHull ℝ s, n ⬝ᵥ x < n ⬝ᵥ q := fun q hq x hx =>
    (convexHull_min (t := {x | n ⬝ᵥ x < n ⬝ᵥ q}) (fun p hp => h p hp q hq) (convex_halfSpace_lt (linear_dot n) _)) hx
  intro x hx y hy
  exact (convexHull_min (t := {y | n ⬝ᵥ x < n ⬝ᵥ y}) (fun q hq => a q hq x hx) (convex_halfSpace_gt (linear_dot n) _)) hy
end
'''
body='''
/-! ## Dimension @ -/
section
variable {S : Type} [Scalar S] [IEEE S]
theorem Vector@.separates_iff (n : Vector@ S) {ps qs : List (Point@ S)} (hp : ps ≠ []) (hq : qs ≠ []) (fp : ∀ p ∈ ps, IsFinite (n.along p))
    (fq : ∀ q ∈ qs, IsFinite (n.along q)) : n.separates ps qs = true ↔
      (∀ p ∈ ps, ∀ q ∈ qs, real (n.along p) < real (n.along q)) ∨ (∀ p ∈ ps, ∀ q ∈ qs, real (n.along q) < real (n.along p)) := by
  rw [Vector@.separates, Bool.or_eq_true, gap_map n.along hp hq fp fq, gap_map n.along hq hp fq fp]
  exact or_congr Iff.rfl ⟨fun h p hp q hq => h q hq p hp, fun h q hq p hp => h p hp q hq⟩
/-- **C125**: an axis separates two sets of points if and only if every point of one set is strictly before every point of the other. -/
theorem C125_iff@ (n : Vector@ S) (ps qs : List (Point@ S)) (hp : ps ≠ []) (hq : qs ≠ []) (fp : ∀ p ∈ ps, IsFinite (n.along p))
    (fq : ∀ q ∈ qs, IsFinite (n.along q)) : n.separates ps qs = true ↔
      (∀ p ∈ ps, ∀ q ∈ qs, (n.along p <? n.along q) = true) ∨ (∀ p ∈ ps, ∀ q ∈ qs, (n.along q <? n.along p) = true) := by
  rw [n.separates_iff hp hq fp fq]
  refine or_congr ?_ ?_ <;> refine forall₄_congr fun p hp q hq => ?_
  · exact (olt_real (fp p hp) (fq q hq)).symm
  · exact (olt_real (fq q hq) (fp p hp)).symm
/-- **C125**: it does not matter which set comes first. -/
theorem C125_symm@ (n : Vector@ S) (ps qs : List (Point@ S)) : n.separates ps qs = n.separates qs ps := Bool.or_comm _ _
/-- **C125**: the order of the points and repetitions do not matter. -/
theorem C125_members@ (n : Vector@ S) (ps qs ps' qs' : List (Point@ S)) (hp : ps ≠ []) (hq : qs ≠ []) (fp : ∀ p ∈ ps, IsFinite (n.along p))
    (fq : ∀ q ∈ qs, IsFinite (n.along q)) (ep : ∀ p, p ∈ ps' ↔ p ∈ ps) (eq : ∀ q, q ∈ qs' ↔ q ∈ qs) : n.separates ps' qs' = n.separates ps qs := by
  obtain ⟨p0, h0⟩ := List.exists_mem_of_ne_nil _ hp
  obtain ⟨q0, k0⟩ := List.exists_mem_of_ne_nil _ hq
  rw [Bool.eq_iff_iff, n.separates_iff hp hq fp fq, n.separates_iff (List.ne_nil_of_mem ((ep _).2 h0)) (List.ne_nil_of_mem ((eq _).2 k0))
    (fun p h => fp p ((ep p).1 h)) (fun q h => fq q ((eq q).1 h))]
  simp only [ep, eq]
/-- **C125**: an axis that separates two sets separates their subsets. -/
theorem C125_fewer@ (n : Vector@ S) (ps qs ps' qs' : List (Point@ S)) (hp : ps' ≠ []) (hq : qs' ≠ []) (fp : ∀ p ∈ ps, IsFinite (n.along p))
    (fq : ∀ q ∈ qs, IsFinite (n.along q)) (ep : ∀ p ∈ ps', p ∈ ps) (eq : ∀ q ∈ qs', q ∈ qs) (h : n.separates ps qs = true) : n.separates ps' qs' = true := by
  obtain ⟨p0, h0⟩ := List.exists_mem_of_ne_nil _ hp
  obtain ⟨q0, k0⟩ := List.exists_mem_of_ne_nil _ hq
  rw [n.separates_iff (List.ne_nil_of_mem (ep _ h0)) (List.ne_nil_of_mem (eq _ k0)) fp fq] at h
  rw [n.separates_iff hp hq (fun p h => fp p (ep p h)) (fun q h => fq q (eq q h))]
  exact h.imp (fun h p hp q hq => h p (ep p hp) q (eq q hq)) (fun h p hp q hq => h p (ep p hp) q (eq q hq))
theorem Vector@.along_neg (n : Vector@ S) (p : Point@ S) : num ((-n).along p) = num (-(n.along p)) := @NEG@
/-- **C125**: an axis and the opposite axis separate the same sets. -/
theorem C125_negate@ (n : Vector@ S) (ps qs : List (Point@ S)) (hp : ps ≠ []) (hq : qs ≠ []) (fp : ∀ p ∈ ps, IsFinite (n.along p))
    (fq : ∀ q ∈ qs, IsFinite (n.along q)) : (-n).separates ps qs = n.separates ps qs := by
  have e : ∀ p : Point@ S, IsFinite (n.along p) → IsFinite ((-n).along p) ∧ real ((-n).along p) = -real (n.along p) := fun p h =>
    ⟨(finite_num (n.along_neg p)).2 (finite_neg.2 h), (real_num (n.along_neg p)).trans IEEE.real_neg⟩
  rw [Bool.eq_iff_iff, (-n).separates_iff hp hq (fun p h => (e p (fp p h)).1) (fun q h => (e q (fq q h)).1), n.separates_iff hp hq fp fq, or_comm]
  refine or_congr ?_ ?_ <;> refine forall₄_congr fun p hp q hq => ?_
  · rw [(e p (fp p hp)).2, (e q (fq q hq)).2, neg_lt_neg_iff]
  · rw [(e p (fp p hp)).2, (e q (fq q hq)).2, neg_lt_neg_iff]
end

section
variable {S : Type} [Scalar S] [IEEE S] [Binary S]
theorem Vector@.along_error (n : Vector@ S) (p : Point@ S) (h : IsFinite (n.along p)) :
    |real (n.along p) - n.toReal ⬝ᵥ p.toReal| ≤ ((1 + uro S) ^ @ - 1) * (∑ i, |n.toReal i * p.toReal i|) + @ * (1 + uro S) ^ (@ - 1) * tiny S := by
  have := C59_dot@ n (Vector@.fromPoint p) h
  rw [@SUMS@]
  simpa [Vector@.along] using this
/-- **C125**: if the computed gap is more than twice the rounding error of a projection, the convex hulls have no point in common. -/
theorem C125_sound@ (n : Vector@ S) (ps qs : List (Point@ S)) (hp : ps ≠ []) (hq : qs ≠ []) (fp : ∀ p ∈ ps, IsFinite (n.along p))
    (fq : ∀ q ∈ qs, IsFinite (n.along q)) (E : ℝ)
    (hE : ∀ p ∈ ps ++ qs, ((1 + uro S) ^ @ - 1) * (∑ i, |n.toReal i * p.toReal i|) + @ * (1 + uro S) ^ (@ - 1) * tiny S ≤ E)
    (h : real (highest (ps.map n.along)) + 2 * E ≤ real (lowest (qs.map n.along)) ∧ n.separates ps qs = true) :
    ∀ x ∈ Point@.hull ps, ∀ y ∈ Point@.hull qs, n.toReal ⬝ᵥ x ≤ n.toReal ⬝ᵥ y := by
  sorry
end
'''
pre=pre.replace("theorem fold_max_real",'''theorem smaller_iff {a b : S} (ha : IsFinite a) (hb : IsFinite b) : (a <? b) = true ↔ real a < real b := by
  rw [lt_iff, ha.val, hb.val, EReal.coe_lt_coe_iff]
  exact ⟨fun h => h.2.2, fun h => ⟨ha.not_nan, hb.not_nan, h⟩⟩
theorem max_both {a b : S} (ha : IsFinite a) (hb : IsFinite b) : IsFinite (fmax a b) ∧ real (fmax a b) = max (real a) (real b) := by
  rcases (den_fmax a b).2.2 ha.not_nan hb.not_nan with h | h
  · have h2 := h.2
    rw [show (den a).ereal = _ from ha.val, show (den b).ereal = _ from hb.val, EReal.coe_le_coe_iff] at h2
    refine ⟨by unfold IsFinite; rw [h.1]; exact ha, ?_⟩
    rw [max_eq_left h2]; unfold real; rw [h.1]
  · have h2 := h.2
    rw [show (den a).ereal = _ from ha.val, show (den b).ereal = _ from hb.val, EReal.coe_le_coe_iff] at h2
    refine ⟨by unfold IsFinite; rw [h.1]; exact hb, ?_⟩
    rw [max_eq_right h2]; unfold real; rw [h.1]
theorem min_both {a b : S} (ha : IsFinite a) (hb : IsFinite b) : IsFinite (fmin a b) ∧ real (fmin a b) = min (real a) (real b) := by
  rcases (den_fmin a b).2.2 ha.not_nan hb.not_nan with h | h
  · have h2 := h.2
    rw [show (den a).ereal = _ from ha.val, show (den b).ereal = _ from hb.val, EReal.coe_le_coe_iff] at h2
    refine ⟨by unfold IsFinite; rw [h.1]; exact ha, ?_⟩
    rw [min_eq_left h2]; unfold real; rw [h.1]
  · have h2 := h.2
    rw [show (den a).ereal = _ from ha.val, show (den b).ereal = _ from hb.val, EReal.coe_le_coe_iff] at h2
    refine ⟨by unfold IsFinite; rw [h.1]; exact hb, ?_⟩
    rw [min_eq_right h2]; unfold real; rw [h.1]
theorem fold_max_real''',1).replace("fmax_real hx","max_both hx").replace("fmin_real hx","min_both hx").replace("rw [olt_real f1 f2]","rw [smaller_iff f1 f2]")
body=body.replace("(olt_real (","(smaller_iff (")
# error part
i=body.index("/-- **C125**: if the computed gap")
body=body[:i]+'''/-- **C125**: if a computed gap is wider than twice the rounding error of a projection, the axis separates the convex hulls. -/
theorem C125_sound@ (n : Vector@ S) (ps qs : List (Point@ S)) (hp : ps ≠ []) (hq : qs ≠ []) (fp : ∀ p ∈ ps, IsFinite (n.along p))
    (fq : ∀ q ∈ qs, IsFinite (n.along q)) (E : ℝ)
    (hE : ∀ p, p ∈ ps ∨ p ∈ qs → ((1 + uro S) ^ @ - 1) * (∑ i, |n.toReal i * p.toReal i|) + @ * (1 + uro S) ^ (@ - 1) * tiny S ≤ E)
    (h : real (highest (ps.map n.along)) + 2 * E < real (lowest (qs.map n.along))) :
    (∀ x ∈ Point@.hull ps, ∀ y ∈ Point@.hull qs, n.toReal ⬝ᵥ x < n.toReal ⬝ᵥ y) ∧ Disjoint (Point@.hull ps) (Point@.hull qs) := by
  obtain ⟨-, m1, -⟩ := highest_real (ds := ps.map n.along) (by simpa using hp) (by simpa using fp)
  obtain ⟨-, m2, -⟩ := lowest_real (ds := qs.map n.along) (by simpa using hq) (by simpa using fq)
  have k : ∀ x ∈ Point@.hull ps, ∀ y ∈ Point@.hull qs, n.toReal ⬝ᵥ x < n.toReal ⬝ᵥ y := by
    refine hull_lt ?_
    rintro _ ⟨p, hp', rfl⟩ _ ⟨q, hq', rfl⟩
    have a := abs_le.1 ((n.along_error p (fp p hp')).trans (hE p (Or.inl hp')))
    have b := abs_le.1 ((n.along_error q (fq q hq')).trans (hE q (Or.inr hq')))
    have c := m1 _ (List.mem_map_of_mem (f := n.along) hp')
    have d := m2 _ (List.mem_map_of_mem (f := n.along) hq')
    linarith [a.1, b.2]
  exact ⟨k, Set.disjoint_left.2 fun x hx hy => lt_irrefl _ (k x hx x hy)⟩
/-- **C125**: if the exact projections are apart by more than twice the rounding error, the separation is found. -/
theorem C125_found@ (n : Vector@ S) (ps qs : List (Point@ S)) (hp : ps ≠ []) (hq : qs ≠ []) (fp : ∀ p ∈ ps, IsFinite (n.along p))
    (fq : ∀ q ∈ qs, IsFinite (n.along q)) (E : ℝ)
    (hE : ∀ p, p ∈ ps ∨ p ∈ qs → ((1 + uro S) ^ @ - 1) * (∑ i, |n.toReal i * p.toReal i|) + @ * (1 + uro S) ^ (@ - 1) * tiny S ≤ E)
    (h : ∀ p ∈ ps, ∀ q ∈ qs, n.toReal ⬝ᵥ p.toReal + 2 * E < n.toReal ⬝ᵥ q.toReal) : n.separates ps qs = true := by
  rw [n.separates_iff hp hq fp fq]
  left
  intro p hp' q hq'
  have a := abs_le.1 ((n.along_error p (fp p hp')).trans (hE p (Or.inl hp')))
  have b := abs_le.1 ((n.along_error q (fq q hq')).trans (hE q (Or.inr hq')))
  linarith [a.2, b.1, h p hp' q hq']
/-- **C125**: on a grid with room for the projections the answer is exactly right about the convex hulls. -/
theorem C125_exact@ {e f : ℤ} {M N : ℕ} (n : Vector@ S) (ps qs : List (Point@ S)) (hp : ps ≠ []) (hq : qs ≠ []) (hn : AllFinite n)
    (gn : ∀ i, OnGrid e M (n.toReal i)) (h : ∀ p, p ∈ ps ∨ p ∈ qs → AllFinite p ∧ ∀ i, OnGrid f N (p.toReal i)) (hF : Fits S (e + f) (@ * (M * N))) :
    n.separates ps qs = true ↔ (∀ x ∈ Point@.hull ps, ∀ y ∈ Point@.hull qs, n.toReal ⬝ᵥ x < n.toReal ⬝ᵥ y) ∨
      (∀ x ∈ Point@.hull ps, ∀ y ∈ Point@.hull qs, n.toReal ⬝ᵥ y < n.toReal ⬝ᵥ x) := by
  have k : ∀ p, p ∈ ps ∨ p ∈ qs → Exactly (n.along p) (n.toReal ⬝ᵥ p.toReal) := fun p hm =>
    C68_dot@ n (Vector@.fromPoint p) hn (Vector@.allFinite.2 (Point@.allFinite.1 (h p hm).1)) gn (h p hm).2 hF
  rw [n.separates_iff hp hq (fun p h => (k p (Or.inl h)).1) (fun q h => (k q (Or.inr h)).1)]
  constructor
  · rintro (w | w)
    · left
      refine hull_lt ?_
      rintro _ ⟨p, hp', rfl⟩ _ ⟨q, hq', rfl⟩
      rw [← (k p (Or.inl hp')).2, ← (k q (Or.inr hq')).2]
      exact w p hp' q hq'
    · right
      intro x hx y hy
      refine hull_lt ?_ y hy x hx
      rintro _ ⟨q, hq', rfl⟩ _ ⟨p, hp', rfl⟩
      rw [← (k p (Or.inl hp')).2, ← (k q (Or.inr hq')).2]
      exact w p hp' q hq'
  · rintro (w | w)
    · left
      intro p hp' q hq'
      rw [(k p (Or.inl hp')).2, (k q (Or.inr hq')).2]
      exact w _ (subset_convexHull ℝ _ ⟨p, hp', rfl⟩) _ (subset_convexHull ℝ _ ⟨q, hq', rfl⟩)
    · right
      intro p hp' q hq'
      rw [(k p (Or.inl hp')).2, (k q (Or.inr hq')).2]
      exact w _ (subset_convexHull ℝ _ ⟨p, hp', rfl⟩) _ (subset_convexHull ℝ _ ⟨q, hq', rfl⟩)
end
'''
NEG={'2':'''by
  show num (-n.x * p.x + -n.y * p.y) = num (-(n.x * p.x + n.y * p.y))
  rw [← num_neg_add]
  exact num_add_congr (same_neg_mul _ _).num (same_neg_mul _ _).num''','3':'''by
  show num (-n.x * p.x + -n.y * p.y + -n.z * p.z) = num (-(n.x * p.x + n.y * p.y + n.z * p.z))
  rw [← num_neg_add]
  refine num_add_congr ?_ (same_neg_mul _ _).num
  rw [← num_neg_add]
  exact num_add_congr (same_neg_mul _ _).num (same_neg_mul _ _).num'''}
SUMS={'2':'Fin.sum_univ_two, dotProduct, Fin.sum_univ_two','3':'Fin.sum_univ_three, dotProduct, Fin.sum_univ_three'}
out=pre
for d in '23':
    b=body.replace('@NEG@',NEG[d]).replace('@SUMS@',SUMS[d])
    for a in ['@ - 1) * tiny']: b=b.replace(a,f'{int(d)-1}) * tiny')
    out+=b.replace('@',d)
out+="end VecMath\n"
open('/tmp/d/FloatShadow.lean','w').write(out)
out=out.replace("(real_num (n.along_neg p)).trans IEEE.real_neg","(real_num (n.along_neg p)).trans (IEEE.real_neg _)").replace("  simpa [Vector2.along] using this\n","  rw [pow_one]; exact this\n").replace("  simpa [Vector3.along] using this\n","  exact this\n")
open('/tmp/d/FloatShadow.lean','w').write(out)
