import Verif.Spec.Shadow
import Verif.Props.FloatArea
import Verif.Props.FloatSide
import Verif.Props.FloatExact
import Verif.Props.FloatBoxMeasure
import Verif.Lemmas.Octree
import Mathlib.Analysis.Convex.Combination
/-! # C125: separating axes -/

open Classical

namespace VecMath
open Scalar IEEE

section
variable {S : Type} [Scalar S] [IEEE S]
theorem smaller_iff {a b : S} (ha : IsFinite a) (hb : IsFinite b) : (a <? b) = true ↔ real a < real b := by
  rw [lt_iff, ha.val, hb.val, EReal.coe_lt_coe_iff]
  exact ⟨fun h => h.2.2, fun h => ⟨ha.not_nan, hb.not_nan, h⟩⟩
theorem ole_real' {a b : S} (ha : IsFinite a) (hb : IsFinite b) : (a ≤? b) = true ↔ real a ≤ real b := by
  rw [le_iff, ha.val, hb.val, EReal.coe_le_coe_iff]
  exact ⟨fun h => h.2.2, fun h => ⟨ha.not_nan, hb.not_nan, h⟩⟩
theorem le_finite {a b x : S} (h : (a ≤? x) = true) (h' : (x ≤? b) = true) (ha : IsFinite a) (hb : IsFinite b) :
    IsFinite x ∧ (real a ≤ real x ∧ real x ≤ real b) := by
  have f : IsFinite x := by
    rw [le_iff] at h h'
    have h3 := h.2.2; have h4 := h'.2.2
    rw [ha.val] at h3
    rw [hb.val] at h4
    refine IEEE.finite_iff.2 ⟨h.2.1, fun e => ?_, fun e => ?_⟩
    · rw [e] at h4; exact absurd (top_le_iff.1 h4) (EReal.coe_ne_top _)
    · rw [e] at h3; exact absurd (le_bot_iff.1 h3) (EReal.coe_ne_bot _)
  exact ⟨f, (ole_real' ha f).1 h, (ole_real' f hb).1 h'⟩
theorem max_both {a b : S} (ha : IsFinite a) (hb : IsFinite b) : IsFinite (fmax a b) ∧ real (fmax a b) = max (real a) (real b) := by
  rcases (den_fmax a b).2.2 ha.not_nan hb.not_nan with h | h
  · have h2 := h.2
    rw [show (den a).ereal = _ from ha.val, show (den b).ereal = _ from hb.val, EReal.coe_le_coe_iff] at h2
    refine ⟨by unfold IsFinite; rw [h.1]; exact ha, ?_⟩
    rw [max_eq_left h2]; unfold real; rw [h.1]
  · have h2 := h.2
    rw [show (den a).ereal = _ from ha.val, show (den b).ereal = _ from hb.val, EReal.coe_le_coe_iff] at h2
    refine ⟨by unfold IsFinite; rw [h.1]; exact hb, ?_⟩
    rw [max_eq_right h2]; unfold real; rw [h.1]
theorem min_both {a b : S} (ha : IsFinite a) (hb : IsFinite b) : IsFinite (fmin a b) ∧ real (fmin a b) = min (real a) (real b) := by
  rcases (den_fmin a b).2.2 ha.not_nan hb.not_nan with h | h
  · have h2 := h.2
    rw [show (den a).ereal = _ from ha.val, show (den b).ereal = _ from hb.val, EReal.coe_le_coe_iff] at h2
    refine ⟨by unfold IsFinite; rw [h.1]; exact ha, ?_⟩
    rw [min_eq_left h2]; unfold real; rw [h.1]
  · have h2 := h.2
    rw [show (den a).ereal = _ from ha.val, show (den b).ereal = _ from hb.val, EReal.coe_le_coe_iff] at h2
    refine ⟨by unfold IsFinite; rw [h.1]; exact hb, ?_⟩
    rw [min_eq_right h2]; unfold real; rw [h.1]
theorem fold_max_real (ds : List S) (x : S) (hx : IsFinite x) (h : ∀ d ∈ ds, IsFinite d) :
    IsFinite (ds.foldl fmax x) ∧ real x ≤ real (ds.foldl fmax x) ∧ (∀ d ∈ ds, real d ≤ real (ds.foldl fmax x)) ∧
      (real (ds.foldl fmax x) = real x ∨ ∃ d ∈ ds, real (ds.foldl fmax x) = real d) := by
  induction ds generalizing x with
  | nil => exact ⟨hx, le_rfl, by simp, Or.inl rfl⟩
  | cons d ds ih =>
    obtain ⟨f, e⟩ := max_both hx (h d (by simp))
    obtain ⟨a, b, c, w⟩ := ih (fmax x d) f (fun e he => h e (by simp [he]))
    rw [e] at b w
    refine ⟨a, (le_max_left _ _).trans b, ?_, ?_⟩
    · intro e he
      rcases List.mem_cons.1 he with rfl | he
      · exact (le_max_right _ _).trans b
      · exact c e he
    · rcases w with w | ⟨e, he, w⟩
      · rcases max_choice (real x) (real d) with m | m
        · exact Or.inl (w.trans m)
        · exact Or.inr ⟨d, by simp, w.trans m⟩
      · exact Or.inr ⟨e, by simp [he], w⟩
theorem fold_min_real (ds : List S) (x : S) (hx : IsFinite x) (h : ∀ d ∈ ds, IsFinite d) :
    IsFinite (ds.foldl fmin x) ∧ real (ds.foldl fmin x) ≤ real x ∧ (∀ d ∈ ds, real (ds.foldl fmin x) ≤ real d) ∧
      (real (ds.foldl fmin x) = real x ∨ ∃ d ∈ ds, real (ds.foldl fmin x) = real d) := by
  induction ds generalizing x with
  | nil => exact ⟨hx, le_rfl, by simp, Or.inl rfl⟩
  | cons d ds ih =>
    obtain ⟨f, e⟩ := min_both hx (h d (by simp))
    obtain ⟨a, b, c, w⟩ := ih (fmin x d) f (fun e he => h e (by simp [he]))
    rw [e] at b w
    refine ⟨a, b.trans (min_le_left _ _), ?_, ?_⟩
    · intro e he
      rcases List.mem_cons.1 he with rfl | he
      · exact b.trans (min_le_right _ _)
      · exact c e he
    · rcases w with w | ⟨e, he, w⟩
      · rcases min_choice (real x) (real d) with m | m
        · exact Or.inl (w.trans m)
        · exact Or.inr ⟨d, by simp, w.trans m⟩
      · exact Or.inr ⟨e, by simp [he], w⟩
theorem first_max {d : S} (h : IsFinite d) : IsFinite (fmax negInfinity d) ∧ real (fmax negInfinity d) = real d := by
  have e : num (fmax negInfinity d) = num d := by
    have a := val_max (not_nan_negInfinity (S := S)) h.not_nan
    refine num_eq_iff.2 (Or.inr (beq_iff.2 ⟨?_, h.not_nan, ?_⟩))
    · exact (val_fmax (n := d) (not_nan_negInfinity (S := S))).1
    · rw [a, val_negInfinity]; simp
  exact ⟨(finite_num e).2 h, real_num e⟩
theorem first_min {d : S} (h : IsFinite d) : IsFinite (fmin infinity d) ∧ real (fmin infinity d) = real d := by
  have e : num (fmin infinity d) = num d := by
    have a := val_min (not_nan_infinity (S := S)) h.not_nan
    refine num_eq_iff.2 (Or.inr (beq_iff.2 ⟨?_, h.not_nan, ?_⟩))
    · exact (val_fmin (n := d) (not_nan_infinity (S := S))).1
    · rw [a, val_infinity]; simp
  exact ⟨(finite_num e).2 h, real_num e⟩
theorem highest_real {ds : List S} (h0 : ds ≠ []) (h : ∀ d ∈ ds, IsFinite d) :
    IsFinite (highest ds) ∧ (∀ d ∈ ds, real d ≤ real (highest ds)) ∧ ∃ d ∈ ds, real (highest ds) = real d := by
  rcases ds with _ | ⟨d, ds⟩
  · exact absurd rfl h0
  obtain ⟨f, e⟩ := first_max (h d (by simp))
  obtain ⟨a, b, c, w⟩ := fold_max_real ds _ f (fun e he => h e (by simp [he]))
  rw [e] at b w
  refine ⟨a, ?_, ?_⟩
  · intro x hx
    rcases List.mem_cons.1 hx with rfl | hx
    · exact b
    · exact c x hx
  · rcases w with w | ⟨x, hx, w⟩
    · exact ⟨d, by simp, w⟩
    · exact ⟨x, by simp [hx], w⟩
theorem lowest_real {ds : List S} (h0 : ds ≠ []) (h : ∀ d ∈ ds, IsFinite d) :
    IsFinite (lowest ds) ∧ (∀ d ∈ ds, real (lowest ds) ≤ real d) ∧ ∃ d ∈ ds, real (lowest ds) = real d := by
  rcases ds with _ | ⟨d, ds⟩
  · exact absurd rfl h0
  obtain ⟨f, e⟩ := first_min (h d (by simp))
  obtain ⟨a, b, c, w⟩ := fold_min_real ds _ f (fun e he => h e (by simp [he]))
  rw [e] at b w
  refine ⟨a, ?_, ?_⟩
  · intro x hx
    rcases List.mem_cons.1 hx with rfl | hx
    · exact b
    · exact c x hx
  · rcases w with w | ⟨x, hx, w⟩
    · exact ⟨d, by simp, w⟩
    · exact ⟨x, by simp [hx], w⟩
/-- There is a gap between two sets of finite numbers. -/
theorem gap_iff {as bs : List S} (ha : as ≠ []) (hb : bs ≠ []) (fa : ∀ a ∈ as, IsFinite a) (fb : ∀ b ∈ bs, IsFinite b) :
    (highest as <? lowest bs) = true ↔ ∀ a ∈ as, ∀ b ∈ bs, real a < real b := by
  obtain ⟨f1, m1, a, ha', e1⟩ := highest_real ha fa
  obtain ⟨f2, m2, b, hb', e2⟩ := lowest_real hb fb
  rw [smaller_iff f1 f2]
  constructor
  · intro h x hx y hy
    exact (m1 x hx).trans_lt (h.trans_le (m2 y hy))
  · intro h
    rw [e1, e2]
    exact h a ha' b hb'
theorem gap_map {P : Type} (f : P → S) {ps qs : List P} (hp : ps ≠ []) (hq : qs ≠ []) (fp : ∀ p ∈ ps, IsFinite (f p)) (fq : ∀ q ∈ qs, IsFinite (f q)) :
    (highest (ps.map f) <? lowest (qs.map f)) = true ↔ ∀ p ∈ ps, ∀ q ∈ qs, real (f p) < real (f q) := by
  rw [gap_iff (by simpa using hp) (by simpa using hq) (by simpa using fp) (by simpa using fq)]
  simp
theorem linear_dot {k : ℕ} (n : Fin k → ℝ) : IsLinearMap ℝ (fun x : Fin k → ℝ => n ⬝ᵥ x) :=
  ⟨dotProduct_add n, fun c x => by rw [dotProduct_smul]⟩
/-- What separates two sets separates their convex hulls. -/
theorem hull_lt {k : ℕ} {n : Fin k → ℝ} {s t : Set (Fin k → ℝ)} (h : ∀ p ∈ s, ∀ q ∈ t, n ⬝ᵥ p < n ⬝ᵥ q) :
    ∀ x ∈ convexHull ℝ s, ∀ y ∈ convexHull ℝ t, n ⬝ᵥ x < n ⬝ᵥ y := by
  have a : ∀ q ∈ t, ∀ x ∈ convexHull ℝ s, n ⬝ᵥ x < n ⬝ᵥ q := fun q hq x hx =>
    (convexHull_min (t := {x | n ⬝ᵥ x < n ⬝ᵥ q}) (fun p hp => h p hp q hq) (convex_halfSpace_lt (linear_dot n) _)) hx
  intro x hx y hy
  exact (convexHull_min (t := {y | n ⬝ᵥ x < n ⬝ᵥ y}) (fun q hq => a q hq x hx) (convex_halfSpace_gt (linear_dot n) _)) hy
end

/-! ## Dimension 2 -/
section
variable {S : Type} [Scalar S] [IEEE S]
theorem Vector2.separates_iff (n : Vector2 S) {ps qs : List (Point2 S)} (hp : ps ≠ []) (hq : qs ≠ []) (fp : ∀ p ∈ ps, IsFinite (n.along p))
    (fq : ∀ q ∈ qs, IsFinite (n.along q)) : n.separates ps qs = true ↔
      (∀ p ∈ ps, ∀ q ∈ qs, real (n.along p) < real (n.along q)) ∨ (∀ p ∈ ps, ∀ q ∈ qs, real (n.along q) < real (n.along p)) := by
  rw [Vector2.separates, Bool.or_eq_true, gap_map n.along hp hq fp fq, gap_map n.along hq hp fq fp]
  exact or_congr Iff.rfl ⟨fun h p hp q hq => h q hq p hp, fun h q hq p hp => h p hp q hq⟩
/-- **C125**: an axis separates two sets of points if and only if every point of one set is strictly before every point of the other. -/
theorem C125_iff2 (n : Vector2 S) (ps qs : List (Point2 S)) (hp : ps ≠ []) (hq : qs ≠ []) (fp : ∀ p ∈ ps, IsFinite (n.along p))
    (fq : ∀ q ∈ qs, IsFinite (n.along q)) : n.separates ps qs = true ↔
      (∀ p ∈ ps, ∀ q ∈ qs, (n.along p <? n.along q) = true) ∨ (∀ p ∈ ps, ∀ q ∈ qs, (n.along q <? n.along p) = true) := by
  rw [n.separates_iff hp hq fp fq]
  refine or_congr ?_ ?_ <;> refine forall₄_congr fun p hp q hq => ?_
  · exact (smaller_iff (fp p hp) (fq q hq)).symm
  · exact (smaller_iff (fq q hq) (fp p hp)).symm
/-- **C125**: it does not matter which set comes first. -/
theorem C125_symm2 (n : Vector2 S) (ps qs : List (Point2 S)) : n.separates ps qs = n.separates qs ps := Bool.or_comm _ _
/-- **C125**: the order of the points and repetitions do not matter. -/
theorem C125_members2 (n : Vector2 S) (ps qs ps' qs' : List (Point2 S)) (hp : ps ≠ []) (hq : qs ≠ []) (fp : ∀ p ∈ ps, IsFinite (n.along p))
    (fq : ∀ q ∈ qs, IsFinite (n.along q)) (ep : ∀ p, p ∈ ps' ↔ p ∈ ps) (eq : ∀ q, q ∈ qs' ↔ q ∈ qs) : n.separates ps' qs' = n.separates ps qs := by
  obtain ⟨p0, h0⟩ := List.exists_mem_of_ne_nil _ hp
  obtain ⟨q0, k0⟩ := List.exists_mem_of_ne_nil _ hq
  rw [Bool.eq_iff_iff, n.separates_iff hp hq fp fq, n.separates_iff (List.ne_nil_of_mem ((ep _).2 h0)) (List.ne_nil_of_mem ((eq _).2 k0))
    (fun p h => fp p ((ep p).1 h)) (fun q h => fq q ((eq q).1 h))]
  simp only [ep, eq]
/-- **C125**: an axis that separates two sets separates their subsets. -/
theorem C125_fewer2 (n : Vector2 S) (ps qs ps' qs' : List (Point2 S)) (hp : ps' ≠ []) (hq : qs' ≠ []) (fp : ∀ p ∈ ps, IsFinite (n.along p))
    (fq : ∀ q ∈ qs, IsFinite (n.along q)) (ep : ∀ p ∈ ps', p ∈ ps) (eq : ∀ q ∈ qs', q ∈ qs) (h : n.separates ps qs = true) : n.separates ps' qs' = true := by
  obtain ⟨p0, h0⟩ := List.exists_mem_of_ne_nil _ hp
  obtain ⟨q0, k0⟩ := List.exists_mem_of_ne_nil _ hq
  rw [n.separates_iff (List.ne_nil_of_mem (ep _ h0)) (List.ne_nil_of_mem (eq _ k0)) fp fq] at h
  rw [n.separates_iff hp hq (fun p h => fp p (ep p h)) (fun q h => fq q (eq q h))]
  exact h.imp (fun h p hp q hq => h p (ep p hp) q (eq q hq)) (fun h p hp q hq => h p (ep p hp) q (eq q hq))
/-- If the projections are computed exactly, the answer is right about the convex hulls. -/
theorem Vector2.separates_hull (n : Vector2 S) (ps qs : List (Point2 S)) (hp : ps ≠ []) (hq : qs ≠ [])
    (k : ∀ p, p ∈ ps ∨ p ∈ qs → Exactly (n.along p) (n.toReal ⬝ᵥ p.toReal)) :
    n.separates ps qs = true ↔ (∀ x ∈ Point2.hull ps, ∀ y ∈ Point2.hull qs, n.toReal ⬝ᵥ x < n.toReal ⬝ᵥ y) ∨
      (∀ x ∈ Point2.hull ps, ∀ y ∈ Point2.hull qs, n.toReal ⬝ᵥ y < n.toReal ⬝ᵥ x) := by
  rw [n.separates_iff hp hq (fun p h => (k p (Or.inl h)).1) (fun q h => (k q (Or.inr h)).1)]
  constructor
  · rintro (w | w)
    · left
      refine hull_lt ?_
      rintro _ ⟨p, hp', rfl⟩ _ ⟨q, hq', rfl⟩
      rw [← (k p (Or.inl hp')).2, ← (k q (Or.inr hq')).2]
      exact w p hp' q hq'
    · right
      intro x hx y hy
      refine hull_lt ?_ y hy x hx
      rintro _ ⟨q, hq', rfl⟩ _ ⟨p, hp', rfl⟩
      rw [← (k p (Or.inl hp')).2, ← (k q (Or.inr hq')).2]
      exact w p hp' q hq'
  · rintro (w | w)
    · left
      intro p hp' q hq'
      rw [(k p (Or.inl hp')).2, (k q (Or.inr hq')).2]
      exact w _ (subset_convexHull ℝ _ ⟨p, hp', rfl⟩) _ (subset_convexHull ℝ _ ⟨q, hq', rfl⟩)
    · right
      intro p hp' q hq'
      rw [(k p (Or.inl hp')).2, (k q (Or.inr hq')).2]
      exact w _ (subset_convexHull ℝ _ ⟨p, hp', rfl⟩) _ (subset_convexHull ℝ _ ⟨q, hq', rfl⟩)
theorem Vector2.along_x {p : Point2 S} (h : AllFinite p) : IsFinite ((Vector2.xAxis : Vector2 S).along p) ∧ real ((Vector2.xAxis : Vector2 S).along p) = real p.x := by
  have h := Point2.allFinite.1 h
  have e : num ((Vector2.xAxis : Vector2 S).along p) = num p.x := by
    show num ((one : S) * p.x + (Scalar.zero : S) * p.y) = _
    rw [num_add_congr rfl (IEEE.num_zero_mul h.2), num_add_zero]; exact num_one_mul _
  exact ⟨(finite_num e).2 (by tauto), real_num e⟩
theorem Vector2.along_y {p : Point2 S} (h : AllFinite p) : IsFinite ((Vector2.yAxis : Vector2 S).along p) ∧ real ((Vector2.yAxis : Vector2 S).along p) = real p.y := by
  have h := Point2.allFinite.1 h
  have e : num ((Vector2.yAxis : Vector2 S).along p) = num p.y := by
    show num ((Scalar.zero : S) * p.x + (one : S) * p.y) = _
    rw [num_add_congr (IEEE.num_zero_mul h.1) rfl, num_zero_add]; exact num_one_mul _
  exact ⟨(finite_num e).2 (by tauto), real_num e⟩
theorem inside2_real (a : BoundingBox2 S) (ha : AllFinite a.min ∧ AllFinite a.max) {p : Point2 S} (h : a.isInside p = true) :
    AllFinite p ∧ ((real a.min.x ≤ real p.x ∧ real p.x ≤ real a.max.x) ∧ (real a.min.y ≤ real p.y ∧ real p.y ≤ real a.max.y)) := by
  obtain ⟨⟨w1x, w2x⟩, ⟨w1y, w2y⟩⟩ := isInside2_iff.1 h
  have h1 := Point2.allFinite.1 ha.1
  have h2 := Point2.allFinite.1 ha.2
  obtain ⟨fx1, gx1⟩ := le_finite w1x w2x (by tauto) (by tauto)
  obtain ⟨fy1, gy1⟩ := le_finite w1y w2y (by tauto) (by tauto)
  rw [Point2.allFinite]
  tauto
/-- **C125**: two boxes do not overlap if and only if an axis of the coordinate system separates their corners. -/
theorem C125_boxes2 (a b : BoundingBox2 S) (build : Build) (cs ds : List (Point2 S)) (ha : AllFinite a.min ∧ AllFinite a.max) (hb : AllFinite b.min ∧ AllFinite b.max)
    (la : LeAll a.min a.max) (lb : LeAll b.min b.max) (hc : ∀ p, p ∈ cs ↔ ∃ k : UInt32, k < 4 ∧ a.corner build k = .ok p)
    (hd : ∀ p, p ∈ ds ↔ ∃ k : UInt32, k < 4 ∧ b.corner build k = .ok p) :
    a.overlaps b = false ↔ (Vector2.xAxis : Vector2 S).separates cs ds = true ∨ (Vector2.yAxis : Vector2 S).separates cs ds = true := by
  have cmin : a.min ∈ cs := (hc _).2 ⟨0, by decide, by cases build <;> rfl⟩
  have cmax : a.max ∈ cs := (hc _).2 ⟨3, by decide, by cases build <;> rfl⟩
  have dmin : b.min ∈ ds := (hd _).2 ⟨0, by decide, by cases build <;> rfl⟩
  have dmax : b.max ∈ ds := (hd _).2 ⟨3, by decide, by cases build <;> rfl⟩
  have ia : ∀ p ∈ cs, AllFinite p ∧ ((real a.min.x ≤ real p.x ∧ real p.x ≤ real a.max.x) ∧ (real a.min.y ≤ real p.y ∧ real p.y ≤ real a.max.y)) := by
    intro p hp
    obtain ⟨k, -, hk⟩ := (hc p).1 hp
    exact inside2_real a ha (C33_inside2 a la build k p hk)
  have ib : ∀ p ∈ ds, AllFinite p ∧ ((real b.min.x ≤ real p.x ∧ real p.x ≤ real b.max.x) ∧ (real b.min.y ≤ real p.y ∧ real p.y ≤ real b.max.y)) := by
    intro p hp
    obtain ⟨k, -, hk⟩ := (hd p).1 hp
    exact inside2_real b hb (C33_inside2 b lb build k p hk)
  have sx : (Vector2.xAxis : Vector2 S).separates cs ds = true ↔ real a.max.x < real b.min.x ∨ real b.max.x < real a.min.x := by
    rw [Vector2.separates_iff _ (List.ne_nil_of_mem cmin) (List.ne_nil_of_mem dmin) (fun p h => (Vector2.along_x (ia p h).1).1) (fun p h => (Vector2.along_x (ib p h).1).1)]
    refine or_congr ⟨fun h => ?_, fun h p hp q hq => ?_⟩ ⟨fun h => ?_, fun h p hp q hq => ?_⟩
    · have := h _ cmax _ dmin
      rwa [(Vector2.along_x ha.2).2, (Vector2.along_x hb.1).2] at this
    · rw [(Vector2.along_x (ia p hp).1).2, (Vector2.along_x (ib q hq).1).2]
      exact lt_of_le_of_lt (ia p hp).2.1.2 (lt_of_lt_of_le h (ib q hq).2.1.1)
    · have := h _ cmin _ dmax
      rwa [(Vector2.along_x ha.1).2, (Vector2.along_x hb.2).2] at this
    · rw [(Vector2.along_x (ia p hp).1).2, (Vector2.along_x (ib q hq).1).2]
      exact lt_of_le_of_lt (ib q hq).2.1.2 (lt_of_lt_of_le h (ia p hp).2.1.1)
  have sy : (Vector2.yAxis : Vector2 S).separates cs ds = true ↔ real a.max.y < real b.min.y ∨ real b.max.y < real a.min.y := by
    rw [Vector2.separates_iff _ (List.ne_nil_of_mem cmin) (List.ne_nil_of_mem dmin) (fun p h => (Vector2.along_y (ia p h).1).1) (fun p h => (Vector2.along_y (ib p h).1).1)]
    refine or_congr ⟨fun h => ?_, fun h p hp q hq => ?_⟩ ⟨fun h => ?_, fun h p hp q hq => ?_⟩
    · have := h _ cmax _ dmin
      rwa [(Vector2.along_y ha.2).2, (Vector2.along_y hb.1).2] at this
    · rw [(Vector2.along_y (ia p hp).1).2, (Vector2.along_y (ib q hq).1).2]
      exact lt_of_le_of_lt (ia p hp).2.2.2 (lt_of_lt_of_le h (ib q hq).2.2.1)
    · have := h _ cmin _ dmax
      rwa [(Vector2.along_y ha.1).2, (Vector2.along_y hb.2).2] at this
    · rw [(Vector2.along_y (ia p hp).1).2, (Vector2.along_y (ib q hq).1).2]
      exact lt_of_le_of_lt (ib q hq).2.2.2 (lt_of_lt_of_le h (ia p hp).2.2.1)
  rw [sx, sy, ← Bool.not_eq_true, overlaps2_iff]
  obtain ⟨a1x, a1y⟩ := Point2.allFinite.1 ha.1; obtain ⟨a2x, a2y⟩ := Point2.allFinite.1 ha.2; obtain ⟨b1x, b1y⟩ := Point2.allFinite.1 hb.1; obtain ⟨b2x, b2y⟩ := Point2.allFinite.1 hb.2
  rw [ole_real' b1x a2x, ole_real' a1x b2x, ole_real' b1y a2y, ole_real' a1y b2y]
  simp only [not_and_or, not_le]
theorem Vector2.along_neg (n : Vector2 S) (p : Point2 S) : num ((-n).along p) = num (-(n.along p)) := by
  show num (-n.x * p.x + -n.y * p.y) = num (-(n.x * p.x + n.y * p.y))
  rw [← num_neg_add]
  exact num_add_congr (same_neg_mul _ _).num (same_neg_mul _ _).num
/-- **C125**: an axis and the opposite axis separate the same sets. -/
theorem C125_negate2 (n : Vector2 S) (ps qs : List (Point2 S)) (hp : ps ≠ []) (hq : qs ≠ []) (fp : ∀ p ∈ ps, IsFinite (n.along p))
    (fq : ∀ q ∈ qs, IsFinite (n.along q)) : (-n).separates ps qs = n.separates ps qs := by
  have e : ∀ p : Point2 S, IsFinite (n.along p) → IsFinite ((-n).along p) ∧ real ((-n).along p) = -real (n.along p) := fun p h =>
    ⟨(finite_num (n.along_neg p)).2 (finite_neg.2 h), (real_num (n.along_neg p)).trans (IEEE.real_neg _)⟩
  rw [Bool.eq_iff_iff, (-n).separates_iff hp hq (fun p h => (e p (fp p h)).1) (fun q h => (e q (fq q h)).1), n.separates_iff hp hq fp fq, or_comm]
  refine or_congr ?_ ?_ <;> refine forall₄_congr fun p hp q hq => ?_
  · rw [(e p (fp p hp)).2, (e q (fq q hq)).2, neg_lt_neg_iff]
  · rw [(e p (fp p hp)).2, (e q (fq q hq)).2, neg_lt_neg_iff]
end

section
variable {S : Type} [Scalar S] [IEEE S] [Binary S]
theorem Vector2.along_error (n : Vector2 S) (p : Point2 S) (h : IsFinite (n.along p)) :
    |real (n.along p) - n.toReal ⬝ᵥ p.toReal| ≤ ((1 + uro S) ^ 2 - 1) * (∑ i, |n.toReal i * p.toReal i|) + 2 * (1 + uro S) ^ (1) * tiny S := by
  have := C59_dot2 n (Vector2.fromPoint p) h
  rw [Fin.sum_univ_two, dotProduct, Fin.sum_univ_two]
  rw [pow_one]; exact this
/-- **C125**: if a computed gap is wider than twice the rounding error of a projection, the axis separates the convex hulls. -/
theorem C125_sound2 (n : Vector2 S) (ps qs : List (Point2 S)) (hp : ps ≠ []) (hq : qs ≠ []) (fp : ∀ p ∈ ps, IsFinite (n.along p))
    (fq : ∀ q ∈ qs, IsFinite (n.along q)) (E : ℝ)
    (hE : ∀ p, p ∈ ps ∨ p ∈ qs → ((1 + uro S) ^ 2 - 1) * (∑ i, |n.toReal i * p.toReal i|) + 2 * (1 + uro S) ^ (1) * tiny S ≤ E)
    (h : real (highest (ps.map n.along)) + 2 * E < real (lowest (qs.map n.along))) :
    (∀ x ∈ Point2.hull ps, ∀ y ∈ Point2.hull qs, n.toReal ⬝ᵥ x < n.toReal ⬝ᵥ y) ∧ Disjoint (Point2.hull ps) (Point2.hull qs) := by
  obtain ⟨-, m1, -⟩ := highest_real (ds := ps.map n.along) (by simpa using hp) (by simpa using fp)
  obtain ⟨-, m2, -⟩ := lowest_real (ds := qs.map n.along) (by simpa using hq) (by simpa using fq)
  have k : ∀ x ∈ Point2.hull ps, ∀ y ∈ Point2.hull qs, n.toReal ⬝ᵥ x < n.toReal ⬝ᵥ y := by
    refine hull_lt ?_
    rintro _ ⟨p, hp', rfl⟩ _ ⟨q, hq', rfl⟩
    have a := abs_le.1 ((n.along_error p (fp p hp')).trans (hE p (Or.inl hp')))
    have b := abs_le.1 ((n.along_error q (fq q hq')).trans (hE q (Or.inr hq')))
    have c := m1 _ (List.mem_map_of_mem (f := n.along) hp')
    have d := m2 _ (List.mem_map_of_mem (f := n.along) hq')
    linarith [a.1, b.2]
  exact ⟨k, Set.disjoint_left.2 fun x hx hy => lt_irrefl _ (k x hx x hy)⟩
/-- **C125**: if the exact projections are apart by more than twice the rounding error, the separation is found. -/
theorem C125_found2 (n : Vector2 S) (ps qs : List (Point2 S)) (hp : ps ≠ []) (hq : qs ≠ []) (fp : ∀ p ∈ ps, IsFinite (n.along p))
    (fq : ∀ q ∈ qs, IsFinite (n.along q)) (E : ℝ)
    (hE : ∀ p, p ∈ ps ∨ p ∈ qs → ((1 + uro S) ^ 2 - 1) * (∑ i, |n.toReal i * p.toReal i|) + 2 * (1 + uro S) ^ (1) * tiny S ≤ E)
    (h : ∀ p ∈ ps, ∀ q ∈ qs, n.toReal ⬝ᵥ p.toReal + 2 * E < n.toReal ⬝ᵥ q.toReal) : n.separates ps qs = true := by
  rw [n.separates_iff hp hq fp fq]
  left
  intro p hp' q hq'
  have a := abs_le.1 ((n.along_error p (fp p hp')).trans (hE p (Or.inl hp')))
  have b := abs_le.1 ((n.along_error q (fq q hq')).trans (hE q (Or.inr hq')))
  linarith [a.2, b.1, h p hp' q hq']
/-- **C125**: on a grid with room for the projections the answer is exactly right about the convex hulls. -/
theorem C125_exact2 {e f : ℤ} {M N : ℕ} (n : Vector2 S) (ps qs : List (Point2 S)) (hp : ps ≠ []) (hq : qs ≠ []) (hn : AllFinite n)
    (gn : ∀ i, OnGrid e M (n.toReal i)) (h : ∀ p, p ∈ ps ∨ p ∈ qs → AllFinite p ∧ ∀ i, OnGrid f N (p.toReal i)) (hF : Fits S (e + f) (2 * (M * N))) :
    n.separates ps qs = true ↔ (∀ x ∈ Point2.hull ps, ∀ y ∈ Point2.hull qs, n.toReal ⬝ᵥ x < n.toReal ⬝ᵥ y) ∨
      (∀ x ∈ Point2.hull ps, ∀ y ∈ Point2.hull qs, n.toReal ⬝ᵥ y < n.toReal ⬝ᵥ x) := by
  have k : ∀ p, p ∈ ps ∨ p ∈ qs → Exactly (n.along p) (n.toReal ⬝ᵥ p.toReal) := fun p hm =>
    C68_dot2 n (Vector2.fromPoint p) hn (Vector2.allFinite.2 (Point2.allFinite.1 (h p hm).1)) gn (h p hm).2 hF
  exact n.separates_hull ps qs hp hq k
end

/-! ## Dimension 3 -/
section
variable {S : Type} [Scalar S] [IEEE S]
theorem Vector3.separates_iff (n : Vector3 S) {ps qs : List (Point3 S)} (hp : ps ≠ []) (hq : qs ≠ []) (fp : ∀ p ∈ ps, IsFinite (n.along p))
    (fq : ∀ q ∈ qs, IsFinite (n.along q)) : n.separates ps qs = true ↔
      (∀ p ∈ ps, ∀ q ∈ qs, real (n.along p) < real (n.along q)) ∨ (∀ p ∈ ps, ∀ q ∈ qs, real (n.along q) < real (n.along p)) := by
  rw [Vector3.separates, Bool.or_eq_true, gap_map n.along hp hq fp fq, gap_map n.along hq hp fq fp]
  exact or_congr Iff.rfl ⟨fun h p hp q hq => h q hq p hp, fun h q hq p hp => h p hp q hq⟩
/-- **C125**: an axis separates two sets of points if and only if every point of one set is strictly before every point of the other. -/
theorem C125_iff3 (n : Vector3 S) (ps qs : List (Point3 S)) (hp : ps ≠ []) (hq : qs ≠ []) (fp : ∀ p ∈ ps, IsFinite (n.along p))
    (fq : ∀ q ∈ qs, IsFinite (n.along q)) : n.separates ps qs = true ↔
      (∀ p ∈ ps, ∀ q ∈ qs, (n.along p <? n.along q) = true) ∨ (∀ p ∈ ps, ∀ q ∈ qs, (n.along q <? n.along p) = true) := by
  rw [n.separates_iff hp hq fp fq]
  refine or_congr ?_ ?_ <;> refine forall₄_congr fun p hp q hq => ?_
  · exact (smaller_iff (fp p hp) (fq q hq)).symm
  · exact (smaller_iff (fq q hq) (fp p hp)).symm
/-- **C125**: it does not matter which set comes first. -/
theorem C125_symm3 (n : Vector3 S) (ps qs : List (Point3 S)) : n.separates ps qs = n.separates qs ps := Bool.or_comm _ _
/-- **C125**: the order of the points and repetitions do not matter. -/
theorem C125_members3 (n : Vector3 S) (ps qs ps' qs' : List (Point3 S)) (hp : ps ≠ []) (hq : qs ≠ []) (fp : ∀ p ∈ ps, IsFinite (n.along p))
    (fq : ∀ q ∈ qs, IsFinite (n.along q)) (ep : ∀ p, p ∈ ps' ↔ p ∈ ps) (eq : ∀ q, q ∈ qs' ↔ q ∈ qs) : n.separates ps' qs' = n.separates ps qs := by
  obtain ⟨p0, h0⟩ := List.exists_mem_of_ne_nil _ hp
  obtain ⟨q0, k0⟩ := List.exists_mem_of_ne_nil _ hq
  rw [Bool.eq_iff_iff, n.separates_iff hp hq fp fq, n.separates_iff (List.ne_nil_of_mem ((ep _).2 h0)) (List.ne_nil_of_mem ((eq _).2 k0))
    (fun p h => fp p ((ep p).1 h)) (fun q h => fq q ((eq q).1 h))]
  simp only [ep, eq]
/-- **C125**: an axis that separates two sets separates their subsets. -/
theorem C125_fewer3 (n : Vector3 S) (ps qs ps' qs' : List (Point3 S)) (hp : ps' ≠ []) (hq : qs' ≠ []) (fp : ∀ p ∈ ps, IsFinite (n.along p))
    (fq : ∀ q ∈ qs, IsFinite (n.along q)) (ep : ∀ p ∈ ps', p ∈ ps) (eq : ∀ q ∈ qs', q ∈ qs) (h : n.separates ps qs = true) : n.separates ps' qs' = true := by
  obtain ⟨p0, h0⟩ := List.exists_mem_of_ne_nil _ hp
  obtain ⟨q0, k0⟩ := List.exists_mem_of_ne_nil _ hq
  rw [n.separates_iff (List.ne_nil_of_mem (ep _ h0)) (List.ne_nil_of_mem (eq _ k0)) fp fq] at h
  rw [n.separates_iff hp hq (fun p h => fp p (ep p h)) (fun q h => fq q (eq q h))]
  exact h.imp (fun h p hp q hq => h p (ep p hp) q (eq q hq)) (fun h p hp q hq => h p (ep p hp) q (eq q hq))
/-- If the projections are computed exactly, the answer is right about the convex hulls. -/
theorem Vector3.separates_hull (n : Vector3 S) (ps qs : List (Point3 S)) (hp : ps ≠ []) (hq : qs ≠ [])
    (k : ∀ p, p ∈ ps ∨ p ∈ qs → Exactly (n.along p) (n.toReal ⬝ᵥ p.toReal)) :
    n.separates ps qs = true ↔ (∀ x ∈ Point3.hull ps, ∀ y ∈ Point3.hull qs, n.toReal ⬝ᵥ x < n.toReal ⬝ᵥ y) ∨
      (∀ x ∈ Point3.hull ps, ∀ y ∈ Point3.hull qs, n.toReal ⬝ᵥ y < n.toReal ⬝ᵥ x) := by
  rw [n.separates_iff hp hq (fun p h => (k p (Or.inl h)).1) (fun q h => (k q (Or.inr h)).1)]
  constructor
  · rintro (w | w)
    · left
      refine hull_lt ?_
      rintro _ ⟨p, hp', rfl⟩ _ ⟨q, hq', rfl⟩
      rw [← (k p (Or.inl hp')).2, ← (k q (Or.inr hq')).2]
      exact w p hp' q hq'
    · right
      intro x hx y hy
      refine hull_lt ?_ y hy x hx
      rintro _ ⟨q, hq', rfl⟩ _ ⟨p, hp', rfl⟩
      rw [← (k p (Or.inl hp')).2, ← (k q (Or.inr hq')).2]
      exact w p hp' q hq'
  · rintro (w | w)
    · left
      intro p hp' q hq'
      rw [(k p (Or.inl hp')).2, (k q (Or.inr hq')).2]
      exact w _ (subset_convexHull ℝ _ ⟨p, hp', rfl⟩) _ (subset_convexHull ℝ _ ⟨q, hq', rfl⟩)
    · right
      intro p hp' q hq'
      rw [(k p (Or.inl hp')).2, (k q (Or.inr hq')).2]
      exact w _ (subset_convexHull ℝ _ ⟨p, hp', rfl⟩) _ (subset_convexHull ℝ _ ⟨q, hq', rfl⟩)
theorem Vector3.along_x {p : Point3 S} (h : AllFinite p) : IsFinite ((Vector3.xAxis : Vector3 S).along p) ∧ real ((Vector3.xAxis : Vector3 S).along p) = real p.x := by
  have h := Point3.allFinite.1 h
  have e : num ((Vector3.xAxis : Vector3 S).along p) = num p.x := by
    show num ((one : S) * p.x + (Scalar.zero : S) * p.y + (Scalar.zero : S) * p.z) = _
    rw [num_add_congr rfl (IEEE.num_zero_mul h.2.2), num_add_zero, num_add_congr rfl (IEEE.num_zero_mul h.2.1), num_add_zero]; exact num_one_mul _
  exact ⟨(finite_num e).2 (by tauto), real_num e⟩
theorem Vector3.along_y {p : Point3 S} (h : AllFinite p) : IsFinite ((Vector3.yAxis : Vector3 S).along p) ∧ real ((Vector3.yAxis : Vector3 S).along p) = real p.y := by
  have h := Point3.allFinite.1 h
  have e : num ((Vector3.yAxis : Vector3 S).along p) = num p.y := by
    show num ((Scalar.zero : S) * p.x + (one : S) * p.y + (Scalar.zero : S) * p.z) = _
    rw [num_add_congr rfl (IEEE.num_zero_mul h.2.2), num_add_zero, num_add_congr (IEEE.num_zero_mul h.1) rfl, num_zero_add]; exact num_one_mul _
  exact ⟨(finite_num e).2 (by tauto), real_num e⟩
theorem Vector3.along_z {p : Point3 S} (h : AllFinite p) : IsFinite ((Vector3.zAxis : Vector3 S).along p) ∧ real ((Vector3.zAxis : Vector3 S).along p) = real p.z := by
  have h := Point3.allFinite.1 h
  have e : num ((Vector3.zAxis : Vector3 S).along p) = num p.z := by
    show num ((Scalar.zero : S) * p.x + (Scalar.zero : S) * p.y + (one : S) * p.z) = _
    rw [num_add_congr (num_add_congr (IEEE.num_zero_mul h.1) (IEEE.num_zero_mul h.2.1)) rfl, num_add_congr (num_add_zero _) rfl, num_zero_add]; exact num_one_mul _
  exact ⟨(finite_num e).2 (by tauto), real_num e⟩
theorem inside3_real (a : BoundingBox3 S) (ha : AllFinite a.min ∧ AllFinite a.max) {p : Point3 S} (h : a.isInside p = true) :
    AllFinite p ∧ ((real a.min.x ≤ real p.x ∧ real p.x ≤ real a.max.x) ∧ (real a.min.y ≤ real p.y ∧ real p.y ≤ real a.max.y) ∧ (real a.min.z ≤ real p.z ∧ real p.z ≤ real a.max.z)) := by
  obtain ⟨⟨w1x, w2x⟩, ⟨w1y, w2y⟩, ⟨w1z, w2z⟩⟩ := isInside3_iff.1 h
  have h1 := Point3.allFinite.1 ha.1
  have h2 := Point3.allFinite.1 ha.2
  obtain ⟨fx1, gx1⟩ := le_finite w1x w2x (by tauto) (by tauto)
  obtain ⟨fy1, gy1⟩ := le_finite w1y w2y (by tauto) (by tauto)
  obtain ⟨fz1, gz1⟩ := le_finite w1z w2z (by tauto) (by tauto)
  rw [Point3.allFinite]
  tauto
/-- **C125**: two boxes do not overlap if and only if an axis of the coordinate system separates their corners. -/
theorem C125_boxes3 (a b : BoundingBox3 S) (build : Build) (cs ds : List (Point3 S)) (ha : AllFinite a.min ∧ AllFinite a.max) (hb : AllFinite b.min ∧ AllFinite b.max)
    (la : LeAll a.min a.max) (lb : LeAll b.min b.max) (hc : ∀ p, p ∈ cs ↔ ∃ k : UInt32, k < 8 ∧ a.corner build k = .ok p)
    (hd : ∀ p, p ∈ ds ↔ ∃ k : UInt32, k < 8 ∧ b.corner build k = .ok p) :
    a.overlaps b = false ↔ (Vector3.xAxis : Vector3 S).separates cs ds = true ∨ (Vector3.yAxis : Vector3 S).separates cs ds = true ∨ (Vector3.zAxis : Vector3 S).separates cs ds = true := by
  have cmin : a.min ∈ cs := (hc _).2 ⟨0, by decide, by cases build <;> rfl⟩
  have cmax : a.max ∈ cs := (hc _).2 ⟨7, by decide, by cases build <;> rfl⟩
  have dmin : b.min ∈ ds := (hd _).2 ⟨0, by decide, by cases build <;> rfl⟩
  have dmax : b.max ∈ ds := (hd _).2 ⟨7, by decide, by cases build <;> rfl⟩
  have ia : ∀ p ∈ cs, AllFinite p ∧ ((real a.min.x ≤ real p.x ∧ real p.x ≤ real a.max.x) ∧ (real a.min.y ≤ real p.y ∧ real p.y ≤ real a.max.y) ∧ (real a.min.z ≤ real p.z ∧ real p.z ≤ real a.max.z)) := by
    intro p hp
    obtain ⟨k, -, hk⟩ := (hc p).1 hp
    exact inside3_real a ha (C33_inside3 a la build k p hk)
  have ib : ∀ p ∈ ds, AllFinite p ∧ ((real b.min.x ≤ real p.x ∧ real p.x ≤ real b.max.x) ∧ (real b.min.y ≤ real p.y ∧ real p.y ≤ real b.max.y) ∧ (real b.min.z ≤ real p.z ∧ real p.z ≤ real b.max.z)) := by
    intro p hp
    obtain ⟨k, -, hk⟩ := (hd p).1 hp
    exact inside3_real b hb (C33_inside3 b lb build k p hk)
  have sx : (Vector3.xAxis : Vector3 S).separates cs ds = true ↔ real a.max.x < real b.min.x ∨ real b.max.x < real a.min.x := by
    rw [Vector3.separates_iff _ (List.ne_nil_of_mem cmin) (List.ne_nil_of_mem dmin) (fun p h => (Vector3.along_x (ia p h).1).1) (fun p h => (Vector3.along_x (ib p h).1).1)]
    refine or_congr ⟨fun h => ?_, fun h p hp q hq => ?_⟩ ⟨fun h => ?_, fun h p hp q hq => ?_⟩
    · have := h _ cmax _ dmin
      rwa [(Vector3.along_x ha.2).2, (Vector3.along_x hb.1).2] at this
    · rw [(Vector3.along_x (ia p hp).1).2, (Vector3.along_x (ib q hq).1).2]
      exact lt_of_le_of_lt (ia p hp).2.1.2 (lt_of_lt_of_le h (ib q hq).2.1.1)
    · have := h _ cmin _ dmax
      rwa [(Vector3.along_x ha.1).2, (Vector3.along_x hb.2).2] at this
    · rw [(Vector3.along_x (ia p hp).1).2, (Vector3.along_x (ib q hq).1).2]
      exact lt_of_le_of_lt (ib q hq).2.1.2 (lt_of_lt_of_le h (ia p hp).2.1.1)
  have sy : (Vector3.yAxis : Vector3 S).separates cs ds = true ↔ real a.max.y < real b.min.y ∨ real b.max.y < real a.min.y := by
    rw [Vector3.separates_iff _ (List.ne_nil_of_mem cmin) (List.ne_nil_of_mem dmin) (fun p h => (Vector3.along_y (ia p h).1).1) (fun p h => (Vector3.along_y (ib p h).1).1)]
    refine or_congr ⟨fun h => ?_, fun h p hp q hq => ?_⟩ ⟨fun h => ?_, fun h p hp q hq => ?_⟩
    · have := h _ cmax _ dmin
      rwa [(Vector3.along_y ha.2).2, (Vector3.along_y hb.1).2] at this
    · rw [(Vector3.along_y (ia p hp).1).2, (Vector3.along_y (ib q hq).1).2]
      exact lt_of_le_of_lt (ia p hp).2.2.1.2 (lt_of_lt_of_le h (ib q hq).2.2.1.1)
    · have := h _ cmin _ dmax
      rwa [(Vector3.along_y ha.1).2, (Vector3.along_y hb.2).2] at this
    · rw [(Vector3.along_y (ia p hp).1).2, (Vector3.along_y (ib q hq).1).2]
      exact lt_of_le_of_lt (ib q hq).2.2.1.2 (lt_of_lt_of_le h (ia p hp).2.2.1.1)
  have sz : (Vector3.zAxis : Vector3 S).separates cs ds = true ↔ real a.max.z < real b.min.z ∨ real b.max.z < real a.min.z := by
    rw [Vector3.separates_iff _ (List.ne_nil_of_mem cmin) (List.ne_nil_of_mem dmin) (fun p h => (Vector3.along_z (ia p h).1).1) (fun p h => (Vector3.along_z (ib p h).1).1)]
    refine or_congr ⟨fun h => ?_, fun h p hp q hq => ?_⟩ ⟨fun h => ?_, fun h p hp q hq => ?_⟩
    · have := h _ cmax _ dmin
      rwa [(Vector3.along_z ha.2).2, (Vector3.along_z hb.1).2] at this
    · rw [(Vector3.along_z (ia p hp).1).2, (Vector3.along_z (ib q hq).1).2]
      exact lt_of_le_of_lt (ia p hp).2.2.2.2 (lt_of_lt_of_le h (ib q hq).2.2.2.1)
    · have := h _ cmin _ dmax
      rwa [(Vector3.along_z ha.1).2, (Vector3.along_z hb.2).2] at this
    · rw [(Vector3.along_z (ia p hp).1).2, (Vector3.along_z (ib q hq).1).2]
      exact lt_of_le_of_lt (ib q hq).2.2.2.2 (lt_of_lt_of_le h (ia p hp).2.2.2.1)
  rw [sx, sy, sz, ← Bool.not_eq_true, overlaps3_iff]
  obtain ⟨a1x, a1y, a1z⟩ := Point3.allFinite.1 ha.1; obtain ⟨a2x, a2y, a2z⟩ := Point3.allFinite.1 ha.2; obtain ⟨b1x, b1y, b1z⟩ := Point3.allFinite.1 hb.1; obtain ⟨b2x, b2y, b2z⟩ := Point3.allFinite.1 hb.2
  rw [ole_real' b1x a2x, ole_real' a1x b2x, ole_real' b1y a2y, ole_real' a1y b2y, ole_real' b1z a2z, ole_real' a1z b2z]
  simp only [not_and_or, not_le]
theorem Vector3.along_neg (n : Vector3 S) (p : Point3 S) : num ((-n).along p) = num (-(n.along p)) := by
  show num (-n.x * p.x + -n.y * p.y + -n.z * p.z) = num (-(n.x * p.x + n.y * p.y + n.z * p.z))
  rw [← num_neg_add]
  refine num_add_congr ?_ (same_neg_mul _ _).num
  rw [← num_neg_add]
  exact num_add_congr (same_neg_mul _ _).num (same_neg_mul _ _).num
/-- **C125**: an axis and the opposite axis separate the same sets. -/
theorem C125_negate3 (n : Vector3 S) (ps qs : List (Point3 S)) (hp : ps ≠ []) (hq : qs ≠ []) (fp : ∀ p ∈ ps, IsFinite (n.along p))
    (fq : ∀ q ∈ qs, IsFinite (n.along q)) : (-n).separates ps qs = n.separates ps qs := by
  have e : ∀ p : Point3 S, IsFinite (n.along p) → IsFinite ((-n).along p) ∧ real ((-n).along p) = -real (n.along p) := fun p h =>
    ⟨(finite_num (n.along_neg p)).2 (finite_neg.2 h), (real_num (n.along_neg p)).trans (IEEE.real_neg _)⟩
  rw [Bool.eq_iff_iff, (-n).separates_iff hp hq (fun p h => (e p (fp p h)).1) (fun q h => (e q (fq q h)).1), n.separates_iff hp hq fp fq, or_comm]
  refine or_congr ?_ ?_ <;> refine forall₄_congr fun p hp q hq => ?_
  · rw [(e p (fp p hp)).2, (e q (fq q hq)).2, neg_lt_neg_iff]
  · rw [(e p (fp p hp)).2, (e q (fq q hq)).2, neg_lt_neg_iff]
end

section
variable {S : Type} [Scalar S] [IEEE S] [Binary S]
theorem Vector3.along_error (n : Vector3 S) (p : Point3 S) (h : IsFinite (n.along p)) :
    |real (n.along p) - n.toReal ⬝ᵥ p.toReal| ≤ ((1 + uro S) ^ 3 - 1) * (∑ i, |n.toReal i * p.toReal i|) + 3 * (1 + uro S) ^ (2) * tiny S := by
  have := C59_dot3 n (Vector3.fromPoint p) h
  rw [Fin.sum_univ_three, dotProduct, Fin.sum_univ_three]
  exact this
/-- **C125**: if a computed gap is wider than twice the rounding error of a projection, the axis separates the convex hulls. -/
theorem C125_sound3 (n : Vector3 S) (ps qs : List (Point3 S)) (hp : ps ≠ []) (hq : qs ≠ []) (fp : ∀ p ∈ ps, IsFinite (n.along p))
    (fq : ∀ q ∈ qs, IsFinite (n.along q)) (E : ℝ)
    (hE : ∀ p, p ∈ ps ∨ p ∈ qs → ((1 + uro S) ^ 3 - 1) * (∑ i, |n.toReal i * p.toReal i|) + 3 * (1 + uro S) ^ (2) * tiny S ≤ E)
    (h : real (highest (ps.map n.along)) + 2 * E < real (lowest (qs.map n.along))) :
    (∀ x ∈ Point3.hull ps, ∀ y ∈ Point3.hull qs, n.toReal ⬝ᵥ x < n.toReal ⬝ᵥ y) ∧ Disjoint (Point3.hull ps) (Point3.hull qs) := by
  obtain ⟨-, m1, -⟩ := highest_real (ds := ps.map n.along) (by simpa using hp) (by simpa using fp)
  obtain ⟨-, m2, -⟩ := lowest_real (ds := qs.map n.along) (by simpa using hq) (by simpa using fq)
  have k : ∀ x ∈ Point3.hull ps, ∀ y ∈ Point3.hull qs, n.toReal ⬝ᵥ x < n.toReal ⬝ᵥ y := by
    refine hull_lt ?_
    rintro _ ⟨p, hp', rfl⟩ _ ⟨q, hq', rfl⟩
    have a := abs_le.1 ((n.along_error p (fp p hp')).trans (hE p (Or.inl hp')))
    have b := abs_le.1 ((n.along_error q (fq q hq')).trans (hE q (Or.inr hq')))
    have c := m1 _ (List.mem_map_of_mem (f := n.along) hp')
    have d := m2 _ (List.mem_map_of_mem (f := n.along) hq')
    linarith [a.1, b.2]
  exact ⟨k, Set.disjoint_left.2 fun x hx hy => lt_irrefl _ (k x hx x hy)⟩
/-- **C125**: if the exact projections are apart by more than twice the rounding error, the separation is found. -/
theorem C125_found3 (n : Vector3 S) (ps qs : List (Point3 S)) (hp : ps ≠ []) (hq : qs ≠ []) (fp : ∀ p ∈ ps, IsFinite (n.along p))
    (fq : ∀ q ∈ qs, IsFinite (n.along q)) (E : ℝ)
    (hE : ∀ p, p ∈ ps ∨ p ∈ qs → ((1 + uro S) ^ 3 - 1) * (∑ i, |n.toReal i * p.toReal i|) + 3 * (1 + uro S) ^ (2) * tiny S ≤ E)
    (h : ∀ p ∈ ps, ∀ q ∈ qs, n.toReal ⬝ᵥ p.toReal + 2 * E < n.toReal ⬝ᵥ q.toReal) : n.separates ps qs = true := by
  rw [n.separates_iff hp hq fp fq]
  left
  intro p hp' q hq'
  have a := abs_le.1 ((n.along_error p (fp p hp')).trans (hE p (Or.inl hp')))
  have b := abs_le.1 ((n.along_error q (fq q hq')).trans (hE q (Or.inr hq')))
  linarith [a.2, b.1, h p hp' q hq']
/-- **C125**: on a grid with room for the projections the answer is exactly right about the convex hulls. -/
theorem C125_exact3 {e f : ℤ} {M N : ℕ} (n : Vector3 S) (ps qs : List (Point3 S)) (hp : ps ≠ []) (hq : qs ≠ []) (hn : AllFinite n)
    (gn : ∀ i, OnGrid e M (n.toReal i)) (h : ∀ p, p ∈ ps ∨ p ∈ qs → AllFinite p ∧ ∀ i, OnGrid f N (p.toReal i)) (hF : Fits S (e + f) (3 * (M * N))) :
    n.separates ps qs = true ↔ (∀ x ∈ Point3.hull ps, ∀ y ∈ Point3.hull qs, n.toReal ⬝ᵥ x < n.toReal ⬝ᵥ y) ∨
      (∀ x ∈ Point3.hull ps, ∀ y ∈ Point3.hull qs, n.toReal ⬝ᵥ y < n.toReal ⬝ᵥ x) := by
  have k : ∀ p, p ∈ ps ∨ p ∈ qs → Exactly (n.along p) (n.toReal ⬝ᵥ p.toReal) := fun p hm =>
    C68_dot3 n (Vector3.fromPoint p) hn (Vector3.allFinite.2 (Point3.allFinite.1 (h p hm).1)) gn (h p hm).2 hF
  exact n.separates_hull ps qs hp hq k
end
end VecMath
