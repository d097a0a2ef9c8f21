import Verif.Lemmas.Mono
import Verif.Lemmas.FloatSlab
import Verif.Spec.Tree
/-!
# Layer F: hierarchical culling is conservative (C70)

A bounding-volume hierarchy tests a ray against an outer box first and skips what is inside when that test reports no
intersection. This file shows that the rounded test never loses a hit that way: the outer test reports every hit of
the inner one, with a range containing the inner range. No accuracy or overflow hypothesis is made: the only
exception is the documented one (C37), a ray running exactly in the plane of one face of the outer box.
-/

open Classical

namespace VecMath
open Scalar IEEE

section
variable {S : Type} [Scalar S] [IEEE S]

/-- A number over a nonzero number is a number. -/
theorem not_nan_div {a d : S} (ha : ¬ IsNaN a) (hd : IsFinite d) (h0 : real d ≠ 0) : ¬ IsNaN (a / d) := by
  unfold IsNaN IsFinite real at *
  rw [den_div]
  induction h : den a using Val.cases_inf_fin with
  | hn => exact absurd h ha
  | hi s => rw [Rounding.div_inf_fin _ _ hd]; simp
  | hf x hx => rw [Rounding.div_fin _ hx hd, if_neg h0]; exact Rounding.finish_ne_nan _ _ _
/-- A number other than zero over a zero is an infinity. -/
theorem den_div_zero' {a d : S} (ha : ¬ IsNaN a) (hv : val a ≠ 0) (hd : IsFinite d) (h0 : real d = 0) :
    den (a / d) = .inf (decide (val a < 0) ^^ (den d).neg?) := by
  by_cases hf : IsFinite a
  · have : real a ≠ 0 := fun h => hv (by rw [hf.val, h]; rfl)
    rw [den_div_zero hf hd this h0, hf.val]
    congr 2
    simp
  · rcases Val.not_isFin_iff.1 hf with h | ⟨s, h⟩
    · exact absurd h ha
    · unfold val
      rw [den_div, h, Rounding.div_inf_fin _ _ hd]
      cases s <;> simp
end

section
variable {S : Type} [Scalar S] [IEEE S] [Binary S] {lo hi x o d : S}

/-- A difference of finite numbers is zero only if they are equal. -/
theorem val_sub_ne {a b : S} (hn : ¬ IsNaN (a - b)) (h : real b ≠ real a) : val (a - b) ≠ 0 := by
  intro hv
  by_cases hf : IsFinite (a - b)
  · rw [hf.val, ← EReal.coe_zero, EReal.coe_eq_coe_iff] at hv
    obtain ⟨h1, h2⟩ := real_sub_sign hf
    exact h (le_antisymm (h1.1 hv.ge) (h2.1 hv.le))
  · rcases Val.not_isFin_iff.1 hf with h | ⟨s, h⟩
    · exact absurd h hn
    · unfold val at hv
      rw [h] at hv
      cases s <;> simp at hv

/-- The parameters at which a ray crosses the planes of a slab bracket those at which it crosses a plane inside. -/
theorem slab_mono (fl : IsFinite lo) (fh : IsFinite hi) (fo : IsFinite o) (fd : IsFinite d) (ho : OffFace lo hi o d)
    (h1 : (lo ≤? x) = true) (h2 : (x ≤? hi) = true) :
    (¬ IsNaN (fmin ((lo - o) / d) ((hi - o) / d)) →
      (¬ IsNaN ((x - o) / d) → val (fmin ((lo - o) / d) ((hi - o) / d)) ≤ val ((x - o) / d)) ∧
      (IsNaN ((x - o) / d) → val (fmin ((lo - o) / d) ((hi - o) / d)) = ⊥)) ∧
    (¬ IsNaN (fmax ((lo - o) / d) ((hi - o) / d)) →
      (¬ IsNaN ((x - o) / d) → val ((x - o) / d) ≤ val (fmax ((lo - o) / d) ((hi - o) / d))) ∧
      (IsNaN ((x - o) / d) → val (fmax ((lo - o) / d) ((hi - o) / d)) = ⊤)) := by
  have h1 := le_iff.1 h1
  have h2 := le_iff.1 h2
  have nl := isNaN_sub_finite fo fl.not_nan
  have nh := isNaN_sub_finite fo fh.not_nan
  have nx := isNaN_sub_finite fo h1.2.1
  have m1 := val_sub_mono h1.2.2 le_rfl nl nx
  have m2 := val_sub_mono h2.2.2 le_rfl nx nh
  by_cases hd : real d = 0
  · by_cases he : real o = real lo
    · have he' := (ho hd).1 he
      have key : ∀ {a : S}, IsFinite a → real o = real a → IsNaN ((a - o) / d) := by
        intro a ha h
        have e : real (a - o) = 0 ∧ IsFinite (a - o) := by
          have := sub_finite ha fo
          rw [h, sub_self] at this
          unfold real IsFinite
          rw [this]
          constructor
          · simp
          · simp
        exact nan_div_zero e.2 fd e.1 hd
      have x1 := key fl he
      have x2 := key fh he'
      exact ⟨fun h => absurd (isNaN_min.2 ⟨x1, x2⟩) h, fun h => absurd (isNaN_max.2 ⟨x1, x2⟩) h⟩
    · have he' := mt (ho hd).2 he
      have vl := val_sub_ne nl he
      have vh := val_sub_ne nh he'
      have d1 := den_div_zero' nl vl fd hd
      have d2 := den_div_zero' nh vh fd hd
      obtain ⟨n1, v1⟩ := val_inf d1
      obtain ⟨n2, v2⟩ := val_inf d2
      rw [val_min n1 n2, val_max n1 n2]
      rcases lt_or_gt_of_ne vl with hl | hl
      · rcases lt_or_gt_of_ne vh with hh | hh
        · have vx := (m2.trans_lt hh)
          obtain ⟨n3, v3⟩ := val_inf (den_div_zero' nx vx.ne fd hd)
          rw [decide_eq_true hl] at v1
          rw [decide_eq_true hh] at v2
          rw [decide_eq_true vx] at v3
          rw [v1, v2, v3]
          simp [n3]
        · rw [decide_eq_true hl] at v1
          rw [decide_eq_false (not_lt.2 hh.le)] at v2
          rw [v1, v2]
          cases (den d).neg? <;> simp
      · have vx := hl.trans_le m1
        have hh := vx.trans_le m2
        obtain ⟨n3, v3⟩ := val_inf (den_div_zero' nx vx.ne' fd hd)
        rw [decide_eq_false (not_lt.2 hl.le)] at v1
        rw [decide_eq_false (not_lt.2 hh.le)] at v2
        rw [decide_eq_false (not_lt.2 vx.le)] at v3
        rw [v1, v2, v3]
        simp [n3]
  · have q1 := not_nan_div nl fd hd
    have q2 := not_nan_div nh fd hd
    have q3 := not_nan_div nx fd hd
    rw [val_min q1 q2, val_max q1 q2]
    simp only [q3, not_false_eq_true, forall_const, false_imp_iff, and_true, implies_true]
    rcases lt_or_gt_of_ne hd with h | h
    · exact ⟨fun _ => min_le_of_right_le (val_div_anti m2 nx nh fd h), fun _ => le_max_of_le_left (val_div_anti m1 nl nx fd h)⟩
    · exact ⟨fun _ => min_le_of_left_le (val_div_mono m1 nl nx fd h), fun _ => le_max_of_le_right (val_div_mono m2 nx nh fd h)⟩

/-- The same for an inner slab. -/
theorem slab_nested {l h : S} (fl : IsFinite lo) (fh : IsFinite hi) (fo : IsFinite o) (fd : IsFinite d)
    (ho : OffFace lo hi o d) (h1 : (lo ≤? l) = true) (h2 : (l ≤? h) = true) (h3 : (h ≤? hi) = true) :
    (¬ IsNaN (fmin ((lo - o) / d) ((hi - o) / d)) →
      (¬ IsNaN (fmin ((l - o) / d) ((h - o) / d)) →
        val (fmin ((lo - o) / d) ((hi - o) / d)) ≤ val (fmin ((l - o) / d) ((h - o) / d))) ∧
      (IsNaN (fmin ((l - o) / d) ((h - o) / d)) → val (fmin ((lo - o) / d) ((hi - o) / d)) = ⊥)) ∧
    (¬ IsNaN (fmax ((lo - o) / d) ((hi - o) / d)) →
      (¬ IsNaN (fmax ((l - o) / d) ((h - o) / d)) →
        val (fmax ((l - o) / d) ((h - o) / d)) ≤ val (fmax ((lo - o) / d) ((hi - o) / d))) ∧
      (IsNaN (fmax ((l - o) / d) ((h - o) / d)) → val (fmax ((lo - o) / d) ((hi - o) / d)) = ⊤)) := by
  obtain ⟨a1, a2⟩ := slab_mono fl fh fo fd ho h1 (le_trans' h2 h3)
  obtain ⟨b1, b2⟩ := slab_mono fl fh fo fd ho (le_trans' h1 h2) h3
  refine ⟨fun hn => ⟨fun hm => ?_, fun hm => (a1 hn).2 (isNaN_min.1 hm).1⟩,
    fun hn => ⟨fun hm => ?_, fun hm => (a2 hn).2 (isNaN_max.1 hm).1⟩⟩
  · rcases min_same (a := (l - o) / d) (b := (h - o) / d) with hs | hs
    · rw [hs.isNaN] at hm; rw [hs.val]; exact (a1 hn).1 hm
    · rw [hs.isNaN] at hm; rw [hs.val]; exact (b1 hn).1 hm
  · rcases max_same (a := (l - o) / d) (b := (h - o) / d) with hs | hs
    · rw [hs.isNaN] at hm; rw [hs.val]; exact (a2 hn).1 hm
    · rw [hs.isNaN] at hm; rw [hs.val]; exact (b2 hn).1 hm

/-- The running range `s..e` of the inner test lies in the running range `S..E` of the outer one. -/
structure Nested (s e s' e' : S) : Prop where
  ns : ¬ IsNaN s
  ne : ¬ IsNaN e
  ns' : ¬ IsNaN s'
  ne' : ¬ IsNaN e'
  start : val s' ≤ val s
  stop : val e ≤ val e'

namespace Nested
variable {s e s' e' : S}
omit [Binary S] in
theorem init : Nested (Scalar.zero : S) infinity Scalar.zero infinity :=
  ⟨not_nan_zero, not_nan_infinity, not_nan_zero, not_nan_infinity, le_rfl, le_rfl⟩
theorem step {l h : S} (i : Nested s e s' e') (fl : IsFinite lo) (fh : IsFinite hi) (fo : IsFinite o) (fd : IsFinite d)
    (ho : OffFace lo hi o d) (h1 : (lo ≤? l) = true) (h2 : (l ≤? h) = true) (h3 : (h ≤? hi) = true) :
    Nested (fmax s (fmin ((l - o) / d) ((h - o) / d))) (fmin e (fmax ((l - o) / d) ((h - o) / d)))
      (fmax s' (fmin ((lo - o) / d) ((hi - o) / d))) (fmin e' (fmax ((lo - o) / d) ((hi - o) / d))) := by
  obtain ⟨g1, g2⟩ := slab_nested fl fh fo fd ho h1 h2 h3
  obtain ⟨a1, a2, a3, -⟩ := fmax_step (n := fmin ((l - o) / d) ((h - o) / d)) i.ns
  obtain ⟨b1, -, -, b4⟩ := fmax_step (n := fmin ((lo - o) / d) ((hi - o) / d)) i.ns'
  obtain ⟨c1, c2, c3, -⟩ := fmin_step (n := fmax ((l - o) / d) ((h - o) / d)) i.ne
  obtain ⟨d1, -, -, d4⟩ := fmin_step (n := fmax ((lo - o) / d) ((hi - o) / d)) i.ne'
  refine ⟨a1, c1, b1, d1, b4 _ (i.start.trans a2) fun hn => ?_, d4 _ (c2.trans i.stop) fun hn => ?_⟩
  · by_cases hm : IsNaN (fmin ((l - o) / d) ((h - o) / d))
    · rw [(g1 hn).2 hm]; exact bot_le
    · exact ((g1 hn).1 hm).trans (a3 hm)
  · by_cases hm : IsNaN (fmax ((l - o) / d) ((h - o) / d))
    · rw [(g2 hn).2 hm]; exact le_top
    · exact (c3 hm).trans ((g2 hn).1 hm)
omit [Binary S] in
theorem not_gt (i : Nested s e s' e') (h : ¬ (s >? e) = true) : ¬ (s' >? e') = true := by
  intro hc
  refine h (lt_iff.2 ⟨i.ne, i.ns, ?_⟩)
  exact i.stop.trans_lt ((lt_iff.1 hc).2.2.trans_le i.start)
omit [Binary S] in
theorem hit (i : Nested s e s' e') (h : (s ≤? e) = true) :
    (s' ≤? e') = true ∧ (s' ≤? s) = true ∧ (e ≤? e') = true :=
  ⟨le_iff.2 ⟨i.ns', i.ne', i.start.trans ((le_iff.1 h).2.2.trans i.stop)⟩, le_iff.2 ⟨i.ns', i.ns, i.start⟩,
    le_iff.2 ⟨i.ne, i.ne', i.stop⟩⟩
end Nested

/-! ## C70 -/

/-- **C70**, 2D: a ray that hits a box hits every box around it, over a range containing the inner one. -/
theorem C70_nested2 (a b : BoundingBox2 S) (r : Ray2 S) (ha : LeAll a.min a.max) (hb : AllFinite b)
    (ho : AllFinite r.origin) (hd : AllFinite r.direction) (hs : ∀ p, a.isInside p = true → b.isInside p = true)
    (hf : OffFaces2 b r) (i : Range S) (hi : Api.intersect a r = some i) :
    ∃ j : Range S, Api.intersect b r = some j ∧ (j.start ≤? i.start) = true ∧ (i.stop ≤? j.stop) = true := by
  obtain ⟨h1, h2⟩ := (subset2_iff ha).1 hs
  rw [Point2.leAll] at ha h1 h2
  rw [BoundingBox2.allFinite, Point2.allFinite, Point2.allFinite] at hb
  rw [Point2.allFinite] at ho
  rw [Vector2.allFinite] at hd
  have n1 := Nested.init.step hb.1.1 hb.2.1 ho.1 hd.1 hf.1 h1.1 ha.1 h2.1
  have n2 := n1.step hb.1.2 hb.2.2 ho.2 hd.2 hf.2 h1.2 ha.2 h2.2
  change BoundingBox2.intersectRay a r = some i at hi
  simp only [BoundingBox2.intersectRay] at hi
  split_ifs at hi with g1 g2
  obtain ⟨k1, k2, k3⟩ := n2.hit g2
  obtain rfl := Option.some.inj hi
  refine ⟨⟨_, _⟩, ?_, k2, k3⟩
  show BoundingBox2.intersectRay b r = _
  unfold BoundingBox2.intersectRay
  exact (if_neg (n1.not_gt g1)).trans (if_pos k1)
/-- **C70**, 3D. -/
theorem C70_nested3 (a b : BoundingBox3 S) (r : Ray3 S) (ha : LeAll a.min a.max) (hb : AllFinite b)
    (ho : AllFinite r.origin) (hd : AllFinite r.direction) (hs : ∀ p, a.isInside p = true → b.isInside p = true)
    (hf : OffFaces3 b r) (i : Range S) (hi : Api.intersect a r = some i) :
    ∃ j : Range S, Api.intersect b r = some j ∧ (j.start ≤? i.start) = true ∧ (i.stop ≤? j.stop) = true := by
  obtain ⟨h1, h2⟩ := (subset3_iff ha).1 hs
  rw [Point3.leAll] at ha h1 h2
  rw [BoundingBox3.allFinite, Point3.allFinite, Point3.allFinite] at hb
  rw [Point3.allFinite] at ho
  rw [Vector3.allFinite] at hd
  have n1 := Nested.init.step hb.1.1 hb.2.1 ho.1 hd.1 hf.1 h1.1 ha.1 h2.1
  have n2 := n1.step hb.1.2.1 hb.2.2.1 ho.2.1 hd.2.1 hf.2.1 h1.2.1 ha.2.1 h2.2.1
  have n3 := n2.step hb.1.2.2 hb.2.2.2 ho.2.2 hd.2.2 hf.2.2 h1.2.2 ha.2.2 h2.2.2
  change BoundingBox3.intersectRay a r = some i at hi
  simp only [BoundingBox3.intersectRay] at hi
  split_ifs at hi with g1 g2 g3
  obtain ⟨k1, k2, k3⟩ := n3.hit g3
  obtain rfl := Option.some.inj hi
  refine ⟨⟨_, _⟩, ?_, k2, k3⟩
  show BoundingBox3.intersectRay b r = _
  unfold BoundingBox3.intersectRay
  exact (if_neg (n1.not_gt g1)).trans ((if_neg (n2.not_gt g2)).trans (if_pos k1))

/-- **C70**: skipping the contents of a union whose test reports no hit loses nothing. -/
theorem C70_cull2 (a b : BoundingBox2 S) (r : Ray2 S) (ha : LeAll a.min a.max) (hb : LeAll b.min b.max)
    (hu : AllFinite (Api.union a b)) (ho : AllFinite r.origin) (hd : AllFinite r.direction)
    (hf : OffFaces2 (Api.union a b) r) (hm : Api.intersect (Api.union a b) r = none) :
    Api.intersect a r = none ∧ Api.intersect b r = none := by
  have hin := (C26_union2 a b ha hb).2.1
  constructor
  · cases h : Api.intersect a r with
    | none => rfl
    | some i =>
      obtain ⟨j, hj, -⟩ := C70_nested2 a _ r ha hu ho hd (fun p hp => hin p (.inl hp)) hf i h
      rw [hm] at hj; exact absurd hj (by simp)
  · cases h : Api.intersect b r with
    | none => rfl
    | some i =>
      obtain ⟨j, hj, -⟩ := C70_nested2 b _ r hb hu ho hd (fun p hp => hin p (.inr hp)) hf i h
      rw [hm] at hj; exact absurd hj (by simp)
/-- **C70**: the same in 3D. -/
theorem C70_cull3 (a b : BoundingBox3 S) (r : Ray3 S) (ha : LeAll a.min a.max) (hb : LeAll b.min b.max)
    (hu : AllFinite (Api.union a b)) (ho : AllFinite r.origin) (hd : AllFinite r.direction)
    (hf : OffFaces3 (Api.union a b) r) (hm : Api.intersect (Api.union a b) r = none) :
    Api.intersect a r = none ∧ Api.intersect b r = none := by
  have hin := (C26_union3 a b ha hb).2.1
  constructor
  · cases h : Api.intersect a r with
    | none => rfl
    | some i =>
      obtain ⟨j, hj, -⟩ := C70_nested3 a _ r ha hu ho hd (fun p hp => hin p (.inl hp)) hf i h
      rw [hm] at hj; exact absurd hj (by simp)
  · cases h : Api.intersect b r with
    | none => rfl
    | some i =>
      obtain ⟨j, hj, -⟩ := C70_nested3 b _ r hb hu ho hd (fun p hp => hin p (.inr hp)) hf i h
      rw [hm] at hj; exact absurd hj (by simp)

/-! ### Hierarchies of any shape -/

/-- A test that a union passes whenever a part does makes culling lossless. -/
theorem Tree.search_eq {B : Type} {union : B → B → B} {test : B → Bool} {P : B → Prop}
    (hP : ∀ {a b}, P a → P b → P (union a b))
    (ht : ∀ {a b}, P a → P b → test a = true ∨ test b = true → test (union a b) = true) (t : Tree B)
    (h : ∀ b ∈ t.leaves, P b) : t.search union test = t.leaves.filter test := by
  have key : ∀ t : Tree B, (∀ b ∈ t.leaves, P b) → P (t.bound union) ∧
      ((∃ b ∈ t.leaves, test b = true) → test (t.bound union) = true) := by
    intro t
    induction t with
    | leaf b => intro h; exact ⟨h b (by simp [Tree.leaves]), by rintro ⟨c, hc, h'⟩; simp [Tree.leaves] at hc; subst hc; exact h'⟩
    | node l r ihl ihr =>
      intro h
      obtain ⟨pl, tl⟩ := ihl fun b hb => h b (by simp [Tree.leaves, hb])
      obtain ⟨pr, tr⟩ := ihr fun b hb => h b (by simp [Tree.leaves, hb])
      refine ⟨hP pl pr, ?_⟩
      rintro ⟨c, hc, h'⟩
      simp only [Tree.leaves, List.mem_append] at hc
      exact ht pl pr (hc.imp (fun hc => tl ⟨c, hc, h'⟩) (fun hc => tr ⟨c, hc, h'⟩))
  induction t with
  | leaf b => simp [Tree.search, Tree.leaves, List.filter]; split <;> simp_all
  | node l r ihl ihr =>
    rw [Tree.search, ihl fun b hb => h b (by simp [Tree.leaves, hb]), ihr fun b hb => h b (by simp [Tree.leaves, hb])]
    split_ifs with g
    · rw [Tree.leaves, List.filter_append]
    · symm
      rw [List.filter_eq_nil_iff]
      exact fun b hb hb' => g ((key _ h).2 ⟨b, hb, hb'⟩)

omit [Binary S] in
theorem finite_fmin {a b : S} (ha : IsFinite a) (hb : IsFinite b) : IsFinite (fmin a b) := by
  rcases min_same (a := a) (b := b) with h | h <;> (unfold IsFinite; rw [h]; assumption)
omit [Binary S] in
theorem finite_fmax {a b : S} (ha : IsFinite a) (hb : IsFinite b) : IsFinite (fmax a b) := by
  rcases max_same (a := a) (b := b) with h | h <;> (unfold IsFinite; rw [h]; assumption)
omit [Binary S] in
theorem ne_fmin {x : ℝ} {a b : S} (ha : x ≠ real a) (hb : x ≠ real b) : x ≠ real (fmin a b) := by
  rcases min_same (a := a) (b := b) with h | h <;> (unfold real at *; rw [h]; assumption)
omit [Binary S] in
theorem ne_fmax {x : ℝ} {a b : S} (ha : x ≠ real a) (hb : x ≠ real b) : x ≠ real (fmax a b) := by
  rcases max_same (a := a) (b := b) with h | h <;> (unfold real at *; rw [h]; assumption)
omit [Binary S] in
theorem offPlane_union {al ah bl bh : S} (ha : OffPlane al ah o d) (hb : OffPlane bl bh o d) :
    OffPlane (fmin (fmin al bl) (fmax ah bh)) (fmax (fmin al bl) (fmax ah bh)) o d := by
  intro h
  have ha := ha h
  have hb := hb h
  exact ⟨ne_fmin (ne_fmin ha.1 hb.1) (ne_fmax ha.2 hb.2), ne_fmax (ne_fmin ha.1 hb.1) (ne_fmax ha.2 hb.2)⟩

/-- A well-formed finite box none of whose faces has the ray in its plane. -/
def Usable2 (r : Ray2 S) (b : BoundingBox2 S) : Prop := LeAll b.min b.max ∧ AllFinite b ∧ OffPlanes2 b r
omit [Binary S] in
theorem Usable2.union {r : Ray2 S} {a b : BoundingBox2 S} (ha : Usable2 r a) (hb : Usable2 r b) :
    Usable2 r (Api.union a b) := by
  obtain ⟨wa, fa, oa⟩ := ha
  obtain ⟨wb, fb, ob⟩ := hb
  rw [BoundingBox2.allFinite, Point2.allFinite, Point2.allFinite] at fa fb
  refine ⟨union2_wf wa wb, ?_, ?_⟩
  · rw [BoundingBox2.allFinite, Point2.allFinite, Point2.allFinite]
    exact ⟨⟨finite_fmin (finite_fmin fa.1.1 fb.1.1) (finite_fmax fa.2.1 fb.2.1), finite_fmin (finite_fmin fa.1.2 fb.1.2) (finite_fmax fa.2.2 fb.2.2)⟩,
      finite_fmax (finite_fmin fa.1.1 fb.1.1) (finite_fmax fa.2.1 fb.2.1), finite_fmax (finite_fmin fa.1.2 fb.1.2) (finite_fmax fa.2.2 fb.2.2)⟩
  · exact ⟨offPlane_union oa.1 ob.1, offPlane_union oa.2 ob.2⟩
omit [Binary S] in
theorem OffPlanes2.offFaces {r : Ray2 S} {b : BoundingBox2 S} (h : OffPlanes2 b r) : OffFaces2 b r :=
  ⟨fun hd => iff_of_false (h.1 hd).1 (h.1 hd).2, fun hd => iff_of_false (h.2 hd).1 (h.2 hd).2⟩
/-- **C70**: in a hierarchy of any shape, searching with culling finds exactly the boxes hit by the ray. -/
theorem C70_search2 (r : Ray2 S) (t : Tree (BoundingBox2 S)) (ho : AllFinite r.origin) (hd : AllFinite r.direction)
    (ht : ∀ b ∈ t.leaves, LeAll b.min b.max ∧ AllFinite b ∧ OffPlanes2 b r) :
    t.search Api.union (fun b => (Api.intersect b r : Option (Range S)).isSome) =
      t.leaves.filter (fun b => (Api.intersect b r : Option (Range S)).isSome) := by
  refine Tree.search_eq (P := Usable2 r) (fun ha hb => ha.union hb) (fun {a b} ha hb h => ?_) t ht
  have hu := ha.union hb
  by_contra hc
  have hn : (Api.intersect (Api.union a b) r : Option (Range S)) = none := by simpa using hc
  have := C70_cull2 a b r ha.1 hb.1 hu.2.1 ho hd hu.2.2.offFaces hn
  simp [this] at h
/-- **C70**: a search for the boxes containing a point. -/
theorem C70_search_point2 (p : Point2 S) (t : Tree (BoundingBox2 S)) (ht : ∀ b ∈ t.leaves, LeAll b.min b.max) :
    t.search Api.union (fun b => b.isInside p) = t.leaves.filter (fun b => b.isInside p) :=
  Tree.search_eq (P := fun b => LeAll b.min b.max) (fun ha hb => union2_wf ha hb)
    (fun {a b} ha hb h => (C26_union2 a b ha hb).2.1 p h) t ht
/-- **C70**: a search for the boxes overlapping a box. -/
theorem C70_search_box2 (q : BoundingBox2 S) (t : Tree (BoundingBox2 S)) (ht : ∀ b ∈ t.leaves, LeAll b.min b.max) :
    t.search Api.union (fun b => b.overlaps q) = t.leaves.filter (fun b => b.overlaps q) := by
  refine Tree.search_eq (P := fun b => LeAll b.min b.max) (fun ha hb => union2_wf ha hb) (fun {a b} ha hb h => ?_) t ht
  obtain ⟨⟨h1, h2⟩, h3, h4⟩ := union2_ge ha hb
  rw [Point2.leAll] at h1 h2 h3 h4
  rw [overlaps2_iff] at *
  rw [overlaps2_iff] at h
  rcases h with h | h
  · exact ⟨⟨le_trans' h.1.1 h2.1, le_trans' h1.1 h.1.2⟩, ⟨le_trans' h.2.1 h2.2, le_trans' h1.2 h.2.2⟩⟩
  · exact ⟨⟨le_trans' h.1.1 h4.1, le_trans' h3.1 h.1.2⟩, ⟨le_trans' h.2.1 h4.2, le_trans' h3.2 h.2.2⟩⟩

/-- A well-formed finite box none of whose faces has the ray in its plane. -/
def Usable3 (r : Ray3 S) (b : BoundingBox3 S) : Prop := LeAll b.min b.max ∧ AllFinite b ∧ OffPlanes3 b r
omit [Binary S] in
theorem Usable3.union {r : Ray3 S} {a b : BoundingBox3 S} (ha : Usable3 r a) (hb : Usable3 r b) :
    Usable3 r (Api.union a b) := by
  obtain ⟨wa, fa, oa⟩ := ha
  obtain ⟨wb, fb, ob⟩ := hb
  rw [BoundingBox3.allFinite, Point3.allFinite, Point3.allFinite] at fa fb
  refine ⟨union3_wf wa wb, ?_, ?_⟩
  · rw [BoundingBox3.allFinite, Point3.allFinite, Point3.allFinite]
    exact ⟨⟨finite_fmin (finite_fmin fa.1.1 fb.1.1) (finite_fmax fa.2.1 fb.2.1), finite_fmin (finite_fmin fa.1.2.1 fb.1.2.1) (finite_fmax fa.2.2.1 fb.2.2.1), finite_fmin (finite_fmin fa.1.2.2 fb.1.2.2) (finite_fmax fa.2.2.2 fb.2.2.2)⟩,
      finite_fmax (finite_fmin fa.1.1 fb.1.1) (finite_fmax fa.2.1 fb.2.1), finite_fmax (finite_fmin fa.1.2.1 fb.1.2.1) (finite_fmax fa.2.2.1 fb.2.2.1), finite_fmax (finite_fmin fa.1.2.2 fb.1.2.2) (finite_fmax fa.2.2.2 fb.2.2.2)⟩
  · exact ⟨offPlane_union oa.1 ob.1, offPlane_union oa.2.1 ob.2.1, offPlane_union oa.2.2 ob.2.2⟩
omit [Binary S] in
theorem OffPlanes3.offFaces {r : Ray3 S} {b : BoundingBox3 S} (h : OffPlanes3 b r) : OffFaces3 b r :=
  ⟨fun hd => iff_of_false (h.1 hd).1 (h.1 hd).2, fun hd => iff_of_false (h.2.1 hd).1 (h.2.1 hd).2, fun hd => iff_of_false (h.2.2 hd).1 (h.2.2 hd).2⟩
/-- **C70**: in a hierarchy of any shape, searching with culling finds exactly the boxes hit by the ray. -/
theorem C70_search3 (r : Ray3 S) (t : Tree (BoundingBox3 S)) (ho : AllFinite r.origin) (hd : AllFinite r.direction)
    (ht : ∀ b ∈ t.leaves, LeAll b.min b.max ∧ AllFinite b ∧ OffPlanes3 b r) :
    t.search Api.union (fun b => (Api.intersect b r : Option (Range S)).isSome) =
      t.leaves.filter (fun b => (Api.intersect b r : Option (Range S)).isSome) := by
  refine Tree.search_eq (P := Usable3 r) (fun ha hb => ha.union hb) (fun {a b} ha hb h => ?_) t ht
  have hu := ha.union hb
  by_contra hc
  have hn : (Api.intersect (Api.union a b) r : Option (Range S)) = none := by simpa using hc
  have := C70_cull3 a b r ha.1 hb.1 hu.2.1 ho hd hu.2.2.offFaces hn
  simp [this] at h
/-- **C70**: a search for the boxes containing a point. -/
theorem C70_search_point3 (p : Point3 S) (t : Tree (BoundingBox3 S)) (ht : ∀ b ∈ t.leaves, LeAll b.min b.max) :
    t.search Api.union (fun b => b.isInside p) = t.leaves.filter (fun b => b.isInside p) :=
  Tree.search_eq (P := fun b => LeAll b.min b.max) (fun ha hb => union3_wf ha hb)
    (fun {a b} ha hb h => (C26_union3 a b ha hb).2.1 p h) t ht
/-- **C70**: a search for the boxes overlapping a box. -/
theorem C70_search_box3 (q : BoundingBox3 S) (t : Tree (BoundingBox3 S)) (ht : ∀ b ∈ t.leaves, LeAll b.min b.max) :
    t.search Api.union (fun b => b.overlaps q) = t.leaves.filter (fun b => b.overlaps q) := by
  refine Tree.search_eq (P := fun b => LeAll b.min b.max) (fun ha hb => union3_wf ha hb) (fun {a b} ha hb h => ?_) t ht
  obtain ⟨⟨h1, h2⟩, h3, h4⟩ := union3_ge ha hb
  rw [Point3.leAll] at h1 h2 h3 h4
  rw [overlaps3_iff] at *
  rw [overlaps3_iff] at h
  rcases h with h | h
  · exact ⟨⟨le_trans' h.1.1 h2.1, le_trans' h1.1 h.1.2⟩, ⟨le_trans' h.2.1.1 h2.2.1, le_trans' h1.2.1 h.2.1.2⟩, ⟨le_trans' h.2.2.1 h2.2.2, le_trans' h1.2.2 h.2.2.2⟩⟩
  · exact ⟨⟨le_trans' h.1.1 h4.1, le_trans' h3.1 h.1.2⟩, ⟨le_trans' h.2.1.1 h4.2.1, le_trans' h3.2.1 h.2.1.2⟩, ⟨le_trans' h.2.2.1 h4.2.2, le_trans' h3.2.2 h.2.2.2⟩⟩
end
end VecMath
