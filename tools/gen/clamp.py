L=[]
w=L.append
w('''import Verif.Spec.Clamp
import Verif.Props.FloatMono
import Verif.Props.FloatSort
import Verif.Props.FloatReduce
/-!
# Layer F: the nearest point of a box, and nearest-neighbour search (C97)

Rounding is monotone, so the point obtained by clamping is not only the exact nearest point of the box: its computed
distance is at most the computed distance of every other point of the box. A search that skips boxes on the strength
of that distance therefore loses nothing at all.
-/

open Classical

namespace VecMath
open Scalar IEEE

section
variable {S : Type} [Scalar S] [IEEE S] {lo hi x y o : S}

/-- The value of a clamped coordinate. -/
theorem val_clamp (hx : ¬ IsNaN x) (hl : ¬ IsNaN lo) (hh : ¬ IsNaN hi) :
    ¬ IsNaN (fmin (fmax x lo) hi) ∧ val (fmin (fmax x lo) hi) = min (max (val x) (val lo)) (val hi) := by
  have h1 : ¬ IsNaN (fmax x lo) := fun h => hx (isNaN_max.1 h).1
  exact ⟨fun h => h1 (isNaN_min.1 h).1, by rw [val_min h1 hh, val_max hx hl]⟩
/-- A clamped coordinate is between the bounds, also for a NaN. -/
theorem clamp_in (h : (lo ≤? hi) = true) : (lo ≤? fmin (fmax x lo) hi) = true ∧ (fmin (fmax x lo) hi ≤? hi) = true := by
  obtain ⟨hl, hh, hv⟩ := le_iff.1 h
  have h1 : ¬ IsNaN (fmax x lo) := fun h => hl (isNaN_max.1 h).2
  have h2 : val lo ≤ val (fmax x lo) := by
    by_cases hx : IsNaN x
    · rw [(max_nan_left (b := lo) hx).val]
    · rw [val_max hx hl]; exact le_max_right _ _
  have h3 : ¬ IsNaN (fmin (fmax x lo) hi) := fun h => h1 (isNaN_min.1 h).1
  have h4 := val_min h1 hh
  exact ⟨le_iff.2 ⟨hl, h3, by rw [h4]; exact le_min h2 hv⟩, le_iff.2 ⟨h3, hh, by rw [h4]; exact min_le_right _ _⟩⟩
/-- A coordinate between the bounds is unchanged. -/
theorem clamp_same (h1 : (lo ≤? x) = true) (h2 : (x ≤? hi) = true) : (fmin (fmax x lo) hi == x) = true := by
  obtain ⟨hl, hx, hv⟩ := le_iff.1 h1
  obtain ⟨-, hh, hv'⟩ := le_iff.1 h2
  obtain ⟨n, v⟩ := val_clamp hx hl hh
  exact beq_iff.2 ⟨n, hx, by rw [v, max_eq_left hv, min_eq_left hv']⟩
/-- Differences of equal numbers. -/
theorem val_sub_eq {a b : S} (ha : IsFinite a) (hb : IsFinite b) (h : val a = val b) : ¬ IsNaN (a - b) ∧ val (a - b) = 0 := by
  have e : real a = real b := by rw [ha.val, hb.val] at h; exact_mod_cast h
  have hd := sub_finite ha hb
  rw [e, sub_self] at hd
  refine ⟨isNaN_sub_finite hb ha.not_nan, ?_⟩
  unfold val; rw [hd]; simp
theorem sub_sign {a b : S} (hb : IsFinite b) (ha : ¬ IsNaN a) (h : val b ≤ val a) : ¬ IsNaN (a - b) ∧ 0 ≤ val (a - b) := by
  have n := isNaN_sub_finite hb ha
  obtain ⟨n0, v0⟩ := val_sub_eq hb hb rfl
  exact ⟨n, by rw [← v0]; exact val_sub_mono h le_rfl n0 n⟩
theorem sub_sign' {a b : S} (hb : IsFinite b) (ha : ¬ IsNaN a) (h : val a ≤ val b) : ¬ IsNaN (a - b) ∧ val (a - b) ≤ 0 := by
  have n := isNaN_sub_finite hb ha
  obtain ⟨n0, v0⟩ := val_sub_eq hb hb rfl
  exact ⟨n, by rw [← v0]; exact val_sub_mono h le_rfl n n0⟩
theorem abs_le_vals {a b : S} (na : ¬ IsNaN a) (nb : ¬ IsNaN b)
    (h : val a = 0 ∨ (0 ≤ val a ∧ val a ≤ val b) ∨ (val a ≤ 0 ∧ val b ≤ val a)) : (Scalar.abs a ≤? Scalar.abs b) = true := by
  have m : ∀ {c : S}, ¬ IsNaN c → ¬ IsNaN (Scalar.abs c) := fun {c} h hc => h (by
    unfold IsNaN at *
    rw [den_abs] at hc
    revert hc
    cases den c <;> simp [Val.abs])
  refine le_iff.2 ⟨m na, m nb, ?_⟩
  rw [val_abs_eq_max, val_abs_eq_max]
  have nn : ∀ z : EReal, 0 ≤ max z (-z) := fun z => by
    rcases le_total 0 z with h | h
    · exact le_max_of_le_left h
    · exact le_max_of_le_right (EReal.neg_nonneg.2 h)
  rcases h with h | ⟨h0, h⟩ | ⟨h0, h⟩
  · rw [h, neg_zero, max_self]; exact nn _
  · refine max_le (le_max_of_le_left h) ((EReal.neg_le_neg_iff.2 h0).trans ?_)
    rw [neg_zero]; exact nn _
  · exact max_le (h0.trans (nn _)) (le_max_of_le_right (EReal.neg_le_neg_iff.2 h))
/-- In one dimension the clamped origin is not farther from the origin than any point between the bounds. -/
theorem clamp_near (fo : IsFinite o) (h1 : (lo ≤? y) = true) (h2 : (y ≤? hi) = true) :
    (Scalar.abs (fmin (fmax o lo) hi - o) ≤? Scalar.abs (y - o)) = true := by
  obtain ⟨hl, hy, hv⟩ := le_iff.1 h1
  obtain ⟨-, hh, hv'⟩ := le_iff.1 h2
  obtain ⟨nc, vc⟩ := val_clamp fo.not_nan hl hh
  have n1 := isNaN_sub_finite fo nc
  have n2 := isNaN_sub_finite fo hy
  refine abs_le_vals n1 n2 ?_
  rcases le_total (val lo) (val o) with ha | ha
  · rw [max_eq_left ha] at vc
    rcases le_total (val o) (val hi) with hb | hb
    · rw [min_eq_left hb] at vc
      have fc : IsFinite (fmin (fmax o lo) hi) := by
        rw [finite_iff] at fo ⊢; rw [vc]; exact ⟨nc, fo.2⟩
      exact .inl (val_sub_eq fc fo vc).2
    · rw [min_eq_right hb] at vc
      exact .inr (.inr ⟨(sub_sign' fo nc (vc.le.trans hb)).2, val_sub_mono (hv'.trans vc.ge) le_rfl n2 n1⟩)
  · rw [max_eq_right ha, min_eq_left (hv.trans hv')] at vc
    exact .inr (.inl ⟨(sub_sign fo nc (ha.trans vc.ge)).2, val_sub_mono (vc.le.trans hv) le_rfl n1 n2⟩)
/-- In one dimension clamping brings no two coordinates further apart. -/
theorem clamp_contract (hx : IsFinite x) (hy : IsFinite y) (hl : IsFinite lo) (hh : IsFinite hi) :
    (Scalar.abs (fmin (fmax y lo) hi - fmin (fmax x lo) hi) ≤? Scalar.abs (y - x)) = true := by
  have fin : ∀ {z : S}, IsFinite z → IsFinite (fmin (fmax z lo) hi) := fun hz => finite_fmin (finite_fmax hz hl) hh
  obtain ⟨nx, vx⟩ := val_clamp hx.not_nan hl.not_nan hh.not_nan
  obtain ⟨ny, vy⟩ := val_clamp hy.not_nan hl.not_nan hh.not_nan
  have n1 := isNaN_sub_finite (fin hx) ny
  have n2 := isNaN_sub_finite hx hy.not_nan
  refine abs_le_vals n1 n2 ?_
  have dich : ∀ {a b : EReal}, a ≤ b → min (max a (val lo)) (val hi) = min (max b (val lo)) (val hi) ∨
      (a ≤ min (max a (val lo)) (val hi) ∧ min (max b (val lo)) (val hi) ≤ b) := by
    intro a b hab
    rcases le_total a (val hi) with h1 | h1
    · rcases le_total (val lo) b with h2 | h2
      · exact .inr ⟨le_min (le_max_left _ _) h1, (min_le_left _ _).trans (max_le le_rfl h2)⟩
      · left; rw [max_eq_right h2, max_eq_right (hab.trans h2)]
    · left
      rw [min_eq_right (h1.trans (le_max_left _ _)), min_eq_right ((h1.trans hab).trans (le_max_left _ _))]
  have mono : ∀ {a b : EReal}, a ≤ b → min (max a (val lo)) (val hi) ≤ min (max b (val lo)) (val hi) := fun h =>
    min_le_min (max_le_max h le_rfl) le_rfl
  rcases le_total (val x) (val y) with h | h
  · rcases dich h with he | ⟨h1, h2⟩
    · exact .inl (val_sub_eq (fin hy) (fin hx) (by rw [vx, vy, he])).2
    · exact .inr (.inl ⟨(sub_sign (fin hx) ny (by rw [vx, vy]; exact mono h)).2,
        val_sub_mono (by rw [vy]; exact h2) (by rw [vx]; exact h1) n1 n2⟩)
  · rcases dich h with he | ⟨h1, h2⟩
    · exact .inl (val_sub_eq (fin hy) (fin hx) (by rw [vx, vy, he])).2
    · exact .inr (.inr ⟨(sub_sign' (fin hx) ny (by rw [vx, vy]; exact mono h)).2,
        val_sub_mono (by rw [vy]; exact h1) (by rw [vx]; exact h2) n2 n1⟩)
end

/-! ## The search, for any notion of box, closeness and skipping -/

namespace Tree
variable {P B : Type} {box : P → B} {union : B → B → B} {skip : B → P → Bool} {better : P → P → P} {swap : B → B → Bool}

/-- The search equals a plain pass over the points in some order (their own order if children are never swapped), if a
skipped subtree contains no point that would replace the candidate. -/
theorem nearest_eq {G : P → Prop} (h : ∀ t : Tree P, (∀ p ∈ t.leaves, G p) → ∀ q, skip ((t.map box).bound union) q = true →
      ∀ p ∈ t.leaves, better q p = q)
    (t : Tree P) (ht : ∀ p ∈ t.leaves, G p) : ∀ best, ∃ l : List P, l.Perm t.leaves ∧ t.nearest box union skip better swap best = l.foldl better best ∧
      ((∀ a b, swap a b = false) → l = t.leaves) := by
  induction t with
  | leaf p => exact fun best => ⟨[p], List.Perm.refl _, rfl, fun _ => rfl⟩
  | node l r hl hr =>
    have hl := hl fun p hp => ht p (by simp [leaves, hp])
    have hr := hr fun p hp => ht p (by simp [leaves, hp])
    intro best
    by_cases hs : skip (((node l r).map box).bound union) best = true
    · refine ⟨(node l r).leaves, List.Perm.refl _, ?_, fun _ => rfl⟩
      have keep : ∀ ps : List P, (∀ p ∈ ps, better best p = best) → ps.foldl better best = best := by
        intro ps
        induction ps with
        | nil => exact fun _ => rfl
        | cons p ps ih =>
          intro hp
          rw [List.foldl_cons, hp p (by simp)]
          exact ih fun q hq => hp q (by simp [hq])
      rw [keep _ fun p hp => h _ ht _ hs p hp]
      unfold nearest
      rw [if_pos hs]
    · by_cases hw : swap ((l.map box).bound union) ((r.map box).bound union) = true
      · obtain ⟨l2, p2, e2, -⟩ := hr best
        obtain ⟨l1, p1, e1, -⟩ := hl (r.nearest box union skip better swap best)
        refine ⟨l2 ++ l1, (p2.append p1).trans List.perm_append_comm, ?_, fun hf => by rw [hf] at hw; simp at hw⟩
        unfold nearest
        rw [if_neg hs, if_pos hw, e1, e2, List.foldl_append]
      · obtain ⟨l1, p1, e1, i1⟩ := hl best
        obtain ⟨l2, p2, e2, i2⟩ := hr (l.nearest box union skip better swap best)
        refine ⟨l1 ++ l2, p1.append p2, ?_, fun hf => by rw [i1 hf, i2 hf]; rfl⟩
        unfold nearest
        rw [if_neg hs, if_neg hw, e2, e1, List.foldl_append]
theorem leaves_map {A C : Type} (f : A → C) (t : Tree A) : (t.map f).leaves = t.leaves.map f := by
  induction t with
  | leaf a => rfl
  | node l r hl hr => simp [map, leaves, hl, hr]
end Tree

/-- The winner of a pass over a list is one of the candidates, and none comes before it. -/
theorem StrictWeakOrder.fold {A : Type} {P : A → Prop} {r : A → A → Bool} (h : StrictWeakOrder P r) (l : List A) :
    ∀ a, P a → (∀ x ∈ l, P x) → l.foldl (fun a b => if r a b then a else b) a ∈ a :: l ∧
      ∀ x ∈ a :: l, r x (l.foldl (fun a b => if r a b then a else b) a) = false := by
  induction l with
  | nil => exact fun a ha _ => ⟨by simp, by simpa using h.irrefl a ha⟩
  | cons b l ih =>
    intro a ha hl
    have hb := hl b (by simp)
    have hl' : ∀ x ∈ l, P x := fun x hx => hl x (by simp [hx])
    rw [List.foldl_cons]
    by_cases hab : r a b = true
    · rw [if_pos hab]
      obtain ⟨i1, i2⟩ := ih a ha hl'
      generalize l.foldl (fun a b => if r a b then a else b) a = m at i1 i2
      have pm : P m := by rcases List.mem_cons.1 i1 with rfl | hm; exacts [ha, hl' m hm]
      have hbm : r b m = false := by
        rw [← Bool.not_eq_true]
        intro hc
        have := h.trans a b m ha hb pm hab hc
        rw [i2 a (by simp)] at this
        simp at this
      refine ⟨?_, fun x hx => ?_⟩
      · rcases List.mem_cons.1 i1 with rfl | hm <;> simp [*]
      · rcases List.mem_cons.1 hx with rfl | hx
        · exact i2 _ (by simp)
        rcases List.mem_cons.1 hx with rfl | hx
        · exact hbm
        · exact i2 x (by simp [hx])
    · rw [if_neg hab]
      obtain ⟨i1, i2⟩ := ih b hb hl'
      generalize l.foldl (fun a b => if r a b then a else b) b = m at i1 i2
      have pm : P m := by rcases List.mem_cons.1 i1 with rfl | hm; exacts [hb, hl' m hm]
      have hbm : r b m = false := i2 b (by simp)
      have ham : r a m = false := by
        rw [← Bool.not_eq_true]
        intro hc
        have t1 : tied r a b = true := by
          have : r b a = false := by
            rw [← Bool.not_eq_true]
            intro hc'
            have := h.trans b a m hb ha pm hc' hc
            rw [hbm] at this; simp at this
          simp [tied, this, hab]
        have t2 : tied r b m = true := by
          have : r m b = false := by
            rw [← Bool.not_eq_true]
            intro hc'
            exact hab (h.trans a m b ha pm hb hc hc')
          simp [tied, this, hbm]
        have := h.ties a b m ha hb pm t1 t2
        simp [tied, hc] at this
      refine ⟨by simp only [List.mem_cons] at i1 ⊢; tauto, fun x hx => ?_⟩
      rcases List.mem_cons.1 hx with rfl | hx
      · exact ham
      · exact i2 x hx

section
variable {S : Type} [Scalar S] [IEEE S]
''')
for n in (2,3):
    def pr(h,k):
        if n==2: return f'{h}.{k+1}'
        return [f'{h}.1',f'{h}.2.1',f'{h}.2.2'][k]
    tup=lambda f: '⟨'+', '.join(f(k) for k in range(n))+'⟩'
    w(f'''
/-! ## {n}D -/

/-- **C97**, {n}D: the clamped point is in the box, whatever the point is (even if a coordinate is NaN), and a point of the
box is unchanged. -/
theorem C97_inside{n} (b : BoundingBox{n} S) (hb : LeAll b.min b.max) (p : Point{n} S) :
    b.isInside (b.clamp p) = true ∧ (b.isInside p = true → (b.clamp p == p) = true) := by
  rw [wf{n}_iff] at hb
  refine ⟨isInside{n}_iff.2 {tup(lambda k: f"clamp_in {pr('hb',k)}")}, fun h => ?_⟩
  rw [isInside{n}_iff] at h
  exact Point{n}.beq_iff.2 {tup(lambda k: f"clamp_same {pr('h',k)}.1 {pr('h',k)}.2")}
theorem clamp_near{n} (b : BoundingBox{n} S) (o q : Point{n} S) (ho : AllFinite o) (hq : b.isInside q = true) :
    LeAll (b.clamp o - o : Vector{n} S).abs (q - o : Vector{n} S).abs := by
  rw [Point{n}.allFinite] at ho
  rw [isInside{n}_iff] at hq
  exact Vector{n}.leAll.2 {tup(lambda k: f"clamp_near {pr('ho',k)} {pr('hq',k)}.1 {pr('hq',k)}.2")}
/-- **C97**, {n}D: no point of the box has a smaller computed distance than the clamped point, nor is any closer by
`is_closer_to`. -/
theorem C97_nearest_point{n} (b : BoundingBox{n} S) (o q : Point{n} S) (ho : AllFinite o) (hq : b.isInside q = true) :
    ((Api.distance o (b.clamp o) : S) ≤? Api.distance o q) = true ∧ RelativeDistance.isCloserTo o q (b.clamp o) = false := by
  have h := clamp_near{n} b o q ho hq
  refine ⟨C69_length{n} _ _ h, ?_⟩
  rw [Vector{n}.leAll] at h
  have : (Api.dot (b.clamp o - o : Vector{n} S) (b.clamp o - o : Vector{n} S) ≤? (Api.dot (q - o : Vector{n} S) (q - o : Vector{n} S) : S)) = true :=
    {'((Dom.sq h.1).add (Dom.sq h.2)).toLe' if n==2 else '(((Dom.sq h.1).add (Dom.sq h.2.1)).add (Dom.sq h.2.2)).toLe'}
  show ((Api.dot (q - o : Vector{n} S) (q - o : Vector{n} S) : S) <? Api.dot (b.clamp o - o : Vector{n} S) (b.clamp o - o : Vector{n} S)) = false
  rw [← Bool.not_eq_true]
  intro hc
  exact absurd (lt_iff.1 hc).2.2 (not_lt.2 (le_iff.1 this).2.2)
/-- **C97**, {n}D: a candidate closer than the clamped point is closer than every point of the box, and a box whose clamped
point is farther away than a radius has no point within that radius. -/
theorem C97_prune{n} (b : BoundingBox{n} S) (o best : Point{n} S) (ho : AllFinite o) (q : Point{n} S) (hq : b.isInside q = true) :
    (RelativeDistance.isCloserTo o best (b.clamp o) = true → RelativeDistance.isCloserTo o best q = true) ∧
    ∀ r : S, (r <? Api.distance o (b.clamp o)) = true → (r <? Api.distance o q) = true := by
  have h := clamp_near{n} b o q ho hq
  refine ⟨fun hc => ?_, fun r hr => ?_⟩
  · rw [Vector{n}.leAll] at h
    have : (Api.dot (b.clamp o - o : Vector{n} S) (b.clamp o - o : Vector{n} S) ≤? (Api.dot (q - o : Vector{n} S) (q - o : Vector{n} S) : S)) = true :=
      {'((Dom.sq h.1).add (Dom.sq h.2)).toLe' if n==2 else '(((Dom.sq h.1).add (Dom.sq h.2.1)).add (Dom.sq h.2.2)).toLe'}
    have hc : ((Api.dot (best - o : Vector{n} S) (best - o : Vector{n} S) : S) <? Api.dot (b.clamp o - o : Vector{n} S) (b.clamp o - o : Vector{n} S)) = true := hc
    show ((Api.dot (best - o : Vector{n} S) (best - o : Vector{n} S) : S) <? Api.dot (q - o : Vector{n} S) (q - o : Vector{n} S)) = true
    have h1 := lt_iff.1 hc
    have h2 := le_iff.1 this
    exact lt_iff.2 ⟨h1.1, h2.2.1, h1.2.2.trans_le h2.2.2⟩
  · have h1 := lt_iff.1 hr
    have h2 := le_iff.1 (C97_nearest_point{n} b o q ho hq).1
    exact lt_iff.2 ⟨h1.1, h2.2.1, h1.2.2.trans_le h2.2.2⟩
/-- **C97**, {n}D: clamping brings no two points further apart (in computed distance). -/
theorem C97_contract{n} (b : BoundingBox{n} S) (hb : AllFinite b) (p q : Point{n} S) (hp : AllFinite p) (hq : AllFinite q) :
    ((Api.distance (b.clamp p) (b.clamp q) : S) ≤? Api.distance p q) = true := by
  rw [BoundingBox{n}.allFinite, Point{n}.allFinite, Point{n}.allFinite] at hb
  rw [Point{n}.allFinite] at hp hq
  exact C69_length{n} _ _ (Vector{n}.leAll.2 {tup(lambda k: f"clamp_contract {pr('hp',k)} {pr('hq',k)} {pr('hb.1',k)} {pr('hb.2',k)}")})
theorem not_nan_dist{n} {{o p : Point{n} S}} (ho : AllFinite o) (hp : NoNaN p) : ¬ IsNaN (Api.distance o p) := by
  rw [Point{n}.allFinite] at ho
  rw [Point{n}.noNaN] at hp
  have hq : ¬ IsNaN (Api.length (p - o : Vector{n} S) : S) := by
    rw [length_isNaN{n}, not_not, Vector{n}.noNaN]
    exact {tup(lambda k: f"isNaN_sub_finite {pr('ho',k)} {pr('hp',k)}")}
  exact hq
/-- A hierarchy of points lies in its box. -/
theorem hull{n} (t : Tree (Point{n} S)) (ht : ∀ p ∈ t.leaves, NoNaN p) :
    ∀ p ∈ t.leaves, ((t.map fun p => BoundingBox{n}.new p p).bound Api.union).isInside p = true := by
  intro p hp
  have lv : (t.map fun p => BoundingBox{n}.new p p).leaves = t.leaves.map fun p => BoundingBox{n}.new p p := Tree.leaves_map _ t
  have key : ∀ q : Point{n} S, NoNaN q → LeAll (BoundingBox{n}.new q q).min (BoundingBox{n}.new q q).max ∧ (BoundingBox{n}.new q q).isInside q = true :=
    fun q hq => ⟨(C24_new{n} q q hq hq).1, (C24_new{n} q q hq hq).2.1⟩
  refine (C78_tree{n} (t.map fun p => BoundingBox{n}.new p p) ?_).2.1 (BoundingBox{n}.new p p) ?_ p (key p (ht p hp)).2
  · rw [lv]
    intro b hb
    obtain ⟨q, hq, rfl⟩ := List.mem_map.1 hb
    exact (key q (ht q hq)).1
  · rw [lv]
    exact List.mem_map.2 ⟨p, hp, rfl⟩
/-- **C97**, {n}D: nearest-neighbour search with pruning returns what a pass over all points with `closest` returns; if the
children are visited in the order of a strategy, a pass in some other order. -/
theorem C97_search{n} (o : Point{n} S) (ho : AllFinite o) (t : Tree (Point{n} S)) (ht : ∀ p ∈ t.leaves, NoNaN p)
    (swap : BoundingBox{n} S → BoundingBox{n} S → Bool) (best : Point{n} S) :
    (∃ l : List (Point{n} S), l.Perm t.leaves ∧ nearest{n} o swap t best = l.foldl (Api.closest o) best) ∧
    nearest{n} o (fun _ _ => false) t best = t.leaves.foldl (Api.closest o) best := by
  have key : ∀ t : Tree (Point{n} S), (∀ p ∈ t.leaves, NoNaN p) → ∀ swap best, ∃ l : List (Point{n} S), l.Perm t.leaves ∧
      nearest{n} o swap t best = l.foldl (Api.closest o) best ∧ ((∀ a b, swap a b = false) → l = t.leaves) := by
    intro t ht swap best
    refine Tree.nearest_eq (G := fun p => NoNaN p) (fun t ht q hs p hp => ?_) t ht best
    exact if_pos ((C97_prune{n} _ o q ho p (hull{n} t ht p hp)).1 hs)
  obtain ⟨l, h1, h2, -⟩ := key t ht swap best
  obtain ⟨l', -, h2', h3'⟩ := key t ht (fun _ _ => false) best
  exact ⟨⟨l, h1, h2⟩, by rw [h2', h3' fun _ _ => rfl]⟩
/-- **C97**, {n}D: the point found is the first candidate or one of the points, and none of them is closer to `o`. -/
theorem C97_best{n} (o : Point{n} S) (ho : AllFinite o) (t : Tree (Point{n} S)) (ht : ∀ p ∈ t.leaves, NoNaN p)
    (swap : BoundingBox{n} S → BoundingBox{n} S → Bool) (best : Point{n} S) (hb : NoNaN best) :
    nearest{n} o swap t best ∈ best :: t.leaves ∧
    ∀ p ∈ best :: t.leaves, RelativeDistance.isCloserTo o p (nearest{n} o swap t best) = false ∧
      ((Api.distance o (nearest{n} o swap t best) : S) ≤? Api.distance o p) = true := by
  obtain ⟨⟨l, hl, e⟩, -⟩ := C97_search{n} o ho t ht swap best
  have nn : ∀ p : Point{n} S, NoNaN p → ¬ IsNaN (Api.distance o p) := fun p hp => not_nan_dist{n} ho hp
  have mem : ∀ {{x}}, x ∈ best :: l ↔ x ∈ best :: t.leaves := fun {{x}} => by simp [hl.mem_iff]
  have all : ∀ p ∈ best :: t.leaves, ¬ IsNaN (Api.distance o p) := by
    intro p hp
    rcases List.mem_cons.1 hp with rfl | hp
    exacts [nn _ hb, nn p (ht p hp)]
  obtain ⟨h1, h2⟩ := (C94_order_closer{n} o).fold l best (nn _ hb) fun x hx => nn x (ht x (hl.mem_iff.1 hx))
  rw [e]
  refine ⟨mem.1 h1, fun p hp => ⟨h2 p (mem.2 hp), ?_⟩⟩
  exact measured_closer{n} o (all _ (mem.1 h1)) (all p hp) (h2 p (mem.2 hp))
''')
w('end\nend VecMath')
open('/verif/lean/Verif/Props/FloatClamp.lean','w').write('\n'.join(L))
