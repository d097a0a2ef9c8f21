HEAD='''import Verif.Spec.FirstHit
import Verif.Props.FloatCull
import Verif.Props.FloatReduce
import Verif.Props.FloatClamp
/-!
# Layer F: the first object hit by a ray (C103)

Generated by `tools/gen/firsthit.py`. The range of a box around another box contains the range of the inner one also
after rounding (C70), so a box entered behind the best hit holds nothing in front of it.
-/

open Classical

namespace VecMath
set_option linter.unusedSectionVars false
open Scalar IEEE

section
variable {S A B : Type} [Scalar S] [IEEE S]
theorem keepFirst_all (hit : A → Option S) (l : List A) (hn : ∀ a ∈ l, ∀ s, hit a = some s → ¬ IsNaN s) :
    ∀ best : Option (A × S), (∀ c t, best = some (c, t) → ¬ IsNaN t) →
    (l.foldl (keepFirst hit) best = none ↔ best = none ∧ ∀ a ∈ l, hit a = none) ∧
    ∀ a s, l.foldl (keepFirst hit) best = some (a, s) →
      (best = some (a, s) ∨ (a ∈ l ∧ hit a = some s)) ∧ ¬ IsNaN s ∧ (∀ c t, best = some (c, t) → (s ≤? t) = true) ∧
      ∀ c ∈ l, ∀ u, hit c = some u → (s ≤? u) = true := by
  induction l with
  | nil =>
    intro best hb
    refine ⟨by simp, fun a s h => ?_⟩
    have h : best = some (a, s) := h
    refine ⟨.inl h, hb a s h, fun c t e => ?_, by simp⟩
    rw [h] at e
    obtain ⟨-, rfl⟩ := Prod.mk.inj (Option.some.inj e)
    exact le_self (hb a s h)
  | cons a l ih =>
    intro best hb
    have hn' : ∀ a ∈ l, ∀ s, hit a = some s → ¬ IsNaN s := fun x hx => hn x (List.mem_cons_of_mem _ hx)
    rw [List.foldl_cons]
    rcases ha : hit a with _ | s
    · have e : keepFirst hit best a = best := by unfold keepFirst; rw [ha]
      rw [e]
      obtain ⟨i1, i2⟩ := ih hn' best hb
      refine ⟨i1.trans (by simp [ha]), fun c u h => ?_⟩
      obtain ⟨j1, j2, j3, j4⟩ := i2 c u h
      refine ⟨j1.imp_right fun h => ⟨List.mem_cons_of_mem _ h.1, h.2⟩, j2, j3, fun d hd w hw => ?_⟩
      rcases List.mem_cons.1 hd with rfl | hd
      · rw [ha] at hw; cases hw
      · exact j4 d hd w hw
    · have ns : ¬ IsNaN s := hn a (by simp) s ha
      rcases best with _ | ⟨c, t⟩
      · have e : keepFirst hit none a = some (a, s) := by unfold keepFirst; rw [ha]
        rw [e]
        obtain ⟨i1, i2⟩ := ih hn' (some (a, s)) (fun c t h => by obtain ⟨-, rfl⟩ := Prod.mk.inj (Option.some.inj h); exact ns)
        refine ⟨by rw [i1]; simp [ha], fun d u h => ?_⟩
        obtain ⟨j1, j2, j3, j4⟩ := i2 d u h
        refine ⟨.inr ?_, j2, by simp, fun x hx w hw => ?_⟩
        · rcases j1 with j1 | j1
          · obtain ⟨rfl, rfl⟩ := Prod.mk.inj (Option.some.inj j1); exact ⟨by simp, ha⟩
          · exact ⟨List.mem_cons_of_mem _ j1.1, j1.2⟩
        · rcases List.mem_cons.1 hx with rfl | hx
          · rw [ha] at hw; obtain rfl := Option.some.inj hw; exact j3 _ _ rfl
          · exact j4 x hx w hw
      · have nt := hb c t rfl
        by_cases hlt : (s <? t) = true
        · have e : keepFirst hit (some (c, t)) a = some (a, s) := by unfold keepFirst; rw [ha]; exact if_pos hlt
          rw [e]
          obtain ⟨i1, i2⟩ := ih hn' (some (a, s)) (fun c t h => by obtain ⟨-, rfl⟩ := Prod.mk.inj (Option.some.inj h); exact ns)
          refine ⟨by rw [i1]; simp, fun d u h => ?_⟩
          obtain ⟨j1, j2, j3, j4⟩ := i2 d u h
          have us := j3 _ _ rfl
          refine ⟨.inr ?_, j2, fun c' t' h' => ?_, fun x hx w hw => ?_⟩
          · rcases j1 with j1 | j1
            · obtain ⟨rfl, rfl⟩ := Prod.mk.inj (Option.some.inj j1); exact ⟨by simp, ha⟩
            · exact ⟨List.mem_cons_of_mem _ j1.1, j1.2⟩
          · obtain ⟨-, rfl⟩ := Prod.mk.inj (Option.some.inj h')
            rw [lt_iff] at hlt
            exact le_trans' us (le_iff.2 ⟨ns, nt, hlt.2.2.le⟩)
          · rcases List.mem_cons.1 hx with rfl | hx
            · rw [ha] at hw; obtain rfl := Option.some.inj hw; exact us
            · exact j4 x hx w hw
        · have e : keepFirst hit (some (c, t)) a = some (c, t) := by unfold keepFirst; rw [ha]; exact if_neg hlt
          rw [e]
          obtain ⟨i1, i2⟩ := ih hn' (some (c, t)) hb
          refine ⟨by rw [i1]; simp, fun d u h => ?_⟩
          obtain ⟨j1, j2, j3, j4⟩ := i2 d u h
          refine ⟨j1.imp_right fun h => ⟨List.mem_cons_of_mem _ h.1, h.2⟩, j2, j3, fun x hx w hw => ?_⟩
          rcases List.mem_cons.1 hx with rfl | hx
          · rw [ha] at hw; obtain rfl := Option.some.inj hw
            refine le_trans' (j3 _ _ rfl) (le_iff.2 ⟨nt, ns, ?_⟩)
            rw [lt_iff] at hlt
            by_contra hc
            exact hlt ⟨ns, nt, not_le.1 hc⟩
          · exact j4 x hx w hw

/-- Skipping loses nothing if a box is entered no later than everything in it is hit. -/
theorem Tree.firstHit_eq {union : B → B → B} {enter : B → Option S} {swap : B → B → Bool} {hit : A → Option S} {G : B × A → Prop}
    (h : ∀ t : Tree (B × A), (∀ x ∈ t.leaves, G x) → ∀ x ∈ t.leaves, ∀ s, hit x.2 = some s →
      ∃ e, enter ((t.map Prod.fst).bound union) = some e ∧ (e ≤? s) = true) (t : Tree (B × A)) (ht : ∀ x ∈ t.leaves, G x) :
    ∀ best, ∃ l : List A, l.Perm (t.leaves.map Prod.snd) ∧ t.firstHit union enter swap hit best = l.foldl (keepFirst hit) best ∧
      ((∀ a b, swap a b = false) → l = t.leaves.map Prod.snd) := by
  have one : ∀ t : Tree (B × A), (∀ x ∈ t.leaves, G x) → ∀ best, skipBox (enter ((t.map Prod.fst).bound union)) best = true →
      ∀ x ∈ t.leaves, keepFirst hit best x.2 = best := by
    intro t ht best hs x hx
    rcases hh : hit x.2 with _ | s
    · unfold keepFirst; rw [hh]
    · obtain ⟨e, he, hes⟩ := h t ht x hx s hh
      rw [he] at hs
      rcases best with _ | ⟨c, u⟩
      · simp [skipBox] at hs
      · have hs : (u ≤? e) = true := hs
        have us := le_iff.1 (le_trans' hs hes)
        unfold keepFirst; rw [hh]
        refine if_neg fun hlt => ?_
        exact absurd (lt_iff.1 hlt).2.2 (not_lt.2 us.2.2)
  induction t with
  | leaf x =>
    intro best
    refine ⟨[x.2], List.Perm.refl _, ?_, fun _ => rfl⟩
    unfold firstHit
    by_cases hs : skipBox (enter x.1) best = true
    · rw [if_pos hs]
      exact (one (.leaf x) ht best hs x (by simp [leaves])).symm
    · rw [if_neg hs]; rfl
  | node l r hl hr =>
    have hl := hl fun p hp => ht p (by simp [leaves, hp])
    have hr := hr fun p hp => ht p (by simp [leaves, hp])
    intro best
    by_cases hs : skipBox (enter (((node l r).map Prod.fst).bound union)) best = true
    · refine ⟨(node l r).leaves.map Prod.snd, List.Perm.refl _, ?_, fun _ => rfl⟩
      have keep : ∀ ps : List (B × A), (∀ p ∈ ps, keepFirst hit best p.2 = best) → (ps.map Prod.snd).foldl (keepFirst hit) best = best := by
        intro ps
        induction ps with
        | nil => exact fun _ => rfl
        | cons p ps ih =>
          intro hp
          rw [List.map_cons, List.foldl_cons, hp p (by simp)]
          exact ih fun q hq => hp q (by simp [hq])
      rw [keep _ fun p hp => one _ ht _ hs p hp]
      unfold firstHit
      rw [if_pos hs]
    · by_cases hw : swap ((l.map Prod.fst).bound union) ((r.map Prod.fst).bound union) = true
      · obtain ⟨l2, p2, e2, -⟩ := hr best
        obtain ⟨l1, p1, e1, -⟩ := hl (r.firstHit union enter swap hit best)
        refine ⟨l2 ++ l1, ?_, ?_, fun hf => by rw [hf] at hw; simp at hw⟩
        · rw [leaves, List.map_append]
          exact (p2.append p1).trans List.perm_append_comm
        · unfold firstHit
          rw [if_neg hs, if_pos hw, e1, e2, List.foldl_append]
      · obtain ⟨l1, p1, e1, i1⟩ := hl best
        obtain ⟨l2, p2, e2, i2⟩ := hr (l.firstHit union enter swap hit best)
        refine ⟨l1 ++ l2, ?_, ?_, fun hf => by rw [i1 hf, i2 hf, leaves, List.map_append]⟩
        · rw [leaves, List.map_append]; exact p1.append p2
        · unfold firstHit
          rw [if_neg hs, if_neg hw, e2, e1, List.foldl_append]
end

'''
def gen(n):
    B=f"BoundingBox{n}"; R=f"Ray{n}"
    return f'''/-! ## {n}D -/
section
variable {{S A : Type}} [Scalar S] [IEEE S] [Binary S]
theorem usable_bound{n} (r : {R} S) (t : Tree ({B} S)) (ht : ∀ b ∈ t.leaves, Usable{n} r b) : Usable{n} r (t.bound Api.union) := by
  induction t with
  | leaf b => exact ht b (by simp [Tree.leaves])
  | node l r' hl hr =>
    exact (hl fun b hb => ht b (by simp [Tree.leaves, hb])).union (hr fun b hb => ht b (by simp [Tree.leaves, hb]))
/-- The box of a hierarchy is reported over a range that contains that of every box in it. -/
theorem bound_hit{n} (r : {R} S) (t : Tree ({B} S)) (ho : AllFinite r.origin) (hd : AllFinite r.direction)
    (ht : ∀ b ∈ t.leaves, LeAll b.min b.max ∧ AllFinite b ∧ OffPlanes{n} b r) (b : {B} S) (hb : b ∈ t.leaves) (i : Range S)
    (hi : Api.intersect b r = some i) :
    ∃ j : Range S, Api.intersect (t.bound Api.union) r = some j ∧ (j.start ≤? i.start) = true ∧ (i.stop ≤? j.stop) = true := by
  have hu := usable_bound{n} r t ht
  exact C70_nested{n} b _ r (ht b hb).1 hu.2.1 ho hd ((C78_tree{n} t fun b hb => (ht b hb).1).2.1 b hb) hu.2.2.offFaces i hi
/-- **C103**, {n}D: searching a hierarchy for the first hit, skipping every box that the ray misses or enters behind the best
hit so far, gives the same as trying all objects one after another (in the order of the visit), provided every object is
hit within the range that `intersect` reports for its box. -/
theorem C103_search{n} (r : {R} S) (ho : AllFinite r.origin) (hd : AllFinite r.direction) (hit : A → Option S)
    (t : Tree ({B} S × A)) (ht : ∀ x ∈ t.leaves, LeAll x.1.min x.1.max ∧ AllFinite x.1 ∧ OffPlanes{n} x.1 r)
    (hh : ∀ x ∈ t.leaves, ∀ s, hit x.2 = some s → ∃ i : Range S, Api.intersect x.1 r = some i ∧ (i.start ≤? s) = true)
    (swap : {B} S → {B} S → Bool) (best : Option (A × S)) :
    (∃ l : List A, l.Perm (t.leaves.map Prod.snd) ∧ t.firstHit Api.union (enter{n} r) swap hit best = l.foldl (keepFirst hit) best) ∧
    t.firstHit Api.union (enter{n} r) (fun _ _ => false) hit best = (t.leaves.map Prod.snd).foldl (keepFirst hit) best := by
  have key : ∀ (swap : {B} S → {B} S → Bool) best, ∃ l : List A, l.Perm (t.leaves.map Prod.snd) ∧
      t.firstHit Api.union (enter{n} r) swap hit best = l.foldl (keepFirst hit) best ∧
      ((∀ a b, swap a b = false) → l = t.leaves.map Prod.snd) := by
    intro swap best
    refine Tree.firstHit_eq (G := fun x => (LeAll x.1.min x.1.max ∧ AllFinite x.1 ∧ OffPlanes{n} x.1 r) ∧
      ∀ s, hit x.2 = some s → ∃ i : Range S, Api.intersect x.1 r = some i ∧ (i.start ≤? s) = true)
      (fun t ht x hx s hs => ?_) t (fun x hx => ⟨ht x hx, hh x hx⟩) best
    obtain ⟨i, hi, his⟩ := (ht x hx).2 s hs
    have lv : (t.map Prod.fst).leaves = t.leaves.map Prod.fst := Tree.leaves_map _ t
    obtain ⟨j, hj, hji, -⟩ := bound_hit{n} r (t.map Prod.fst) ho hd
      (fun b hb => by
        rw [lv] at hb
        obtain ⟨y, hy, rfl⟩ := List.mem_map.1 hb
        exact (ht y hy).1) x.1 (by rw [lv]; exact List.mem_map.2 ⟨x, hx, rfl⟩) i hi
    exact ⟨j.start, by unfold enter{n}; rw [hj]; rfl, le_trans' hji his⟩
  obtain ⟨l, h1, h2, -⟩ := key swap best
  obtain ⟨l', -, h2', h3'⟩ := key (fun _ _ => false) best
  exact ⟨⟨l, h1, h2⟩, by rw [h2', h3' fun _ _ => rfl]⟩
/-- **C103**, {n}D: the object found is hit, and none is hit before it; nothing is found only if nothing is hit. -/
theorem C103_first{n} (r : {R} S) (ho : AllFinite r.origin) (hd : AllFinite r.direction) (hit : A → Option S)
    (t : Tree ({B} S × A)) (ht : ∀ x ∈ t.leaves, LeAll x.1.min x.1.max ∧ AllFinite x.1 ∧ OffPlanes{n} x.1 r)
    (hh : ∀ x ∈ t.leaves, ∀ s, hit x.2 = some s → ∃ i : Range S, Api.intersect x.1 r = some i ∧ (i.start ≤? s) = true)
    (swap : {B} S → {B} S → Bool) :
    (t.firstHit Api.union (enter{n} r) swap hit none = none ↔ ∀ x ∈ t.leaves, hit x.2 = none) ∧
    ∀ a s, t.firstHit Api.union (enter{n} r) swap hit none = some (a, s) →
      (∃ x ∈ t.leaves, x.2 = a ∧ hit a = some s) ∧ ∀ x ∈ t.leaves, ∀ u, hit x.2 = some u → (s ≤? u) = true := by
  obtain ⟨⟨l, hl, e⟩, -⟩ := C103_search{n} r ho hd hit t ht hh swap none
  have mem : ∀ a, a ∈ l ↔ ∃ x ∈ t.leaves, x.2 = a := fun a => by rw [hl.mem_iff]; simp
  have nn : ∀ a ∈ l, ∀ s, hit a = some s → ¬ IsNaN s := by
    intro a ha s hs
    obtain ⟨x, hx, rfl⟩ := (mem a).1 ha
    obtain ⟨i, -, h⟩ := hh x hx s hs
    exact (le_iff.1 h).2.1
  obtain ⟨k1, k2⟩ := keepFirst_all hit l nn none (by simp)
  rw [e]
  refine ⟨k1.trans ⟨fun h x hx => h.2 x.2 ((mem _).2 ⟨x, hx, rfl⟩), fun h => ⟨rfl, fun a ha => ?_⟩⟩, fun a s h => ?_⟩
  · obtain ⟨x, hx, rfl⟩ := (mem a).1 ha
    exact h x hx
  · obtain ⟨j1, -, -, j4⟩ := k2 a s h
    rcases j1 with j1 | ⟨j1, j2⟩
    · cases j1
    · obtain ⟨x, hx, rfl⟩ := (mem a).1 j1
      exact ⟨⟨x, hx, rfl, j2⟩, fun y hy u hu => j4 y.2 ((mem _).2 ⟨y, hy, rfl⟩) u hu⟩
/-- **C103**, {n}D: the same when the objects are the boxes themselves, hit where `intersect` says. -/
theorem C103_boxes{n} (r : {R} S) (ho : AllFinite r.origin) (hd : AllFinite r.direction) (t : Tree ({B} S))
    (ht : ∀ b ∈ t.leaves, LeAll b.min b.max ∧ AllFinite b ∧ OffPlanes{n} b r) (swap : {B} S → {B} S → Bool) :
    ((t.map fun b => (b, b)).firstHit Api.union (enter{n} r) swap (enter{n} r) none = none ↔
      ∀ b ∈ t.leaves, (Api.intersect b r : Option (Range S)) = none) ∧
    ∀ b s, (t.map fun b => (b, b)).firstHit Api.union (enter{n} r) swap (enter{n} r) none = some (b, s) →
      b ∈ t.leaves ∧ (∃ i : Range S, Api.intersect b r = some i ∧ i.start = s) ∧
      ∀ c ∈ t.leaves, ∀ j : Range S, Api.intersect c r = some j → (s ≤? j.start) = true := by
  have lv : (t.map fun b => (b, b)).leaves = t.leaves.map fun b => (b, b) := Tree.leaves_map _ t
  have some_iff : ∀ (b : {B} S) s, enter{n} r b = some s ↔ ∃ i : Range S, Api.intersect b r = some i ∧ i.start = s := by
    intro b s; unfold enter{n}; exact Option.map_eq_some_iff
  obtain ⟨h1, h2⟩ := C103_first{n} r ho hd (enter{n} r) (t.map fun b => (b, b))
    (fun x hx => by
      rw [lv] at hx
      obtain ⟨b, hb, rfl⟩ := List.mem_map.1 hx
      exact ht b hb)
    (fun x hx s hs => by
      rw [lv] at hx
      obtain ⟨b, hb, rfl⟩ := List.mem_map.1 hx
      obtain ⟨i, hi, rfl⟩ := (some_iff b s).1 hs
      exact ⟨i, hi, le_self (C34_range{n} b r i hi).2.2.1⟩) swap
  rw [lv] at h1 h2
  refine ⟨h1.trans ⟨fun h b hb => ?_, fun h x hx => ?_⟩, fun b s h => ?_⟩
  · have := h (b, b) (List.mem_map.2 ⟨b, hb, rfl⟩)
    simpa [enter{n}] using this
  · obtain ⟨b, hb, rfl⟩ := List.mem_map.1 hx
    simp [enter{n}, h b hb]
  · obtain ⟨⟨x, hx, rfl, hs⟩, h4⟩ := h2 b s h
    obtain ⟨b, hb, rfl⟩ := List.mem_map.1 hx
    exact ⟨hb, (some_iff b s).1 hs, fun c hc j hj => h4 (c, c) (List.mem_map.2 ⟨c, hc, rfl⟩) _ ((some_iff c _).2 ⟨j, hj, rfl⟩)⟩
/-- **C103**, {n}D: the search for all boxes hit between two parameters (segments, shadow rays) loses nothing. -/
theorem C103_between{n} (r : {R} S) (ho : AllFinite r.origin) (hd : AllFinite r.direction) (lo hi : S) (t : Tree ({B} S))
    (ht : ∀ b ∈ t.leaves, LeAll b.min b.max ∧ AllFinite b ∧ OffPlanes{n} b r) :
    t.search Api.union (hitsBetween{n} r lo hi) = t.leaves.filter (hitsBetween{n} r lo hi) := by
  refine Tree.search_eq (P := Usable{n} r) (fun ha hb => ha.union hb) (fun {{a b}} ha hb h => ?_) t ht
  have hu := ha.union hb
  have key : ∀ c : {B} S, Usable{n} r c → (∀ p, c.isInside p = true → (Api.union a b).isInside p = true) →
      hitsBetween{n} r lo hi c = true → hitsBetween{n} r lo hi (Api.union a b) = true := by
    intro c hc hs h
    unfold hitsBetween{n} at h ⊢
    rcases hi' : (Api.intersect c r : Option (Range S)) with _ | i
    · rw [hi'] at h; simp at h
    · rw [hi'] at h
      simp only [Bool.and_eq_true] at h
      obtain ⟨j, hj, j1, j2⟩ := C70_nested{n} c _ r hc.1 hu.2.1 ho hd hs hu.2.2.offFaces i hi'
      rw [hj]
      simp only [Bool.and_eq_true]
      exact ⟨le_trans' j1 h.1, le_trans' h.2 j2⟩
  have hin := (C26_union{n} a b ha.1 hb.1).2.1
  rcases h with h | h
  · exact key a ha (fun p hp => hin p (.inl hp)) h
  · exact key b hb (fun p hp => hin p (.inr hp)) h
end

'''
open('/verif/lean/Verif/Props/FloatFirstHit.lean','w').write(HEAD+gen(2)+gen(3)+"end VecMath\n")
