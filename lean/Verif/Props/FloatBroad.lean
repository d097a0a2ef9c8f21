import Verif.Spec.Broad
import Verif.Props.FloatCull
import Mathlib.Data.Sym.Sym2
/-!
# Layer F: collision detection (C104)

Generated by `tools/gen/broad.py`. `overlaps` compares numbers only, and `union` picks them: nothing is rounded, so every
pruning step is justified exactly.
-/

open Classical

namespace VecMath
set_option linter.unusedSectionVars false
open Scalar IEEE

section
variable {B : Type} {union : B → B → B} {test : B → B → Bool} {P : B → Prop}
theorem Tree.bound_pass (hP : ∀ {a b}, P a → P b → P (union a b))
    (ht : ∀ {a b c}, P a → P b → P c → test c a = true ∨ test c b = true → test c (union a b) = true) (t : Tree B)
    (h : ∀ b ∈ t.leaves, P b) : P (t.bound union) ∧ ∀ c, P c → ∀ b ∈ t.leaves, test c b = true → test c (t.bound union) = true := by
  induction t with
  | leaf b => exact ⟨h b (by simp [leaves]), fun c _ b' hb h' => by simp [leaves] at hb; subst hb; exact h'⟩
  | node l r ihl ihr =>
    obtain ⟨pl, tl⟩ := ihl fun b hb => h b (by simp [leaves, hb])
    obtain ⟨pr, tr⟩ := ihr fun b hb => h b (by simp [leaves, hb])
    refine ⟨hP pl pr, fun c hc b hb h' => ?_⟩
    simp only [leaves, List.mem_append] at hb
    exact ht pl pr hc (hb.imp (fun hb => tl c hc b hb h') (fun hb => tr c hc b hb h'))
theorem Tree.pairsWith_eq (hP : ∀ {a b}, P a → P b → P (union a b))
    (ht : ∀ {a b c}, P a → P b → P c → test c a = true ∨ test c b = true → test c (union a b) = true) (a : B) (ha : P a) (t : Tree B)
    (h : ∀ b ∈ t.leaves, P b) :
    t.pairsWith union test a = (t.leaves.map fun b => (a, b)).filter fun p => test p.1 p.2 := by
  induction t with
  | leaf b => simp only [pairsWith, leaves, List.map_cons, List.map_nil]; split <;> simp_all
  | node l r ihl ihr =>
    have key := Tree.bound_pass hP ht (.node l r) h
    rw [pairsWith, ihl fun b hb => h b (by simp [leaves, hb]), ihr fun b hb => h b (by simp [leaves, hb])]
    split_ifs with g
    · rw [leaves, List.map_append, List.filter_append]
    · symm
      rw [List.filter_eq_nil_iff]
      intro p hp hp'
      obtain ⟨b, hb, rfl⟩ := List.mem_map.1 hp
      exact g (key.2 a ha b hb hp')
theorem Tree.pairs_eq (hP : ∀ {a b}, P a → P b → P (union a b))
    (ht : ∀ {a b c}, P a → P b → P c → test c a = true ∨ test c b = true → test c (union a b) = true)
    (hs : ∀ a b, test a b = test b a) (t u : Tree B) (h : ∀ b ∈ t.leaves, P b) (h' : ∀ b ∈ u.leaves, P b) :
    t.pairs union test u = (crossPairs t.leaves u.leaves).filter fun p => test p.1 p.2 := by
  induction t with
  | leaf a =>
    rw [pairs, Tree.pairsWith_eq hP ht a (h a (by simp [leaves])) u h']
    simp [crossPairs, leaves]
  | node l r ihl ihr =>
    have key := Tree.bound_pass hP ht (.node l r) h
    have key' := Tree.bound_pass hP ht u h'
    rw [pairs, ihl fun b hb => h b (by simp [leaves, hb]), ihr fun b hb => h b (by simp [leaves, hb])]
    split_ifs with g
    · rw [leaves, crossPairs, crossPairs, crossPairs, List.flatMap_append, List.filter_append]
    · symm
      rw [List.filter_eq_nil_iff]
      intro p hp hp'
      obtain ⟨a, ha, hp⟩ := List.mem_flatMap.1 hp
      obtain ⟨b, hb, rfl⟩ := List.mem_map.1 hp
      refine g (key'.2 _ key.1 b hb ?_)
      rw [hs]
      exact key.2 b (h' b hb) a ha (by rw [hs]; exact hp')
theorem allPairs_append {A : Type} (l m : List A) : (allPairs (l ++ m)).Perm (allPairs l ++ allPairs m ++ crossPairs l m) := by
  induction l with
  | nil => simp [allPairs, crossPairs]
  | cons a l ih =>
    simp only [List.cons_append, allPairs, List.map_append, crossPairs, List.flatMap_cons]
    have ih' : (allPairs (l ++ m)).Perm (allPairs l ++ allPairs m ++ l.flatMap fun a => m.map fun b => (a, b)) := ih
    refine (List.Perm.append_left _ ih').trans ?_
    classical
    rw [List.perm_iff_count]
    intro x
    simp only [List.count_append]
    omega
theorem Tree.selfPairs_eq (hP : ∀ {a b}, P a → P b → P (union a b))
    (ht : ∀ {a b c}, P a → P b → P c → test c a = true ∨ test c b = true → test c (union a b) = true)
    (hs : ∀ a b, test a b = test b a) (t : Tree B) (h : ∀ b ∈ t.leaves, P b) :
    (t.selfPairs union test).Perm ((allPairs t.leaves).filter fun p => test p.1 p.2) := by
  induction t with
  | leaf a => simp [selfPairs, leaves, allPairs]
  | node l r ihl ihr =>
    have hl : ∀ b ∈ l.leaves, P b := fun b hb => h b (by simp [leaves, hb])
    have hr : ∀ b ∈ r.leaves, P b := fun b hb => h b (by simp [leaves, hb])
    rw [selfPairs, Tree.pairs_eq hP ht hs l r hl hr, leaves]
    refine List.Perm.trans ?_ ((allPairs_append _ _).filter _).symm
    rw [List.filter_append, List.filter_append]
    exact ((ihl hl).append (ihr hr)).append_right _
/-- Reordering a list reorders its pairs, up to which of the two comes first. -/
theorem allPairs_perm {A : Type} {l m : List A} (h : l.Perm m) :
    ((allPairs l).map fun p => s(p.1, p.2)).Perm ((allPairs m).map fun p => s(p.1, p.2)) := by
  induction h with
  | nil => exact .refl _
  | cons a h ih =>
    simp only [allPairs, List.map_append, List.map_map]
    exact (h.map _).append ih
  | swap a b l =>
    simp only [allPairs, List.map_append, List.map_cons, List.map_map, List.cons_append]
    rw [show s(b, a) = s(a, b) from Sym2.eq_swap]
    refine .cons _ ?_
    rw [← List.append_assoc, ← List.append_assoc]
    exact List.perm_append_comm.append_right _
  | trans _ _ h1 h2 => exact h1.trans h2
variable {S : Type} [Scalar S] [IEEE S]
theorem sweep_eq (lo hi : B → S) (h : ∀ a b, test a b = true → (lo b ≤? hi a) = true) (l : List B)
    (hl : l.Pairwise fun a b => (lo a ≤? lo b) = true) :
    sweep lo hi test l = (allPairs l).filter fun p => test p.1 p.2 := by
  induction l with
  | nil => rfl
  | cons a l ih =>
    rw [List.pairwise_cons] at hl
    rw [sweep, allPairs, List.filter_append, ih hl.2]
    congr 1
    rw [List.filter_map]
    congr 1
    replace hl := hl.2
    clear ih
    show List.filter (test a) _ = List.filter (test a) l
    induction l with
    | nil => rfl
    | cons b l ih =>
      rw [List.pairwise_cons] at hl
      by_cases hb : (lo b ≤? hi a) = true
      · rw [List.takeWhile_cons, if_pos hb, List.filter_cons, List.filter_cons, ih hl.2]
      · rw [List.takeWhile_cons, if_neg hb]
        symm
        rw [List.filter_nil, List.filter_eq_nil_iff]
        intro c hc hac
        have hc' := h a c hac
        rcases List.mem_cons.1 hc with rfl | hc
        · exact hb hc'
        · exact hb (le_trans' (hl.1 c hc) hc')
end

/-! ## 2D -/
section
variable {S : Type} [Scalar S] [IEEE S]
theorem overlaps_union2 {a b c : BoundingBox2 S} (ha : LeAll a.min a.max) (hb : LeAll b.min b.max)
    (h : c.overlaps a = true ∨ c.overlaps b = true) : c.overlaps (Api.union a b) = true := by
  obtain ⟨⟨h1, h2⟩, h3, h4⟩ := union2_ge ha hb
  rw [Point2.leAll] at h1 h2 h3 h4
  rw [overlaps2_iff] at h ⊢
  rw [overlaps2_iff] at h
  rcases h with h | h
  · exact ⟨⟨le_trans' h1.1 h.1.1, le_trans' h.1.2 h2.1⟩, ⟨le_trans' h1.2 h.2.1, le_trans' h.2.2 h2.2⟩⟩
  · exact ⟨⟨le_trans' h3.1 h.1.1, le_trans' h.1.2 h4.1⟩, ⟨le_trans' h3.2 h.2.1, le_trans' h.2.2 h4.2⟩⟩
/-- **C104**, 2D: descending two hierarchies of boxes together, and stopping where the bounding boxes of two subtrees do not
overlap, finds exactly the pairs of overlapping boxes, each once. -/
theorem C104_two2 (t u : Tree (BoundingBox2 S)) (ht : ∀ b ∈ t.leaves, LeAll b.min b.max) (hu : ∀ b ∈ u.leaves, LeAll b.min b.max) :
    t.pairs Api.union BoundingBox2.overlaps u = (crossPairs t.leaves u.leaves).filter fun p => p.1.overlaps p.2 :=
  Tree.pairs_eq (test := BoundingBox2.overlaps) (P := fun b : BoundingBox2 S => LeAll b.min b.max) (fun ha hb => union2_wf ha hb) (fun ha hb _ h => overlaps_union2 ha hb h)
    C29_symmetric2 t u ht hu
/-- **C104**, 2D: one hierarchy against itself: every overlapping pair of leaves at different positions, each once. -/
theorem C104_self2 (t : Tree (BoundingBox2 S)) (ht : ∀ b ∈ t.leaves, LeAll b.min b.max) :
    (t.selfPairs Api.union BoundingBox2.overlaps).Perm ((allPairs t.leaves).filter fun p => p.1.overlaps p.2) :=
  Tree.selfPairs_eq (test := BoundingBox2.overlaps) (P := fun b : BoundingBox2 S => LeAll b.min b.max) (fun ha hb => union2_wf ha hb) (fun ha hb _ h => overlaps_union2 ha hb h)
    C29_symmetric2 t ht
/-- **C104**, 2D: sweep and prune along any axis finds exactly the overlapping pairs, if the boxes are sorted by their
beginning along that axis. -/
theorem C104_sweep2 (d : Dimension2) (l : List (BoundingBox2 S)) (hl : l.Pairwise fun a b => (a.min.index d ≤? b.min.index d) = true) :
    sweep (fun b => b.min.index d) (fun b => b.max.index d) BoundingBox2.overlaps l = (allPairs l).filter fun p => p.1.overlaps p.2 := by
  refine sweep_eq _ _ (fun a b h => ?_) l hl
  rw [overlaps2_iff] at h
  cases d
  · exact h.1.1
  · exact h.2.1
/-- **C104**, 2D: sweep and prune after sorting, along any axis, and the descent of a hierarchy built from the same boxes in
any way, find the same pairs (as unordered pairs, each as often). -/
theorem C104_agree2 (d : Dimension2) (l s : List (BoundingBox2 S)) (t : Tree (BoundingBox2 S)) (hs : s.Perm l) (ht : t.leaves.Perm l)
    (hw : ∀ b ∈ l, LeAll b.min b.max) (hl : s.Pairwise fun a b => (a.min.index d ≤? b.min.index d) = true) :
    ((sweep (fun b => b.min.index d) (fun b => b.max.index d) BoundingBox2.overlaps s).map fun p => s(p.1, p.2)).Perm
      ((t.selfPairs Api.union BoundingBox2.overlaps).map fun p => s(p.1, p.2)) := by
  have key : ∀ {l m : List (BoundingBox2 S)}, l.Perm m →
      (((allPairs l).filter fun p => p.1.overlaps p.2).map fun p => s(p.1, p.2)).Perm
      (((allPairs m).filter fun p => p.1.overlaps p.2).map fun p => s(p.1, p.2)) := by
    intro l m h
    let f : Sym2 (BoundingBox2 S) → Bool := Sym2.lift ⟨fun a b => a.overlaps b, fun a b => C29_symmetric2 a b⟩
    have e : ∀ k : List (BoundingBox2 S), ((allPairs k).filter fun p => p.1.overlaps p.2).map (fun p => s(p.1, p.2)) =
        ((allPairs k).map fun p => s(p.1, p.2)).filter f := by
      intro k
      rw [List.filter_map]
      rfl
    rw [e, e]
    exact (allPairs_perm h).filter _
  rw [C104_sweep2 d s hl]
  exact (key (hs.trans ht.symm)).trans ((C104_self2 t fun b hb => hw b (ht.mem_iff.1 hb)).map _).symm
end

/-! ## 3D -/
section
variable {S : Type} [Scalar S] [IEEE S]
theorem overlaps_union3 {a b c : BoundingBox3 S} (ha : LeAll a.min a.max) (hb : LeAll b.min b.max)
    (h : c.overlaps a = true ∨ c.overlaps b = true) : c.overlaps (Api.union a b) = true := by
  obtain ⟨⟨h1, h2⟩, h3, h4⟩ := union3_ge ha hb
  rw [Point3.leAll] at h1 h2 h3 h4
  rw [overlaps3_iff] at h ⊢
  rw [overlaps3_iff] at h
  rcases h with h | h
  · exact ⟨⟨le_trans' h1.1 h.1.1, le_trans' h.1.2 h2.1⟩, ⟨le_trans' h1.2.1 h.2.1.1, le_trans' h.2.1.2 h2.2.1⟩, ⟨le_trans' h1.2.2 h.2.2.1, le_trans' h.2.2.2 h2.2.2⟩⟩
  · exact ⟨⟨le_trans' h3.1 h.1.1, le_trans' h.1.2 h4.1⟩, ⟨le_trans' h3.2.1 h.2.1.1, le_trans' h.2.1.2 h4.2.1⟩, ⟨le_trans' h3.2.2 h.2.2.1, le_trans' h.2.2.2 h4.2.2⟩⟩
/-- **C104**, 3D: descending two hierarchies of boxes together, and stopping where the bounding boxes of two subtrees do not
overlap, finds exactly the pairs of overlapping boxes, each once. -/
theorem C104_two3 (t u : Tree (BoundingBox3 S)) (ht : ∀ b ∈ t.leaves, LeAll b.min b.max) (hu : ∀ b ∈ u.leaves, LeAll b.min b.max) :
    t.pairs Api.union BoundingBox3.overlaps u = (crossPairs t.leaves u.leaves).filter fun p => p.1.overlaps p.2 :=
  Tree.pairs_eq (test := BoundingBox3.overlaps) (P := fun b : BoundingBox3 S => LeAll b.min b.max) (fun ha hb => union3_wf ha hb) (fun ha hb _ h => overlaps_union3 ha hb h)
    C29_symmetric3 t u ht hu
/-- **C104**, 3D: one hierarchy against itself: every overlapping pair of leaves at different positions, each once. -/
theorem C104_self3 (t : Tree (BoundingBox3 S)) (ht : ∀ b ∈ t.leaves, LeAll b.min b.max) :
    (t.selfPairs Api.union BoundingBox3.overlaps).Perm ((allPairs t.leaves).filter fun p => p.1.overlaps p.2) :=
  Tree.selfPairs_eq (test := BoundingBox3.overlaps) (P := fun b : BoundingBox3 S => LeAll b.min b.max) (fun ha hb => union3_wf ha hb) (fun ha hb _ h => overlaps_union3 ha hb h)
    C29_symmetric3 t ht
/-- **C104**, 3D: sweep and prune along any axis finds exactly the overlapping pairs, if the boxes are sorted by their
beginning along that axis. -/
theorem C104_sweep3 (d : Dimension3) (l : List (BoundingBox3 S)) (hl : l.Pairwise fun a b => (a.min.index d ≤? b.min.index d) = true) :
    sweep (fun b => b.min.index d) (fun b => b.max.index d) BoundingBox3.overlaps l = (allPairs l).filter fun p => p.1.overlaps p.2 := by
  refine sweep_eq _ _ (fun a b h => ?_) l hl
  rw [overlaps3_iff] at h
  cases d
  · exact h.1.1
  · exact h.2.1.1
  · exact h.2.2.1
/-- **C104**, 3D: sweep and prune after sorting, along any axis, and the descent of a hierarchy built from the same boxes in
any way, find the same pairs (as unordered pairs, each as often). -/
theorem C104_agree3 (d : Dimension3) (l s : List (BoundingBox3 S)) (t : Tree (BoundingBox3 S)) (hs : s.Perm l) (ht : t.leaves.Perm l)
    (hw : ∀ b ∈ l, LeAll b.min b.max) (hl : s.Pairwise fun a b => (a.min.index d ≤? b.min.index d) = true) :
    ((sweep (fun b => b.min.index d) (fun b => b.max.index d) BoundingBox3.overlaps s).map fun p => s(p.1, p.2)).Perm
      ((t.selfPairs Api.union BoundingBox3.overlaps).map fun p => s(p.1, p.2)) := by
  have key : ∀ {l m : List (BoundingBox3 S)}, l.Perm m →
      (((allPairs l).filter fun p => p.1.overlaps p.2).map fun p => s(p.1, p.2)).Perm
      (((allPairs m).filter fun p => p.1.overlaps p.2).map fun p => s(p.1, p.2)) := by
    intro l m h
    let f : Sym2 (BoundingBox3 S) → Bool := Sym2.lift ⟨fun a b => a.overlaps b, fun a b => C29_symmetric3 a b⟩
    have e : ∀ k : List (BoundingBox3 S), ((allPairs k).filter fun p => p.1.overlaps p.2).map (fun p => s(p.1, p.2)) =
        ((allPairs k).map fun p => s(p.1, p.2)).filter f := by
      intro k
      rw [List.filter_map]
      rfl
    rw [e, e]
    exact (allPairs_perm h).filter _
  rw [C104_sweep3 d s hl]
  exact (key (hs.trans ht.symm)).trans ((C104_self3 t fun b hb => hw b (ht.mem_iff.1 hb)).map _).symm
end

end VecMath
