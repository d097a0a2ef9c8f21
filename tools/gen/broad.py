HEAD='''import Verif.Spec.Broad
import Verif.Props.FloatCull
import Mathlib.Data.Sym.Sym2
/-!
# Layer F: collision detection (C104)

Generated by `tools/gen/broad.py`. `overlaps` compares numbers only, and `union` picks them: nothing is rounded, so every
pruning step is justified exactly.
-/

open Classical

namespace VecMath
set_option linter.unusedSectionVars false
open Scalar IEEE

section
variable {B : Type} {union : B → B → B} {test : B → B → Bool} {P : B → Prop}
theorem Tree.bound_pass (hP : ∀ {a b}, P a → P b → P (union a b))
    (ht : ∀ {a b c}, P a → P b → P c → test c a = true ∨ test c b = true → test c (union a b) = true) (t : Tree B)
    (h : ∀ b ∈ t.leaves, P b) : P (t.bound union) ∧ ∀ c, P c → ∀ b ∈ t.leaves, test c b = true → test c (t.bound union) = true := by
  induction t with
  | leaf b => exact ⟨h b (by simp [leaves]), fun c _ b' hb h' => by simp [leaves] at hb; subst hb; exact h'⟩
  | node l r ihl ihr =>
    obtain ⟨pl, tl⟩ := ihl fun b hb => h b (by simp [leaves, hb])
    obtain ⟨pr, tr⟩ := ihr fun b hb => h b (by simp [leaves, hb])
    refine ⟨hP pl pr, fun c hc b hb h' => ?_⟩
    simp only [leaves, List.mem_append] at hb
    exact ht pl pr hc (hb.imp (fun hb => tl c hc b hb h') (fun hb => tr c hc b hb h'))
theorem Tree.pairsWith_eq (hP : ∀ {a b}, P a → P b → P (union a b))
    (ht : ∀ {a b c}, P a → P b → P c → test c a = true ∨ test c b = true → test c (union a b) = true) (a : B) (ha : P a) (t : Tree B)
    (h : ∀ b ∈ t.leaves, P b) :
    t.pairsWith union test a = (t.leaves.map fun b => (a, b)).filter fun p => test p.1 p.2 := by
  induction t with
  | leaf b => simp only [pairsWith, leaves, List.map_cons, List.map_nil]; split <;> simp_all
  | node l r ihl ihr =>
    have key := Tree.bound_pass hP ht (.node l r) h
    rw [pairsWith, ihl fun b hb => h b (by simp [leaves, hb]), ihr fun b hb => h b (by simp [leaves, hb])]
    split_ifs with g
    · rw [leaves, List.map_append, List.filter_append]
    · symm
      rw [List.filter_eq_nil_iff]
      intro p hp hp'
      obtain ⟨b, hb, rfl⟩ := List.mem_map.1 hp
      exact g (key.2 a ha b hb hp')
theorem Tree.pairs_eq (hP : ∀ {a b}, P a → P b → P (union a b))
    (ht : ∀ {a b c}, P a → P b → P c → test c a = true ∨ test c b = true → test c (union a b) = true)
    (hs : ∀ a b, test a b = test b a) (t u : Tree B) (h : ∀ b ∈ t.leaves, P b) (h' : ∀ b ∈ u.leaves, P b) :
    t.pairs union test u = (crossPairs t.leaves u.leaves).filter fun p => test p.1 p.2 := by
  induction t with
  | leaf a =>
    rw [pairs, Tree.pairsWith_eq hP ht a (h a (by simp [leaves])) u h']
    simp [crossPairs, leaves]
  | node l r ihl ihr =>
    have key := Tree.bound_pass hP ht (.node l r) h
    have key' := Tree.bound_pass hP ht u h'
    rw [pairs, ihl fun b hb => h b (by simp [leaves, hb]), ihr fun b hb => h b (by simp [leaves, hb])]
    split_ifs with g
    · rw [leaves, crossPairs, crossPairs, crossPairs, List.flatMap_append, List.filter_append]
    · symm
      rw [List.filter_eq_nil_iff]
      intro p hp hp'
      obtain ⟨a, ha, hp⟩ := List.mem_flatMap.1 hp
      obtain ⟨b, hb, rfl⟩ := List.mem_map.1 hp
      refine g (key'.2 _ key.1 b hb ?_)
      rw [hs]
      exact key.2 b (h' b hb) a ha (by rw [hs]; exact hp')
theorem allPairs_append {A : Type} (l m : List A) : (allPairs (l ++ m)).Perm (allPairs l ++ allPairs m ++ crossPairs l m) := by
  induction l with
  | nil => simp [allPairs, crossPairs]
  | cons a l ih =>
    simp only [List.cons_append, allPairs, List.map_append, crossPairs, List.flatMap_cons]
    have ih' : (allPairs (l ++ m)).Perm (allPairs l ++ allPairs m ++ l.flatMap fun a => m.map fun b => (a, b)) := ih
    refine (List.Perm.append_left _ ih').trans ?_
    classical
    rw [List.perm_iff_count]
    intro x
    simp only [List.count_append]
    omega
theorem Tree.selfPairs_eq (hP : ∀ {a b}, P a → P b → P (union a b))
    (ht : ∀ {a b c}, P a → P b → P c → test c a = true ∨ test c b = true → test c (union a b) = true)
    (hs : ∀ a b, test a b = test b a) (t : Tree B) (h : ∀ b ∈ t.leaves, P b) :
    (t.selfPairs union test).Perm ((allPairs t.leaves).filter fun p => test p.1 p.2) := by
  induction t with
  | leaf a => simp [selfPairs, leaves, allPairs]
  | node l r ihl ihr =>
    have hl : ∀ b ∈ l.leaves, P b := fun b hb => h b (by simp [leaves, hb])
    have hr : ∀ b ∈ r.leaves, P b := fun b hb => h b (by simp [leaves, hb])
    rw [selfPairs, Tree.pairs_eq hP ht hs l r hl hr, leaves]
    refine List.Perm.trans ?_ ((allPairs_append _ _).filter _).symm
    rw [List.filter_append, List.filter_append]
    exact ((ihl hl).append (ihr hr)).append_right _
/-- Reordering a list reorders its pairs, up to which of the two comes first. -/
theorem allPairs_perm {A : Type} {l m : List A} (h : l.Perm m) :
    ((allPairs l).map fun p => s(p.1, p.2)).Perm ((allPairs m).map fun p => s(p.1, p.2)) := by
  induction h with
  | nil => exact .refl _
  | cons a h ih =>
    simp only [allPairs, List.map_append, List.map_map]
    exact (h.map _).append ih
  | swap a b l =>
    simp only [allPairs, List.map_append, List.map_cons, List.map_map, List.cons_append]
    rw [show s(b, a) = s(a, b) from Sym2.eq_swap]
    refine .cons _ ?_
    rw [← List.append_assoc, ← List.append_assoc]
    exact List.perm_append_comm.append_right _
  | trans _ _ h1 h2 => exact h1.trans h2
variable {S : Type} [Scalar S] [IEEE S]
theorem sweep_eq (lo hi : B → S) (h : ∀ a b, test a b = true → (lo b ≤? hi a) = true) (l : List B)
    (hl : l.Pairwise fun a b => (lo a ≤? lo b) = true) :
    sweep lo hi test l = (allPairs l).filter fun p => test p.1 p.2 := by
  induction l with
  | nil => rfl
  | cons a l ih =>
    rw [List.pairwise_cons] at hl
    rw [sweep, allPairs, List.filter_append, ih hl.2]
    congr 1
    rw [List.filter_map]
    congr 1
    replace hl := hl.2
    clear ih
    show List.filter (test a) _ = List.filter (test a) l
    induction l with
    | nil => rfl
    | cons b l ih =>
      rw [List.pairwise_cons] at hl
      by_cases hb : (lo b ≤? hi a) = true
      · rw [List.takeWhile_cons, if_pos hb, List.filter_cons, List.filter_cons, ih hl.2]
      · rw [List.takeWhile_cons, if_neg hb]
        symm
        rw [List.filter_nil, List.filter_eq_nil_iff]
        intro c hc hac
        have hc' := h a c hac
        rcases List.mem_cons.1 hc with rfl | hc
        · exact hb hc'
        · exact hb (le_trans' (hl.1 c hc) hc')
end

'''
def gen(n):
    B=f"BoundingBox{n}"; D=f"Dimension{n}"
    if n==2:
        u1="⟨⟨le_trans' h1.1 h.1.1, le_trans' h.1.2 h2.1⟩, ⟨le_trans' h1.2 h.2.1, le_trans' h.2.2 h2.2⟩⟩"
    else:
        u1="⟨⟨le_trans' h1.1 h.1.1, le_trans' h.1.2 h2.1⟩, ⟨le_trans' h1.2.1 h.2.1.1, le_trans' h.2.1.2 h2.2.1⟩, ⟨le_trans' h1.2.2 h.2.2.1, le_trans' h.2.2.2 h2.2.2⟩⟩"
    u2=u1.replace("h1.","h3.").replace("h2.","h4.")
    dims = "h.1.1|h.2.1".split("|") if n==2 else "h.1.1|h.2.1.1|h.2.2.1".split("|")
    cases="\n".join(f"  · exact {x}" for x in dims)
    return f'''/-! ## {n}D -/
section
variable {{S : Type}} [Scalar S] [IEEE S]
theorem overlaps_union{n} {{a b c : {B} S}} (ha : LeAll a.min a.max) (hb : LeAll b.min b.max)
    (h : c.overlaps a = true ∨ c.overlaps b = true) : c.overlaps (Api.union a b) = true := by
  obtain ⟨⟨h1, h2⟩, h3, h4⟩ := union{n}_ge ha hb
  rw [Point{n}.leAll] at h1 h2 h3 h4
  rw [overlaps{n}_iff] at h ⊢
  rw [overlaps{n}_iff] at h
  rcases h with h | h
  · exact {u1}
  · exact {u2}
/-- **C104**, {n}D: descending two hierarchies of boxes together, and stopping where the bounding boxes of two subtrees do not
overlap, finds exactly the pairs of overlapping boxes, each once. -/
theorem C104_two{n} (t u : Tree ({B} S)) (ht : ∀ b ∈ t.leaves, LeAll b.min b.max) (hu : ∀ b ∈ u.leaves, LeAll b.min b.max) :
    t.pairs Api.union {B}.overlaps u = (crossPairs t.leaves u.leaves).filter fun p => p.1.overlaps p.2 :=
  Tree.pairs_eq (test := {B}.overlaps) (P := fun b : {B} S => LeAll b.min b.max) (fun ha hb => union{n}_wf ha hb) (fun ha hb _ h => overlaps_union{n} ha hb h)
    C29_symmetric{n} t u ht hu
/-- **C104**, {n}D: one hierarchy against itself: every overlapping pair of leaves at different positions, each once. -/
theorem C104_self{n} (t : Tree ({B} S)) (ht : ∀ b ∈ t.leaves, LeAll b.min b.max) :
    (t.selfPairs Api.union {B}.overlaps).Perm ((allPairs t.leaves).filter fun p => p.1.overlaps p.2) :=
  Tree.selfPairs_eq (test := {B}.overlaps) (P := fun b : {B} S => LeAll b.min b.max) (fun ha hb => union{n}_wf ha hb) (fun ha hb _ h => overlaps_union{n} ha hb h)
    C29_symmetric{n} t ht
/-- **C104**, {n}D: sweep and prune along any axis finds exactly the overlapping pairs, if the boxes are sorted by their
beginning along that axis. -/
theorem C104_sweep{n} (d : {D}) (l : List ({B} S)) (hl : l.Pairwise fun a b => (a.min.index d ≤? b.min.index d) = true) :
    sweep (fun b => b.min.index d) (fun b => b.max.index d) {B}.overlaps l = (allPairs l).filter fun p => p.1.overlaps p.2 := by
  refine sweep_eq _ _ (fun a b h => ?_) l hl
  rw [overlaps{n}_iff] at h
  cases d
{cases}
/-- **C104**, {n}D: sweep and prune after sorting, along any axis, and the descent of a hierarchy built from the same boxes in
any way, find the same pairs (as unordered pairs, each as often). -/
theorem C104_agree{n} (d : {D}) (l s : List ({B} S)) (t : Tree ({B} S)) (hs : s.Perm l) (ht : t.leaves.Perm l)
    (hw : ∀ b ∈ l, LeAll b.min b.max) (hl : s.Pairwise fun a b => (a.min.index d ≤? b.min.index d) = true) :
    ((sweep (fun b => b.min.index d) (fun b => b.max.index d) {B}.overlaps s).map fun p => s(p.1, p.2)).Perm
      ((t.selfPairs Api.union {B}.overlaps).map fun p => s(p.1, p.2)) := by
  have key : ∀ {{l m : List ({B} S)}}, l.Perm m →
      (((allPairs l).filter fun p => p.1.overlaps p.2).map fun p => s(p.1, p.2)).Perm
      (((allPairs m).filter fun p => p.1.overlaps p.2).map fun p => s(p.1, p.2)) := by
    intro l m h
    let f : Sym2 ({B} S) → Bool := Sym2.lift ⟨fun a b => a.overlaps b, fun a b => C29_symmetric{n} a b⟩
    have e : ∀ k : List ({B} S), ((allPairs k).filter fun p => p.1.overlaps p.2).map (fun p => s(p.1, p.2)) =
        ((allPairs k).map fun p => s(p.1, p.2)).filter f := by
      intro k
      rw [List.filter_map]
      rfl
    rw [e, e]
    exact (allPairs_perm h).filter _
  rw [C104_sweep{n} d s hl]
  exact (key (hs.trans ht.symm)).trans ((C104_self{n} t fun b hb => hw b (ht.mem_iff.1 hb)).map _).symm
end

'''
open('/verif/lean/Verif/Props/FloatBroad.lean','w').write(HEAD+gen(2)+gen(3)+"end VecMath\n")
