H='''import Verif.Spec.Reduce
import Verif.Props.FloatExamples2
/-!
# Divide-and-conquer reductions of boxes (layer F): C78

For a schedule of any shape and size, with NaN and infinities allowed in the boxes' neighbourhood (not in the boxes).
Generated by tools/gen/reduce.py for two and three dimensions.
-/

open Classical
set_option linter.unusedSectionVars false

namespace VecMath
open Scalar IEEE
variable {S : Type} [Scalar S] [IEEE S]

theorem Tree.leaves_ne {B : Type} (t : Tree B) : t.leaves ≠ [] := by
  induction t with
  | leaf b => simp [Tree.leaves]
  | node l r ihl _ => simp [Tree.leaves, ihl]
theorem Tree.points_node {P : Type} (l r : Tree (List P)) : (Tree.node l r).points = l.points ++ r.points := by
  simp [Tree.points, Tree.leaves]

theorem min_bot {l x : S} (h : (l == negInfinity) = true) : (fmin l x == (negInfinity : S)) = true := by
  rw [beq_iff] at *
  obtain ⟨h1, h2, h3⟩ := h
  by_cases n : IsNaN x
  · have e : den (fmin l x) = den l := min_nan_right n
    exact ⟨by rwa [IsNaN, e], h2, by rwa [val, e]⟩
  · exact ⟨min_nn h1, h2, by rw [val_min h1 n, h3]; simp⟩
theorem min_bot' {l x : S} (h : (l == negInfinity) = true) : (fmin x l == (negInfinity : S)) = true := by
  rw [beq_iff] at *
  obtain ⟨h1, h2, h3⟩ := h
  by_cases n : IsNaN x
  · have e : den (fmin x l) = den l := min_nan_left n
    exact ⟨by rwa [IsNaN, e], h2, by rwa [val, e]⟩
  · exact ⟨min_nn n, h2, by rw [val_min n h1, h3]; simp⟩
theorem max_top {l x : S} (h : (l == infinity) = true) : (fmax l x == (infinity : S)) = true := by
  rw [beq_iff] at *
  obtain ⟨h1, h2, h3⟩ := h
  by_cases n : IsNaN x
  · have e : den (fmax l x) = den l := max_nan_right n
    exact ⟨by rwa [IsNaN, e], h2, by rwa [val, e]⟩
  · exact ⟨max_nn h1, h2, by rw [val_max h1 n, h3]; simp⟩
theorem max_top' {l x : S} (h : (l == infinity) = true) : (fmax x l == (infinity : S)) = true := by
  rw [beq_iff] at *
  obtain ⟨h1, h2, h3⟩ := h
  by_cases n : IsNaN x
  · have e : den (fmax x l) = den l := max_nan_left n
    exact ⟨by rwa [IsNaN, e], h2, by rwa [val, e]⟩
  · exact ⟨max_nn n, h2, by rw [val_max n h1, h3]; simp⟩
'''
T='''
/-! ### @ dimensions -/

/-- The infinite box swallows any box. -/
theorem C78_infinite_absorbs@ (a b : BoundingBox@ S)
    (h : (a == BoundingBox@.infinite) = true ∨ (b == BoundingBox@.infinite) = true) :
    (Api.union a b == BoundingBox@.infinite) = true := by
  simp only [BoundingBox@.beq_iff, Point@.beq_iff] at h ⊢
  rcases h with ⟨h1, h2⟩ | ⟨h1, h2⟩
  · exact ⟨LO1, HI1⟩
  · exact ⟨LO2, HI2⟩

/-- Whatever the shape of the tree: the result is the smallest box containing all boxes. -/
theorem C78_tree@ (t : Tree (BoundingBox@ S)) (h : ∀ b ∈ t.leaves, LeAll b.min b.max) :
    LeAll (t.bound Api.union).min (t.bound Api.union).max ∧
    (∀ b ∈ t.leaves, ∀ p, b.isInside p = true → (t.bound Api.union).isInside p = true) ∧
    (∀ c : BoundingBox@ S, (∀ b ∈ t.leaves, ∀ p, b.isInside p = true → c.isInside p = true) →
      ∀ p, (t.bound Api.union).isInside p = true → c.isInside p = true) := by
  induction t with
  | leaf b =>
    simp only [Tree.leaves, List.mem_singleton, forall_eq] at h ⊢
    exact ⟨h, fun p hp => hp, fun c hc => hc⟩
  | node l r ihl ihr =>
    simp only [Tree.leaves, List.mem_append] at h ⊢
    obtain ⟨l1, l2, l3⟩ := ihl fun b hb => h b (.inl hb)
    obtain ⟨r1, r2, r3⟩ := ihr fun b hb => h b (.inr hb)
    obtain ⟨u1, u2, u3⟩ := C26_union@ _ _ l1 r1
    refine ⟨u1, ?_, fun c hc => u3 c (l3 c fun b hb => hc b (.inl hb)) (r3 c fun b hb => hc b (.inr hb))⟩
    rintro b (hb | hb) p hp
    · exact u2 p (.inl (l2 b hb p hp))
    · exact u2 p (.inr (r2 b hb p hp))
/-- Any two schedules for the same boxes (in any order, with any repetition) give equal results. -/
theorem C78_schedule@ (t u : Tree (BoundingBox@ S)) (h : ∀ b ∈ t.leaves, LeAll b.min b.max)
    (e : ∀ b, b ∈ t.leaves ↔ b ∈ u.leaves) : (t.bound Api.union == u.bound Api.union) = true := by
  obtain ⟨t1, t2, t3⟩ := C78_tree@ t h
  obtain ⟨u1, u2, u3⟩ := C78_tree@ u fun b hb => h b ((e b).2 hb)
  exact ext@_inside t1 u1 fun p => ⟨t3 _ (fun b hb => u2 b ((e b).1 hb)) p, u3 _ (fun b hb => t2 b ((e b).2 hb)) p⟩

/-- The bound of a chunk of points, computed one by one. -/
def chunk@ (ps : List (Point@ S)) : BoundingBox@ S := ps.foldl (fun b p => Api.union b p) BoundingBox@.empty

theorem chunks_nil@ (t : Tree (List (Point@ S))) (hj : ¬ t.JoinsNothing) (h : t.points = []) :
    (t.map chunk@).bound Api.union = (BoundingBox@.empty : BoundingBox@ S) := by
  cases t with
  | leaf c =>
    have : c = [] := by simpa [Tree.points, Tree.leaves] using h
    subst this; rfl
  | node l r =>
    rw [Tree.points_node, List.append_eq_nil_iff] at h
    exact absurd (.inr (.inr h)) hj
theorem chunks_cons@ (t : Tree (List (Point@ S))) (hp : ∀ p ∈ t.points, NoNaN p) (hj : ¬ t.JoinsNothing)
    (hne : t.points ≠ []) :
    LeAll ((t.map chunk@).bound Api.union).min ((t.map chunk@).bound Api.union).max ∧
    (∀ p ∈ t.points, ((t.map chunk@).bound Api.union).isInside p = true) ∧
    (∀ c : BoundingBox@ S, (∀ p ∈ t.points, c.isInside p = true) →
      ∀ r, ((t.map chunk@).bound Api.union).isInside r = true → c.isInside r = true) := by
  induction t with
  | leaf c =>
    have e : (Tree.leaf c).points = c := by simp [Tree.points, Tree.leaves]
    rw [e] at hp hne ⊢
    exact C27_points@ c hne hp
  | node l r ihl ihr =>
    simp only [Tree.points_node, List.mem_append] at hp hne ⊢
    have jl : ¬ l.JoinsNothing := fun h => hj (.inl h)
    have jr : ¬ r.JoinsNothing := fun h => hj (.inr (.inl h))
    show LeAll (Api.union ((l.map chunk@).bound Api.union) ((r.map chunk@).bound Api.union) : BoundingBox@ S).min
      (Api.union ((l.map chunk@).bound Api.union) ((r.map chunk@).bound Api.union) : BoundingBox@ S).max ∧
      (∀ p, p ∈ l.points ∨ p ∈ r.points → (Api.union ((l.map chunk@).bound Api.union) ((r.map chunk@).bound Api.union) :
        BoundingBox@ S).isInside p = true) ∧
      (∀ c : BoundingBox@ S, (∀ p, p ∈ l.points ∨ p ∈ r.points → c.isInside p = true) →
        ∀ q, (Api.union ((l.map chunk@).bound Api.union) ((r.map chunk@).bound Api.union) : BoundingBox@ S).isInside q = true →
          c.isInside q = true)
    by_cases nl : l.points = []
    · have nr : r.points ≠ [] := fun h => hj (.inr (.inr ⟨nl, h⟩))
      obtain ⟨r1, r2, r3⟩ := ihr (fun p h => hp p (.inr h)) jr nr
      have e := (C28_neutral@ ((r.map chunk@).bound Api.union)).1.2 r1
      rw [chunks_nil@ l jl nl]
      refine ⟨beq_wf@ e r1, fun p h => (beq_inside@ e p).2 (r2 p (h.resolve_left (by simp [nl]))),
        fun c hc q hq => r3 c (fun p h => hc p (.inr h)) q ((beq_inside@ e q).1 hq)⟩
    · obtain ⟨l1, l2, l3⟩ := ihl (fun p h => hp p (.inl h)) jl nl
      by_cases nr : r.points = []
      · have e := (C28_neutral@ ((l.map chunk@).bound Api.union)).2.2 l1
        rw [chunks_nil@ r jr nr]
        refine ⟨beq_wf@ e l1, fun p h => (beq_inside@ e p).2 (l2 p (h.resolve_right (by simp [nr]))),
          fun c hc q hq => l3 c (fun p h => hc p (.inl h)) q ((beq_inside@ e q).1 hq)⟩
      · obtain ⟨r1, r2, r3⟩ := ihr (fun p h => hp p (.inr h)) jr nr
        obtain ⟨u1, u2, u3⟩ := C26_union@ _ _ l1 r1
        refine ⟨u1, ?_, fun c hc => u3 c (l3 c fun p h => hc p (.inl h)) (r3 c fun p h => hc p (.inr h))⟩
        rintro p (h | h)
        · exact u2 p (.inl (l2 p h))
        · exact u2 p (.inr (r2 p h))

/-- Bounding points chunk by chunk, in any schedule that never combines two partial results coming from no points,
is the same as adding all points one by one to `empty()`. -/
theorem C78_chunks@ (t : Tree (List (Point@ S))) (hp : ∀ p ∈ t.points, NoNaN p) (hj : ¬ t.JoinsNothing) :
    ((t.map fun ps => ps.foldl (fun b p => Api.union b p) (BoundingBox@.empty : BoundingBox@ S)).bound Api.union ==
      t.points.foldl (fun b p => Api.union b p) (BoundingBox@.empty : BoundingBox@ S)) = true := by
  show ((t.map chunk@).bound Api.union == _) = true
  by_cases hne : t.points = []
  · rw [chunks_nil@ t hj hne, hne]
    exact empty_beq@
  · obtain ⟨a1, a2, a3⟩ := chunks_cons@ t hp hj hne
    obtain ⟨b1, b2, b3⟩ := C27_points@ t.points hne hp
    exact ext@_inside a1 b1 fun p => ⟨a3 _ b2 p, b3 _ a2 p⟩
/-- The exception is total: if two partial results coming from no points are combined anywhere, everything above that
node is the infinite box, whatever the other points are. -/
theorem C78_joins_nothing@ (t : Tree (List (Point@ S))) (hj : t.JoinsNothing) :
    ((t.map fun ps => ps.foldl (fun b p => Api.union b p) (BoundingBox@.empty : BoundingBox@ S)).bound Api.union ==
      (BoundingBox@.infinite : BoundingBox@ S)) = true := by
  show ((t.map chunk@).bound Api.union == _) = true
  induction t with
  | leaf c => exact hj.elim
  | node l r ihl ihr =>
    by_cases jl : l.JoinsNothing
    · exact C78_infinite_absorbs@ _ _ (.inl (ihl jl))
    by_cases jr : r.JoinsNothing
    · exact C78_infinite_absorbs@ _ _ (.inr (ihr jr))
    obtain ⟨h1, h2⟩ := (hj.resolve_left jl).resolve_left jr
    show (Api.union ((l.map chunk@).bound Api.union) ((r.map chunk@).bound Api.union) == (BoundingBox@.infinite : BoundingBox@ S)) = true
    rw [chunks_nil@ l jl h1, chunks_nil@ r jr h2]
    exact C28_empty_empty@.1

/-- Whatever the shape of the tree: pairwise intersection is none iff the boxes have no common point, and otherwise the
box of exactly the common points. -/
theorem C78_intersect@ (t : Tree (BoundingBox@ S)) (h : ∀ b ∈ t.leaves, LeAll b.min b.max) :
    ((t.meet Api.intersect).isSome = true ↔ ∃ p, ∀ b ∈ t.leaves, b.isInside p = true) ∧
    (∀ c, t.meet Api.intersect = some c → LeAll c.min c.max ∧
      ∀ p, c.isInside p = true ↔ ∀ b ∈ t.leaves, b.isInside p = true) := by
  induction t with
  | leaf b =>
    simp only [Tree.leaves, List.mem_singleton, forall_eq, Tree.meet, Option.isSome_some, true_iff,
      Option.some.injEq] at h ⊢
    exact ⟨⟨b.min, wf@_min h⟩, fun c e => e ▸ ⟨h, fun p => Iff.rfl⟩⟩
  | node l r ihl ihr =>
    simp only [Tree.leaves, List.mem_append, Tree.meet] at h ⊢
    obtain ⟨l1, l2⟩ := ihl fun b hb => h b (.inl hb)
    obtain ⟨r1, r2⟩ := ihr fun b hb => h b (.inr hb)
    cases hl : l.meet Api.intersect with
    | none =>
      simp only [Option.bind_none, Option.isSome_none, Bool.false_eq_true, false_iff, not_exists, reduceCtorEq,
        false_implies, implies_true, and_true]
      intro p hp
      have := l1.2 ⟨p, fun b hb => hp b (.inl hb)⟩
      simp [hl] at this
    | some a =>
      cases hr : r.meet Api.intersect with
      | none =>
        simp only [Option.bind_none, Option.bind_some, Option.isSome_none, Bool.false_eq_true, false_iff, not_exists,
          reduceCtorEq, false_implies, implies_true, and_true]
        intro p hp
        have := r1.2 ⟨p, fun b hb => hp b (.inr hb)⟩
        simp [hr] at this
      | some b =>
        simp only [Option.bind_some]
        obtain ⟨wa, ia⟩ := l2 a hl
        obtain ⟨wb, ib⟩ := r2 b hr
        obtain ⟨i1, i2, -⟩ := C30_intersect@ a b wa wb
        have key : ∀ p, (a.isInside p = true ∧ b.isInside p = true) ↔
            ∀ x, x ∈ l.leaves ∨ x ∈ r.leaves → x.isInside p = true := by
          intro p
          rw [ia, ib]
          exact ⟨fun hh x hx => hx.elim (hh.1 x) (hh.2 x), fun hh => ⟨fun x hx => hh x (.inl hx), fun x hx => hh x (.inr hx)⟩⟩
        refine ⟨i1.trans (exists_congr key), fun c hc => ⟨(i2 c hc).1, fun p => ((i2 c hc).2 p).trans (key p)⟩⟩
/-- Any two schedules for the same boxes both give none, or equal boxes. -/
theorem C78_intersect_schedule@ (t u : Tree (BoundingBox@ S)) (h : ∀ b ∈ t.leaves, LeAll b.min b.max)
    (e : ∀ b, b ∈ t.leaves ↔ b ∈ u.leaves) :
    (t.meet Api.intersect = none ∧ u.meet Api.intersect = none) ∨
    ∃ c d, t.meet Api.intersect = some c ∧ u.meet Api.intersect = some d ∧ (c == d) = true := by
  obtain ⟨t1, t2⟩ := C78_intersect@ t h
  obtain ⟨u1, u2⟩ := C78_intersect@ u fun b hb => h b ((e b).2 hb)
  have e' : ∀ p, (∀ b ∈ t.leaves, b.isInside p = true) ↔ ∀ b ∈ u.leaves, b.isInside p = true := fun p =>
    ⟨fun hh b hb => hh b ((e b).2 hb), fun hh b hb => hh b ((e b).1 hb)⟩
  have s : (t.meet Api.intersect).isSome = true ↔ (u.meet Api.intersect).isSome = true :=
    t1.trans ((exists_congr e').trans u1.symm)
  cases ht : t.meet Api.intersect with
  | none =>
    cases hu : u.meet Api.intersect with
    | none => exact .inl ⟨rfl, rfl⟩
    | some d => simp [ht, hu] at s
  | some c =>
    cases hu : u.meet Api.intersect with
    | none => simp [ht, hu] at s
    | some d =>
      obtain ⟨w1, i1⟩ := t2 c ht
      obtain ⟨w2, i2⟩ := u2 d hu
      exact .inr ⟨c, d, rfl, rfl, ext@_inside w1 w2 fun p => (i1 p).trans ((e' p).trans (i2 p).symm)⟩

/-! Concrete cases. -/
/-- The same three boxes in another order, one of them twice. -/
noncomputable def tree@' : Tree (BoundingBox@ F32) :=
  .node (.node (.leaf (cube@ (-7) 0)) (.leaf (cube@ 4 9))) (.node (.leaf (cube@ 1 3)) (.leaf (cube@ 4 9)))
example : (tree@.bound Api.union == tree@'.bound Api.union) = true :=
  C78_schedule@ tree@ tree@' (fun b hb => (tree@_ok b hb).1) fun b => by
    simp only [tree@, tree@', Tree.leaves, List.cons_append, List.nil_append, List.mem_cons, List.not_mem_nil, or_false]
    tauto
example := C78_intersect@ tree@ fun b hb => (tree@_ok b hb).1
/-- Two chunks with points and one without. -/
noncomputable def chunks@ : Tree (List (Point@ F32)) :=
  .node (.node (.leaf [(cube@ 1 3).min]) (.leaf [])) (.leaf [(cube@ 4 9).max, (cube@ 4 9).min])
theorem chunks@_ok : (∀ p ∈ chunks@.points, NoNaN p) ∧ ¬ chunks@.JoinsNothing := by
  constructor
  · intro p hp
    simp only [chunks@, Tree.points, Tree.leaves, List.cons_append, List.nil_append, List.flatten_cons, List.flatten_nil,
      List.mem_cons, List.not_mem_nil, or_false] at hp
    rcases hp with rfl | rfl | rfl
    exacts [(leAll_nn@ (cube@_le (by norm_num))).1, (leAll_nn@ (cube@_le (by norm_num))).2, (leAll_nn@ (cube@_le (by norm_num))).1]
  · simp [chunks@, Tree.JoinsNothing, Tree.points, Tree.leaves]
example := C78_chunks@ chunks@ chunks@_ok.1 chunks@_ok.2
example : (Tree.node (.node (.leaf []) (.leaf [])) (.leaf [(cube@ 4 9).max]) : Tree (List (Point@ F32))).JoinsNothing :=
  .inl (.inr (.inr ⟨rfl, rfl⟩))
'''
PRE='''
theorem leAll_nn@ {p q : Point@ S} (h : LeAll p q) : NoNaN p ∧ NoNaN q := by
  rw [Point@.leAll] at h
  exact ⟨Point@.noNaN.2 ⟨N1⟩, Point@.noNaN.2 ⟨N2⟩⟩
theorem beq_wf@ {a b : BoundingBox@ S} (e : (a == b) = true) (h : LeAll b.min b.max) : LeAll a.min a.max := by
  simp only [BoundingBox@.beq_iff, Point@.beq_iff] at e
  obtain ⟨h1, h2⟩ := e
  rw [Point@.leAll] at *
  exact ⟨BW⟩
theorem empty_beq@ : ((BoundingBox@.empty : BoundingBox@ S) == BoundingBox@.empty) = true := by
  have a : ((infinity : S) == infinity) = true := beq_iff.2 ⟨not_nan_infinity, not_nan_infinity, rfl⟩
  have b : ((negInfinity : S) == negInfinity) = true := beq_iff.2 ⟨not_nan_negInfinity, not_nan_negInfinity, rfl⟩
  exact BoundingBox@.beq_iff.2 ⟨Point@.beq_iff.2 ⟨AA⟩, Point@.beq_iff.2 ⟨BB⟩⟩
'''
out=H
for n in (2,3):
    sel=(['.1','.2'] if n==2 else ['.1','.2.1','.2.2'])
    j=lambda f: ', '.join(f(s) for s in sel)
    pre=PRE.replace('BW',j(lambda s:f"le_trans' (beq_le h1{s}) (le_trans' h{s} (beq_le (beq_symm h2{s})))")).replace('⟨AA⟩','⟨'+j(lambda s:'a')+'⟩').replace('⟨BB⟩','⟨'+j(lambda s:'b')+'⟩')
    pre=pre.replace('N1',j(lambda s:f'(le_nn h{s}).1')).replace('N2',j(lambda s:f'(le_nn h{s}).2'))
    t=T
    t=t.replace('LO1','⟨'+j(lambda s:f'min_bot (min_bot h1{s})')+'⟩').replace('HI1','⟨'+j(lambda s:f"max_top' (max_top h2{s})")+'⟩')
    t=t.replace('LO2','⟨'+j(lambda s:f"min_bot (min_bot' h1{s})")+'⟩').replace('HI2','⟨'+j(lambda s:f"max_top' (max_top' h2{s})")+'⟩')
    t=t.replace('noNaN.2 NN','noNaN.2 ⟨'+j(lambda s:'finite_int32.not_nan')+'⟩')
    out+=(pre+t).replace('@',str(n))
out+='\nend VecMath\n'
open('/verif/lean/Verif/Props/FloatReduce.lean','w').write(out)
