import Verif.Spec.Sort
import Mathlib.Order.Defs.LinearOrder
import Mathlib.Data.List.Sort
/-!
# Sorting by a comparison that compares keys of a linear order
-/

namespace VecMath
variable {A L : Type} [LinearOrder L]

/-- On `P`, the comparison `r` compares the keys `f`. -/
def KeyedBy (P : A → Prop) (r : A → A → Bool) (f : A → L) : Prop := ∀ a b, P a → P b → (r a b = true ↔ f a < f b)

variable {P : A → Prop} {r : A → A → Bool} {f : A → L}

theorem KeyedBy.not (h : KeyedBy P r f) {a b : A} (ha : P a) (hb : P b) : r a b = false ↔ f b ≤ f a := by
  rw [← Bool.not_eq_true, h a b ha hb, not_lt]
theorem KeyedBy.tied (h : KeyedBy P r f) {a b : A} (ha : P a) (hb : P b) : tied r a b = true ↔ f a = f b := by
  unfold VecMath.tied
  rw [Bool.and_eq_true, Bool.not_eq_true', Bool.not_eq_true', h.not ha hb, h.not hb ha, and_comm, ← le_antisymm_iff]
theorem KeyedBy.order (h : KeyedBy P r f) : StrictWeakOrder P r where
  irrefl a ha := (h.not ha ha).2 le_rfl
  asymm a b ha hb e := (h.not hb ha).2 ((h a b ha hb).1 e).le
  trans a b c ha hb hc e e' := (h a c ha hc).2 (((h a b ha hb).1 e).trans ((h b c hb hc).1 e'))
  ties a b c ha hb hc e e' := (h.tied ha hc).2 (((h.tied ha hb).1 e).trans ((h.tied hb hc).1 e'))
theorem KeyedBy.pairwise (h : KeyedBy P r f) {l : List A} (hl : ∀ a ∈ l, P a) (hs : SortedBy r l) :
    l.Pairwise fun a b => f a ≤ f b := by
  induction l with
  | nil => exact .nil
  | cons a l ih =>
    cases l with
    | nil => simp
    | cons b l =>
      obtain ⟨h1, h2⟩ := hs
      have ih := ih (fun a ha => hl a (List.mem_cons_of_mem _ ha)) h2
      refine .cons ?_ ih
      have hab : f a ≤ f b := (h.not (hl b (by simp)) (hl a (by simp))).1 h1
      intro c hc
      rcases List.mem_cons.1 hc with rfl | hc
      · exact hab
      · exact hab.trans ((List.pairwise_cons.1 ih).1 c hc)
theorem KeyedBy.sorted (h : KeyedBy P r f) {l : List A} (hl : ∀ a ∈ l, P a) (hs : l.Pairwise fun a b => f a ≤ f b) :
    SortedBy r l := by
  induction l with
  | nil => trivial
  | cons a l ih =>
    cases l with
    | nil => trivial
    | cons b l =>
      exact ⟨(h.not (hl b (by simp)) (hl a (by simp))).2 ((List.pairwise_cons.1 hs).1 b (by simp)),
        ih (fun a ha => hl a (List.mem_cons_of_mem _ ha)) (List.pairwise_cons.1 hs).2⟩
/-- Later elements do not come before earlier ones. -/
theorem KeyedBy.all (h : KeyedBy P r f) {l : List A} (hl : ∀ a ∈ l, P a) (hs : SortedBy r l) :
    l.Pairwise fun a b => r b a = false := by
  have := h.pairwise hl hs
  rw [List.pairwise_iff_forall_sublist] at this ⊢
  intro a b hab
  exact (h.not (hl b (hab.subset (by simp))) (hl a (hab.subset (by simp)))).2 (this hab)
/-- Two sorted lists with the same elements have the same keys, position by position. -/
theorem KeyedBy.keys (h : KeyedBy P r f) {l l' : List A} (hl : ∀ a ∈ l, P a) (hs : SortedBy r l) (hs' : SortedBy r l')
    (hp : l.Perm l') : List.Forall₂ (fun a b => VecMath.tied r a b = true) l l' := by
  have hl' : ∀ a ∈ l', P a := fun a ha => hl a (hp.mem_iff.2 ha)
  have k1 : (l.map f).Pairwise (· ≤ ·) := List.pairwise_map.2 (h.pairwise hl hs)
  have k2 : (l'.map f).Pairwise (· ≤ ·) := List.pairwise_map.2 (h.pairwise hl' hs')
  have e : l.map f = l'.map f := (hp.map f).eq_of_pairwise (fun a b _ _ => le_antisymm) k1 k2
  rw [List.forall₂_iff_get]
  have len : l.length = l'.length := hp.length_eq
  refine ⟨len, fun i h1 h2 => (h.tied (hl _ (List.get_mem ..)) (hl' _ (List.get_mem ..))).2 ?_⟩
  have := congrArg (fun m => m[i]?) e
  simpa [h1, h2] using this
/-- In a sorted list the elements that come before `x` are a prefix. -/
theorem KeyedBy.search (h : KeyedBy P r f) {l : List A} (hl : ∀ a ∈ l, P a) (hs : SortedBy r l) {x : A} (hx : P x) :
    ∃ pre post, l = pre ++ post ∧ (∀ a ∈ pre, r a x = true) ∧ ∀ a ∈ post, r a x = false := by
  refine ⟨l.takeWhile (r · x), l.dropWhile (r · x), List.takeWhile_append_dropWhile.symm, fun a ha => (List.all_eq_true.1 (List.all_takeWhile (p := (r · x)) (l := l))) a ha, fun a ha => ?_⟩
  have pw := h.pairwise hl hs
  have hsub : ∀ a ∈ l.dropWhile (r · x), P a := fun a ha => hl a ((List.dropWhile_sublist _).subset ha)
  have pw' := pw.sublist (List.dropWhile_sublist (r · x))
  cases e : l.dropWhile (r · x) with
  | nil => rw [e] at ha; cases ha
  | cons b m =>
    have hb : r b x = false := by
      have := List.head?_dropWhile_not (r · x) l
      rw [e] at this
      simpa using this
    rw [e] at ha pw' hsub
    have pb := hsub b (by simp)
    rw [h.not (hsub a ha) hx]
    have hb' := (h.not pb hx).1 hb
    rcases List.mem_cons.1 ha with rfl | hm
    · exact hb'
    · exact hb'.trans ((List.pairwise_cons.1 pw').1 a hm)
/-- Sorted lists are determined by their runs of equal keys. -/
theorem eq_of_runs [DecidableEq L] {l l' : List A} (h : l.Pairwise fun a b => f a ≤ f b) (h' : l'.Pairwise fun a b => f a ≤ f b)
    (e : ∀ k, l.filter (fun a => f a = k) = l'.filter (fun a => f a = k)) : l = l' := by
  induction l generalizing l' with
  | nil =>
    cases l' with
    | nil => rfl
    | cons b l' => have := e (f b); simp at this
  | cons a l ih =>
    cases l' with
    | nil => have := e (f a); simp at this
    | cons b l' =>
      have h1 := List.pairwise_cons.1 h
      have h2 := List.pairwise_cons.1 h'
      have mem1 : a ∈ b :: l' := by
        have : a ∈ (b :: l').filter (fun c => f c = f a) := by rw [← e]; simp
        exact (List.mem_filter.1 this).1
      have mem2 : b ∈ a :: l := by
        have : b ∈ (a :: l).filter (fun c => f c = f b) := by rw [e]; simp
        exact (List.mem_filter.1 this).1
      have le1 : f b ≤ f a := by
        rcases List.mem_cons.1 mem1 with rfl | hm
        · exact le_rfl
        · exact h2.1 a hm
      have le2 : f a ≤ f b := by
        rcases List.mem_cons.1 mem2 with rfl | hm
        · exact le_rfl
        · exact h1.1 b hm
      have fe : f a = f b := le_antisymm le2 le1
      have hh := e (f a)
      simp only [List.filter_cons, fe, decide_true, if_true] at hh
      have ab : a = b := (List.cons.inj hh).1
      subst ab
      rw [ih h1.2 h2.2 fun k => ?_]
      have := e k
      simp only [List.filter_cons] at this
      split at this
      · exact (List.cons.inj this).2
      · exact this
theorem KeyedBy.unique (h : KeyedBy P r f) {l out out' : List A} (hl : ∀ a ∈ l, P a) (h1 : StableSort r l out)
    (h2 : StableSort r l out') : out = out' := by
  classical
  have p1 : ∀ a ∈ out, P a := fun a ha => hl a (h1.perm.mem_iff.1 ha)
  have p2 : ∀ a ∈ out', P a := fun a ha => hl a (h2.perm.mem_iff.1 ha)
  refine eq_of_runs (h.pairwise p1 h1.sorted) (h.pairwise p2 h2.sorted) fun k => ?_
  by_cases hk : ∃ x ∈ l, f x = k
  · obtain ⟨x, hx, rfl⟩ := hk
    have c : ∀ m : List A, (∀ a ∈ m, P a) → m.filter (fun a => f a = f x) = m.filter (VecMath.tied r x) := by
      intro m hm
      refine List.filter_congr fun a ha => ?_
      rw [Bool.eq_iff_iff, decide_eq_true_iff, h.tied (hl x hx) (hm a ha)]
      exact eq_comm
    rw [c _ p1, c _ p2, h1.stable x hx, h2.stable x hx]
  · have c : ∀ m : List A, m.Perm l → m.filter (fun a => f a = k) = [] := by
      intro m hm
      rw [List.filter_eq_nil_iff]
      intro a ha e
      exact hk ⟨a, hm.mem_iff.1 ha, by simpa using e⟩
    rw [c _ h1.perm, c _ h2.perm]
/-- insert before the first element that does not come before `x` -/
def insertBy (r : A → A → Bool) (x : A) : List A → List A
  | [] => [x]
  | y :: l => if r y x then y :: insertBy r x l else x :: y :: l
theorem insertBy_perm (x : A) (l : List A) : (insertBy r x l).Perm (x :: l) := by
  induction l with
  | nil => rfl
  | cons y l ih =>
    unfold insertBy
    split
    · exact (ih.cons y).trans (.swap ..)
    · rfl
theorem KeyedBy.insert (h : KeyedBy P r f) {x : A} {l : List A} (hx : P x) (hl : ∀ a ∈ l, P a) (hs : l.Pairwise fun a b => f a ≤ f b) :
    (insertBy r x l).Pairwise fun a b => f a ≤ f b := by
  induction l with
  | nil => simp [insertBy]
  | cons y l ih =>
    have hs' := List.pairwise_cons.1 hs
    have hy := hl y (by simp)
    unfold insertBy
    split
    · rename_i e
      refine .cons (fun a ha => ?_) (ih (fun a ha => hl a (List.mem_cons_of_mem _ ha)) hs'.2)
      rcases List.mem_cons.1 ((insertBy_perm x l).mem_iff.1 ha) with rfl | ha
      · exact ((h _ _ hy hx).1 e).le
      · exact hs'.1 a ha
    · rename_i e
      have le := (h.not hy hx).1 (Bool.eq_false_iff.2 e)
      refine .cons (fun a ha => ?_) hs
      rcases List.mem_cons.1 ha with rfl | ha
      · exact le
      · exact le.trans (hs'.1 a ha)
theorem KeyedBy.insert_stable (h : KeyedBy P r f) {x z : A} {l : List A} (hx : P x) (hz : P z) (hl : ∀ a ∈ l, P a) :
    (insertBy r x l).filter (VecMath.tied r z) = (x :: l).filter (VecMath.tied r z) := by
  induction l with
  | nil => rfl
  | cons y l ih =>
    have hy := hl y (by simp)
    unfold insertBy
    split
    · rename_i e
      have lt := (h _ _ hy hx).1 e
      rw [List.filter_cons, ih fun a ha => hl a (List.mem_cons_of_mem _ ha)]
      by_cases hzx : VecMath.tied r z x = true
      · have : ¬ VecMath.tied r z y = true := by
          rw [h.tied hz hx] at hzx
          rw [h.tied hz hy, hzx]
          exact lt.ne'
        simp [List.filter_cons, hzx, this]
      · simp [List.filter_cons, hzx]
    · rfl
/-- A stable sort exists. -/
theorem KeyedBy.exists (h : KeyedBy P r f) {l : List A} (hl : ∀ a ∈ l, P a) : ∃ out, StableSort r l out := by
  suffices ∃ out : List A, out.Perm l ∧ (out.Pairwise fun a b => f a ≤ f b) ∧ ∀ z, P z → out.filter (VecMath.tied r z) = l.filter (VecMath.tied r z) by
    obtain ⟨out, h1, h2, h3⟩ := this
    exact ⟨out, h.sorted (fun a ha => hl a (h1.mem_iff.1 ha)) h2, h1, fun x hx => h3 x (hl x hx)⟩
  induction l with
  | nil => exact ⟨[], .nil, .nil, fun _ _ => rfl⟩
  | cons x l ih =>
    obtain ⟨out, h1, h2, h3⟩ := ih fun a ha => hl a (List.mem_cons_of_mem _ ha)
    have ho : ∀ a ∈ out, P a := fun a ha => hl a (List.mem_cons_of_mem _ (h1.mem_iff.1 ha))
    have hx := hl x (by simp)
    refine ⟨insertBy r x out, (insertBy_perm x out).trans (h1.cons x), h.insert hx ho h2, fun z hz => ?_⟩
    rw [h.insert_stable hx hz ho, List.filter_cons, List.filter_cons, h3 z hz]
theorem KeyedBy.stable (h : KeyedBy P r f) {l : List A} (hl : ∀ a ∈ l, P a) : ∃! out, StableSort r l out := by
  obtain ⟨out, ho⟩ := h.exists hl
  exact ⟨out, ho, fun out' ho' => h.unique hl ho' ho⟩
end VecMath
