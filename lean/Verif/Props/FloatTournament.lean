import Verif.Spec.Reduce
import Verif.Props.FloatNaN
import Verif.Props.FloatExamples2
/-!
# Tournaments: selecting the shortest, longest, closest, farthest of many (layer F): C79

A `Tree` whose leaves are the candidates in order; each inner node keeps the better of its two sub-results. For trees of
any shape. Generated by tools/gen/tourn.py.
-/

open Classical
set_option linter.unusedSectionVars false

namespace VecMath
open Scalar IEEE
variable {S : Type} [Scalar S] [IEEE S]

/-- A tournament under any strict weak order is won by the last of the best candidates. -/
theorem tournament {A : Type} (P : A → Prop) (r : A → A → Bool) (pick : A → A → A)
    (hpick : ∀ a b, pick a b = if r a b then a else b)
    (tr : ∀ a b c, P a → P b → P c → r a b = true → r b c = true → r a c = true)
    (nt : ∀ a b c, P a → P b → P c → r a b = false → r b c = false → r a c = false)
    (t : Tree A) (h : ∀ a ∈ t.leaves, P a) :
    ∃ pre post, t.leaves = pre ++ t.bound pick :: post ∧ (∀ a ∈ pre, r a (t.bound pick) = false) ∧
      ∀ a ∈ post, r (t.bound pick) a = true := by
  induction t with
  | leaf b => exact ⟨[], [], by simp [Tree.leaves, Tree.bound], by simp, by simp⟩
  | node s u ihs ihu =>
    simp only [Tree.leaves, List.mem_append] at h
    obtain ⟨p1, q1, e1, a1, b1⟩ := ihs fun a ha => h a (.inl ha)
    obtain ⟨p2, q2, e2, a2, b2⟩ := ihu fun a ha => h a (.inr ha)
    have hs : ∀ a, a ∈ p1 ∨ a = s.bound pick ∨ a ∈ q1 → P a := fun a ha => h a (.inl (by rw [e1]; simpa using ha))
    have hu : ∀ a, a ∈ p2 ∨ a = u.bound pick ∨ a ∈ q2 → P a := fun a ha => h a (.inr (by rw [e2]; simpa using ha))
    have ps := hs _ (.inr (.inl rfl))
    have pu := hu _ (.inr (.inl rfl))
    simp only [Tree.leaves, Tree.bound, hpick]
    cases hr : r (s.bound pick) (u.bound pick) with
    | true =>
      refine ⟨p1, q1 ++ p2 ++ u.bound pick :: q2, ?_, by simpa using a1, ?_⟩
      · rw [e1, e2]; simp
      · intro a ha
        simp only [List.append_assoc, List.mem_append, List.mem_cons] at ha
        simp only [if_true]
        rcases ha with ha | ha | rfl | ha
        · exact b1 a ha
        · by_contra hc
          rw [Bool.not_eq_true] at hc
          have := nt _ a _ ps (hu a (.inl ha)) pu hc (a2 a ha)
          simp [hr] at this
        · exact hr
        · exact tr _ _ _ ps pu (hu a (.inr (.inr ha))) hr (b2 a ha)
    | false =>
      refine ⟨p1 ++ s.bound pick :: q1 ++ p2, q2, ?_, ?_, by simpa using b2⟩
      · rw [e1, e2]; simp
      · intro a ha
        simp only [List.append_assoc, List.mem_append, List.cons_append, List.mem_cons] at ha
        simp only [Bool.false_eq_true, if_false]
        rcases ha with ha | rfl | ha | ha
        · exact nt _ _ _ (hs a (.inl ha)) ps pu (a1 a ha) hr
        · exact hr
        · by_contra hc
          rw [Bool.not_eq_false] at hc
          have := tr _ a _ ps (hs a (.inr (.inr ha))) pu (b1 a ha) hc
          simp [hr] at this
        · exact a2 a ha
/-- Such a winner is unique. -/
theorem winner_unique {A : Type} (r : A → A → Bool) {p q p' q' : List A} {w w' : A} (e : p ++ w :: q = p' ++ w' :: q')
    (h1 : ∀ a ∈ p, r a w = false) (h2 : ∀ a ∈ q, r w a = true) (h1' : ∀ a ∈ p', r a w' = false)
    (h2' : ∀ a ∈ q', r w' a = true) : w = w' := by
  rcases List.append_eq_append_iff.1 e with ⟨m, e1, e2⟩ | ⟨m, e1, e2⟩
  · cases m with
    | nil => simpa using congrArg List.head? e2
    | cons x m =>
      simp only [List.cons_append, List.cons.injEq] at e2
      have a := h1' w (by rw [e1, e2.1]; simp)
      have b := h2 w' (by rw [e2.2]; simp)
      simp [a] at b
  · cases m with
    | nil => simpa using (congrArg List.head? e2).symm
    | cons x m =>
      simp only [List.cons_append, List.cons.injEq] at e2
      have a := h1 w' (by rw [e1, e2.1]; simp)
      have b := h2' w (by rw [e2.2]; simp)
      simp [a] at b
/-- The tree that stands for a sequential fold. -/
theorem exists_comb {A : Type} (f : A → A → A) (t : Tree A) (l : List A) :
    ∃ u : Tree A, u.leaves = t.leaves ++ l ∧ u.bound f = l.foldl f (t.bound f) := by
  induction l generalizing t with
  | nil => exact ⟨t, by simp, rfl⟩
  | cons a l ih =>
    obtain ⟨u, h1, h2⟩ := ih (.node t (.leaf a))
    exact ⟨u, by simp [h1, Tree.leaves], h2⟩

section key
variable {A : Type} (key : A → S)
theorem key_tr {a b c : S} (h : (a <? b) = true) (h' : (b <? c) = true) : (a <? c) = true := by
  rw [lt_iff] at *; exact ⟨h.1, h'.2.1, h.2.2.trans h'.2.2⟩
theorem key_nt {a b c : S} (ha : ¬ IsNaN a) (hb : ¬ IsNaN b) (hc : ¬ IsNaN c) (h : (a <? b) = false)
    (h' : (b <? c) = false) : (a <? c) = false := by
  rw [← Bool.not_eq_true] at *
  rw [lt_of_not_nan ha hb] at h
  rw [lt_of_not_nan hb hc] at h'
  rw [lt_of_not_nan ha hc]
  exact not_lt.2 ((not_lt.1 h').trans (not_lt.1 h))
end key

/-! ### shortest, 2D vectors -/

theorem won_shortest2 (t : Tree (Vector2 S)) (h : ∀ v ∈ t.leaves, NoNaN v) :
    ∃ pre post, t.leaves = pre ++ t.bound Api.shortest :: post ∧ (∀ v ∈ pre, (RelativeLength.isShorterThan v (t.bound Api.shortest)) = false) ∧
      ∀ v ∈ post, (RelativeLength.isShorterThan (t.bound Api.shortest) v) = true :=
  tournament (fun v => ¬ IsNaN (Api.dot v v)) (fun v w => RelativeLength.isShorterThan v w) Api.shortest (fun _ _ => rfl)
    (fun _ _ _ _ _ _ h h' => key_tr h h') (fun _ _ _ ha hb hc h h' => key_nt ha hb hc h h') t fun v hv => by rw [dot_self_isNaN2]; simpa using h v hv
/-- shortest of 2D vectors: the winner is no longer than any candidate, and it is the last such candidate. -/
theorem C79_shortest2 (t : Tree (Vector2 S)) (h : ∀ v ∈ t.leaves, NoNaN v) :
    (∃ pre post, t.leaves = pre ++ t.bound Api.shortest :: post ∧
      (∀ v ∈ pre, (RelativeLength.isShorterThan v (t.bound Api.shortest)) = false) ∧ ∀ v ∈ post, (RelativeLength.isShorterThan (t.bound Api.shortest) v) = true) ∧
    ∀ v ∈ t.leaves, (Api.length (t.bound Api.shortest) ≤? Api.length v) = true := by
  obtain ⟨pre, post, e, h1, h2⟩ := won_shortest2  t h
  refine ⟨⟨pre, post, e, h1, h2⟩, fun v hv => ?_⟩
  have hw := h (t.bound Api.shortest) (by rw [e]; simp)
  have hv' := h v hv
  rw [e] at hv
  simp only [List.mem_append, List.mem_cons] at hv
  rcases hv with hv | rfl | hv
  · have := ((C17_vector2 v (t.bound Api.shortest)).1 hv' hw).1.1
    rw [show Api.shortest v (t.bound Api.shortest) = t.bound Api.shortest from if_neg (Bool.eq_false_iff.1 (h1 v hv))] at this
    exact this
  · exact le_self (by rw [length_isNaN2]; simpa using hw)
  · have := ((C17_vector2 (t.bound Api.shortest) v).1 hw hv').1.2
    rw [show Api.shortest (t.bound Api.shortest) v = t.bound Api.shortest from if_pos (h2 v hv)] at this
    exact this
/-- shortest of 2D vectors: only the order of the candidates counts, not how the tournament is organised; in particular every
tournament returns what going through the candidates one by one returns. -/
theorem C79_shape_shortest2 (t : Tree (Vector2 S)) (h : ∀ v ∈ t.leaves, NoNaN v) :
    (∀ u : Tree (Vector2 S), u.leaves = t.leaves → u.bound Api.shortest = t.bound Api.shortest) ∧
    ∀ v vs, t.leaves = v :: vs → vs.foldl Api.shortest v = t.bound Api.shortest := by
  have key : ∀ u : Tree (Vector2 S), u.leaves = t.leaves → u.bound Api.shortest = t.bound Api.shortest := by
    intro u e
    obtain ⟨p, q, e1, a1, b1⟩ := won_shortest2  t h
    obtain ⟨p', q', e2, a2, b2⟩ := won_shortest2  u (by rw [e]; exact h)
    exact winner_unique (fun v w => RelativeLength.isShorterThan v w) (e2.symm.trans (e.trans e1)) a2 b2 a1 b1
  refine ⟨key, fun v vs e => ?_⟩
  obtain ⟨u, h1, h2⟩ := exists_comb Api.shortest (.leaf v) vs
  have := key u (by rw [h1, e]; rfl)
  rw [← this, h2]; rfl
/-- shortest of 2D vectors: with the candidates in another order, a winner that is just as good. -/
theorem C79_order_shortest2 (t u : Tree (Vector2 S)) (h : ∀ v ∈ t.leaves, NoNaN v) (e : ∀ v, v ∈ t.leaves ↔ v ∈ u.leaves) :
    (Api.length (t.bound Api.shortest) == Api.length (u.bound Api.shortest)) = true := by
  have m : ∀ t : Tree (Vector2 S), (∀ v ∈ t.leaves, NoNaN v) → t.bound Api.shortest ∈ t.leaves := by
    intro t h
    obtain ⟨p, q, e, -, -⟩ := won_shortest2  t h
    rw [e]; simp
  have hu : ∀ v ∈ u.leaves, NoNaN v := fun v hv => h v ((e v).2 hv)
  exact le_antisymm' ((C79_shortest2  t h).2 _ ((e _).2 (m u hu))) ((C79_shortest2  u hu).2 _ ((e _).1 (m t h)))

/-! ### longest, 2D vectors -/

theorem won_longest2 (t : Tree (Vector2 S)) (h : ∀ v ∈ t.leaves, NoNaN v) :
    ∃ pre post, t.leaves = pre ++ t.bound Api.longest :: post ∧ (∀ v ∈ pre, (RelativeLength.isLongerThan v (t.bound Api.longest)) = false) ∧
      ∀ v ∈ post, (RelativeLength.isLongerThan (t.bound Api.longest) v) = true :=
  tournament (fun v => ¬ IsNaN (Api.dot v v)) (fun v w => RelativeLength.isLongerThan v w) Api.longest (fun _ _ => rfl)
    (fun _ _ _ _ _ _ h h' => key_tr h' h) (fun _ _ _ ha hb hc h h' => key_nt hc hb ha h' h) t fun v hv => by rw [dot_self_isNaN2]; simpa using h v hv
/-- longest of 2D vectors: the winner is no shorter than any candidate, and it is the last such candidate. -/
theorem C79_longest2 (t : Tree (Vector2 S)) (h : ∀ v ∈ t.leaves, NoNaN v) :
    (∃ pre post, t.leaves = pre ++ t.bound Api.longest :: post ∧
      (∀ v ∈ pre, (RelativeLength.isLongerThan v (t.bound Api.longest)) = false) ∧ ∀ v ∈ post, (RelativeLength.isLongerThan (t.bound Api.longest) v) = true) ∧
    ∀ v ∈ t.leaves, (Api.length v ≤? Api.length (t.bound Api.longest)) = true := by
  obtain ⟨pre, post, e, h1, h2⟩ := won_longest2  t h
  refine ⟨⟨pre, post, e, h1, h2⟩, fun v hv => ?_⟩
  have hw := h (t.bound Api.longest) (by rw [e]; simp)
  have hv' := h v hv
  rw [e] at hv
  simp only [List.mem_append, List.mem_cons] at hv
  rcases hv with hv | rfl | hv
  · have := ((C17_vector2 v (t.bound Api.longest)).1 hv' hw).2.1
    rw [show Api.longest v (t.bound Api.longest) = t.bound Api.longest from if_neg (Bool.eq_false_iff.1 (h1 v hv))] at this
    exact this
  · exact le_self (by rw [length_isNaN2]; simpa using hw)
  · have := ((C17_vector2 (t.bound Api.longest) v).1 hw hv').2.2
    rw [show Api.longest (t.bound Api.longest) v = t.bound Api.longest from if_pos (h2 v hv)] at this
    exact this
/-- longest of 2D vectors: only the order of the candidates counts, not how the tournament is organised; in particular every
tournament returns what going through the candidates one by one returns. -/
theorem C79_shape_longest2 (t : Tree (Vector2 S)) (h : ∀ v ∈ t.leaves, NoNaN v) :
    (∀ u : Tree (Vector2 S), u.leaves = t.leaves → u.bound Api.longest = t.bound Api.longest) ∧
    ∀ v vs, t.leaves = v :: vs → vs.foldl Api.longest v = t.bound Api.longest := by
  have key : ∀ u : Tree (Vector2 S), u.leaves = t.leaves → u.bound Api.longest = t.bound Api.longest := by
    intro u e
    obtain ⟨p, q, e1, a1, b1⟩ := won_longest2  t h
    obtain ⟨p', q', e2, a2, b2⟩ := won_longest2  u (by rw [e]; exact h)
    exact winner_unique (fun v w => RelativeLength.isLongerThan v w) (e2.symm.trans (e.trans e1)) a2 b2 a1 b1
  refine ⟨key, fun v vs e => ?_⟩
  obtain ⟨u, h1, h2⟩ := exists_comb Api.longest (.leaf v) vs
  have := key u (by rw [h1, e]; rfl)
  rw [← this, h2]; rfl
/-- longest of 2D vectors: with the candidates in another order, a winner that is just as good. -/
theorem C79_order_longest2 (t u : Tree (Vector2 S)) (h : ∀ v ∈ t.leaves, NoNaN v) (e : ∀ v, v ∈ t.leaves ↔ v ∈ u.leaves) :
    (Api.length (t.bound Api.longest) == Api.length (u.bound Api.longest)) = true := by
  have m : ∀ t : Tree (Vector2 S), (∀ v ∈ t.leaves, NoNaN v) → t.bound Api.longest ∈ t.leaves := by
    intro t h
    obtain ⟨p, q, e, -, -⟩ := won_longest2  t h
    rw [e]; simp
  have hu : ∀ v ∈ u.leaves, NoNaN v := fun v hv => h v ((e v).2 hv)
  exact le_antisymm' ((C79_longest2  u hu).2 _ ((e _).1 (m t h))) ((C79_longest2  t h).2 _ ((e _).2 (m u hu)))

/-! ### closest, 2D points -/

theorem won_closest2 (o : Point2 S) (t : Tree (Point2 S)) (h : ∀ v ∈ t.leaves, ¬ IsNaN (Api.distance o v)) :
    ∃ pre post, t.leaves = pre ++ t.bound (Api.closest o) :: post ∧ (∀ v ∈ pre, (RelativeDistance.isCloserTo o v (t.bound (Api.closest o))) = false) ∧
      ∀ v ∈ post, (RelativeDistance.isCloserTo o (t.bound (Api.closest o)) v) = true :=
  tournament (fun v => ¬ IsNaN (Api.dot (v - o) (v - o))) (fun v w => RelativeDistance.isCloserTo o v w) (Api.closest o) (fun _ _ => rfl)
    (fun _ _ _ _ _ _ h h' => key_tr h h') (fun _ _ _ ha hb hc h h' => key_nt ha hb hc h h') t fun v hv => by rw [dot_self_isNaN2]; simpa [Api.distance, Distance.distance, length_isNaN2] using h v hv
/-- closest of 2D points: the winner is no farther than any candidate, and it is the last such candidate. -/
theorem C79_closest2 (o : Point2 S) (t : Tree (Point2 S)) (h : ∀ v ∈ t.leaves, ¬ IsNaN (Api.distance o v)) :
    (∃ pre post, t.leaves = pre ++ t.bound (Api.closest o) :: post ∧
      (∀ v ∈ pre, (RelativeDistance.isCloserTo o v (t.bound (Api.closest o))) = false) ∧ ∀ v ∈ post, (RelativeDistance.isCloserTo o (t.bound (Api.closest o)) v) = true) ∧
    ∀ v ∈ t.leaves, (Api.distance o (t.bound (Api.closest o)) ≤? Api.distance o v) = true := by
  obtain ⟨pre, post, e, h1, h2⟩ := won_closest2 o t h
  refine ⟨⟨pre, post, e, h1, h2⟩, fun v hv => ?_⟩
  have hw := h (t.bound (Api.closest o)) (by rw [e]; simp)
  have hv' := h v hv
  rw [e] at hv
  simp only [List.mem_append, List.mem_cons] at hv
  rcases hv with hv | rfl | hv
  · have := ((C17_point2 o v (t.bound (Api.closest o))).1 hv' hw).1.1
    rw [show Api.closest o v (t.bound (Api.closest o)) = t.bound (Api.closest o) from if_neg (Bool.eq_false_iff.1 (h1 v hv))] at this
    exact this
  · exact le_self (hw)
  · have := ((C17_point2 o (t.bound (Api.closest o)) v).1 hw hv').1.2
    rw [show Api.closest o (t.bound (Api.closest o)) v = t.bound (Api.closest o) from if_pos (h2 v hv)] at this
    exact this
/-- closest of 2D points: only the order of the candidates counts, not how the tournament is organised; in particular every
tournament returns what going through the candidates one by one returns. -/
theorem C79_shape_closest2 (o : Point2 S) (t : Tree (Point2 S)) (h : ∀ v ∈ t.leaves, ¬ IsNaN (Api.distance o v)) :
    (∀ u : Tree (Point2 S), u.leaves = t.leaves → u.bound (Api.closest o) = t.bound (Api.closest o)) ∧
    ∀ v vs, t.leaves = v :: vs → vs.foldl (Api.closest o) v = t.bound (Api.closest o) := by
  have key : ∀ u : Tree (Point2 S), u.leaves = t.leaves → u.bound (Api.closest o) = t.bound (Api.closest o) := by
    intro u e
    obtain ⟨p, q, e1, a1, b1⟩ := won_closest2 o t h
    obtain ⟨p', q', e2, a2, b2⟩ := won_closest2 o u (by rw [e]; exact h)
    exact winner_unique (fun v w => RelativeDistance.isCloserTo o v w) (e2.symm.trans (e.trans e1)) a2 b2 a1 b1
  refine ⟨key, fun v vs e => ?_⟩
  obtain ⟨u, h1, h2⟩ := exists_comb (Api.closest o) (.leaf v) vs
  have := key u (by rw [h1, e]; rfl)
  rw [← this, h2]; rfl
/-- closest of 2D points: with the candidates in another order, a winner that is just as good. -/
theorem C79_order_closest2 (o : Point2 S) (t u : Tree (Point2 S)) (h : ∀ v ∈ t.leaves, ¬ IsNaN (Api.distance o v)) (e : ∀ v, v ∈ t.leaves ↔ v ∈ u.leaves) :
    (Api.distance o (t.bound (Api.closest o)) == Api.distance o (u.bound (Api.closest o))) = true := by
  have m : ∀ t : Tree (Point2 S), (∀ v ∈ t.leaves, ¬ IsNaN (Api.distance o v)) → t.bound (Api.closest o) ∈ t.leaves := by
    intro t h
    obtain ⟨p, q, e, -, -⟩ := won_closest2 o t h
    rw [e]; simp
  have hu : ∀ v ∈ u.leaves, ¬ IsNaN (Api.distance o v) := fun v hv => h v ((e v).2 hv)
  exact le_antisymm' ((C79_closest2 o t h).2 _ ((e _).2 (m u hu))) ((C79_closest2 o u hu).2 _ ((e _).1 (m t h)))

/-! ### farthest, 2D points -/

theorem won_farthest2 (o : Point2 S) (t : Tree (Point2 S)) (h : ∀ v ∈ t.leaves, ¬ IsNaN (Api.distance o v)) :
    ∃ pre post, t.leaves = pre ++ t.bound (Api.farthest o) :: post ∧ (∀ v ∈ pre, (RelativeDistance.isFartherFrom o v (t.bound (Api.farthest o))) = false) ∧
      ∀ v ∈ post, (RelativeDistance.isFartherFrom o (t.bound (Api.farthest o)) v) = true :=
  tournament (fun v => ¬ IsNaN (Api.dot (v - o) (v - o))) (fun v w => RelativeDistance.isFartherFrom o v w) (Api.farthest o) (fun _ _ => rfl)
    (fun _ _ _ _ _ _ h h' => key_tr h' h) (fun _ _ _ ha hb hc h h' => key_nt hc hb ha h' h) t fun v hv => by rw [dot_self_isNaN2]; simpa [Api.distance, Distance.distance, length_isNaN2] using h v hv
/-- farthest of 2D points: the winner is no closer than any candidate, and it is the last such candidate. -/
theorem C79_farthest2 (o : Point2 S) (t : Tree (Point2 S)) (h : ∀ v ∈ t.leaves, ¬ IsNaN (Api.distance o v)) :
    (∃ pre post, t.leaves = pre ++ t.bound (Api.farthest o) :: post ∧
      (∀ v ∈ pre, (RelativeDistance.isFartherFrom o v (t.bound (Api.farthest o))) = false) ∧ ∀ v ∈ post, (RelativeDistance.isFartherFrom o (t.bound (Api.farthest o)) v) = true) ∧
    ∀ v ∈ t.leaves, (Api.distance o v ≤? Api.distance o (t.bound (Api.farthest o))) = true := by
  obtain ⟨pre, post, e, h1, h2⟩ := won_farthest2 o t h
  refine ⟨⟨pre, post, e, h1, h2⟩, fun v hv => ?_⟩
  have hw := h (t.bound (Api.farthest o)) (by rw [e]; simp)
  have hv' := h v hv
  rw [e] at hv
  simp only [List.mem_append, List.mem_cons] at hv
  rcases hv with hv | rfl | hv
  · have := ((C17_point2 o v (t.bound (Api.farthest o))).1 hv' hw).2.1
    rw [show Api.farthest o v (t.bound (Api.farthest o)) = t.bound (Api.farthest o) from if_neg (Bool.eq_false_iff.1 (h1 v hv))] at this
    exact this
  · exact le_self (hw)
  · have := ((C17_point2 o (t.bound (Api.farthest o)) v).1 hw hv').2.2
    rw [show Api.farthest o (t.bound (Api.farthest o)) v = t.bound (Api.farthest o) from if_pos (h2 v hv)] at this
    exact this
/-- farthest of 2D points: only the order of the candidates counts, not how the tournament is organised; in particular every
tournament returns what going through the candidates one by one returns. -/
theorem C79_shape_farthest2 (o : Point2 S) (t : Tree (Point2 S)) (h : ∀ v ∈ t.leaves, ¬ IsNaN (Api.distance o v)) :
    (∀ u : Tree (Point2 S), u.leaves = t.leaves → u.bound (Api.farthest o) = t.bound (Api.farthest o)) ∧
    ∀ v vs, t.leaves = v :: vs → vs.foldl (Api.farthest o) v = t.bound (Api.farthest o) := by
  have key : ∀ u : Tree (Point2 S), u.leaves = t.leaves → u.bound (Api.farthest o) = t.bound (Api.farthest o) := by
    intro u e
    obtain ⟨p, q, e1, a1, b1⟩ := won_farthest2 o t h
    obtain ⟨p', q', e2, a2, b2⟩ := won_farthest2 o u (by rw [e]; exact h)
    exact winner_unique (fun v w => RelativeDistance.isFartherFrom o v w) (e2.symm.trans (e.trans e1)) a2 b2 a1 b1
  refine ⟨key, fun v vs e => ?_⟩
  obtain ⟨u, h1, h2⟩ := exists_comb (Api.farthest o) (.leaf v) vs
  have := key u (by rw [h1, e]; rfl)
  rw [← this, h2]; rfl
/-- farthest of 2D points: with the candidates in another order, a winner that is just as good. -/
theorem C79_order_farthest2 (o : Point2 S) (t u : Tree (Point2 S)) (h : ∀ v ∈ t.leaves, ¬ IsNaN (Api.distance o v)) (e : ∀ v, v ∈ t.leaves ↔ v ∈ u.leaves) :
    (Api.distance o (t.bound (Api.farthest o)) == Api.distance o (u.bound (Api.farthest o))) = true := by
  have m : ∀ t : Tree (Point2 S), (∀ v ∈ t.leaves, ¬ IsNaN (Api.distance o v)) → t.bound (Api.farthest o) ∈ t.leaves := by
    intro t h
    obtain ⟨p, q, e, -, -⟩ := won_farthest2 o t h
    rw [e]; simp
  have hu : ∀ v ∈ u.leaves, ¬ IsNaN (Api.distance o v) := fun v hv => h v ((e v).2 hv)
  exact le_antisymm' ((C79_farthest2 o u hu).2 _ ((e _).1 (m t h))) ((C79_farthest2 o t h).2 _ ((e _).2 (m u hu)))

/-! ### shortest, 3D vectors -/

theorem won_shortest3 (t : Tree (Vector3 S)) (h : ∀ v ∈ t.leaves, NoNaN v) :
    ∃ pre post, t.leaves = pre ++ t.bound Api.shortest :: post ∧ (∀ v ∈ pre, (RelativeLength.isShorterThan v (t.bound Api.shortest)) = false) ∧
      ∀ v ∈ post, (RelativeLength.isShorterThan (t.bound Api.shortest) v) = true :=
  tournament (fun v => ¬ IsNaN (Api.dot v v)) (fun v w => RelativeLength.isShorterThan v w) Api.shortest (fun _ _ => rfl)
    (fun _ _ _ _ _ _ h h' => key_tr h h') (fun _ _ _ ha hb hc h h' => key_nt ha hb hc h h') t fun v hv => by rw [dot_self_isNaN3]; simpa using h v hv
/-- shortest of 3D vectors: the winner is no longer than any candidate, and it is the last such candidate. -/
theorem C79_shortest3 (t : Tree (Vector3 S)) (h : ∀ v ∈ t.leaves, NoNaN v) :
    (∃ pre post, t.leaves = pre ++ t.bound Api.shortest :: post ∧
      (∀ v ∈ pre, (RelativeLength.isShorterThan v (t.bound Api.shortest)) = false) ∧ ∀ v ∈ post, (RelativeLength.isShorterThan (t.bound Api.shortest) v) = true) ∧
    ∀ v ∈ t.leaves, (Api.length (t.bound Api.shortest) ≤? Api.length v) = true := by
  obtain ⟨pre, post, e, h1, h2⟩ := won_shortest3  t h
  refine ⟨⟨pre, post, e, h1, h2⟩, fun v hv => ?_⟩
  have hw := h (t.bound Api.shortest) (by rw [e]; simp)
  have hv' := h v hv
  rw [e] at hv
  simp only [List.mem_append, List.mem_cons] at hv
  rcases hv with hv | rfl | hv
  · have := ((C17_vector3 v (t.bound Api.shortest)).1 hv' hw).1.1
    rw [show Api.shortest v (t.bound Api.shortest) = t.bound Api.shortest from if_neg (Bool.eq_false_iff.1 (h1 v hv))] at this
    exact this
  · exact le_self (by rw [length_isNaN3]; simpa using hw)
  · have := ((C17_vector3 (t.bound Api.shortest) v).1 hw hv').1.2
    rw [show Api.shortest (t.bound Api.shortest) v = t.bound Api.shortest from if_pos (h2 v hv)] at this
    exact this
/-- shortest of 3D vectors: only the order of the candidates counts, not how the tournament is organised; in particular every
tournament returns what going through the candidates one by one returns. -/
theorem C79_shape_shortest3 (t : Tree (Vector3 S)) (h : ∀ v ∈ t.leaves, NoNaN v) :
    (∀ u : Tree (Vector3 S), u.leaves = t.leaves → u.bound Api.shortest = t.bound Api.shortest) ∧
    ∀ v vs, t.leaves = v :: vs → vs.foldl Api.shortest v = t.bound Api.shortest := by
  have key : ∀ u : Tree (Vector3 S), u.leaves = t.leaves → u.bound Api.shortest = t.bound Api.shortest := by
    intro u e
    obtain ⟨p, q, e1, a1, b1⟩ := won_shortest3  t h
    obtain ⟨p', q', e2, a2, b2⟩ := won_shortest3  u (by rw [e]; exact h)
    exact winner_unique (fun v w => RelativeLength.isShorterThan v w) (e2.symm.trans (e.trans e1)) a2 b2 a1 b1
  refine ⟨key, fun v vs e => ?_⟩
  obtain ⟨u, h1, h2⟩ := exists_comb Api.shortest (.leaf v) vs
  have := key u (by rw [h1, e]; rfl)
  rw [← this, h2]; rfl
/-- shortest of 3D vectors: with the candidates in another order, a winner that is just as good. -/
theorem C79_order_shortest3 (t u : Tree (Vector3 S)) (h : ∀ v ∈ t.leaves, NoNaN v) (e : ∀ v, v ∈ t.leaves ↔ v ∈ u.leaves) :
    (Api.length (t.bound Api.shortest) == Api.length (u.bound Api.shortest)) = true := by
  have m : ∀ t : Tree (Vector3 S), (∀ v ∈ t.leaves, NoNaN v) → t.bound Api.shortest ∈ t.leaves := by
    intro t h
    obtain ⟨p, q, e, -, -⟩ := won_shortest3  t h
    rw [e]; simp
  have hu : ∀ v ∈ u.leaves, NoNaN v := fun v hv => h v ((e v).2 hv)
  exact le_antisymm' ((C79_shortest3  t h).2 _ ((e _).2 (m u hu))) ((C79_shortest3  u hu).2 _ ((e _).1 (m t h)))

/-! ### longest, 3D vectors -/

theorem won_longest3 (t : Tree (Vector3 S)) (h : ∀ v ∈ t.leaves, NoNaN v) :
    ∃ pre post, t.leaves = pre ++ t.bound Api.longest :: post ∧ (∀ v ∈ pre, (RelativeLength.isLongerThan v (t.bound Api.longest)) = false) ∧
      ∀ v ∈ post, (RelativeLength.isLongerThan (t.bound Api.longest) v) = true :=
  tournament (fun v => ¬ IsNaN (Api.dot v v)) (fun v w => RelativeLength.isLongerThan v w) Api.longest (fun _ _ => rfl)
    (fun _ _ _ _ _ _ h h' => key_tr h' h) (fun _ _ _ ha hb hc h h' => key_nt hc hb ha h' h) t fun v hv => by rw [dot_self_isNaN3]; simpa using h v hv
/-- longest of 3D vectors: the winner is no shorter than any candidate, and it is the last such candidate. -/
theorem C79_longest3 (t : Tree (Vector3 S)) (h : ∀ v ∈ t.leaves, NoNaN v) :
    (∃ pre post, t.leaves = pre ++ t.bound Api.longest :: post ∧
      (∀ v ∈ pre, (RelativeLength.isLongerThan v (t.bound Api.longest)) = false) ∧ ∀ v ∈ post, (RelativeLength.isLongerThan (t.bound Api.longest) v) = true) ∧
    ∀ v ∈ t.leaves, (Api.length v ≤? Api.length (t.bound Api.longest)) = true := by
  obtain ⟨pre, post, e, h1, h2⟩ := won_longest3  t h
  refine ⟨⟨pre, post, e, h1, h2⟩, fun v hv => ?_⟩
  have hw := h (t.bound Api.longest) (by rw [e]; simp)
  have hv' := h v hv
  rw [e] at hv
  simp only [List.mem_append, List.mem_cons] at hv
  rcases hv with hv | rfl | hv
  · have := ((C17_vector3 v (t.bound Api.longest)).1 hv' hw).2.1
    rw [show Api.longest v (t.bound Api.longest) = t.bound Api.longest from if_neg (Bool.eq_false_iff.1 (h1 v hv))] at this
    exact this
  · exact le_self (by rw [length_isNaN3]; simpa using hw)
  · have := ((C17_vector3 (t.bound Api.longest) v).1 hw hv').2.2
    rw [show Api.longest (t.bound Api.longest) v = t.bound Api.longest from if_pos (h2 v hv)] at this
    exact this
/-- longest of 3D vectors: only the order of the candidates counts, not how the tournament is organised; in particular every
tournament returns what going through the candidates one by one returns. -/
theorem C79_shape_longest3 (t : Tree (Vector3 S)) (h : ∀ v ∈ t.leaves, NoNaN v) :
    (∀ u : Tree (Vector3 S), u.leaves = t.leaves → u.bound Api.longest = t.bound Api.longest) ∧
    ∀ v vs, t.leaves = v :: vs → vs.foldl Api.longest v = t.bound Api.longest := by
  have key : ∀ u : Tree (Vector3 S), u.leaves = t.leaves → u.bound Api.longest = t.bound Api.longest := by
    intro u e
    obtain ⟨p, q, e1, a1, b1⟩ := won_longest3  t h
    obtain ⟨p', q', e2, a2, b2⟩ := won_longest3  u (by rw [e]; exact h)
    exact winner_unique (fun v w => RelativeLength.isLongerThan v w) (e2.symm.trans (e.trans e1)) a2 b2 a1 b1
  refine ⟨key, fun v vs e => ?_⟩
  obtain ⟨u, h1, h2⟩ := exists_comb Api.longest (.leaf v) vs
  have := key u (by rw [h1, e]; rfl)
  rw [← this, h2]; rfl
/-- longest of 3D vectors: with the candidates in another order, a winner that is just as good. -/
theorem C79_order_longest3 (t u : Tree (Vector3 S)) (h : ∀ v ∈ t.leaves, NoNaN v) (e : ∀ v, v ∈ t.leaves ↔ v ∈ u.leaves) :
    (Api.length (t.bound Api.longest) == Api.length (u.bound Api.longest)) = true := by
  have m : ∀ t : Tree (Vector3 S), (∀ v ∈ t.leaves, NoNaN v) → t.bound Api.longest ∈ t.leaves := by
    intro t h
    obtain ⟨p, q, e, -, -⟩ := won_longest3  t h
    rw [e]; simp
  have hu : ∀ v ∈ u.leaves, NoNaN v := fun v hv => h v ((e v).2 hv)
  exact le_antisymm' ((C79_longest3  u hu).2 _ ((e _).1 (m t h))) ((C79_longest3  t h).2 _ ((e _).2 (m u hu)))

/-! ### closest, 3D points -/

theorem won_closest3 (o : Point3 S) (t : Tree (Point3 S)) (h : ∀ v ∈ t.leaves, ¬ IsNaN (Api.distance o v)) :
    ∃ pre post, t.leaves = pre ++ t.bound (Api.closest o) :: post ∧ (∀ v ∈ pre, (RelativeDistance.isCloserTo o v (t.bound (Api.closest o))) = false) ∧
      ∀ v ∈ post, (RelativeDistance.isCloserTo o (t.bound (Api.closest o)) v) = true :=
  tournament (fun v => ¬ IsNaN (Api.dot (v - o) (v - o))) (fun v w => RelativeDistance.isCloserTo o v w) (Api.closest o) (fun _ _ => rfl)
    (fun _ _ _ _ _ _ h h' => key_tr h h') (fun _ _ _ ha hb hc h h' => key_nt ha hb hc h h') t fun v hv => by rw [dot_self_isNaN3]; simpa [Api.distance, Distance.distance, length_isNaN3] using h v hv
/-- closest of 3D points: the winner is no farther than any candidate, and it is the last such candidate. -/
theorem C79_closest3 (o : Point3 S) (t : Tree (Point3 S)) (h : ∀ v ∈ t.leaves, ¬ IsNaN (Api.distance o v)) :
    (∃ pre post, t.leaves = pre ++ t.bound (Api.closest o) :: post ∧
      (∀ v ∈ pre, (RelativeDistance.isCloserTo o v (t.bound (Api.closest o))) = false) ∧ ∀ v ∈ post, (RelativeDistance.isCloserTo o (t.bound (Api.closest o)) v) = true) ∧
    ∀ v ∈ t.leaves, (Api.distance o (t.bound (Api.closest o)) ≤? Api.distance o v) = true := by
  obtain ⟨pre, post, e, h1, h2⟩ := won_closest3 o t h
  refine ⟨⟨pre, post, e, h1, h2⟩, fun v hv => ?_⟩
  have hw := h (t.bound (Api.closest o)) (by rw [e]; simp)
  have hv' := h v hv
  rw [e] at hv
  simp only [List.mem_append, List.mem_cons] at hv
  rcases hv with hv | rfl | hv
  · have := ((C17_point3 o v (t.bound (Api.closest o))).1 hv' hw).1.1
    rw [show Api.closest o v (t.bound (Api.closest o)) = t.bound (Api.closest o) from if_neg (Bool.eq_false_iff.1 (h1 v hv))] at this
    exact this
  · exact le_self (hw)
  · have := ((C17_point3 o (t.bound (Api.closest o)) v).1 hw hv').1.2
    rw [show Api.closest o (t.bound (Api.closest o)) v = t.bound (Api.closest o) from if_pos (h2 v hv)] at this
    exact this
/-- closest of 3D points: only the order of the candidates counts, not how the tournament is organised; in particular every
tournament returns what going through the candidates one by one returns. -/
theorem C79_shape_closest3 (o : Point3 S) (t : Tree (Point3 S)) (h : ∀ v ∈ t.leaves, ¬ IsNaN (Api.distance o v)) :
    (∀ u : Tree (Point3 S), u.leaves = t.leaves → u.bound (Api.closest o) = t.bound (Api.closest o)) ∧
    ∀ v vs, t.leaves = v :: vs → vs.foldl (Api.closest o) v = t.bound (Api.closest o) := by
  have key : ∀ u : Tree (Point3 S), u.leaves = t.leaves → u.bound (Api.closest o) = t.bound (Api.closest o) := by
    intro u e
    obtain ⟨p, q, e1, a1, b1⟩ := won_closest3 o t h
    obtain ⟨p', q', e2, a2, b2⟩ := won_closest3 o u (by rw [e]; exact h)
    exact winner_unique (fun v w => RelativeDistance.isCloserTo o v w) (e2.symm.trans (e.trans e1)) a2 b2 a1 b1
  refine ⟨key, fun v vs e => ?_⟩
  obtain ⟨u, h1, h2⟩ := exists_comb (Api.closest o) (.leaf v) vs
  have := key u (by rw [h1, e]; rfl)
  rw [← this, h2]; rfl
/-- closest of 3D points: with the candidates in another order, a winner that is just as good. -/
theorem C79_order_closest3 (o : Point3 S) (t u : Tree (Point3 S)) (h : ∀ v ∈ t.leaves, ¬ IsNaN (Api.distance o v)) (e : ∀ v, v ∈ t.leaves ↔ v ∈ u.leaves) :
    (Api.distance o (t.bound (Api.closest o)) == Api.distance o (u.bound (Api.closest o))) = true := by
  have m : ∀ t : Tree (Point3 S), (∀ v ∈ t.leaves, ¬ IsNaN (Api.distance o v)) → t.bound (Api.closest o) ∈ t.leaves := by
    intro t h
    obtain ⟨p, q, e, -, -⟩ := won_closest3 o t h
    rw [e]; simp
  have hu : ∀ v ∈ u.leaves, ¬ IsNaN (Api.distance o v) := fun v hv => h v ((e v).2 hv)
  exact le_antisymm' ((C79_closest3 o t h).2 _ ((e _).2 (m u hu))) ((C79_closest3 o u hu).2 _ ((e _).1 (m t h)))

/-! ### farthest, 3D points -/

theorem won_farthest3 (o : Point3 S) (t : Tree (Point3 S)) (h : ∀ v ∈ t.leaves, ¬ IsNaN (Api.distance o v)) :
    ∃ pre post, t.leaves = pre ++ t.bound (Api.farthest o) :: post ∧ (∀ v ∈ pre, (RelativeDistance.isFartherFrom o v (t.bound (Api.farthest o))) = false) ∧
      ∀ v ∈ post, (RelativeDistance.isFartherFrom o (t.bound (Api.farthest o)) v) = true :=
  tournament (fun v => ¬ IsNaN (Api.dot (v - o) (v - o))) (fun v w => RelativeDistance.isFartherFrom o v w) (Api.farthest o) (fun _ _ => rfl)
    (fun _ _ _ _ _ _ h h' => key_tr h' h) (fun _ _ _ ha hb hc h h' => key_nt hc hb ha h' h) t fun v hv => by rw [dot_self_isNaN3]; simpa [Api.distance, Distance.distance, length_isNaN3] using h v hv
/-- farthest of 3D points: the winner is no closer than any candidate, and it is the last such candidate. -/
theorem C79_farthest3 (o : Point3 S) (t : Tree (Point3 S)) (h : ∀ v ∈ t.leaves, ¬ IsNaN (Api.distance o v)) :
    (∃ pre post, t.leaves = pre ++ t.bound (Api.farthest o) :: post ∧
      (∀ v ∈ pre, (RelativeDistance.isFartherFrom o v (t.bound (Api.farthest o))) = false) ∧ ∀ v ∈ post, (RelativeDistance.isFartherFrom o (t.bound (Api.farthest o)) v) = true) ∧
    ∀ v ∈ t.leaves, (Api.distance o v ≤? Api.distance o (t.bound (Api.farthest o))) = true := by
  obtain ⟨pre, post, e, h1, h2⟩ := won_farthest3 o t h
  refine ⟨⟨pre, post, e, h1, h2⟩, fun v hv => ?_⟩
  have hw := h (t.bound (Api.farthest o)) (by rw [e]; simp)
  have hv' := h v hv
  rw [e] at hv
  simp only [List.mem_append, List.mem_cons] at hv
  rcases hv with hv | rfl | hv
  · have := ((C17_point3 o v (t.bound (Api.farthest o))).1 hv' hw).2.1
    rw [show Api.farthest o v (t.bound (Api.farthest o)) = t.bound (Api.farthest o) from if_neg (Bool.eq_false_iff.1 (h1 v hv))] at this
    exact this
  · exact le_self (hw)
  · have := ((C17_point3 o (t.bound (Api.farthest o)) v).1 hw hv').2.2
    rw [show Api.farthest o (t.bound (Api.farthest o)) v = t.bound (Api.farthest o) from if_pos (h2 v hv)] at this
    exact this
/-- farthest of 3D points: only the order of the candidates counts, not how the tournament is organised; in particular every
tournament returns what going through the candidates one by one returns. -/
theorem C79_shape_farthest3 (o : Point3 S) (t : Tree (Point3 S)) (h : ∀ v ∈ t.leaves, ¬ IsNaN (Api.distance o v)) :
    (∀ u : Tree (Point3 S), u.leaves = t.leaves → u.bound (Api.farthest o) = t.bound (Api.farthest o)) ∧
    ∀ v vs, t.leaves = v :: vs → vs.foldl (Api.farthest o) v = t.bound (Api.farthest o) := by
  have key : ∀ u : Tree (Point3 S), u.leaves = t.leaves → u.bound (Api.farthest o) = t.bound (Api.farthest o) := by
    intro u e
    obtain ⟨p, q, e1, a1, b1⟩ := won_farthest3 o t h
    obtain ⟨p', q', e2, a2, b2⟩ := won_farthest3 o u (by rw [e]; exact h)
    exact winner_unique (fun v w => RelativeDistance.isFartherFrom o v w) (e2.symm.trans (e.trans e1)) a2 b2 a1 b1
  refine ⟨key, fun v vs e => ?_⟩
  obtain ⟨u, h1, h2⟩ := exists_comb (Api.farthest o) (.leaf v) vs
  have := key u (by rw [h1, e]; rfl)
  rw [← this, h2]; rfl
/-- farthest of 3D points: with the candidates in another order, a winner that is just as good. -/
theorem C79_order_farthest3 (o : Point3 S) (t u : Tree (Point3 S)) (h : ∀ v ∈ t.leaves, ¬ IsNaN (Api.distance o v)) (e : ∀ v, v ∈ t.leaves ↔ v ∈ u.leaves) :
    (Api.distance o (t.bound (Api.farthest o)) == Api.distance o (u.bound (Api.farthest o))) = true := by
  have m : ∀ t : Tree (Point3 S), (∀ v ∈ t.leaves, ¬ IsNaN (Api.distance o v)) → t.bound (Api.farthest o) ∈ t.leaves := by
    intro t h
    obtain ⟨p, q, e, -, -⟩ := won_farthest3 o t h
    rw [e]; simp
  have hu : ∀ v ∈ u.leaves, ¬ IsNaN (Api.distance o v) := fun v hv => h v ((e v).2 hv)
  exact le_antisymm' ((C79_farthest3 o u hu).2 _ ((e _).1 (m t h))) ((C79_farthest3 o t h).2 _ ((e _).2 (m u hu)))

/-! ### A NaN among the candidates -/

/-- With a NaN vector among the candidates the result does depend on how the tournament is organised. -/
theorem C79_nan2 (a b v : Vector2 S) (h : RelativeLength.isShorterThan a b = true) (hv : ¬ NoNaN v) :
    (Tree.node (.leaf a) (.node (.leaf v) (.leaf b))).bound Api.shortest = a ∧
    (Tree.node (.node (.leaf a) (.leaf v)) (.leaf b)).bound Api.shortest = b := by
  simp only [Tree.bound]
  rw [((C17_vector2 v b).2.2.2 (.inl hv)).1, ((C17_vector2 a v).2.2.2 (.inr hv)).1, ((C17_vector2 v b).2.2.2 (.inl hv)).1]
  exact ⟨if_pos h, rfl⟩

/-- With a NaN vector among the candidates the result does depend on how the tournament is organised. -/
theorem C79_nan3 (a b v : Vector3 S) (h : RelativeLength.isShorterThan a b = true) (hv : ¬ NoNaN v) :
    (Tree.node (.leaf a) (.node (.leaf v) (.leaf b))).bound Api.shortest = a ∧
    (Tree.node (.node (.leaf a) (.leaf v)) (.leaf b)).bound Api.shortest = b := by
  simp only [Tree.bound]
  rw [((C17_vector3 v b).2.2.2 (.inl hv)).1, ((C17_vector3 a v).2.2.2 (.inr hv)).1, ((C17_vector3 v b).2.2.2 (.inl hv)).1]
  exact ⟨if_pos h, rfl⟩

/-! Concrete cases -/

theorem distance_nn2 {o p : Point2 S} (ho : AllFinite o) (hp : AllFinite p) : ¬ IsNaN (Api.distance o p) := by
  rw [Point2.allFinite] at ho hp
  simp only [Api.distance, Distance.distance]
  rw [length_isNaN2]
  simp only [not_not]
  exact Vector2.noNaN.2 ⟨isNaN_sub_finite ho.1 hp.1.not_nan, isNaN_sub_finite ho.2 hp.2.not_nan⟩
theorem cube_min2 {a b : ℤ} {ha : |a| ≤ 16777216} {hb : |b| ≤ 16777216} (h : a ≤ b) :
    NoNaN (Vector2.fromPoint (cube2 a b ha hb).min) := by
  have h := Point2.leAll.1 (cube2_le (ha := ha) (hb := hb) h)
  exact Vector2.noNaN.2 ⟨(le_nn h.1).1, (le_nn h.2).1⟩
theorem cube_max2 {a b : ℤ} {ha : |a| ≤ 16777216} {hb : |b| ≤ 16777216} (h : a ≤ b) :
    NoNaN (Vector2.fromPoint (cube2 a b ha hb).max) := by
  have h := Point2.leAll.1 (cube2_le (ha := ha) (hb := hb) h)
  exact Vector2.noNaN.2 ⟨(le_nn h.1).2, (le_nn h.2).2⟩

/-- Four vectors, two of them of equal length. -/
noncomputable def cands2 : Tree (Vector2 F32) :=
  .node (.node (.leaf (Vector2.fromPoint (cube2 1 3).max)) (.leaf (Vector2.fromPoint (cube2 1 2).min)))
    (.node (.leaf (Vector2.fromPoint (cube2 (-1) 3).min)) (.leaf (Vector2.fromPoint (cube2 5 7).max)))
theorem cands2_ok : ∀ v ∈ cands2.leaves, NoNaN v := by
  intro v hv
  simp only [cands2, Tree.leaves, List.cons_append, List.nil_append, List.mem_cons, List.not_mem_nil, or_false] at hv
  rcases hv with rfl | rfl | rfl | rfl
  exacts [cube_max2 (by norm_num), cube_min2 (by norm_num), cube_min2 (by norm_num), cube_max2 (by norm_num)]
example := C79_shortest2 cands2 cands2_ok
example := C79_longest2 cands2 cands2_ok
example (o : Point2 F32) (t : Tree (Point2 F32)) (ho : AllFinite o) (h : ∀ p ∈ t.leaves, AllFinite p) :=
  C79_closest2 o t fun p hp => distance_nn2 ho (h p hp)
example := (C79_shape_shortest2 cands2 cands2_ok).2 _ _ rfl

theorem distance_nn3 {o p : Point3 S} (ho : AllFinite o) (hp : AllFinite p) : ¬ IsNaN (Api.distance o p) := by
  rw [Point3.allFinite] at ho hp
  simp only [Api.distance, Distance.distance]
  rw [length_isNaN3]
  simp only [not_not]
  exact Vector3.noNaN.2 ⟨isNaN_sub_finite ho.1 hp.1.not_nan, isNaN_sub_finite ho.2.1 hp.2.1.not_nan, isNaN_sub_finite ho.2.2 hp.2.2.not_nan⟩
theorem cube_min3 {a b : ℤ} {ha : |a| ≤ 16777216} {hb : |b| ≤ 16777216} (h : a ≤ b) :
    NoNaN (Vector3.fromPoint (cube3 a b ha hb).min) := by
  have h := Point3.leAll.1 (cube3_le (ha := ha) (hb := hb) h)
  exact Vector3.noNaN.2 ⟨(le_nn h.1).1, (le_nn h.2.1).1, (le_nn h.2.2).1⟩
theorem cube_max3 {a b : ℤ} {ha : |a| ≤ 16777216} {hb : |b| ≤ 16777216} (h : a ≤ b) :
    NoNaN (Vector3.fromPoint (cube3 a b ha hb).max) := by
  have h := Point3.leAll.1 (cube3_le (ha := ha) (hb := hb) h)
  exact Vector3.noNaN.2 ⟨(le_nn h.1).2, (le_nn h.2.1).2, (le_nn h.2.2).2⟩

/-- Four vectors, two of them of equal length. -/
noncomputable def cands3 : Tree (Vector3 F32) :=
  .node (.node (.leaf (Vector3.fromPoint (cube3 1 3).max)) (.leaf (Vector3.fromPoint (cube3 1 2).min)))
    (.node (.leaf (Vector3.fromPoint (cube3 (-1) 3).min)) (.leaf (Vector3.fromPoint (cube3 5 7).max)))
theorem cands3_ok : ∀ v ∈ cands3.leaves, NoNaN v := by
  intro v hv
  simp only [cands3, Tree.leaves, List.cons_append, List.nil_append, List.mem_cons, List.not_mem_nil, or_false] at hv
  rcases hv with rfl | rfl | rfl | rfl
  exacts [cube_max3 (by norm_num), cube_min3 (by norm_num), cube_min3 (by norm_num), cube_max3 (by norm_num)]
example := C79_shortest3 cands3 cands3_ok
example := C79_longest3 cands3 cands3_ok
example (o : Point3 F32) (t : Tree (Point3 F32)) (ho : AllFinite o) (h : ∀ p ∈ t.leaves, AllFinite p) :=
  C79_closest3 o t fun p hp => distance_nn3 ho (h p hp)
example := (C79_shape_shortest3 cands3 cands3_ok).2 _ _ rfl


end VecMath
