import Verif.Lemmas.Sort
import Verif.Props.FloatVector
import Verif.Props.FloatComponent
import Verif.Props.FloatNaN
import Verif.Props.FloatTournament
import Verif.Props.FloatExamples7
/-!
# Sorting by length and by distance: C94

Generated by tools/gen/sort.py.
-/

open Classical
set_option linter.unusedSectionVars false

namespace VecMath
open Scalar IEEE
variable {S : Type} [Scalar S] [IEEE S]

theorem le_of_not_lt {a b : S} (ha : ¬ IsNaN a) (hb : ¬ IsNaN b) (h : (b <? a) = false) : (a ≤? b) = true := by
  rw [← Bool.not_eq_true, lt_of_not_nan hb ha, not_lt] at h
  exact le_iff.2 ⟨ha, hb, h⟩
theorem beq_of_le {a b : S} (h : (a ≤? b) = true) (h' : (b ≤? a) = true) : (a == b) = true := by
  rw [le_iff] at h h'
  exact beq_iff.2 ⟨h.1, h.2.1, le_antisymm h.2.2 h'.2.2⟩
theorem lt_nan {a b : S} (h : IsNaN a ∨ IsNaN b) : (a <? b) = false := by
  rw [← Bool.not_eq_true, lt_iff]
  rintro ⟨h1, h2, -⟩
  exact h.elim h1 h2
/-- What fails when one element is tied with every other, although some are not. -/
theorem nan_breaks {A : Type} {r : A → A → Bool} {a b v : A} (h : r a b = true) (h1 : ∀ w, r v w = false ∧ r w v = false) :
    SortedBy r [b, v, a] ∧ ¬ StrictWeakOrder (fun _ => True) r := by
  refine ⟨⟨(h1 b).1, (h1 a).2, trivial⟩, fun hw => ?_⟩
  have := hw.ties a v b trivial trivial trivial (by simp [tied, h1]) (by simp [tied, h1])
  simp [tied, h] at this

/-! ### by length, shorter first (2D) -/

theorem keyed_shorter2 : KeyedBy (L := EReal) (fun v : Vector2 S => NoNaN v) (fun v w : Vector2 S => RelativeLength.isShorterThan v w) (fun v => val (Api.dot v v)) := by
  intro v w hv hw
  have ha : ¬ IsNaN (Api.dot v v) := by rw [dot_self_isNaN2]; simpa using hv
  have hb : ¬ IsNaN (Api.dot w w) := by rw [dot_self_isNaN2]; simpa using hw
  exact lt_of_not_nan ha hb
theorem measured_shorter2 {v w : Vector2 S} (hv : NoNaN v) (hw : NoNaN w) (h : RelativeLength.isShorterThan w v = false) : (Api.length v ≤? Api.length w) = true := by
  refine le_of_not_lt ((fun h => mt length_isNaN2.1 (not_not.2 h)) hv) ((fun h => mt length_isNaN2.1 (not_not.2 h)) hw) ?_
  by_contra hc
  rw [Bool.not_eq_false] at hc
  have hc' : RelativeLength.isShorterThan w v = true := (C14_float2 w v).1 hc
  rw [hc'] at h
  cases h
/-- **C94**: `is_shorter_than` is an order that one may sort by, for NaN-free vectors. -/
theorem C94_order_shorter2 : StrictWeakOrder (fun v : Vector2 S => NoNaN v) (fun v w : Vector2 S => RelativeLength.isShorterThan v w) :=
  (keyed_shorter2).order
/-- **C94**: if no element comes before its predecessor, then no element comes before any earlier one, the lengths are
in order, and the elements that come before any given `x` are a prefix (binary search). -/
theorem C94_sorted_shorter2 (l : List (Vector2 S)) (hl : ∀ v ∈ l, NoNaN v) (hs : SortedBy (fun v w : Vector2 S => RelativeLength.isShorterThan v w) l) :
    l.Pairwise (fun v w => RelativeLength.isShorterThan w v = false ∧ (Api.length v ≤? Api.length w) = true) ∧
    ∀ x : Vector2 S, NoNaN x → ∃ pre post, l = pre ++ post ∧ (∀ v ∈ pre, RelativeLength.isShorterThan v x = true) ∧ ∀ v ∈ post, RelativeLength.isShorterThan v x = false := by
  refine ⟨?_, fun x hx => (keyed_shorter2).search hl hs hx⟩
  have := (keyed_shorter2).all hl hs
  rw [List.pairwise_iff_forall_sublist] at this ⊢
  intro v w hvw
  exact ⟨this hvw, measured_shorter2 (hl v (hvw.subset (by simp))) (hl w (hvw.subset (by simp))) (this hvw)⟩
/-- **C94**: there is exactly one stable way to sort, and any two sorted arrangements of the same elements have the same
lengths, position by position. -/
theorem C94_stable_shorter2 (l : List (Vector2 S)) (hl : ∀ v ∈ l, NoNaN v) :
    (∃! out, StableSort (fun v w : Vector2 S => RelativeLength.isShorterThan v w) l out) ∧
    ∀ l1 l2 : List (Vector2 S), l1.Perm l → l2.Perm l → SortedBy (fun v w : Vector2 S => RelativeLength.isShorterThan v w) l1 → SortedBy (fun v w : Vector2 S => RelativeLength.isShorterThan v w) l2 →
      List.Forall₂ (fun v w => (Api.length v == Api.length w) = true) l1 l2 := by
  refine ⟨(keyed_shorter2).stable hl, fun l1 l2 p1 p2 s1 s2 => ?_⟩
  have q1 : ∀ v ∈ l1, NoNaN v := fun v hv => hl v (p1.mem_iff.1 hv)
  have q2 : ∀ v ∈ l2, NoNaN v := fun v hv => hl v (p2.mem_iff.1 hv)
  have k := (keyed_shorter2).keys q1 s1 s2 (p1.trans p2.symm)
  rw [List.forall₂_iff_get] at k ⊢
  refine ⟨k.1, fun i h1 h2 => ?_⟩
  have t := k.2 i h1 h2
  have e1 := q1 _ (List.get_mem l1 ⟨i, h1⟩)
  have e2 := q2 _ (List.get_mem l2 ⟨i, h2⟩)
  simp only [tied, Bool.and_eq_true, Bool.not_eq_true'] at t
  exact beq_of_le (measured_shorter2 e1 e2 t.2) (measured_shorter2 e2 e1 t.1)
/-- **C94**: one NaN is enough to break it: the order is none, and a list can pass the adjacent checks out of order. -/
theorem C94_nan_shorter2 (a b v : Vector2 S) (h : RelativeLength.isShorterThan a b = true) (hv : ¬ NoNaN v) :
    SortedBy (fun v w : Vector2 S => RelativeLength.isShorterThan v w) [b, v, a] ∧ ¬ StrictWeakOrder (fun _ => True) (fun v w : Vector2 S => RelativeLength.isShorterThan v w) := by
  have hn : IsNaN (Api.dot v v) := by rw [dot_self_isNaN2]; exact hv
  exact nan_breaks h fun w => ⟨lt_nan (.inl hn), lt_nan (.inr hn)⟩

/-! ### by length, longer first (2D) -/

theorem keyed_longer2 : KeyedBy (L := ERealᵒᵈ) (fun v : Vector2 S => NoNaN v) (fun v w : Vector2 S => RelativeLength.isLongerThan v w) (fun v => OrderDual.toDual (val (Api.dot v v))) := by
  intro v w hv hw
  have ha : ¬ IsNaN (Api.dot v v) := by rw [dot_self_isNaN2]; simpa using hv
  have hb : ¬ IsNaN (Api.dot w w) := by rw [dot_self_isNaN2]; simpa using hw
  exact lt_of_not_nan hb ha
theorem measured_longer2 {v w : Vector2 S} (hv : NoNaN v) (hw : NoNaN w) (h : RelativeLength.isLongerThan w v = false) : (Api.length w ≤? Api.length v) = true := by
  refine le_of_not_lt ((fun h => mt length_isNaN2.1 (not_not.2 h)) hw) ((fun h => mt length_isNaN2.1 (not_not.2 h)) hv) ?_
  by_contra hc
  rw [Bool.not_eq_false] at hc
  have hc' : RelativeLength.isLongerThan w v = true := (C14_float2 w v).2.2.1.trans <| (C14_float2 v w).1 hc
  rw [hc'] at h
  cases h
/-- **C94**: `is_longer_than` is an order that one may sort by, for NaN-free vectors. -/
theorem C94_order_longer2 : StrictWeakOrder (fun v : Vector2 S => NoNaN v) (fun v w : Vector2 S => RelativeLength.isLongerThan v w) :=
  (keyed_longer2).order
/-- **C94**: if no element comes before its predecessor, then no element comes before any earlier one, the lengths are
in order, and the elements that come before any given `x` are a prefix (binary search). -/
theorem C94_sorted_longer2 (l : List (Vector2 S)) (hl : ∀ v ∈ l, NoNaN v) (hs : SortedBy (fun v w : Vector2 S => RelativeLength.isLongerThan v w) l) :
    l.Pairwise (fun v w => RelativeLength.isLongerThan w v = false ∧ (Api.length w ≤? Api.length v) = true) ∧
    ∀ x : Vector2 S, NoNaN x → ∃ pre post, l = pre ++ post ∧ (∀ v ∈ pre, RelativeLength.isLongerThan v x = true) ∧ ∀ v ∈ post, RelativeLength.isLongerThan v x = false := by
  refine ⟨?_, fun x hx => (keyed_longer2).search hl hs hx⟩
  have := (keyed_longer2).all hl hs
  rw [List.pairwise_iff_forall_sublist] at this ⊢
  intro v w hvw
  exact ⟨this hvw, measured_longer2 (hl v (hvw.subset (by simp))) (hl w (hvw.subset (by simp))) (this hvw)⟩
/-- **C94**: there is exactly one stable way to sort, and any two sorted arrangements of the same elements have the same
lengths, position by position. -/
theorem C94_stable_longer2 (l : List (Vector2 S)) (hl : ∀ v ∈ l, NoNaN v) :
    (∃! out, StableSort (fun v w : Vector2 S => RelativeLength.isLongerThan v w) l out) ∧
    ∀ l1 l2 : List (Vector2 S), l1.Perm l → l2.Perm l → SortedBy (fun v w : Vector2 S => RelativeLength.isLongerThan v w) l1 → SortedBy (fun v w : Vector2 S => RelativeLength.isLongerThan v w) l2 →
      List.Forall₂ (fun v w => (Api.length v == Api.length w) = true) l1 l2 := by
  refine ⟨(keyed_longer2).stable hl, fun l1 l2 p1 p2 s1 s2 => ?_⟩
  have q1 : ∀ v ∈ l1, NoNaN v := fun v hv => hl v (p1.mem_iff.1 hv)
  have q2 : ∀ v ∈ l2, NoNaN v := fun v hv => hl v (p2.mem_iff.1 hv)
  have k := (keyed_longer2).keys q1 s1 s2 (p1.trans p2.symm)
  rw [List.forall₂_iff_get] at k ⊢
  refine ⟨k.1, fun i h1 h2 => ?_⟩
  have t := k.2 i h1 h2
  have e1 := q1 _ (List.get_mem l1 ⟨i, h1⟩)
  have e2 := q2 _ (List.get_mem l2 ⟨i, h2⟩)
  simp only [tied, Bool.and_eq_true, Bool.not_eq_true'] at t
  exact beq_of_le (measured_longer2 e2 e1 t.1) (measured_longer2 e1 e2 t.2)
/-- **C94**: one NaN is enough to break it: the order is none, and a list can pass the adjacent checks out of order. -/
theorem C94_nan_longer2 (a b v : Vector2 S) (h : RelativeLength.isLongerThan a b = true) (hv : ¬ NoNaN v) :
    SortedBy (fun v w : Vector2 S => RelativeLength.isLongerThan v w) [b, v, a] ∧ ¬ StrictWeakOrder (fun _ => True) (fun v w : Vector2 S => RelativeLength.isLongerThan v w) := by
  have hn : IsNaN (Api.dot v v) := by rw [dot_self_isNaN2]; exact hv
  exact nan_breaks h fun w => ⟨lt_nan (.inr hn), lt_nan (.inl hn)⟩

/-! ### by distance from `o`, closer first (2D) -/

theorem keyed_closer2 (o : Point2 S) : KeyedBy (L := EReal) (fun v : Point2 S => ¬ IsNaN (Api.distance o v)) (fun v w : Point2 S => RelativeDistance.isCloserTo o v w) (fun v => val (Api.dot (v - o) (v - o))) := by
  intro v w hv hw
  have ha : ¬ IsNaN (Api.dot (v - o) (v - o)) := by rw [dot_self_isNaN2]; simpa [Api.distance, Distance.distance, length_isNaN2] using hv
  have hb : ¬ IsNaN (Api.dot (w - o) (w - o)) := by rw [dot_self_isNaN2]; simpa [Api.distance, Distance.distance, length_isNaN2] using hw
  exact lt_of_not_nan ha hb
theorem measured_closer2 (o : Point2 S) {v w : Point2 S} (hv : ¬ IsNaN (Api.distance o v)) (hw : ¬ IsNaN (Api.distance o w)) (h : RelativeDistance.isCloserTo o w v = false) : (Api.distance o v ≤? Api.distance o w) = true := by
  refine le_of_not_lt ((fun h => h) hv) ((fun h => h) hw) ?_
  by_contra hc
  rw [Bool.not_eq_false] at hc
  have hc' : RelativeDistance.isCloserTo o w v = true := (C16_float2 o w v).1 hc
  rw [hc'] at h
  cases h
/-- **C94**: `is_closer_to` is an order that one may sort by, for points with a NaN-free distance. -/
theorem C94_order_closer2 (o : Point2 S) : StrictWeakOrder (fun v : Point2 S => ¬ IsNaN (Api.distance o v)) (fun v w : Point2 S => RelativeDistance.isCloserTo o v w) :=
  (keyed_closer2 o).order
/-- **C94**: if no element comes before its predecessor, then no element comes before any earlier one, the distances are
in order, and the elements that come before any given `x` are a prefix (binary search). -/
theorem C94_sorted_closer2 (o : Point2 S) (l : List (Point2 S)) (hl : ∀ v ∈ l, ¬ IsNaN (Api.distance o v)) (hs : SortedBy (fun v w : Point2 S => RelativeDistance.isCloserTo o v w) l) :
    l.Pairwise (fun v w => RelativeDistance.isCloserTo o w v = false ∧ (Api.distance o v ≤? Api.distance o w) = true) ∧
    ∀ x : Point2 S, ¬ IsNaN (Api.distance o x) → ∃ pre post, l = pre ++ post ∧ (∀ v ∈ pre, RelativeDistance.isCloserTo o v x = true) ∧ ∀ v ∈ post, RelativeDistance.isCloserTo o v x = false := by
  refine ⟨?_, fun x hx => (keyed_closer2 o).search hl hs hx⟩
  have := (keyed_closer2 o).all hl hs
  rw [List.pairwise_iff_forall_sublist] at this ⊢
  intro v w hvw
  exact ⟨this hvw, measured_closer2 o (hl v (hvw.subset (by simp))) (hl w (hvw.subset (by simp))) (this hvw)⟩
/-- **C94**: there is exactly one stable way to sort, and any two sorted arrangements of the same elements have the same
distances, position by position. -/
theorem C94_stable_closer2 (o : Point2 S) (l : List (Point2 S)) (hl : ∀ v ∈ l, ¬ IsNaN (Api.distance o v)) :
    (∃! out, StableSort (fun v w : Point2 S => RelativeDistance.isCloserTo o v w) l out) ∧
    ∀ l1 l2 : List (Point2 S), l1.Perm l → l2.Perm l → SortedBy (fun v w : Point2 S => RelativeDistance.isCloserTo o v w) l1 → SortedBy (fun v w : Point2 S => RelativeDistance.isCloserTo o v w) l2 →
      List.Forall₂ (fun v w => (Api.distance o v == Api.distance o w) = true) l1 l2 := by
  refine ⟨(keyed_closer2 o).stable hl, fun l1 l2 p1 p2 s1 s2 => ?_⟩
  have q1 : ∀ v ∈ l1, ¬ IsNaN (Api.distance o v) := fun v hv => hl v (p1.mem_iff.1 hv)
  have q2 : ∀ v ∈ l2, ¬ IsNaN (Api.distance o v) := fun v hv => hl v (p2.mem_iff.1 hv)
  have k := (keyed_closer2 o).keys q1 s1 s2 (p1.trans p2.symm)
  rw [List.forall₂_iff_get] at k ⊢
  refine ⟨k.1, fun i h1 h2 => ?_⟩
  have t := k.2 i h1 h2
  have e1 := q1 _ (List.get_mem l1 ⟨i, h1⟩)
  have e2 := q2 _ (List.get_mem l2 ⟨i, h2⟩)
  simp only [tied, Bool.and_eq_true, Bool.not_eq_true'] at t
  exact beq_of_le (measured_closer2 o e1 e2 t.2) (measured_closer2 o e2 e1 t.1)
/-- **C94**: one NaN is enough to break it: the order is none, and a list can pass the adjacent checks out of order. -/
theorem C94_nan_closer2 (o : Point2 S) (a b v : Point2 S) (h : RelativeDistance.isCloserTo o a b = true) (hv : ¬ ¬ IsNaN (Api.distance o v)) :
    SortedBy (fun v w : Point2 S => RelativeDistance.isCloserTo o v w) [b, v, a] ∧ ¬ StrictWeakOrder (fun _ => True) (fun v w : Point2 S => RelativeDistance.isCloserTo o v w) := by
  have hn : IsNaN (Api.dot (v - o) (v - o)) := by rw [dot_self_isNaN2]; simpa [Api.distance, Distance.distance, length_isNaN2] using hv
  exact nan_breaks h fun w => ⟨lt_nan (.inl hn), lt_nan (.inr hn)⟩

/-! ### by distance from `o`, farther first (2D) -/

theorem keyed_farther2 (o : Point2 S) : KeyedBy (L := ERealᵒᵈ) (fun v : Point2 S => ¬ IsNaN (Api.distance o v)) (fun v w : Point2 S => RelativeDistance.isFartherFrom o v w) (fun v => OrderDual.toDual (val (Api.dot (v - o) (v - o)))) := by
  intro v w hv hw
  have ha : ¬ IsNaN (Api.dot (v - o) (v - o)) := by rw [dot_self_isNaN2]; simpa [Api.distance, Distance.distance, length_isNaN2] using hv
  have hb : ¬ IsNaN (Api.dot (w - o) (w - o)) := by rw [dot_self_isNaN2]; simpa [Api.distance, Distance.distance, length_isNaN2] using hw
  exact lt_of_not_nan hb ha
theorem measured_farther2 (o : Point2 S) {v w : Point2 S} (hv : ¬ IsNaN (Api.distance o v)) (hw : ¬ IsNaN (Api.distance o w)) (h : RelativeDistance.isFartherFrom o w v = false) : (Api.distance o w ≤? Api.distance o v) = true := by
  refine le_of_not_lt ((fun h => h) hw) ((fun h => h) hv) ?_
  by_contra hc
  rw [Bool.not_eq_false] at hc
  have hc' : RelativeDistance.isFartherFrom o w v = true := (C16_float2 o w v).2.2.1.trans <| (C16_float2 o v w).1 hc
  rw [hc'] at h
  cases h
/-- **C94**: `is_farther_from` is an order that one may sort by, for points with a NaN-free distance. -/
theorem C94_order_farther2 (o : Point2 S) : StrictWeakOrder (fun v : Point2 S => ¬ IsNaN (Api.distance o v)) (fun v w : Point2 S => RelativeDistance.isFartherFrom o v w) :=
  (keyed_farther2 o).order
/-- **C94**: if no element comes before its predecessor, then no element comes before any earlier one, the distances are
in order, and the elements that come before any given `x` are a prefix (binary search). -/
theorem C94_sorted_farther2 (o : Point2 S) (l : List (Point2 S)) (hl : ∀ v ∈ l, ¬ IsNaN (Api.distance o v)) (hs : SortedBy (fun v w : Point2 S => RelativeDistance.isFartherFrom o v w) l) :
    l.Pairwise (fun v w => RelativeDistance.isFartherFrom o w v = false ∧ (Api.distance o w ≤? Api.distance o v) = true) ∧
    ∀ x : Point2 S, ¬ IsNaN (Api.distance o x) → ∃ pre post, l = pre ++ post ∧ (∀ v ∈ pre, RelativeDistance.isFartherFrom o v x = true) ∧ ∀ v ∈ post, RelativeDistance.isFartherFrom o v x = false := by
  refine ⟨?_, fun x hx => (keyed_farther2 o).search hl hs hx⟩
  have := (keyed_farther2 o).all hl hs
  rw [List.pairwise_iff_forall_sublist] at this ⊢
  intro v w hvw
  exact ⟨this hvw, measured_farther2 o (hl v (hvw.subset (by simp))) (hl w (hvw.subset (by simp))) (this hvw)⟩
/-- **C94**: there is exactly one stable way to sort, and any two sorted arrangements of the same elements have the same
distances, position by position. -/
theorem C94_stable_farther2 (o : Point2 S) (l : List (Point2 S)) (hl : ∀ v ∈ l, ¬ IsNaN (Api.distance o v)) :
    (∃! out, StableSort (fun v w : Point2 S => RelativeDistance.isFartherFrom o v w) l out) ∧
    ∀ l1 l2 : List (Point2 S), l1.Perm l → l2.Perm l → SortedBy (fun v w : Point2 S => RelativeDistance.isFartherFrom o v w) l1 → SortedBy (fun v w : Point2 S => RelativeDistance.isFartherFrom o v w) l2 →
      List.Forall₂ (fun v w => (Api.distance o v == Api.distance o w) = true) l1 l2 := by
  refine ⟨(keyed_farther2 o).stable hl, fun l1 l2 p1 p2 s1 s2 => ?_⟩
  have q1 : ∀ v ∈ l1, ¬ IsNaN (Api.distance o v) := fun v hv => hl v (p1.mem_iff.1 hv)
  have q2 : ∀ v ∈ l2, ¬ IsNaN (Api.distance o v) := fun v hv => hl v (p2.mem_iff.1 hv)
  have k := (keyed_farther2 o).keys q1 s1 s2 (p1.trans p2.symm)
  rw [List.forall₂_iff_get] at k ⊢
  refine ⟨k.1, fun i h1 h2 => ?_⟩
  have t := k.2 i h1 h2
  have e1 := q1 _ (List.get_mem l1 ⟨i, h1⟩)
  have e2 := q2 _ (List.get_mem l2 ⟨i, h2⟩)
  simp only [tied, Bool.and_eq_true, Bool.not_eq_true'] at t
  exact beq_of_le (measured_farther2 o e2 e1 t.1) (measured_farther2 o e1 e2 t.2)
/-- **C94**: one NaN is enough to break it: the order is none, and a list can pass the adjacent checks out of order. -/
theorem C94_nan_farther2 (o : Point2 S) (a b v : Point2 S) (h : RelativeDistance.isFartherFrom o a b = true) (hv : ¬ ¬ IsNaN (Api.distance o v)) :
    SortedBy (fun v w : Point2 S => RelativeDistance.isFartherFrom o v w) [b, v, a] ∧ ¬ StrictWeakOrder (fun _ => True) (fun v w : Point2 S => RelativeDistance.isFartherFrom o v w) := by
  have hn : IsNaN (Api.dot (v - o) (v - o)) := by rw [dot_self_isNaN2]; simpa [Api.distance, Distance.distance, length_isNaN2] using hv
  exact nan_breaks h fun w => ⟨lt_nan (.inr hn), lt_nan (.inl hn)⟩

/-! ### by length, shorter first (3D) -/

theorem keyed_shorter3 : KeyedBy (L := EReal) (fun v : Vector3 S => NoNaN v) (fun v w : Vector3 S => RelativeLength.isShorterThan v w) (fun v => val (Api.dot v v)) := by
  intro v w hv hw
  have ha : ¬ IsNaN (Api.dot v v) := by rw [dot_self_isNaN3]; simpa using hv
  have hb : ¬ IsNaN (Api.dot w w) := by rw [dot_self_isNaN3]; simpa using hw
  exact lt_of_not_nan ha hb
theorem measured_shorter3 {v w : Vector3 S} (hv : NoNaN v) (hw : NoNaN w) (h : RelativeLength.isShorterThan w v = false) : (Api.length v ≤? Api.length w) = true := by
  refine le_of_not_lt ((fun h => mt length_isNaN3.1 (not_not.2 h)) hv) ((fun h => mt length_isNaN3.1 (not_not.2 h)) hw) ?_
  by_contra hc
  rw [Bool.not_eq_false] at hc
  have hc' : RelativeLength.isShorterThan w v = true := (C14_float3 w v).1 hc
  rw [hc'] at h
  cases h
/-- **C94**: `is_shorter_than` is an order that one may sort by, for NaN-free vectors. -/
theorem C94_order_shorter3 : StrictWeakOrder (fun v : Vector3 S => NoNaN v) (fun v w : Vector3 S => RelativeLength.isShorterThan v w) :=
  (keyed_shorter3).order
/-- **C94**: if no element comes before its predecessor, then no element comes before any earlier one, the lengths are
in order, and the elements that come before any given `x` are a prefix (binary search). -/
theorem C94_sorted_shorter3 (l : List (Vector3 S)) (hl : ∀ v ∈ l, NoNaN v) (hs : SortedBy (fun v w : Vector3 S => RelativeLength.isShorterThan v w) l) :
    l.Pairwise (fun v w => RelativeLength.isShorterThan w v = false ∧ (Api.length v ≤? Api.length w) = true) ∧
    ∀ x : Vector3 S, NoNaN x → ∃ pre post, l = pre ++ post ∧ (∀ v ∈ pre, RelativeLength.isShorterThan v x = true) ∧ ∀ v ∈ post, RelativeLength.isShorterThan v x = false := by
  refine ⟨?_, fun x hx => (keyed_shorter3).search hl hs hx⟩
  have := (keyed_shorter3).all hl hs
  rw [List.pairwise_iff_forall_sublist] at this ⊢
  intro v w hvw
  exact ⟨this hvw, measured_shorter3 (hl v (hvw.subset (by simp))) (hl w (hvw.subset (by simp))) (this hvw)⟩
/-- **C94**: there is exactly one stable way to sort, and any two sorted arrangements of the same elements have the same
lengths, position by position. -/
theorem C94_stable_shorter3 (l : List (Vector3 S)) (hl : ∀ v ∈ l, NoNaN v) :
    (∃! out, StableSort (fun v w : Vector3 S => RelativeLength.isShorterThan v w) l out) ∧
    ∀ l1 l2 : List (Vector3 S), l1.Perm l → l2.Perm l → SortedBy (fun v w : Vector3 S => RelativeLength.isShorterThan v w) l1 → SortedBy (fun v w : Vector3 S => RelativeLength.isShorterThan v w) l2 →
      List.Forall₂ (fun v w => (Api.length v == Api.length w) = true) l1 l2 := by
  refine ⟨(keyed_shorter3).stable hl, fun l1 l2 p1 p2 s1 s2 => ?_⟩
  have q1 : ∀ v ∈ l1, NoNaN v := fun v hv => hl v (p1.mem_iff.1 hv)
  have q2 : ∀ v ∈ l2, NoNaN v := fun v hv => hl v (p2.mem_iff.1 hv)
  have k := (keyed_shorter3).keys q1 s1 s2 (p1.trans p2.symm)
  rw [List.forall₂_iff_get] at k ⊢
  refine ⟨k.1, fun i h1 h2 => ?_⟩
  have t := k.2 i h1 h2
  have e1 := q1 _ (List.get_mem l1 ⟨i, h1⟩)
  have e2 := q2 _ (List.get_mem l2 ⟨i, h2⟩)
  simp only [tied, Bool.and_eq_true, Bool.not_eq_true'] at t
  exact beq_of_le (measured_shorter3 e1 e2 t.2) (measured_shorter3 e2 e1 t.1)
/-- **C94**: one NaN is enough to break it: the order is none, and a list can pass the adjacent checks out of order. -/
theorem C94_nan_shorter3 (a b v : Vector3 S) (h : RelativeLength.isShorterThan a b = true) (hv : ¬ NoNaN v) :
    SortedBy (fun v w : Vector3 S => RelativeLength.isShorterThan v w) [b, v, a] ∧ ¬ StrictWeakOrder (fun _ => True) (fun v w : Vector3 S => RelativeLength.isShorterThan v w) := by
  have hn : IsNaN (Api.dot v v) := by rw [dot_self_isNaN3]; exact hv
  exact nan_breaks h fun w => ⟨lt_nan (.inl hn), lt_nan (.inr hn)⟩

/-! ### by length, longer first (3D) -/

theorem keyed_longer3 : KeyedBy (L := ERealᵒᵈ) (fun v : Vector3 S => NoNaN v) (fun v w : Vector3 S => RelativeLength.isLongerThan v w) (fun v => OrderDual.toDual (val (Api.dot v v))) := by
  intro v w hv hw
  have ha : ¬ IsNaN (Api.dot v v) := by rw [dot_self_isNaN3]; simpa using hv
  have hb : ¬ IsNaN (Api.dot w w) := by rw [dot_self_isNaN3]; simpa using hw
  exact lt_of_not_nan hb ha
theorem measured_longer3 {v w : Vector3 S} (hv : NoNaN v) (hw : NoNaN w) (h : RelativeLength.isLongerThan w v = false) : (Api.length w ≤? Api.length v) = true := by
  refine le_of_not_lt ((fun h => mt length_isNaN3.1 (not_not.2 h)) hw) ((fun h => mt length_isNaN3.1 (not_not.2 h)) hv) ?_
  by_contra hc
  rw [Bool.not_eq_false] at hc
  have hc' : RelativeLength.isLongerThan w v = true := (C14_float3 w v).2.2.1.trans <| (C14_float3 v w).1 hc
  rw [hc'] at h
  cases h
/-- **C94**: `is_longer_than` is an order that one may sort by, for NaN-free vectors. -/
theorem C94_order_longer3 : StrictWeakOrder (fun v : Vector3 S => NoNaN v) (fun v w : Vector3 S => RelativeLength.isLongerThan v w) :=
  (keyed_longer3).order
/-- **C94**: if no element comes before its predecessor, then no element comes before any earlier one, the lengths are
in order, and the elements that come before any given `x` are a prefix (binary search). -/
theorem C94_sorted_longer3 (l : List (Vector3 S)) (hl : ∀ v ∈ l, NoNaN v) (hs : SortedBy (fun v w : Vector3 S => RelativeLength.isLongerThan v w) l) :
    l.Pairwise (fun v w => RelativeLength.isLongerThan w v = false ∧ (Api.length w ≤? Api.length v) = true) ∧
    ∀ x : Vector3 S, NoNaN x → ∃ pre post, l = pre ++ post ∧ (∀ v ∈ pre, RelativeLength.isLongerThan v x = true) ∧ ∀ v ∈ post, RelativeLength.isLongerThan v x = false := by
  refine ⟨?_, fun x hx => (keyed_longer3).search hl hs hx⟩
  have := (keyed_longer3).all hl hs
  rw [List.pairwise_iff_forall_sublist] at this ⊢
  intro v w hvw
  exact ⟨this hvw, measured_longer3 (hl v (hvw.subset (by simp))) (hl w (hvw.subset (by simp))) (this hvw)⟩
/-- **C94**: there is exactly one stable way to sort, and any two sorted arrangements of the same elements have the same
lengths, position by position. -/
theorem C94_stable_longer3 (l : List (Vector3 S)) (hl : ∀ v ∈ l, NoNaN v) :
    (∃! out, StableSort (fun v w : Vector3 S => RelativeLength.isLongerThan v w) l out) ∧
    ∀ l1 l2 : List (Vector3 S), l1.Perm l → l2.Perm l → SortedBy (fun v w : Vector3 S => RelativeLength.isLongerThan v w) l1 → SortedBy (fun v w : Vector3 S => RelativeLength.isLongerThan v w) l2 →
      List.Forall₂ (fun v w => (Api.length v == Api.length w) = true) l1 l2 := by
  refine ⟨(keyed_longer3).stable hl, fun l1 l2 p1 p2 s1 s2 => ?_⟩
  have q1 : ∀ v ∈ l1, NoNaN v := fun v hv => hl v (p1.mem_iff.1 hv)
  have q2 : ∀ v ∈ l2, NoNaN v := fun v hv => hl v (p2.mem_iff.1 hv)
  have k := (keyed_longer3).keys q1 s1 s2 (p1.trans p2.symm)
  rw [List.forall₂_iff_get] at k ⊢
  refine ⟨k.1, fun i h1 h2 => ?_⟩
  have t := k.2 i h1 h2
  have e1 := q1 _ (List.get_mem l1 ⟨i, h1⟩)
  have e2 := q2 _ (List.get_mem l2 ⟨i, h2⟩)
  simp only [tied, Bool.and_eq_true, Bool.not_eq_true'] at t
  exact beq_of_le (measured_longer3 e2 e1 t.1) (measured_longer3 e1 e2 t.2)
/-- **C94**: one NaN is enough to break it: the order is none, and a list can pass the adjacent checks out of order. -/
theorem C94_nan_longer3 (a b v : Vector3 S) (h : RelativeLength.isLongerThan a b = true) (hv : ¬ NoNaN v) :
    SortedBy (fun v w : Vector3 S => RelativeLength.isLongerThan v w) [b, v, a] ∧ ¬ StrictWeakOrder (fun _ => True) (fun v w : Vector3 S => RelativeLength.isLongerThan v w) := by
  have hn : IsNaN (Api.dot v v) := by rw [dot_self_isNaN3]; exact hv
  exact nan_breaks h fun w => ⟨lt_nan (.inr hn), lt_nan (.inl hn)⟩

/-! ### by distance from `o`, closer first (3D) -/

theorem keyed_closer3 (o : Point3 S) : KeyedBy (L := EReal) (fun v : Point3 S => ¬ IsNaN (Api.distance o v)) (fun v w : Point3 S => RelativeDistance.isCloserTo o v w) (fun v => val (Api.dot (v - o) (v - o))) := by
  intro v w hv hw
  have ha : ¬ IsNaN (Api.dot (v - o) (v - o)) := by rw [dot_self_isNaN3]; simpa [Api.distance, Distance.distance, length_isNaN3] using hv
  have hb : ¬ IsNaN (Api.dot (w - o) (w - o)) := by rw [dot_self_isNaN3]; simpa [Api.distance, Distance.distance, length_isNaN3] using hw
  exact lt_of_not_nan ha hb
theorem measured_closer3 (o : Point3 S) {v w : Point3 S} (hv : ¬ IsNaN (Api.distance o v)) (hw : ¬ IsNaN (Api.distance o w)) (h : RelativeDistance.isCloserTo o w v = false) : (Api.distance o v ≤? Api.distance o w) = true := by
  refine le_of_not_lt ((fun h => h) hv) ((fun h => h) hw) ?_
  by_contra hc
  rw [Bool.not_eq_false] at hc
  have hc' : RelativeDistance.isCloserTo o w v = true := (C16_float3 o w v).1 hc
  rw [hc'] at h
  cases h
/-- **C94**: `is_closer_to` is an order that one may sort by, for points with a NaN-free distance. -/
theorem C94_order_closer3 (o : Point3 S) : StrictWeakOrder (fun v : Point3 S => ¬ IsNaN (Api.distance o v)) (fun v w : Point3 S => RelativeDistance.isCloserTo o v w) :=
  (keyed_closer3 o).order
/-- **C94**: if no element comes before its predecessor, then no element comes before any earlier one, the distances are
in order, and the elements that come before any given `x` are a prefix (binary search). -/
theorem C94_sorted_closer3 (o : Point3 S) (l : List (Point3 S)) (hl : ∀ v ∈ l, ¬ IsNaN (Api.distance o v)) (hs : SortedBy (fun v w : Point3 S => RelativeDistance.isCloserTo o v w) l) :
    l.Pairwise (fun v w => RelativeDistance.isCloserTo o w v = false ∧ (Api.distance o v ≤? Api.distance o w) = true) ∧
    ∀ x : Point3 S, ¬ IsNaN (Api.distance o x) → ∃ pre post, l = pre ++ post ∧ (∀ v ∈ pre, RelativeDistance.isCloserTo o v x = true) ∧ ∀ v ∈ post, RelativeDistance.isCloserTo o v x = false := by
  refine ⟨?_, fun x hx => (keyed_closer3 o).search hl hs hx⟩
  have := (keyed_closer3 o).all hl hs
  rw [List.pairwise_iff_forall_sublist] at this ⊢
  intro v w hvw
  exact ⟨this hvw, measured_closer3 o (hl v (hvw.subset (by simp))) (hl w (hvw.subset (by simp))) (this hvw)⟩
/-- **C94**: there is exactly one stable way to sort, and any two sorted arrangements of the same elements have the same
distances, position by position. -/
theorem C94_stable_closer3 (o : Point3 S) (l : List (Point3 S)) (hl : ∀ v ∈ l, ¬ IsNaN (Api.distance o v)) :
    (∃! out, StableSort (fun v w : Point3 S => RelativeDistance.isCloserTo o v w) l out) ∧
    ∀ l1 l2 : List (Point3 S), l1.Perm l → l2.Perm l → SortedBy (fun v w : Point3 S => RelativeDistance.isCloserTo o v w) l1 → SortedBy (fun v w : Point3 S => RelativeDistance.isCloserTo o v w) l2 →
      List.Forall₂ (fun v w => (Api.distance o v == Api.distance o w) = true) l1 l2 := by
  refine ⟨(keyed_closer3 o).stable hl, fun l1 l2 p1 p2 s1 s2 => ?_⟩
  have q1 : ∀ v ∈ l1, ¬ IsNaN (Api.distance o v) := fun v hv => hl v (p1.mem_iff.1 hv)
  have q2 : ∀ v ∈ l2, ¬ IsNaN (Api.distance o v) := fun v hv => hl v (p2.mem_iff.1 hv)
  have k := (keyed_closer3 o).keys q1 s1 s2 (p1.trans p2.symm)
  rw [List.forall₂_iff_get] at k ⊢
  refine ⟨k.1, fun i h1 h2 => ?_⟩
  have t := k.2 i h1 h2
  have e1 := q1 _ (List.get_mem l1 ⟨i, h1⟩)
  have e2 := q2 _ (List.get_mem l2 ⟨i, h2⟩)
  simp only [tied, Bool.and_eq_true, Bool.not_eq_true'] at t
  exact beq_of_le (measured_closer3 o e1 e2 t.2) (measured_closer3 o e2 e1 t.1)
/-- **C94**: one NaN is enough to break it: the order is none, and a list can pass the adjacent checks out of order. -/
theorem C94_nan_closer3 (o : Point3 S) (a b v : Point3 S) (h : RelativeDistance.isCloserTo o a b = true) (hv : ¬ ¬ IsNaN (Api.distance o v)) :
    SortedBy (fun v w : Point3 S => RelativeDistance.isCloserTo o v w) [b, v, a] ∧ ¬ StrictWeakOrder (fun _ => True) (fun v w : Point3 S => RelativeDistance.isCloserTo o v w) := by
  have hn : IsNaN (Api.dot (v - o) (v - o)) := by rw [dot_self_isNaN3]; simpa [Api.distance, Distance.distance, length_isNaN3] using hv
  exact nan_breaks h fun w => ⟨lt_nan (.inl hn), lt_nan (.inr hn)⟩

/-! ### by distance from `o`, farther first (3D) -/

theorem keyed_farther3 (o : Point3 S) : KeyedBy (L := ERealᵒᵈ) (fun v : Point3 S => ¬ IsNaN (Api.distance o v)) (fun v w : Point3 S => RelativeDistance.isFartherFrom o v w) (fun v => OrderDual.toDual (val (Api.dot (v - o) (v - o)))) := by
  intro v w hv hw
  have ha : ¬ IsNaN (Api.dot (v - o) (v - o)) := by rw [dot_self_isNaN3]; simpa [Api.distance, Distance.distance, length_isNaN3] using hv
  have hb : ¬ IsNaN (Api.dot (w - o) (w - o)) := by rw [dot_self_isNaN3]; simpa [Api.distance, Distance.distance, length_isNaN3] using hw
  exact lt_of_not_nan hb ha
theorem measured_farther3 (o : Point3 S) {v w : Point3 S} (hv : ¬ IsNaN (Api.distance o v)) (hw : ¬ IsNaN (Api.distance o w)) (h : RelativeDistance.isFartherFrom o w v = false) : (Api.distance o w ≤? Api.distance o v) = true := by
  refine le_of_not_lt ((fun h => h) hw) ((fun h => h) hv) ?_
  by_contra hc
  rw [Bool.not_eq_false] at hc
  have hc' : RelativeDistance.isFartherFrom o w v = true := (C16_float3 o w v).2.2.1.trans <| (C16_float3 o v w).1 hc
  rw [hc'] at h
  cases h
/-- **C94**: `is_farther_from` is an order that one may sort by, for points with a NaN-free distance. -/
theorem C94_order_farther3 (o : Point3 S) : StrictWeakOrder (fun v : Point3 S => ¬ IsNaN (Api.distance o v)) (fun v w : Point3 S => RelativeDistance.isFartherFrom o v w) :=
  (keyed_farther3 o).order
/-- **C94**: if no element comes before its predecessor, then no element comes before any earlier one, the distances are
in order, and the elements that come before any given `x` are a prefix (binary search). -/
theorem C94_sorted_farther3 (o : Point3 S) (l : List (Point3 S)) (hl : ∀ v ∈ l, ¬ IsNaN (Api.distance o v)) (hs : SortedBy (fun v w : Point3 S => RelativeDistance.isFartherFrom o v w) l) :
    l.Pairwise (fun v w => RelativeDistance.isFartherFrom o w v = false ∧ (Api.distance o w ≤? Api.distance o v) = true) ∧
    ∀ x : Point3 S, ¬ IsNaN (Api.distance o x) → ∃ pre post, l = pre ++ post ∧ (∀ v ∈ pre, RelativeDistance.isFartherFrom o v x = true) ∧ ∀ v ∈ post, RelativeDistance.isFartherFrom o v x = false := by
  refine ⟨?_, fun x hx => (keyed_farther3 o).search hl hs hx⟩
  have := (keyed_farther3 o).all hl hs
  rw [List.pairwise_iff_forall_sublist] at this ⊢
  intro v w hvw
  exact ⟨this hvw, measured_farther3 o (hl v (hvw.subset (by simp))) (hl w (hvw.subset (by simp))) (this hvw)⟩
/-- **C94**: there is exactly one stable way to sort, and any two sorted arrangements of the same elements have the same
distances, position by position. -/
theorem C94_stable_farther3 (o : Point3 S) (l : List (Point3 S)) (hl : ∀ v ∈ l, ¬ IsNaN (Api.distance o v)) :
    (∃! out, StableSort (fun v w : Point3 S => RelativeDistance.isFartherFrom o v w) l out) ∧
    ∀ l1 l2 : List (Point3 S), l1.Perm l → l2.Perm l → SortedBy (fun v w : Point3 S => RelativeDistance.isFartherFrom o v w) l1 → SortedBy (fun v w : Point3 S => RelativeDistance.isFartherFrom o v w) l2 →
      List.Forall₂ (fun v w => (Api.distance o v == Api.distance o w) = true) l1 l2 := by
  refine ⟨(keyed_farther3 o).stable hl, fun l1 l2 p1 p2 s1 s2 => ?_⟩
  have q1 : ∀ v ∈ l1, ¬ IsNaN (Api.distance o v) := fun v hv => hl v (p1.mem_iff.1 hv)
  have q2 : ∀ v ∈ l2, ¬ IsNaN (Api.distance o v) := fun v hv => hl v (p2.mem_iff.1 hv)
  have k := (keyed_farther3 o).keys q1 s1 s2 (p1.trans p2.symm)
  rw [List.forall₂_iff_get] at k ⊢
  refine ⟨k.1, fun i h1 h2 => ?_⟩
  have t := k.2 i h1 h2
  have e1 := q1 _ (List.get_mem l1 ⟨i, h1⟩)
  have e2 := q2 _ (List.get_mem l2 ⟨i, h2⟩)
  simp only [tied, Bool.and_eq_true, Bool.not_eq_true'] at t
  exact beq_of_le (measured_farther3 o e2 e1 t.1) (measured_farther3 o e1 e2 t.2)
/-- **C94**: one NaN is enough to break it: the order is none, and a list can pass the adjacent checks out of order. -/
theorem C94_nan_farther3 (o : Point3 S) (a b v : Point3 S) (h : RelativeDistance.isFartherFrom o a b = true) (hv : ¬ ¬ IsNaN (Api.distance o v)) :
    SortedBy (fun v w : Point3 S => RelativeDistance.isFartherFrom o v w) [b, v, a] ∧ ¬ StrictWeakOrder (fun _ => True) (fun v w : Point3 S => RelativeDistance.isFartherFrom o v w) := by
  have hn : IsNaN (Api.dot (v - o) (v - o)) := by rw [dot_self_isNaN3]; simpa [Api.distance, Distance.distance, length_isNaN3] using hv
  exact nan_breaks h fun w => ⟨lt_nan (.inr hn), lt_nan (.inl hn)⟩

theorem length1_isNaN {s : S} : IsNaN (Api.length s) ↔ IsNaN s := by
  show IsNaN (Scalar.abs s) ↔ _
  exact isNaN_abs

/-! ### by absolute value, shorter first (scalars) -/

theorem keyed_shorter1 : KeyedBy (L := EReal) (fun v : S => ¬ IsNaN v) (fun v w : S => RelativeLength.isShorterThan (v : S) w) (fun v => val (Api.length v)) := by
  intro v w hv hw
  have ha : ¬ IsNaN (Api.length v) := by rw [length1_isNaN]; exact hv
  have hb : ¬ IsNaN (Api.length w) := by rw [length1_isNaN]; exact hw
  exact lt_of_not_nan ha hb
theorem measured_shorter1 {v w : S} (hv : ¬ IsNaN v) (hw : ¬ IsNaN w) (h : RelativeLength.isShorterThan (w : S) v = false) : (Api.length v ≤? Api.length w) = true := by
  refine le_of_not_lt ((fun h => mt length1_isNaN.1 h) hv) ((fun h => mt length1_isNaN.1 h) hw) ?_
  by_contra hc
  rw [Bool.not_eq_false] at hc
  have hc' : RelativeLength.isShorterThan (w : S) v = true := id hc
  rw [hc'] at h
  cases h
/-- **C94**: `is_shorter_than` on scalars is an order that one may sort by, for numbers that are not NaN. -/
theorem C94_order_shorter1 : StrictWeakOrder (fun v : S => ¬ IsNaN v) (fun v w : S => RelativeLength.isShorterThan (v : S) w) :=
  (keyed_shorter1).order
/-- **C94**: if no element comes before its predecessor, then no element comes before any earlier one, the lengths are
in order, and the elements that come before any given `x` are a prefix (binary search). -/
theorem C94_sorted_shorter1 (l : List (S)) (hl : ∀ v ∈ l, ¬ IsNaN v) (hs : SortedBy (fun v w : S => RelativeLength.isShorterThan (v : S) w) l) :
    l.Pairwise (fun v w => RelativeLength.isShorterThan (w : S) v = false ∧ (Api.length v ≤? Api.length w) = true) ∧
    ∀ x : S, ¬ IsNaN x → ∃ pre post, l = pre ++ post ∧ (∀ v ∈ pre, RelativeLength.isShorterThan (v : S) x = true) ∧ ∀ v ∈ post, RelativeLength.isShorterThan (v : S) x = false := by
  refine ⟨?_, fun x hx => (keyed_shorter1).search hl hs hx⟩
  have := (keyed_shorter1).all hl hs
  rw [List.pairwise_iff_forall_sublist] at this ⊢
  intro v w hvw
  exact ⟨this hvw, measured_shorter1 (hl v (hvw.subset (by simp))) (hl w (hvw.subset (by simp))) (this hvw)⟩
/-- **C94**: there is exactly one stable way to sort, and any two sorted arrangements of the same elements have the same
lengths, position by position. -/
theorem C94_stable_shorter1 (l : List (S)) (hl : ∀ v ∈ l, ¬ IsNaN v) :
    (∃! out, StableSort (fun v w : S => RelativeLength.isShorterThan (v : S) w) l out) ∧
    ∀ l1 l2 : List (S), l1.Perm l → l2.Perm l → SortedBy (fun v w : S => RelativeLength.isShorterThan (v : S) w) l1 → SortedBy (fun v w : S => RelativeLength.isShorterThan (v : S) w) l2 →
      List.Forall₂ (fun v w => (Api.length v == Api.length w) = true) l1 l2 := by
  refine ⟨(keyed_shorter1).stable hl, fun l1 l2 p1 p2 s1 s2 => ?_⟩
  have q1 : ∀ v ∈ l1, ¬ IsNaN v := fun v hv => hl v (p1.mem_iff.1 hv)
  have q2 : ∀ v ∈ l2, ¬ IsNaN v := fun v hv => hl v (p2.mem_iff.1 hv)
  have k := (keyed_shorter1).keys q1 s1 s2 (p1.trans p2.symm)
  rw [List.forall₂_iff_get] at k ⊢
  refine ⟨k.1, fun i h1 h2 => ?_⟩
  have t := k.2 i h1 h2
  have e1 := q1 _ (List.get_mem l1 ⟨i, h1⟩)
  have e2 := q2 _ (List.get_mem l2 ⟨i, h2⟩)
  simp only [tied, Bool.and_eq_true, Bool.not_eq_true'] at t
  exact beq_of_le (measured_shorter1 e1 e2 t.2) (measured_shorter1 e2 e1 t.1)
/-- **C94**: one NaN is enough to break it: the order is none, and a list can pass the adjacent checks out of order. -/
theorem C94_nan_shorter1 (a b v : S) (h : RelativeLength.isShorterThan (a : S) b = true) (hv : ¬ ¬ IsNaN v) :
    SortedBy (fun v w : S => RelativeLength.isShorterThan (v : S) w) [b, v, a] ∧ ¬ StrictWeakOrder (fun _ => True) (fun v w : S => RelativeLength.isShorterThan (v : S) w) := by
  have hn : IsNaN (Api.length v) := by rw [length1_isNaN]; exact not_not.1 hv
  exact nan_breaks h fun w => ⟨lt_nan (.inl hn), lt_nan (.inr hn)⟩

/-! ### by absolute value, longer first (scalars) -/

theorem keyed_longer1 : KeyedBy (L := ERealᵒᵈ) (fun v : S => ¬ IsNaN v) (fun v w : S => RelativeLength.isLongerThan (v : S) w) (fun v => OrderDual.toDual (val (Api.length v))) := by
  intro v w hv hw
  have ha : ¬ IsNaN (Api.length v) := by rw [length1_isNaN]; exact hv
  have hb : ¬ IsNaN (Api.length w) := by rw [length1_isNaN]; exact hw
  exact lt_of_not_nan hb ha
theorem measured_longer1 {v w : S} (hv : ¬ IsNaN v) (hw : ¬ IsNaN w) (h : RelativeLength.isLongerThan (w : S) v = false) : (Api.length w ≤? Api.length v) = true := by
  refine le_of_not_lt ((fun h => mt length1_isNaN.1 h) hw) ((fun h => mt length1_isNaN.1 h) hv) ?_
  by_contra hc
  rw [Bool.not_eq_false] at hc
  have hc' : RelativeLength.isLongerThan (w : S) v = true := id hc
  rw [hc'] at h
  cases h
/-- **C94**: `is_longer_than` on scalars is an order that one may sort by, for numbers that are not NaN. -/
theorem C94_order_longer1 : StrictWeakOrder (fun v : S => ¬ IsNaN v) (fun v w : S => RelativeLength.isLongerThan (v : S) w) :=
  (keyed_longer1).order
/-- **C94**: if no element comes before its predecessor, then no element comes before any earlier one, the lengths are
in order, and the elements that come before any given `x` are a prefix (binary search). -/
theorem C94_sorted_longer1 (l : List (S)) (hl : ∀ v ∈ l, ¬ IsNaN v) (hs : SortedBy (fun v w : S => RelativeLength.isLongerThan (v : S) w) l) :
    l.Pairwise (fun v w => RelativeLength.isLongerThan (w : S) v = false ∧ (Api.length w ≤? Api.length v) = true) ∧
    ∀ x : S, ¬ IsNaN x → ∃ pre post, l = pre ++ post ∧ (∀ v ∈ pre, RelativeLength.isLongerThan (v : S) x = true) ∧ ∀ v ∈ post, RelativeLength.isLongerThan (v : S) x = false := by
  refine ⟨?_, fun x hx => (keyed_longer1).search hl hs hx⟩
  have := (keyed_longer1).all hl hs
  rw [List.pairwise_iff_forall_sublist] at this ⊢
  intro v w hvw
  exact ⟨this hvw, measured_longer1 (hl v (hvw.subset (by simp))) (hl w (hvw.subset (by simp))) (this hvw)⟩
/-- **C94**: there is exactly one stable way to sort, and any two sorted arrangements of the same elements have the same
lengths, position by position. -/
theorem C94_stable_longer1 (l : List (S)) (hl : ∀ v ∈ l, ¬ IsNaN v) :
    (∃! out, StableSort (fun v w : S => RelativeLength.isLongerThan (v : S) w) l out) ∧
    ∀ l1 l2 : List (S), l1.Perm l → l2.Perm l → SortedBy (fun v w : S => RelativeLength.isLongerThan (v : S) w) l1 → SortedBy (fun v w : S => RelativeLength.isLongerThan (v : S) w) l2 →
      List.Forall₂ (fun v w => (Api.length v == Api.length w) = true) l1 l2 := by
  refine ⟨(keyed_longer1).stable hl, fun l1 l2 p1 p2 s1 s2 => ?_⟩
  have q1 : ∀ v ∈ l1, ¬ IsNaN v := fun v hv => hl v (p1.mem_iff.1 hv)
  have q2 : ∀ v ∈ l2, ¬ IsNaN v := fun v hv => hl v (p2.mem_iff.1 hv)
  have k := (keyed_longer1).keys q1 s1 s2 (p1.trans p2.symm)
  rw [List.forall₂_iff_get] at k ⊢
  refine ⟨k.1, fun i h1 h2 => ?_⟩
  have t := k.2 i h1 h2
  have e1 := q1 _ (List.get_mem l1 ⟨i, h1⟩)
  have e2 := q2 _ (List.get_mem l2 ⟨i, h2⟩)
  simp only [tied, Bool.and_eq_true, Bool.not_eq_true'] at t
  exact beq_of_le (measured_longer1 e2 e1 t.1) (measured_longer1 e1 e2 t.2)
/-- **C94**: one NaN is enough to break it: the order is none, and a list can pass the adjacent checks out of order. -/
theorem C94_nan_longer1 (a b v : S) (h : RelativeLength.isLongerThan (a : S) b = true) (hv : ¬ ¬ IsNaN v) :
    SortedBy (fun v w : S => RelativeLength.isLongerThan (v : S) w) [b, v, a] ∧ ¬ StrictWeakOrder (fun _ => True) (fun v w : S => RelativeLength.isLongerThan (v : S) w) := by
  have hn : IsNaN (Api.length v) := by rw [length1_isNaN]; exact not_not.1 hv
  exact nan_breaks h fun w => ⟨lt_nan (.inr hn), lt_nan (.inl hn)⟩

/-! ### by distance from `o`, closer first (scalars) -/

theorem keyed_closer1 (o : S) : KeyedBy (L := EReal) (fun v : S => ¬ IsNaN (Api.distance o v)) (fun v w : S => RelativeDistance.isCloserTo (o : S) v w) (fun v => val (Api.distance o v)) := by
  intro v w hv hw
  have ha : ¬ IsNaN (Api.distance o v) := by exact hv
  have hb : ¬ IsNaN (Api.distance o w) := by exact hw
  exact lt_of_not_nan ha hb
theorem measured_closer1 (o : S) {v w : S} (hv : ¬ IsNaN (Api.distance o v)) (hw : ¬ IsNaN (Api.distance o w)) (h : RelativeDistance.isCloserTo (o : S) w v = false) : (Api.distance o v ≤? Api.distance o w) = true := by
  refine le_of_not_lt ((fun h => h) hv) ((fun h => h) hw) ?_
  by_contra hc
  rw [Bool.not_eq_false] at hc
  have hc' : RelativeDistance.isCloserTo (o : S) w v = true := id hc
  rw [hc'] at h
  cases h
/-- **C94**: `is_closer_to` on scalars is an order that one may sort by, for numbers with a NaN-free distance. -/
theorem C94_order_closer1 (o : S) : StrictWeakOrder (fun v : S => ¬ IsNaN (Api.distance o v)) (fun v w : S => RelativeDistance.isCloserTo (o : S) v w) :=
  (keyed_closer1 o).order
/-- **C94**: if no element comes before its predecessor, then no element comes before any earlier one, the distances are
in order, and the elements that come before any given `x` are a prefix (binary search). -/
theorem C94_sorted_closer1 (o : S) (l : List (S)) (hl : ∀ v ∈ l, ¬ IsNaN (Api.distance o v)) (hs : SortedBy (fun v w : S => RelativeDistance.isCloserTo (o : S) v w) l) :
    l.Pairwise (fun v w => RelativeDistance.isCloserTo (o : S) w v = false ∧ (Api.distance o v ≤? Api.distance o w) = true) ∧
    ∀ x : S, ¬ IsNaN (Api.distance o x) → ∃ pre post, l = pre ++ post ∧ (∀ v ∈ pre, RelativeDistance.isCloserTo (o : S) v x = true) ∧ ∀ v ∈ post, RelativeDistance.isCloserTo (o : S) v x = false := by
  refine ⟨?_, fun x hx => (keyed_closer1 o).search hl hs hx⟩
  have := (keyed_closer1 o).all hl hs
  rw [List.pairwise_iff_forall_sublist] at this ⊢
  intro v w hvw
  exact ⟨this hvw, measured_closer1 o (hl v (hvw.subset (by simp))) (hl w (hvw.subset (by simp))) (this hvw)⟩
/-- **C94**: there is exactly one stable way to sort, and any two sorted arrangements of the same elements have the same
distances, position by position. -/
theorem C94_stable_closer1 (o : S) (l : List (S)) (hl : ∀ v ∈ l, ¬ IsNaN (Api.distance o v)) :
    (∃! out, StableSort (fun v w : S => RelativeDistance.isCloserTo (o : S) v w) l out) ∧
    ∀ l1 l2 : List (S), l1.Perm l → l2.Perm l → SortedBy (fun v w : S => RelativeDistance.isCloserTo (o : S) v w) l1 → SortedBy (fun v w : S => RelativeDistance.isCloserTo (o : S) v w) l2 →
      List.Forall₂ (fun v w => (Api.distance o v == Api.distance o w) = true) l1 l2 := by
  refine ⟨(keyed_closer1 o).stable hl, fun l1 l2 p1 p2 s1 s2 => ?_⟩
  have q1 : ∀ v ∈ l1, ¬ IsNaN (Api.distance o v) := fun v hv => hl v (p1.mem_iff.1 hv)
  have q2 : ∀ v ∈ l2, ¬ IsNaN (Api.distance o v) := fun v hv => hl v (p2.mem_iff.1 hv)
  have k := (keyed_closer1 o).keys q1 s1 s2 (p1.trans p2.symm)
  rw [List.forall₂_iff_get] at k ⊢
  refine ⟨k.1, fun i h1 h2 => ?_⟩
  have t := k.2 i h1 h2
  have e1 := q1 _ (List.get_mem l1 ⟨i, h1⟩)
  have e2 := q2 _ (List.get_mem l2 ⟨i, h2⟩)
  simp only [tied, Bool.and_eq_true, Bool.not_eq_true'] at t
  exact beq_of_le (measured_closer1 o e1 e2 t.2) (measured_closer1 o e2 e1 t.1)
/-- **C94**: one NaN is enough to break it: the order is none, and a list can pass the adjacent checks out of order. -/
theorem C94_nan_closer1 (o : S) (a b v : S) (h : RelativeDistance.isCloserTo (o : S) a b = true) (hv : ¬ ¬ IsNaN (Api.distance o v)) :
    SortedBy (fun v w : S => RelativeDistance.isCloserTo (o : S) v w) [b, v, a] ∧ ¬ StrictWeakOrder (fun _ => True) (fun v w : S => RelativeDistance.isCloserTo (o : S) v w) := by
  have hn : IsNaN (Api.distance o v) := by exact not_not.1 hv
  exact nan_breaks h fun w => ⟨lt_nan (.inl hn), lt_nan (.inr hn)⟩

/-! ### by distance from `o`, farther first (scalars) -/

theorem keyed_farther1 (o : S) : KeyedBy (L := ERealᵒᵈ) (fun v : S => ¬ IsNaN (Api.distance o v)) (fun v w : S => RelativeDistance.isFartherFrom (o : S) v w) (fun v => OrderDual.toDual (val (Api.distance o v))) := by
  intro v w hv hw
  have ha : ¬ IsNaN (Api.distance o v) := by exact hv
  have hb : ¬ IsNaN (Api.distance o w) := by exact hw
  exact lt_of_not_nan hb ha
theorem measured_farther1 (o : S) {v w : S} (hv : ¬ IsNaN (Api.distance o v)) (hw : ¬ IsNaN (Api.distance o w)) (h : RelativeDistance.isFartherFrom (o : S) w v = false) : (Api.distance o w ≤? Api.distance o v) = true := by
  refine le_of_not_lt ((fun h => h) hw) ((fun h => h) hv) ?_
  by_contra hc
  rw [Bool.not_eq_false] at hc
  have hc' : RelativeDistance.isFartherFrom (o : S) w v = true := id hc
  rw [hc'] at h
  cases h
/-- **C94**: `is_farther_from` on scalars is an order that one may sort by, for numbers with a NaN-free distance. -/
theorem C94_order_farther1 (o : S) : StrictWeakOrder (fun v : S => ¬ IsNaN (Api.distance o v)) (fun v w : S => RelativeDistance.isFartherFrom (o : S) v w) :=
  (keyed_farther1 o).order
/-- **C94**: if no element comes before its predecessor, then no element comes before any earlier one, the distances are
in order, and the elements that come before any given `x` are a prefix (binary search). -/
theorem C94_sorted_farther1 (o : S) (l : List (S)) (hl : ∀ v ∈ l, ¬ IsNaN (Api.distance o v)) (hs : SortedBy (fun v w : S => RelativeDistance.isFartherFrom (o : S) v w) l) :
    l.Pairwise (fun v w => RelativeDistance.isFartherFrom (o : S) w v = false ∧ (Api.distance o w ≤? Api.distance o v) = true) ∧
    ∀ x : S, ¬ IsNaN (Api.distance o x) → ∃ pre post, l = pre ++ post ∧ (∀ v ∈ pre, RelativeDistance.isFartherFrom (o : S) v x = true) ∧ ∀ v ∈ post, RelativeDistance.isFartherFrom (o : S) v x = false := by
  refine ⟨?_, fun x hx => (keyed_farther1 o).search hl hs hx⟩
  have := (keyed_farther1 o).all hl hs
  rw [List.pairwise_iff_forall_sublist] at this ⊢
  intro v w hvw
  exact ⟨this hvw, measured_farther1 o (hl v (hvw.subset (by simp))) (hl w (hvw.subset (by simp))) (this hvw)⟩
/-- **C94**: there is exactly one stable way to sort, and any two sorted arrangements of the same elements have the same
distances, position by position. -/
theorem C94_stable_farther1 (o : S) (l : List (S)) (hl : ∀ v ∈ l, ¬ IsNaN (Api.distance o v)) :
    (∃! out, StableSort (fun v w : S => RelativeDistance.isFartherFrom (o : S) v w) l out) ∧
    ∀ l1 l2 : List (S), l1.Perm l → l2.Perm l → SortedBy (fun v w : S => RelativeDistance.isFartherFrom (o : S) v w) l1 → SortedBy (fun v w : S => RelativeDistance.isFartherFrom (o : S) v w) l2 →
      List.Forall₂ (fun v w => (Api.distance o v == Api.distance o w) = true) l1 l2 := by
  refine ⟨(keyed_farther1 o).stable hl, fun l1 l2 p1 p2 s1 s2 => ?_⟩
  have q1 : ∀ v ∈ l1, ¬ IsNaN (Api.distance o v) := fun v hv => hl v (p1.mem_iff.1 hv)
  have q2 : ∀ v ∈ l2, ¬ IsNaN (Api.distance o v) := fun v hv => hl v (p2.mem_iff.1 hv)
  have k := (keyed_farther1 o).keys q1 s1 s2 (p1.trans p2.symm)
  rw [List.forall₂_iff_get] at k ⊢
  refine ⟨k.1, fun i h1 h2 => ?_⟩
  have t := k.2 i h1 h2
  have e1 := q1 _ (List.get_mem l1 ⟨i, h1⟩)
  have e2 := q2 _ (List.get_mem l2 ⟨i, h2⟩)
  simp only [tied, Bool.and_eq_true, Bool.not_eq_true'] at t
  exact beq_of_le (measured_farther1 o e2 e1 t.1) (measured_farther1 o e1 e2 t.2)
/-- **C94**: one NaN is enough to break it: the order is none, and a list can pass the adjacent checks out of order. -/
theorem C94_nan_farther1 (o : S) (a b v : S) (h : RelativeDistance.isFartherFrom (o : S) a b = true) (hv : ¬ ¬ IsNaN (Api.distance o v)) :
    SortedBy (fun v w : S => RelativeDistance.isFartherFrom (o : S) v w) [b, v, a] ∧ ¬ StrictWeakOrder (fun _ => True) (fun v w : S => RelativeDistance.isFartherFrom (o : S) v w) := by
  have hn : IsNaN (Api.distance o v) := by exact not_not.1 hv
  exact nan_breaks h fun w => ⟨lt_nan (.inr hn), lt_nan (.inl hn)⟩

/-! ### Concrete cases -/

example : ∃ out, StableSort (fun v w : Vector2 F32 => RelativeLength.isShorterThan v w) cands2.leaves out ∧
    out.Pairwise (fun v w => RelativeLength.isShorterThan w v = false ∧ (Api.length v ≤? Api.length w) = true) := by
  obtain ⟨out, h, -⟩ := (C94_stable_shorter2 cands2.leaves cands2_ok).1
  exact ⟨out, h, (C94_sorted_shorter2 out (fun v hv => cands2_ok v (h.perm.mem_iff.1 hv)) h.sorted).1⟩
example : ∃ out, StableSort (fun v w : Vector3 F32 => RelativeLength.isLongerThan v w) cands3.leaves out ∧
    out.Pairwise (fun v w => RelativeLength.isLongerThan w v = false ∧ (Api.length w ≤? Api.length v) = true) := by
  obtain ⟨out, h, -⟩ := (C94_stable_longer3 cands3.leaves cands3_ok).1
  exact ⟨out, h, (C94_sorted_longer3 out (fun v hv => cands3_ok v (h.perm.mem_iff.1 hv)) h.sorted).1⟩
example (o : Point3 F32) (l : List (Point3 F32)) (ho : AllFinite o) (h : ∀ p ∈ l, AllFinite p) :=
  C94_stable_closer3 o l fun p hp => distance_nn3 ho (h p hp)
/-- a NaN between 2 and 1 -/
example : SortedBy (fun v w : F32 => RelativeLength.isShorterThan v w) [int32 2, nan32, int32 1] := by
  refine (C94_nan_shorter1 (int32 1) (int32 2) nan32 ?_ (not_not.2 isNaN_nan32)).1
  have h1 : ¬ IsNaN (Api.length (int32 1)) := mt length1_isNaN.1 finite_int32.not_nan
  have h2 : ¬ IsNaN (Api.length (int32 2)) := mt length1_isNaN.1 finite_int32.not_nan
  refine (lt_of_not_nan h1 h2).2 ?_
  show val (Scalar.abs (int32 1)) < val (Scalar.abs (int32 2))
  rw [(finite_abs.2 finite_int32).val, (finite_abs.2 finite_int32).val, real_abs, real_abs, real_int32, real_int32, EReal.coe_lt_coe_iff]
  norm_num
end VecMath
