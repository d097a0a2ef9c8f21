import Verif.Spec.Plane
import Verif.Lemmas.Mono
import Verif.Lemmas.Symm
import Verif.Props.FloatBoxMeasure
import Verif.Props.FloatCull
import Verif.Props.FloatSide
import Verif.Props.FloatRayMono
/-!
# Culling boxes by planes in floating point (layer F): C110

(Generated by tools/gen.)
-/

open Classical

namespace VecMath
open Scalar IEEE

section
variable {S : Type} [Scalar S] [IEEE S] {a b c d n : S}

theorem val_mul_nonneg (ha : 0 ≤ val a) (hb : 0 ≤ val b) (hn : ¬ IsNaN (a * b)) : 0 ≤ val (a * b) := by
  obtain ⟨na, nb⟩ := nan_of_mul hn
  unfold IsNaN val at *
  rw [den_mul] at *
  exact (mul_nonneg_val _ na nb ha hb).2 hn
theorem val_mul_right_mono (h0 : 0 ≤ val n) (h : val a ≤ val b) (ha : ¬ IsNaN (n * a)) (hb : ¬ IsNaN (n * b)) : val (n * a) ≤ val (n * b) := by
  have e : ∀ x : S, val (n * -x) = -val (n * x) := fun x => by rw [(same_mul_neg n x).val, val_neg]
  have en : ∀ x : S, ¬ IsNaN (n * x) → ¬ IsNaN (n * -x) := fun x hx => by rw [(same_mul_neg n x).isNaN, isNaN_neg]; exact hx
  rcases le_total 0 (val a) with h1 | h1
  · exact val_mul_mono h0 h1 le_rfl h ha hb
  rcases le_total 0 (val b) with h2 | h2
  · have : 0 ≤ val (n * -a) := val_mul_nonneg h0 (by rw [val_neg]; exact EReal.neg_nonneg.2 h1) (en a ha)
    rw [e] at this
    exact (EReal.neg_nonneg.1 this).trans (val_mul_nonneg h0 h2 hb)
  · have := val_mul_mono (a := n) (a' := n) (b := -b) (b' := -a) h0 (by rw [val_neg]; exact EReal.neg_nonneg.2 h2) le_rfl (val_neg_le h) (en b hb) (en a ha)
    rw [e, e] at this
    exact EReal.neg_le_neg_iff.1 this
theorem val_mul_right_anti (h0 : val n ≤ 0) (h : val a ≤ val b) (ha : ¬ IsNaN (n * a)) (hb : ¬ IsNaN (n * b)) : val (n * b) ≤ val (n * a) := by
  have e : ∀ x : S, val (-n * x) = -val (n * x) := fun x => by rw [(same_neg_mul n x).val, val_neg]
  have en : ∀ x : S, ¬ IsNaN (n * x) → ¬ IsNaN (-n * x) := fun x hx => by rw [(same_neg_mul n x).isNaN, isNaN_neg]; exact hx
  have := val_mul_right_mono (n := -n) (by rw [val_neg]; exact EReal.neg_nonneg.2 h0) h (en a ha) (en b hb)
  rw [e, e] at this
  exact EReal.neg_le_neg_iff.1 this
/-- One dimension: the product at the far end of the interval is the largest. -/
theorem far_term {lo hi o p : S} {bit : Bool} (hl : (lo ≤? p) = true) (hh : (p ≤? hi) = true)
    (hb : if bit then (zero ≤? n) = true else (n ≤? zero) = true)
    (h1 : ¬ IsNaN (n * (p - o))) (h2 : ¬ IsNaN (n * ((if bit then hi else lo) - o))) :
    val (n * (p - o)) ≤ val (n * ((if bit then hi else lo) - o)) := by
  have n1 := (nan_of_mul h1).2
  have n2 := (nan_of_mul h2).2
  cases bit
  · simp only [Bool.false_eq_true, if_false] at *
    have h0 : val n ≤ 0 := by have := (le_iff.1 hb).2.2; rwa [val_zero] at this
    exact val_mul_right_anti h0 (val_sub_mono (le_iff.1 hl).2.2 le_rfl n2 n1) h2 h1
  · simp only [if_true] at *
    have h0 : 0 ≤ val n := by have := (le_iff.1 hb).2.2; rwa [val_zero] at this
    exact val_mul_right_mono h0 (val_sub_mono (le_iff.1 hh).2.2 le_rfl n1 n2) h1 h2
theorem same_finite {x y : S} (h : Same x y) (hy : IsFinite y) : IsFinite x := by
  unfold IsFinite at *; rw [show den x = den y from h]; exact hy
theorem term_same {x y o : S} (h : Same x y) (hy : IsFinite (n * (y - o))) : IsFinite (n * (x - o)) :=
  same_finite ((Same.refl n).mul (h.sub (Same.refl o))) hy
theorem term_min {x y o : S} (hx : IsFinite (n * (x - o))) (hy : IsFinite (n * (y - o))) : IsFinite (n * (fmin x y - o)) := by
  rcases min_same (a := x) (b := y) with h | h
  · exact term_same h hx
  · exact term_same h hy
theorem term_max {x y o : S} (hx : IsFinite (n * (x - o))) (hy : IsFinite (n * (y - o))) : IsFinite (n * (fmax x y - o)) := by
  rcases max_same (a := x) (b := y) with h | h
  · exact term_same h hx
  · exact term_same h hy
theorem far_finite {lo hi o p : S} (hl : (lo ≤? p) = true) (hh : (p ≤? hi) = true)
    (f1 : IsFinite (n * (lo - o))) (f2 : IsFinite (n * (hi - o))) : IsFinite (n * (p - o)) := by
  obtain ⟨fn, g1⟩ := finite_of_mul f1
  obtain ⟨-, g2⟩ := finite_of_mul f2
  have k1 := finite_of_sub g1
  have k2 := finite_of_sub g2
  have np : ¬ IsNaN p := (le_iff.1 hl).2.1
  have fp : IsFinite p := by
    unfold IsFinite
    refine Val.fin_of_between np (fun h => ?_) (fun h => ?_)
    · have := (le_iff.1 hl).2.2
      unfold val at this; rw [h, le_bot_iff] at this
      exact absurd this (Val.isFin_iff.1 k1.1).2.2
    · have := (le_iff.1 hh).2.2
      unfold val at this; rw [h, top_le_iff] at this
      exact absurd this (Val.isFin_iff.1 k2.1).2.1
  have nd := not_nan_sub_fin k1.2 fp.not_nan
  have a1 := val_sub_mono (le_iff.1 hl).2.2 (le_refl (val o)) g1.not_nan nd
  have a2 := val_sub_mono (le_iff.1 hh).2.2 (le_refl (val o)) nd g2.not_nan
  have fd : IsFinite (p - o) := by
    unfold IsFinite
    refine Val.fin_of_between nd (fun h => ?_) (fun h => ?_)
    · unfold val at a1; rw [h, le_bot_iff] at a1
      exact absurd a1 (Val.isFin_iff.1 g1).2.2
    · unfold val at a2; rw [h, top_le_iff] at a2
      exact absurd a2 (Val.isFin_iff.1 g2).2.1
  have nm : ¬ IsNaN (n * (p - o)) := isNaN_mul_finite fn fd
  have up : val (n * (p - o)) ≠ ⊤ ∧ val (n * (p - o)) ≠ ⊥ := by
    rcases le_total 0 (val n) with h0 | h0
    · have b1 := val_mul_right_mono h0 a1 f1.not_nan nm
      have b2 := val_mul_right_mono h0 a2 nm f2.not_nan
      exact ⟨fun h => by rw [h, top_le_iff] at b2; exact (Val.isFin_iff.1 f2).2.1 b2, fun h => by rw [h, le_bot_iff] at b1; exact (Val.isFin_iff.1 f1).2.2 b1⟩
    · have b1 := val_mul_right_anti h0 a1 f1.not_nan nm
      have b2 := val_mul_right_anti h0 a2 nm f2.not_nan
      exact ⟨fun h => by rw [h, top_le_iff] at b1; exact (Val.isFin_iff.1 f1).2.1 b1, fun h => by rw [h, le_bot_iff] at b2; exact (Val.isFin_iff.1 f2).2.2 b2⟩
  exact Val.fin_of_between nm up.2 up.1
end

/-! ## Dimension 2 -/
section
variable {S : Type} [Scalar S] [IEEE S]
theorem BoundingBox2.corner_ok {b : BoundingBox2 S} {build : Build} {k : UInt32} {c : Point2 S} (h : b.corner build k = .ok c) : c = ⟨if k.toNat.testBit (Dimension2.pos .X) then b.max.x else b.min.x, if k.toNat.testBit (Dimension2.pos .Y) then b.max.y else b.min.y⟩ := by
  obtain ⟨h1, h2, h3⟩ := C33_corner2 b k
  cases build
  · by_cases hk : k < 4
    · rw [h2 hk, h1] at h; exact (Except.ok.inj h).symm
    · rw [h3 hk] at h; cases h
  · rw [h1] at h; exact (Except.ok.inj h).symm
theorem BoundingBox2.corner_small (b : BoundingBox2 S) (build : Build) {k : UInt32} (hk : k < 4) : b.corner build k = .ok ⟨if k.toNat.testBit (Dimension2.pos .X) then b.max.x else b.min.x, if k.toNat.testBit (Dimension2.pos .Y) then b.max.y else b.min.y⟩ := by
  obtain ⟨h1, h2, h3⟩ := C33_corner2 b k
  cases build
  · rw [h2 hk, h1]
  · exact h1
/-- **C110** (2D): for a normal without NaN the client's index is that of a farthest corner. -/
theorem C110_index2 (n : Vector2 S) (hn : NoNaN n) : n.farIndex < 4 ∧ n.Along n.farIndex := by
  rw [Vector2.noNaN] at hn
  have neg : ∀ a : S, ¬ IsNaN a → (zero ≤? a) = false → (a ≤? zero) = true := fun a ha h => by
    rw [le_iff]
    refine ⟨ha, finite_zero.not_nan, ?_⟩
    by_contra hc
    rw [Bool.eq_false_iff, Ne, le_iff] at h
    exact h ⟨finite_zero.not_nan, ha, (not_le.1 hc).le⟩
  unfold Vector2.farIndex
  have gx := neg n.x hn.1
  have gy := neg n.y hn.2
  revert gx gy
  rcases hx : (zero ≤? n.x) with _ | _ <;> rcases hy : (zero ≤? n.y) with _ | _ <;> intro gx gy <;>
    refine ⟨by decide, fun d => ?_⟩ <;> cases d <;> simp (config := { decide := true }) [Dimension2.pos, Vector2.index, *]
/-- **C110** (2D): of all points of a box, a farthest corner has the largest computed `n.dot(p - o)`, rounding included. -/
theorem C110_far2 (b : BoundingBox2 S) (n : Vector2 S) (o p c : Point2 S) (build : Build) (k : UInt32) (hc : b.corner build k = .ok c) (hk : n.Along k)
    (hin : b.isInside p = true) (hp : ¬ IsNaN (Api.dot n (p - o : Vector2 S) : S)) (hq : ¬ IsNaN (Api.dot n (c - o : Vector2 S) : S)) :
    ((Api.dot n (p - o : Vector2 S) : S) ≤? Api.dot n (c - o : Vector2 S)) = true := by
  rw [(C25_inside2 b p).1, Point2.leAll, Point2.leAll] at hin
  obtain rfl := BoundingBox2.corner_ok hc
  rw [le_iff]
  refine ⟨hp, hq, ?_⟩
  obtain ⟨p0, p1⟩ := hin.1
  obtain ⟨q0, q1⟩ := hin.2
  obtain ⟨x0, x1⟩ := nan_of_add hp
  obtain ⟨y0, y1⟩ := nan_of_add hq
  exact val_add_mono (far_term p0 q0 (hk .X) x0 y0) (far_term p1 q1 (hk .Y) x1 y1) hp hq
/-- **C110** (2D): and a corner farthest against the normal the smallest. -/
theorem C110_near2 (b : BoundingBox2 S) (n : Vector2 S) (o p c : Point2 S) (build : Build) (k : UInt32) (hc : b.corner build k = .ok c) (hk : (-n).Along k)
    (hin : b.isInside p = true) (hp : ¬ IsNaN (Api.dot n (p - o : Vector2 S) : S)) (hq : ¬ IsNaN (Api.dot n (c - o : Vector2 S) : S)) :
    ((Api.dot n (c - o : Vector2 S) : S) ≤? Api.dot n (p - o : Vector2 S)) = true := by
  have e : ∀ q : Point2 S, ¬ IsNaN (Api.dot n (q - o : Vector2 S) : S) → num (Api.dot (-n) (q - o : Vector2 S) : S) = num (-(Api.dot n (q - o : Vector2 S) : S)) :=
    fun q h => num_of_beq (C107_flip2 n o q h).1
  have n1 : ∀ q : Point2 S, ¬ IsNaN (Api.dot n (q - o : Vector2 S) : S) → ¬ IsNaN (Api.dot (-n) (q - o : Vector2 S) : S) := fun q h => by
    rw [num_nan (e q h), isNaN_neg]; exact h
  have := (le_iff.1 (C110_far2 b (-n) o p c build k hc hk hin (n1 p hp) (n1 c hq))).2.2
  rw [num_val (e p hp), num_val (e c hq), val_neg, val_neg, EReal.neg_le_neg_iff] at this
  exact le_iff.2 ⟨hq, hp, this⟩
/-- **C110** (2D): if no product overflows, the computed number is not NaN for any point of the box. -/
theorem C110_clear2 (b : BoundingBox2 S) (n : Vector2 S) (o p : Point2 S) (h : b.Clear n o) (hin : b.isInside p = true) :
    ¬ IsNaN (Api.dot n (p - o : Vector2 S) : S) := by
  rw [(C25_inside2 b p).1, Point2.leAll, Point2.leAll] at hin
  have h : IsFinite (n.x * (p - o : Vector2 S).x) ∧ IsFinite (n.y * (p - o : Vector2 S).y) :=
    ⟨far_finite hin.1.1 hin.2.1 h.1.1 h.1.2, far_finite hin.1.2 hin.2.2 h.2.1 h.2.2⟩
  exact isNaN_add_finite h.1 h.2.not_nan
/-- **C110** (2D): a box behind a plane contains no point in front of it. No condition on NaN, overflow or the shape of the box. -/
theorem C110_behind2 (b : BoundingBox2 S) (n : Vector2 S) (o p : Point2 S) (build : Build) (h : b.behind build n o = true) (hin : b.isInside p = true) :
    (zero ≤? (Api.dot n (p - o : Vector2 S) : S)) = false := by
  rw [Bool.eq_false_iff]
  intro hp
  unfold BoundingBox2.behind at h
  split at h
  · rename_i c hc
    have hq := (lt_iff.1 h)
    have hp' := le_iff.1 hp
    have hn : NoNaN n := by
      rw [Vector2.noNaN]
      have := hp'.2.1
      exact ⟨(nan_of_mul (nan_of_add this).1).1, (nan_of_mul (nan_of_add this).2).1⟩
    have := C110_far2 b n o p c build _ hc (C110_index2 n hn).2 hin hp'.2.1 hq.1
    exact absurd ((hp'.2.2.trans (le_iff.1 this).2.2).trans_lt hq.2.2) (lt_irrefl _)
  · cases h
/-- **C110** (2D): for a well-formed box the test is exact: the box is behind the plane iff no point of it is in front. -/
theorem C110_exact2 (b : BoundingBox2 S) (n : Vector2 S) (o : Point2 S) (build : Build) (hb : LeAll b.min b.max) (h : b.Clear n o) :
    b.behind build n o = true ↔ ∀ p, b.isInside p = true → (zero ≤? (Api.dot n (p - o : Vector2 S) : S)) = false := by
  refine ⟨fun hbh p hin => C110_behind2 b n o p build hbh hin, fun hall => ?_⟩
  have hn : NoNaN n := by
    rw [Vector2.noNaN]
    exact ⟨(finite_of_mul h.1.1).1.not_nan, (finite_of_mul h.2.1).1.not_nan⟩
  have hc := BoundingBox2.corner_small b build (C110_index2 n hn).1
  have hin := C33_inside2 b hb build _ _ hc
  have nn := C110_clear2 b n o _ h hin
  have := hall _ hin
  unfold BoundingBox2.behind
  rw [hc]
  show (_ <? _) = true
  rw [lt_iff]
  refine ⟨nn, finite_zero.not_nan, ?_⟩
  by_contra hge
  rw [Bool.eq_false_iff, Ne, le_iff] at this
  exact this ⟨finite_zero.not_nan, nn, not_lt.1 hge⟩
/-- **C110** (2D): a box that is not kept contains no visible point. -/
theorem C110_kept2 (planes : List (Vector2 S × Point2 S)) (b : BoundingBox2 S) (p : Point2 S) (build : Build) (hin : b.isInside p = true) (hv : p.Visible planes) :
    b.kept build planes = true := by
  unfold BoundingBox2.kept
  rw [List.all_eq_true]
  intro q hq
  rw [Bool.not_eq_true', Bool.eq_false_iff]
  intro h
  have := C110_behind2 b q.1 q.2 p build h hin
  rw [hv q hq] at this
  cases this
theorem BoundingBox2.inside_bound (t : Tree (BoundingBox2 S)) (ht : ∀ b ∈ t.leaves, LeAll b.min b.max) :
    LeAll (t.bound Api.union).min (t.bound Api.union).max ∧ ∀ b ∈ t.leaves, ∀ p, b.isInside p = true → (t.bound Api.union).isInside p = true := by
  induction t with
  | leaf b => exact ⟨ht b (by simp [Tree.leaves]), fun c hc p hp => by simp [Tree.leaves] at hc; subst hc; exact hp⟩
  | node l r hl hr =>
    have l' := hl fun b hb => ht b (by simp [Tree.leaves, hb])
    have r' := hr fun b hb => ht b (by simp [Tree.leaves, hb])
    obtain ⟨u1, u2, -⟩ := C26_union2 (l.bound Api.union) (r.bound Api.union) l'.1 r'.1
    refine ⟨u1, fun b hb p hp => u2 p ?_⟩
    rcases List.mem_append.1 hb with h | h
    · exact .inl (l'.2 b h p hp)
    · exact .inr (r'.2 b h p hp)
/-- **C110** (2D): descending a hierarchy and skipping every subtree whose bounding box is not kept finds every leaf box
that contains a visible point. -/
theorem C110_tree_visible2 (planes : List (Vector2 S × Point2 S)) (build : Build) (t : Tree (BoundingBox2 S)) (ht : ∀ b ∈ t.leaves, LeAll b.min b.max)
    (b : BoundingBox2 S) (hb : b ∈ t.leaves) (p : Point2 S) (hin : b.isInside p = true) (hv : p.Visible planes) :
    b ∈ t.search Api.union (BoundingBox2.kept build planes) := by
  induction t with
  | leaf a =>
    simp [Tree.leaves] at hb; subst hb
    simp [Tree.search, C110_kept2 planes b p build hin hv]
  | node l r hl hr =>
    have k := C110_kept2 planes _ p build ((BoundingBox2.inside_bound (.node l r) ht).2 b hb p hin) hv
    unfold Tree.search
    rw [if_pos k]
    refine List.mem_append.2 ?_
    rcases List.mem_append.1 hb with h | h
    · exact .inl (hl (fun b hb => ht b (by simp [Tree.leaves, hb])) h)
    · exact .inr (hr (fun b hb => ht b (by simp [Tree.leaves, hb])) h)
theorem BoundingBox2.clear_union {n : Vector2 S} {o : Point2 S} {a b : BoundingBox2 S} (ha : a.Clear n o) (hb : b.Clear n o) : (Api.union a b).Clear n o := by
  obtain ⟨⟨ax, Ax⟩, ⟨ay, Ay⟩⟩ := ha
  obtain ⟨⟨b_x, B_x⟩, ⟨b_y, B_y⟩⟩ := hb
  exact ⟨⟨term_min (term_min ax b_x) (term_max Ax B_x), term_max (term_min ax b_x) (term_max Ax B_x)⟩, ⟨term_min (term_min ay b_y) (term_max Ay B_y), term_max (term_min ay b_y) (term_max Ay B_y)⟩⟩
/-- **C110** (2D): if no product overflows, the descent returns exactly the leaf boxes that are kept. -/
theorem C110_tree2 (planes : List (Vector2 S × Point2 S)) (build : Build) (t : Tree (BoundingBox2 S))
    (ht : ∀ b ∈ t.leaves, LeAll b.min b.max ∧ ∀ q ∈ planes, b.Clear q.1 q.2) :
    t.search Api.union (BoundingBox2.kept build planes) = t.leaves.filter (BoundingBox2.kept build planes) := by
  refine Tree.search_eq (P := fun b => LeAll b.min b.max ∧ ∀ q ∈ planes, b.Clear q.1 q.2) (fun {a b} ha hb => ⟨(C26_union2 a b ha.1 hb.1).1, fun q hq => BoundingBox2.clear_union (ha.2 q hq) (hb.2 q hq)⟩)
    (fun {a b} ha hb h => ?_) t ht
  unfold BoundingBox2.kept at *
  simp only [List.all_eq_true] at h ⊢
  have in' := (C26_union2 a b ha.1 hb.1).2.1
  intro q hq
  rw [Bool.not_eq_true', Bool.eq_false_iff]
  intro hbh
  have hno := fun p hp => C110_behind2 (Api.union a b) q.1 q.2 p build hbh (in' p hp)
  rcases h with h | h
  · have := h q hq
    rw [(C110_exact2 a q.1 q.2 build ha.1 (ha.2 q hq)).2 fun p hp => hno p (.inl hp)] at this
    cases this
  · have := h q hq
    rw [(C110_exact2 b q.1 q.2 build hb.1 (hb.2 q hq)).2 fun p hp => hno p (.inr hp)] at this
    cases this
end

/-! ## Dimension 3 -/
section
variable {S : Type} [Scalar S] [IEEE S]
theorem BoundingBox3.corner_ok {b : BoundingBox3 S} {build : Build} {k : UInt32} {c : Point3 S} (h : b.corner build k = .ok c) : c = ⟨if k.toNat.testBit (Dimension3.pos .X) then b.max.x else b.min.x, if k.toNat.testBit (Dimension3.pos .Y) then b.max.y else b.min.y, if k.toNat.testBit (Dimension3.pos .Z) then b.max.z else b.min.z⟩ := by
  obtain ⟨h1, h2, h3⟩ := C33_corner3 b k
  cases build
  · by_cases hk : k < 8
    · rw [h2 hk, h1] at h; exact (Except.ok.inj h).symm
    · rw [h3 hk] at h; cases h
  · rw [h1] at h; exact (Except.ok.inj h).symm
theorem BoundingBox3.corner_small (b : BoundingBox3 S) (build : Build) {k : UInt32} (hk : k < 8) : b.corner build k = .ok ⟨if k.toNat.testBit (Dimension3.pos .X) then b.max.x else b.min.x, if k.toNat.testBit (Dimension3.pos .Y) then b.max.y else b.min.y, if k.toNat.testBit (Dimension3.pos .Z) then b.max.z else b.min.z⟩ := by
  obtain ⟨h1, h2, h3⟩ := C33_corner3 b k
  cases build
  · rw [h2 hk, h1]
  · exact h1
/-- **C110** (3D): for a normal without NaN the client's index is that of a farthest corner. -/
theorem C110_index3 (n : Vector3 S) (hn : NoNaN n) : n.farIndex < 8 ∧ n.Along n.farIndex := by
  rw [Vector3.noNaN] at hn
  have neg : ∀ a : S, ¬ IsNaN a → (zero ≤? a) = false → (a ≤? zero) = true := fun a ha h => by
    rw [le_iff]
    refine ⟨ha, finite_zero.not_nan, ?_⟩
    by_contra hc
    rw [Bool.eq_false_iff, Ne, le_iff] at h
    exact h ⟨finite_zero.not_nan, ha, (not_le.1 hc).le⟩
  unfold Vector3.farIndex
  have gx := neg n.x hn.1
  have gy := neg n.y hn.2.1
  have gz := neg n.z hn.2.2
  revert gx gy gz
  rcases hx : (zero ≤? n.x) with _ | _ <;> rcases hy : (zero ≤? n.y) with _ | _ <;> rcases hz : (zero ≤? n.z) with _ | _ <;> intro gx gy gz <;>
    refine ⟨by decide, fun d => ?_⟩ <;> cases d <;> simp (config := { decide := true }) [Dimension3.pos, Vector3.index, *]
/-- **C110** (3D): of all points of a box, a farthest corner has the largest computed `n.dot(p - o)`, rounding included. -/
theorem C110_far3 (b : BoundingBox3 S) (n : Vector3 S) (o p c : Point3 S) (build : Build) (k : UInt32) (hc : b.corner build k = .ok c) (hk : n.Along k)
    (hin : b.isInside p = true) (hp : ¬ IsNaN (Api.dot n (p - o : Vector3 S) : S)) (hq : ¬ IsNaN (Api.dot n (c - o : Vector3 S) : S)) :
    ((Api.dot n (p - o : Vector3 S) : S) ≤? Api.dot n (c - o : Vector3 S)) = true := by
  rw [(C25_inside3 b p).1, Point3.leAll, Point3.leAll] at hin
  obtain rfl := BoundingBox3.corner_ok hc
  rw [le_iff]
  refine ⟨hp, hq, ?_⟩
  obtain ⟨p0, p1, p2⟩ := hin.1
  obtain ⟨q0, q1, q2⟩ := hin.2
  obtain ⟨x01, x2⟩ := nan_of_add hp
  obtain ⟨y01, y2⟩ := nan_of_add hq
  obtain ⟨x0, x1⟩ := nan_of_add x01
  obtain ⟨y0, y1⟩ := nan_of_add y01
  exact val_add_mono (val_add_mono (far_term p0 q0 (hk .X) x0 y0) (far_term p1 q1 (hk .Y) x1 y1) x01 y01) (far_term p2 q2 (hk .Z) x2 y2) hp hq
/-- **C110** (3D): and a corner farthest against the normal the smallest. -/
theorem C110_near3 (b : BoundingBox3 S) (n : Vector3 S) (o p c : Point3 S) (build : Build) (k : UInt32) (hc : b.corner build k = .ok c) (hk : (-n).Along k)
    (hin : b.isInside p = true) (hp : ¬ IsNaN (Api.dot n (p - o : Vector3 S) : S)) (hq : ¬ IsNaN (Api.dot n (c - o : Vector3 S) : S)) :
    ((Api.dot n (c - o : Vector3 S) : S) ≤? Api.dot n (p - o : Vector3 S)) = true := by
  have e : ∀ q : Point3 S, ¬ IsNaN (Api.dot n (q - o : Vector3 S) : S) → num (Api.dot (-n) (q - o : Vector3 S) : S) = num (-(Api.dot n (q - o : Vector3 S) : S)) :=
    fun q h => num_of_beq (C107_flip3 n o q h).1
  have n1 : ∀ q : Point3 S, ¬ IsNaN (Api.dot n (q - o : Vector3 S) : S) → ¬ IsNaN (Api.dot (-n) (q - o : Vector3 S) : S) := fun q h => by
    rw [num_nan (e q h), isNaN_neg]; exact h
  have := (le_iff.1 (C110_far3 b (-n) o p c build k hc hk hin (n1 p hp) (n1 c hq))).2.2
  rw [num_val (e p hp), num_val (e c hq), val_neg, val_neg, EReal.neg_le_neg_iff] at this
  exact le_iff.2 ⟨hq, hp, this⟩
/-- **C110** (3D): if no product overflows, the computed number is not NaN for any point of the box. -/
theorem C110_clear3 (b : BoundingBox3 S) (n : Vector3 S) (o p : Point3 S) (h : b.Clear n o) (hin : b.isInside p = true) :
    ¬ IsNaN (Api.dot n (p - o : Vector3 S) : S) := by
  rw [(C25_inside3 b p).1, Point3.leAll, Point3.leAll] at hin
  have h : IsFinite (n.x * (p - o : Vector3 S).x) ∧ IsFinite (n.y * (p - o : Vector3 S).y) ∧ IsFinite (n.z * (p - o : Vector3 S).z) :=
    ⟨far_finite hin.1.1 hin.2.1 h.1.1 h.1.2, far_finite hin.1.2.1 hin.2.2.1 h.2.1.1 h.2.1.2, far_finite hin.1.2.2 hin.2.2.2 h.2.2.1 h.2.2.2⟩
  have n1 : ¬ IsNaN (n.x * (p - o : Vector3 S).x + n.y * (p - o : Vector3 S).y) := isNaN_add_finite h.1 h.2.1.not_nan
  have e := (same_add_comm (n.x * (p - o : Vector3 S).x + n.y * (p - o : Vector3 S).y) (n.z * (p - o : Vector3 S).z)).isNaN
  intro hc
  exact isNaN_add_finite h.2.2 n1 (e.1 hc)
/-- **C110** (3D): a box behind a plane contains no point in front of it. No condition on NaN, overflow or the shape of the box. -/
theorem C110_behind3 (b : BoundingBox3 S) (n : Vector3 S) (o p : Point3 S) (build : Build) (h : b.behind build n o = true) (hin : b.isInside p = true) :
    (zero ≤? (Api.dot n (p - o : Vector3 S) : S)) = false := by
  rw [Bool.eq_false_iff]
  intro hp
  unfold BoundingBox3.behind at h
  split at h
  · rename_i c hc
    have hq := (lt_iff.1 h)
    have hp' := le_iff.1 hp
    have hn : NoNaN n := by
      rw [Vector3.noNaN]
      have := hp'.2.1
      exact ⟨(nan_of_mul (nan_of_add (nan_of_add this).1).1).1, (nan_of_mul (nan_of_add (nan_of_add this).1).2).1, (nan_of_mul (nan_of_add this).2).1⟩
    have := C110_far3 b n o p c build _ hc (C110_index3 n hn).2 hin hp'.2.1 hq.1
    exact absurd ((hp'.2.2.trans (le_iff.1 this).2.2).trans_lt hq.2.2) (lt_irrefl _)
  · cases h
/-- **C110** (3D): for a well-formed box the test is exact: the box is behind the plane iff no point of it is in front. -/
theorem C110_exact3 (b : BoundingBox3 S) (n : Vector3 S) (o : Point3 S) (build : Build) (hb : LeAll b.min b.max) (h : b.Clear n o) :
    b.behind build n o = true ↔ ∀ p, b.isInside p = true → (zero ≤? (Api.dot n (p - o : Vector3 S) : S)) = false := by
  refine ⟨fun hbh p hin => C110_behind3 b n o p build hbh hin, fun hall => ?_⟩
  have hn : NoNaN n := by
    rw [Vector3.noNaN]
    exact ⟨(finite_of_mul h.1.1).1.not_nan, (finite_of_mul h.2.1.1).1.not_nan, (finite_of_mul h.2.2.1).1.not_nan⟩
  have hc := BoundingBox3.corner_small b build (C110_index3 n hn).1
  have hin := C33_inside3 b hb build _ _ hc
  have nn := C110_clear3 b n o _ h hin
  have := hall _ hin
  unfold BoundingBox3.behind
  rw [hc]
  show (_ <? _) = true
  rw [lt_iff]
  refine ⟨nn, finite_zero.not_nan, ?_⟩
  by_contra hge
  rw [Bool.eq_false_iff, Ne, le_iff] at this
  exact this ⟨finite_zero.not_nan, nn, not_lt.1 hge⟩
/-- **C110** (3D): a box that is not kept contains no visible point. -/
theorem C110_kept3 (planes : List (Vector3 S × Point3 S)) (b : BoundingBox3 S) (p : Point3 S) (build : Build) (hin : b.isInside p = true) (hv : p.Visible planes) :
    b.kept build planes = true := by
  unfold BoundingBox3.kept
  rw [List.all_eq_true]
  intro q hq
  rw [Bool.not_eq_true', Bool.eq_false_iff]
  intro h
  have := C110_behind3 b q.1 q.2 p build h hin
  rw [hv q hq] at this
  cases this
theorem BoundingBox3.inside_bound (t : Tree (BoundingBox3 S)) (ht : ∀ b ∈ t.leaves, LeAll b.min b.max) :
    LeAll (t.bound Api.union).min (t.bound Api.union).max ∧ ∀ b ∈ t.leaves, ∀ p, b.isInside p = true → (t.bound Api.union).isInside p = true := by
  induction t with
  | leaf b => exact ⟨ht b (by simp [Tree.leaves]), fun c hc p hp => by simp [Tree.leaves] at hc; subst hc; exact hp⟩
  | node l r hl hr =>
    have l' := hl fun b hb => ht b (by simp [Tree.leaves, hb])
    have r' := hr fun b hb => ht b (by simp [Tree.leaves, hb])
    obtain ⟨u1, u2, -⟩ := C26_union3 (l.bound Api.union) (r.bound Api.union) l'.1 r'.1
    refine ⟨u1, fun b hb p hp => u2 p ?_⟩
    rcases List.mem_append.1 hb with h | h
    · exact .inl (l'.2 b h p hp)
    · exact .inr (r'.2 b h p hp)
/-- **C110** (3D): descending a hierarchy and skipping every subtree whose bounding box is not kept finds every leaf box
that contains a visible point. -/
theorem C110_tree_visible3 (planes : List (Vector3 S × Point3 S)) (build : Build) (t : Tree (BoundingBox3 S)) (ht : ∀ b ∈ t.leaves, LeAll b.min b.max)
    (b : BoundingBox3 S) (hb : b ∈ t.leaves) (p : Point3 S) (hin : b.isInside p = true) (hv : p.Visible planes) :
    b ∈ t.search Api.union (BoundingBox3.kept build planes) := by
  induction t with
  | leaf a =>
    simp [Tree.leaves] at hb; subst hb
    simp [Tree.search, C110_kept3 planes b p build hin hv]
  | node l r hl hr =>
    have k := C110_kept3 planes _ p build ((BoundingBox3.inside_bound (.node l r) ht).2 b hb p hin) hv
    unfold Tree.search
    rw [if_pos k]
    refine List.mem_append.2 ?_
    rcases List.mem_append.1 hb with h | h
    · exact .inl (hl (fun b hb => ht b (by simp [Tree.leaves, hb])) h)
    · exact .inr (hr (fun b hb => ht b (by simp [Tree.leaves, hb])) h)
theorem BoundingBox3.clear_union {n : Vector3 S} {o : Point3 S} {a b : BoundingBox3 S} (ha : a.Clear n o) (hb : b.Clear n o) : (Api.union a b).Clear n o := by
  obtain ⟨⟨ax, Ax⟩, ⟨ay, Ay⟩, ⟨az, Az⟩⟩ := ha
  obtain ⟨⟨b_x, B_x⟩, ⟨b_y, B_y⟩, ⟨b_z, B_z⟩⟩ := hb
  exact ⟨⟨term_min (term_min ax b_x) (term_max Ax B_x), term_max (term_min ax b_x) (term_max Ax B_x)⟩, ⟨term_min (term_min ay b_y) (term_max Ay B_y), term_max (term_min ay b_y) (term_max Ay B_y)⟩, ⟨term_min (term_min az b_z) (term_max Az B_z), term_max (term_min az b_z) (term_max Az B_z)⟩⟩
/-- **C110** (3D): if no product overflows, the descent returns exactly the leaf boxes that are kept. -/
theorem C110_tree3 (planes : List (Vector3 S × Point3 S)) (build : Build) (t : Tree (BoundingBox3 S))
    (ht : ∀ b ∈ t.leaves, LeAll b.min b.max ∧ ∀ q ∈ planes, b.Clear q.1 q.2) :
    t.search Api.union (BoundingBox3.kept build planes) = t.leaves.filter (BoundingBox3.kept build planes) := by
  refine Tree.search_eq (P := fun b => LeAll b.min b.max ∧ ∀ q ∈ planes, b.Clear q.1 q.2) (fun {a b} ha hb => ⟨(C26_union3 a b ha.1 hb.1).1, fun q hq => BoundingBox3.clear_union (ha.2 q hq) (hb.2 q hq)⟩)
    (fun {a b} ha hb h => ?_) t ht
  unfold BoundingBox3.kept at *
  simp only [List.all_eq_true] at h ⊢
  have in' := (C26_union3 a b ha.1 hb.1).2.1
  intro q hq
  rw [Bool.not_eq_true', Bool.eq_false_iff]
  intro hbh
  have hno := fun p hp => C110_behind3 (Api.union a b) q.1 q.2 p build hbh (in' p hp)
  rcases h with h | h
  · have := h q hq
    rw [(C110_exact3 a q.1 q.2 build ha.1 (ha.2 q hq)).2 fun p hp => hno p (.inl hp)] at this
    cases this
  · have := h q hq
    rw [(C110_exact3 b q.1 q.2 build hb.1 (hb.2 q hq)).2 fun p hp => hno p (.inr hp)] at this
    cases this
end

end VecMath
