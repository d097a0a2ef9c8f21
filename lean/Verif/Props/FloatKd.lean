import Verif.Spec.Kd
import Verif.Props.FloatCull
/-!
# Cutting a box loses no ray (layer F): C80

The rounded ray/box test is watertight: the ranges reported for the two parts of a box join without gap and without
overlap to the range reported for the whole, although every number in them is rounded. The one exception is a ray
running in the cutting plane. Generated by tools/gen/kd.py.
-/

open Classical
set_option linter.unusedSectionVars false

namespace VecMath
open Scalar IEEE

/-- Order theory of the split. -/
theorem tile_order {α : Type*} [LinearOrder α] {X Y m p M : α} (h1 : m ≤ p) (h2 : p ≤ M) (h : max X m ≤ min Y M) :
    (max X m ≤ min Y p ∧ min Y p = min Y M) ∨ (max X p ≤ min Y M ∧ max X p = max X m) ∨
    (max X m ≤ min Y p ∧ max X p ≤ min Y M ∧ min Y p = max X p) := by
  rw [max_le_iff, le_min_iff, le_min_iff] at h
  obtain ⟨⟨a1, a2⟩, a3, a4⟩ := h
  rcases lt_or_ge p X with hp | hp
  · right; left
    refine ⟨max_le (le_min a1 a2) (le_min (hp.le.trans a1) h2), ?_⟩
    rw [max_eq_left hp.le, max_eq_left (h1.trans hp.le)]
  rcases lt_or_ge Y p with hq | hq
  · left
    refine ⟨max_le (le_min a1 hp) (le_min a3 h1), ?_⟩
    rw [min_eq_left hq.le, min_eq_left (hq.le.trans h2)]
  · right; right
    refine ⟨max_le (le_min a1 hp) (le_min a3 h1), max_le (le_min a1 a2) (le_min hq h2), ?_⟩
    rw [min_eq_right hq, max_eq_right hp]
theorem tile_order' {α : Type*} [LinearOrder α] {X Y m p M : α} (h1 : m ≤ p) (h2 : p ≤ M) (h : max X m ≤ min Y p)
    (h' : max X p ≤ min Y M) : max X m ≤ min Y M ∧ min Y p = max X p := by
  simp only [max_le_iff, le_min_iff] at h h' ⊢
  obtain ⟨⟨a1, a2⟩, a3, a4⟩ := h
  obtain ⟨⟨b1, b2⟩, b3, b4⟩ := h'
  exact ⟨⟨⟨a1, a2⟩, b3, h1.trans h2⟩, by rw [min_eq_right b2, max_eq_right a3]⟩

section
variable {S : Type} [Scalar S] [IEEE S] [Binary S]

/-- The parameter at which the ray crosses the plane at `x` in one dimension. -/
def cross1 (o d x : S) : S := (x - o) / d

theorem cross1_nn {o d x : S} (fo : IsFinite o) (fd : IsFinite d) (fx : IsFinite x) (h : real d = 0 → real o ≠ real x) :
    ¬ IsNaN (cross1 o d x) := by
  have n := isNaN_sub_finite fo fx.not_nan
  by_cases hd : real d = 0
  · exact (val_inf (den_div_zero' n (val_sub_ne n (h hd)) fd hd)).1
  · exact not_nan_div n fd hd
/-- Crossing parameters are monotone in the position of the plane, or antitone. -/
theorem cross1_mono (o d : S) (fo : IsFinite o) (fd : IsFinite d) :
    (∀ x y : S, IsFinite x → IsFinite y → (real d = 0 → real o ≠ real x) → (real d = 0 → real o ≠ real y) →
      (x ≤? y) = true → val (cross1 o d x) ≤ val (cross1 o d y)) ∨
    (∀ x y : S, IsFinite x → IsFinite y → (real d = 0 → real o ≠ real x) → (real d = 0 → real o ≠ real y) →
      (x ≤? y) = true → val (cross1 o d y) ≤ val (cross1 o d x)) := by
  have sub : ∀ x y : S, IsFinite x → IsFinite y → (x ≤? y) = true → val (x - o) ≤ val (y - o) := fun x y fx fy h =>
    val_sub_mono (le_iff.1 h).2.2 le_rfl (isNaN_sub_finite fo fx.not_nan) (isNaN_sub_finite fo fy.not_nan)
  by_cases hd : real d = 0
  · have e : ∀ x : S, IsFinite x → real o ≠ real x →
        val (cross1 o d x) = if (decide (val (x - o) < 0) ^^ (den d).neg?) then ⊥ else ⊤ := fun x fx hx => by
      have n := isNaN_sub_finite fo fx.not_nan
      exact (val_inf (den_div_zero' n (val_sub_ne n hx) fd hd)).2
    cases hn : (den d).neg? with
    | false =>
      left
      intro x y fx fy hx hy h
      rw [e x fx (hx hd), e y fy (hy hd), hn]
      have := sub x y fx fy h
      by_cases h0 : val (y - o) < 0
      · simp [h0, this.trans_lt h0]
      · simp [h0]
    | true =>
      right
      intro x y fx fy hx hy h
      rw [e x fx (hx hd), e y fy (hy hd), hn]
      have := sub x y fx fy h
      by_cases h0 : val (y - o) < 0
      · simp [h0, this.trans_lt h0]
      · simp [h0]
  · rcases lt_or_gt_of_ne hd with h | h
    · right
      intro x y fx fy _ _ hxy
      exact val_div_anti (sub x y fx fy hxy) (isNaN_sub_finite fo fx.not_nan) (isNaN_sub_finite fo fy.not_nan) fd h
    · left
      intro x y fx fy _ _ hxy
      exact val_div_mono (sub x y fx fy hxy) (isNaN_sub_finite fo fx.not_nan) (isNaN_sub_finite fo fy.not_nan) fd h
/-- Lower end of the slab, as a number. -/
noncomputable def slabLo (lo hi o d : S) : EReal := min (val (cross1 o d lo)) (val (cross1 o d hi))
/-- Upper end of the slab, as a number. -/
noncomputable def slabHi (lo hi o d : S) : EReal := max (val (cross1 o d lo)) (val (cross1 o d hi))
theorem slab_split {lo m hi o d : S} (fl : IsFinite lo) (fm : IsFinite m) (fh : IsFinite hi) (fo : IsFinite o)
    (fd : IsFinite d) (hl : real d = 0 → real o ≠ real lo) (hm : real d = 0 → real o ≠ real m)
    (hh : real d = 0 → real o ≠ real hi) (h1 : (lo ≤? m) = true) (h2 : (m ≤? hi) = true) :
    ∃ p : EReal, slabLo lo hi o d ≤ p ∧ p ≤ slabHi lo hi o d ∧
      ((slabLo lo m o d = slabLo lo hi o d ∧ slabHi lo m o d = p ∧ slabLo m hi o d = p ∧ slabHi m hi o d = slabHi lo hi o d) ∨
       (slabLo m hi o d = slabLo lo hi o d ∧ slabHi m hi o d = p ∧ slabLo lo m o d = p ∧ slabHi lo m o d = slabHi lo hi o d)) := by
  refine ⟨val (cross1 o d m), ?_⟩
  unfold slabLo slabHi
  rcases cross1_mono o d fo fd with k | k
  · have a := k lo m fl fm hl hm h1
    have b := k m hi fm fh hm hh h2
    rw [min_eq_left (a.trans b), max_eq_right (a.trans b), min_eq_left a, max_eq_right a, min_eq_left b, max_eq_right b]
    exact ⟨a, b, .inl ⟨rfl, rfl, rfl, rfl⟩⟩
  · have a := k lo m fl fm hl hm h1
    have b := k m hi fm fh hm hh h2
    rw [min_eq_right (b.trans a), max_eq_left (b.trans a), min_eq_right a, max_eq_left a, min_eq_right b, max_eq_left b]
    exact ⟨b, a, .inr ⟨rfl, rfl, rfl, rfl⟩⟩
theorem finite_between {a m b : S} (fa : IsFinite a) (fb : IsFinite b) (h1 : (a ≤? m) = true) (h2 : (m ≤? b) = true) :
    IsFinite m := by
  have h1 := le_iff.1 h1
  have h2 := le_iff.1 h2
  by_contra hf
  rcases Val.not_isFin_iff.1 hf with h | ⟨s, h⟩
  · exact h1.2.1 h
  · obtain ⟨-, v⟩ := val_inf h
    cases s with
    | true => rw [v, fa.val] at h1; simp at h1
    | false => rw [v, fb.val] at h2; simp at h2
end

/-- The range `i` is the range `j`. -/
def SameRange {S : Type} [Scalar S] (j i : Range S) : Prop := (j.start == i.start) = true ∧ (j.stop == i.stop) = true
/-- The ranges `j` and `k`, in this order, join to `i`: no gap, no overlap. -/
def Joins {S : Type} [Scalar S] (j k i : Range S) : Prop :=
  (j.start == i.start) = true ∧ (j.stop == k.start) = true ∧ (k.stop == i.stop) = true

section
variable {S : Type} [Scalar S] [IEEE S]
theorem parts_sub2 (b : BoundingBox2 S) (dim : Dimension2) (m : S) (hb : LeAll b.min b.max)
    (h1 : (b.min.index dim ≤? m) = true) (h2 : (m ≤? b.max.index dim) = true) :
    (LeAll (b.below dim m).min (b.below dim m).max ∧ LeAll (b.above dim m).min (b.above dim m).max) ∧
    ∀ p, b.isInside p = true ↔ ((b.below dim m).isInside p = true ∨ (b.above dim m).isInside p = true) := by
  rw [Point2.leAll] at hb
  have n := (le_nn h1).2
  have tot : ∀ x : S, ¬ IsNaN x → (x ≤? m) = true ∨ (m ≤? x) = true := fun x hx => by
    rw [le_of_not_nan hx n, le_of_not_nan n hx]; exact le_total _ _
  cases dim with
  | X =>
    change (b.min.x ≤? m) = true at h1
    change (m ≤? b.max.x) = true at h2
    refine ⟨⟨Point2.leAll.2 ⟨h1, hb.2⟩, Point2.leAll.2 ⟨h2, hb.2⟩⟩, fun p => ?_⟩
    simp only [isInside2_iff, BoundingBox2.below, BoundingBox2.above, Point2.indexMut]
    constructor
    · intro h
      rcases tot p.x (le_nn h.1.1).2 with q | q
      · exact .inl ⟨⟨h.1.1, q⟩, h.2⟩
      · exact .inr ⟨⟨q, h.1.2⟩, h.2⟩
    · rintro (h | h)
      · exact ⟨⟨h.1.1, le_trans' h.1.2 h2⟩, h.2⟩
      · exact ⟨⟨le_trans' h1 h.1.1, h.1.2⟩, h.2⟩
  | Y =>
    change (b.min.y ≤? m) = true at h1
    change (m ≤? b.max.y) = true at h2
    refine ⟨⟨Point2.leAll.2 ⟨hb.1, h1⟩, Point2.leAll.2 ⟨hb.1, h2⟩⟩, fun p => ?_⟩
    simp only [isInside2_iff, BoundingBox2.below, BoundingBox2.above, Point2.indexMut]
    constructor
    · intro h
      rcases tot p.y (le_nn h.2.1).2 with q | q
      · exact .inl ⟨h.1, ⟨h.2.1, q⟩⟩
      · exact .inr ⟨h.1, ⟨q, h.2.2⟩⟩
    · rintro (h | h)
      · exact ⟨h.1, ⟨h.2.1, le_trans' h.2.2 h2⟩⟩
      · exact ⟨h.1, ⟨le_trans' h1 h.2.1, h.2.2⟩⟩
/-- **C80**, 2D: the cells are well-formed, they lie in the box, and every point of the box is in one of them. -/
theorem C80_cells2 (k : Kd Dimension2 S) (b : BoundingBox2 S) (hb : LeAll b.min b.max) (hc : k.Cuts2 b) :
    (∀ c ∈ k.cells2 b, LeAll c.min c.max) ∧
    ∀ p, b.isInside p = true ↔ ∃ c ∈ k.cells2 b, c.isInside p = true := by
  induction k generalizing b with
  | cell => simp only [Kd.cells2, List.mem_singleton, forall_eq, exists_eq_left, implies_true, and_true]; exact hb
  | cut dim m lo up ihl ihu =>
    obtain ⟨⟨h1, h2⟩, cl, cu⟩ := hc
    obtain ⟨⟨wl, wu⟩, h⟩ := parts_sub2 b dim m hb h1 h2
    obtain ⟨l1, l2⟩ := ihl _ wl cl
    obtain ⟨u1, u2⟩ := ihu _ wu cu
    simp only [Kd.cells2, List.mem_append]
    refine ⟨fun c hc => hc.elim (l1 c) (u1 c), fun p => ?_⟩
    rw [h p, l2 p, u2 p]
    constructor
    · rintro (⟨c, h1, h2⟩ | ⟨c, h1, h2⟩)
      · exact ⟨c, .inl h1, h2⟩
      · exact ⟨c, .inr h1, h2⟩
    · rintro ⟨c, h1 | h1, h2⟩
      · exact .inl ⟨c, h1, h2⟩
      · exact .inr ⟨c, h1, h2⟩
theorem cell_sub2 (k : Kd Dimension2 S) (b : BoundingBox2 S) (hb : LeAll b.min b.max) (hc : k.Cuts2 b) (c : BoundingBox2 S)
    (h : c ∈ k.cells2 b) : LeAll c.min c.max ∧ ∀ p, c.isInside p = true → b.isInside p = true := by
  obtain ⟨h1, h2⟩ := C80_cells2 k b hb hc
  exact ⟨h1 c h, fun p hp => (h2 p).2 ⟨c, h, hp⟩⟩
end

/-! ## 2 dimensions -/
section
variable {S : Type} [Scalar S] [IEEE S] [Binary S]

/-- The start of the range of the exact order computation. -/
noncomputable def hitLo2 (b : BoundingBox2 S) (r : Ray2 S) : EReal := max (max 0 (slabLo b.min.x b.max.x r.origin.x r.direction.x)) (slabLo b.min.y b.max.y r.origin.y r.direction.y)
/-- The end of the range. -/
noncomputable def hitHi2 (b : BoundingBox2 S) (r : Ray2 S) : EReal := min (slabHi b.min.x b.max.x r.origin.x r.direction.x) (slabHi b.min.y b.max.y r.origin.y r.direction.y)

theorem Usable2.nn {r : Ray2 S} {b : BoundingBox2 S} (h : Usable2 r b) (ho : AllFinite r.origin)
    (hd : AllFinite r.direction) :
    (¬ IsNaN ((b.min.x - r.origin.x) / r.direction.x) ∧ ¬ IsNaN ((b.max.x - r.origin.x) / r.direction.x)) ∧ (¬ IsNaN ((b.min.y - r.origin.y) / r.direction.y) ∧ ¬ IsNaN ((b.max.y - r.origin.y) / r.direction.y)) := by
  obtain ⟨-, hf, hp⟩ := h
  rw [BoundingBox2.allFinite, Point2.allFinite, Point2.allFinite] at hf
  rw [Point2.allFinite] at ho
  rw [Vector2.allFinite] at hd
  exact ⟨⟨cross1_nn ho.1 hd.1 hf.1.1 fun e => (hp.1 e).1, cross1_nn ho.1 hd.1 hf.2.1 fun e => (hp.1 e).2⟩, ⟨cross1_nn ho.2 hd.2 hf.1.2 fun e => (hp.2 e).1, cross1_nn ho.2 hd.2 hf.2.2 fun e => (hp.2 e).2⟩⟩

/-- The test in terms of order only. -/
theorem ray_eq2 {r : Ray2 S} {b : BoundingBox2 S} (h : Usable2 r b) (ho : AllFinite r.origin) (hd : AllFinite r.direction) :
    (hitLo2 b r ≤ hitHi2 b r → ∃ j, Api.intersect b r = some j ∧ ¬ IsNaN j.start ∧ ¬ IsNaN j.stop ∧
      val j.start = hitLo2 b r ∧ val j.stop = hitHi2 b r) ∧
    (¬ hitLo2 b r ≤ hitHi2 b r → (Api.intersect b r : Option (Range S)) = none) := by
  obtain ⟨⟨lx, hx⟩, ⟨ly, hy⟩⟩ := h.nn ho hd
  have s0 : ¬ IsNaN (Scalar.zero : S) := not_nan_zero
  have e0 : ¬ IsNaN (infinity : S) := not_nan_infinity
  have s1 : ¬ IsNaN (fmax Scalar.zero (fmin ((b.min.x - r.origin.x) / r.direction.x) ((b.max.x - r.origin.x) / r.direction.x))) := max_nn s0
  have e1 : ¬ IsNaN (fmin infinity (fmax ((b.min.x - r.origin.x) / r.direction.x) ((b.max.x - r.origin.x) / r.direction.x))) := min_nn e0
  have s2 : ¬ IsNaN (fmax (fmax Scalar.zero (fmin ((b.min.x - r.origin.x) / r.direction.x) ((b.max.x - r.origin.x) / r.direction.x))) (fmin ((b.min.y - r.origin.y) / r.direction.y) ((b.max.y - r.origin.y) / r.direction.y))) := max_nn s1
  have e2 : ¬ IsNaN (fmin (fmin infinity (fmax ((b.min.x - r.origin.x) / r.direction.x) ((b.max.x - r.origin.x) / r.direction.x))) (fmax ((b.min.y - r.origin.y) / r.direction.y) ((b.max.y - r.origin.y) / r.direction.y))) := min_nn e1
  have vs : val (fmax (fmax Scalar.zero (fmin ((b.min.x - r.origin.x) / r.direction.x) ((b.max.x - r.origin.x) / r.direction.x))) (fmin ((b.min.y - r.origin.y) / r.direction.y) ((b.max.y - r.origin.y) / r.direction.y))) = hitLo2 b r := by
    rw [val_max s1 (min_nn ly), val_max s0 (min_nn lx), val_min lx hx, val_min ly hy]; simp [hitLo2, slabLo, cross1]
  have ve : val (fmin (fmin infinity (fmax ((b.min.x - r.origin.x) / r.direction.x) ((b.max.x - r.origin.x) / r.direction.x))) (fmax ((b.min.y - r.origin.y) / r.direction.y) ((b.max.y - r.origin.y) / r.direction.y))) = hitHi2 b r := by
    rw [val_min e1 (max_nn ly), val_min e0 (max_nn lx), val_max lx hx, val_max ly hy]; simp [hitHi2, slabHi, cross1]
  have key : ((fmax (fmax Scalar.zero (fmin ((b.min.x - r.origin.x) / r.direction.x) ((b.max.x - r.origin.x) / r.direction.x))) (fmin ((b.min.y - r.origin.y) / r.direction.y) ((b.max.y - r.origin.y) / r.direction.y))) ≤? (fmin (fmin infinity (fmax ((b.min.x - r.origin.x) / r.direction.x) ((b.max.x - r.origin.x) / r.direction.x))) (fmax ((b.min.y - r.origin.y) / r.direction.y) ((b.max.y - r.origin.y) / r.direction.y)))) = true ↔ hitLo2 b r ≤ hitHi2 b r := by
    rw [le_of_not_nan s2 e2, vs, ve]
  constructor
  · intro hle
    refine ⟨⟨(fmax (fmax Scalar.zero (fmin ((b.min.x - r.origin.x) / r.direction.x) ((b.max.x - r.origin.x) / r.direction.x))) (fmin ((b.min.y - r.origin.y) / r.direction.y) ((b.max.y - r.origin.y) / r.direction.y))), (fmin (fmin infinity (fmax ((b.min.x - r.origin.x) / r.direction.x) ((b.max.x - r.origin.x) / r.direction.x))) (fmax ((b.min.y - r.origin.y) / r.direction.y) ((b.max.y - r.origin.y) / r.direction.y)))⟩, ?_, s2, e2, vs, ve⟩
    show BoundingBox2.intersectRay b r = _
    unfold BoundingBox2.intersectRay
    have g1 : ¬ ((fmax Scalar.zero (fmin ((b.min.x - r.origin.x) / r.direction.x) ((b.max.x - r.origin.x) / r.direction.x))) >? (fmin infinity (fmax ((b.min.x - r.origin.x) / r.direction.x) ((b.max.x - r.origin.x) / r.direction.x)))) = true := by
      intro hc
      have hc := (lt_iff.1 hc).2.2
      have q1 := (fmax_step (n := (fmin ((b.min.y - r.origin.y) / r.direction.y) ((b.max.y - r.origin.y) / r.direction.y))) s1).2.1
      have q2 := (fmin_step (n := (fmax ((b.min.y - r.origin.y) / r.direction.y) ((b.max.y - r.origin.y) / r.direction.y))) e1).2.1
      rw [vs] at q1
      rw [ve] at q2
      exact absurd (q1.trans (hle.trans q2)) (not_le.2 hc)
    exact ((if_neg g1).trans (if_pos (key.2 hle)))
  · intro hle
    show BoundingBox2.intersectRay b r = _
    simp only [BoundingBox2.intersectRay]
    split_ifs <;> first | rfl | exact absurd (key.1 (by assumption)) hle

/-- A cut box, dimension by dimension, in terms of order only. -/
theorem split_order2 {r : Ray2 S} {b : BoundingBox2 S} {dim : Dimension2} {m : S} (h : Usable2 r b)
    (ho : AllFinite r.origin) (hd : AllFinite r.direction) (h1 : (b.min.index dim ≤? m) = true)
    (h2 : (m ≤? b.max.index dim) = true) (hm : real (r.direction.index dim) = 0 → real (r.origin.index dim) ≠ real m) :
    Usable2 r (b.below dim m) ∧ Usable2 r (b.above dim m) ∧
    ∃ X Y l p u : EReal, l ≤ p ∧ p ≤ u ∧ hitLo2 b r = max X l ∧ hitHi2 b r = min Y u ∧
      ((hitLo2 (b.below dim m) r = max X l ∧ hitHi2 (b.below dim m) r = min Y p ∧
        hitLo2 (b.above dim m) r = max X p ∧ hitHi2 (b.above dim m) r = min Y u) ∨
       (hitLo2 (b.above dim m) r = max X l ∧ hitHi2 (b.above dim m) r = min Y p ∧
        hitLo2 (b.below dim m) r = max X p ∧ hitHi2 (b.below dim m) r = min Y u)) := by
  obtain ⟨hw, hf, hp⟩ := h
  rw [Point2.leAll] at hw
  have hf' := hf
  have hp' := hp
  rw [BoundingBox2.allFinite, Point2.allFinite, Point2.allFinite] at hf'
  rw [Point2.allFinite] at ho
  rw [Vector2.allFinite] at hd
  cases dim with
  | X =>
    change (b.min.x ≤? m) = true at h1
    change (m ≤? b.max.x) = true at h2
    change real r.direction.x = 0 → real r.origin.x ≠ real m at hm
    have fm := finite_between hf'.1.1 hf'.2.1 h1 h2
    refine ⟨⟨Point2.leAll.2 ⟨h1, hw.2⟩, ?_, ?_⟩, ⟨Point2.leAll.2 ⟨h2, hw.2⟩, ?_, ?_⟩, ?_⟩
    · rw [BoundingBox2.allFinite, Point2.allFinite, Point2.allFinite]
      exact ⟨hf'.1, ⟨fm, hf'.2.2⟩⟩
    · exact ⟨fun e => ⟨(hp'.1 e).1, hm e⟩, hp'.2⟩
    · rw [BoundingBox2.allFinite, Point2.allFinite, Point2.allFinite]
      exact ⟨⟨fm, hf'.1.2⟩, hf'.2⟩
    · exact ⟨fun e => ⟨hm e, (hp'.1 e).2⟩, hp'.2⟩
    obtain ⟨p, p1, p2, hcase⟩ := slab_split hf'.1.1 fm hf'.2.1 ho.1 hd.1 (fun e => (hp.1 e).1) hm (fun e => (hp.1 e).2) h1 h2
    refine ⟨max 0 (slabLo b.min.y b.max.y r.origin.y r.direction.y), slabHi b.min.y b.max.y r.origin.y r.direction.y, slabLo b.min.x b.max.x r.origin.x r.direction.x, p, slabHi b.min.x b.max.x r.origin.x r.direction.x, p1, p2, ?_, ?_, ?_⟩
    · unfold hitLo2; ac_rfl
    · unfold hitHi2; ac_rfl
    · simp only [hitLo2, hitHi2, BoundingBox2.below, BoundingBox2.above, Point2.indexMut]
      rcases hcase with ⟨k1, k2, k3, k4⟩ | ⟨k1, k2, k3, k4⟩
      · left; rw [k1, k2, k3, k4]; refine ⟨?_, ?_, ?_, ?_⟩ <;> ac_rfl
      · right; rw [k1, k2, k3, k4]; refine ⟨?_, ?_, ?_, ?_⟩ <;> ac_rfl
  | Y =>
    change (b.min.y ≤? m) = true at h1
    change (m ≤? b.max.y) = true at h2
    change real r.direction.y = 0 → real r.origin.y ≠ real m at hm
    have fm := finite_between hf'.1.2 hf'.2.2 h1 h2
    refine ⟨⟨Point2.leAll.2 ⟨hw.1, h1⟩, ?_, ?_⟩, ⟨Point2.leAll.2 ⟨hw.1, h2⟩, ?_, ?_⟩, ?_⟩
    · rw [BoundingBox2.allFinite, Point2.allFinite, Point2.allFinite]
      exact ⟨hf'.1, ⟨hf'.2.1, fm⟩⟩
    · exact ⟨hp'.1, fun e => ⟨(hp'.2 e).1, hm e⟩⟩
    · rw [BoundingBox2.allFinite, Point2.allFinite, Point2.allFinite]
      exact ⟨⟨hf'.1.1, fm⟩, hf'.2⟩
    · exact ⟨hp'.1, fun e => ⟨hm e, (hp'.2 e).2⟩⟩
    obtain ⟨p, p1, p2, hcase⟩ := slab_split hf'.1.2 fm hf'.2.2 ho.2 hd.2 (fun e => (hp.2 e).1) hm (fun e => (hp.2 e).2) h1 h2
    refine ⟨max 0 (slabLo b.min.x b.max.x r.origin.x r.direction.x), slabHi b.min.x b.max.x r.origin.x r.direction.x, slabLo b.min.y b.max.y r.origin.y r.direction.y, p, slabHi b.min.y b.max.y r.origin.y r.direction.y, p1, p2, ?_, ?_, ?_⟩
    · unfold hitLo2; ac_rfl
    · unfold hitHi2; ac_rfl
    · simp only [hitLo2, hitHi2, BoundingBox2.below, BoundingBox2.above, Point2.indexMut]
      rcases hcase with ⟨k1, k2, k3, k4⟩ | ⟨k1, k2, k3, k4⟩
      · left; rw [k1, k2, k3, k4]; refine ⟨?_, ?_, ?_, ?_⟩ <;> ac_rfl
      · right; rw [k1, k2, k3, k4]; refine ⟨?_, ?_, ?_, ?_⟩ <;> ac_rfl

/-- **C80**, 2D: if a ray hits a box, the ranges of the two parts into which a plane cuts the box make up its range:
one part has it all, or both share it, meeting in exactly the same number. -/
theorem C80_cut2 (b : BoundingBox2 S) (r : Ray2 S) (dim : Dimension2) (m : S) (hb : LeAll b.min b.max) (fb : AllFinite b)
    (hf : OffPlanes2 b r) (ho : AllFinite r.origin) (hd : AllFinite r.direction) (h1 : (b.min.index dim ≤? m) = true)
    (h2 : (m ≤? b.max.index dim) = true) (hm : real (r.direction.index dim) = 0 → real (r.origin.index dim) ≠ real m)
    (i : Range S) (hi : Api.intersect b r = some i) :
    (∃ j, Api.intersect (b.below dim m) r = some j ∧ SameRange j i) ∨
    (∃ j, Api.intersect (b.above dim m) r = some j ∧ SameRange j i) ∨
    (∃ j k, Api.intersect (b.below dim m) r = some j ∧ Api.intersect (b.above dim m) r = some k ∧
      (Joins j k i ∨ Joins k j i)) := by
  have hu : Usable2 r b := ⟨hb, fb, hf⟩
  obtain ⟨u1, u2, X, Y, l, p, u, lp, pu, eL, eH, hc⟩ := split_order2 hu ho hd h1 h2 hm
  obtain ⟨b1, b2⟩ := ray_eq2 hu ho hd
  have hle : hitLo2 b r ≤ hitHi2 b r := by
    by_contra hn
    rw [b2 hn] at hi; exact absurd hi (by simp)
  obtain ⟨i', hi', n1, n2, v1, v2⟩ := b1 hle
  obtain rfl : i' = i := Option.some.inj (hi'.symm.trans hi)
  obtain ⟨l1, -⟩ := ray_eq2 u1 ho hd
  obtain ⟨a1, -⟩ := ray_eq2 u2 ho hd
  rw [eL, eH] at hle
  rcases hc with ⟨c1, c2, c3, c4⟩ | ⟨c1, c2, c3, c4⟩
  · rcases tile_order lp pu hle with ⟨t1, t2⟩ | ⟨t1, t2⟩ | ⟨t1, t2, t3⟩
    · obtain ⟨j, hj, m1, m2, w1, w2⟩ := l1 (by rw [c1, c2]; exact t1)
      exact .inl ⟨j, hj, beq_iff.2 ⟨m1, n1, by rw [w1, v1, c1, eL]⟩, beq_iff.2 ⟨m2, n2, by rw [w2, v2, c2, eH, t2]⟩⟩
    · obtain ⟨j, hj, m1, m2, w1, w2⟩ := a1 (by rw [c3, c4]; exact t1)
      exact .inr (.inl ⟨j, hj, beq_iff.2 ⟨m1, n1, by rw [w1, v1, c3, eL, t2]⟩, beq_iff.2 ⟨m2, n2, by rw [w2, v2, c4, eH]⟩⟩)
    · obtain ⟨j, hj, m1, m2, w1, w2⟩ := l1 (by rw [c1, c2]; exact t1)
      obtain ⟨k, hk, m3, m4, w3, w4⟩ := a1 (by rw [c3, c4]; exact t2)
      exact .inr (.inr ⟨j, k, hj, hk, .inl ⟨beq_iff.2 ⟨m1, n1, by rw [w1, v1, c1, eL]⟩,
        beq_iff.2 ⟨m2, m3, by rw [w2, w3, c2, c3, t3]⟩, beq_iff.2 ⟨m4, n2, by rw [w4, v2, c4, eH]⟩⟩⟩)
  · rcases tile_order lp pu hle with ⟨t1, t2⟩ | ⟨t1, t2⟩ | ⟨t1, t2, t3⟩
    · obtain ⟨j, hj, m1, m2, w1, w2⟩ := a1 (by rw [c1, c2]; exact t1)
      exact .inr (.inl ⟨j, hj, beq_iff.2 ⟨m1, n1, by rw [w1, v1, c1, eL]⟩, beq_iff.2 ⟨m2, n2, by rw [w2, v2, c2, eH, t2]⟩⟩)
    · obtain ⟨j, hj, m1, m2, w1, w2⟩ := l1 (by rw [c3, c4]; exact t1)
      exact .inl ⟨j, hj, beq_iff.2 ⟨m1, n1, by rw [w1, v1, c3, eL, t2]⟩, beq_iff.2 ⟨m2, n2, by rw [w2, v2, c4, eH]⟩⟩
    · obtain ⟨j, hj, m1, m2, w1, w2⟩ := a1 (by rw [c1, c2]; exact t1)
      obtain ⟨k, hk, m3, m4, w3, w4⟩ := l1 (by rw [c3, c4]; exact t2)
      exact .inr (.inr ⟨k, j, hk, hj, .inr ⟨beq_iff.2 ⟨m1, n1, by rw [w1, v1, c1, eL]⟩,
        beq_iff.2 ⟨m2, m3, by rw [w2, w3, c2, c3, t3]⟩, beq_iff.2 ⟨m4, n2, by rw [w4, v2, c4, eH]⟩⟩⟩)

/-- **C80**, 2D: if a ray hits both parts it hits the whole, and the two ranges join to that of the whole. -/
theorem C80_parts2 (b : BoundingBox2 S) (r : Ray2 S) (dim : Dimension2) (m : S) (hb : LeAll b.min b.max) (fb : AllFinite b)
    (hf : OffPlanes2 b r) (ho : AllFinite r.origin) (hd : AllFinite r.direction) (h1 : (b.min.index dim ≤? m) = true)
    (h2 : (m ≤? b.max.index dim) = true) (hm : real (r.direction.index dim) = 0 → real (r.origin.index dim) ≠ real m)
    (j k : Range S) (hj : Api.intersect (b.below dim m) r = some j) (hk : Api.intersect (b.above dim m) r = some k) :
    ∃ i, Api.intersect b r = some i ∧ (Joins j k i ∨ Joins k j i) := by
  have hu : Usable2 r b := ⟨hb, fb, hf⟩
  obtain ⟨u1, u2, X, Y, l, p, u, lp, pu, eL, eH, hc⟩ := split_order2 hu ho hd h1 h2 hm
  obtain ⟨b1, -⟩ := ray_eq2 hu ho hd
  obtain ⟨l1, l2⟩ := ray_eq2 u1 ho hd
  obtain ⟨a1, a2⟩ := ray_eq2 u2 ho hd
  have hl : hitLo2 (b.below dim m) r ≤ hitHi2 (b.below dim m) r := by
    by_contra hn
    rw [l2 hn] at hj; exact absurd hj (by simp)
  have ha : hitLo2 (b.above dim m) r ≤ hitHi2 (b.above dim m) r := by
    by_contra hn
    rw [a2 hn] at hk; exact absurd hk (by simp)
  obtain ⟨j', hj', m1, m2, w1, w2⟩ := l1 hl
  obtain rfl : j' = j := Option.some.inj (hj'.symm.trans hj)
  obtain ⟨k', hk', m3, m4, w3, w4⟩ := a1 ha
  obtain rfl : k' = k := Option.some.inj (hk'.symm.trans hk)
  rcases hc with ⟨c1, c2, c3, c4⟩ | ⟨c1, c2, c3, c4⟩
  · rw [c1, c2] at hl
    rw [c3, c4] at ha
    obtain ⟨t1, t2⟩ := tile_order' lp pu hl ha
    obtain ⟨i, hi, n1, n2, v1, v2⟩ := b1 (by rw [eL, eH]; exact t1)
    exact ⟨i, hi, .inl ⟨beq_iff.2 ⟨m1, n1, by rw [w1, v1, c1, eL]⟩, beq_iff.2 ⟨m2, m3, by rw [w2, w3, c2, c3, t2]⟩,
      beq_iff.2 ⟨m4, n2, by rw [w4, v2, c4, eH]⟩⟩⟩
  · rw [c1, c2] at ha
    rw [c3, c4] at hl
    obtain ⟨t1, t2⟩ := tile_order' lp pu ha hl
    obtain ⟨i, hi, n1, n2, v1, v2⟩ := b1 (by rw [eL, eH]; exact t1)
    exact ⟨i, hi, .inr ⟨beq_iff.2 ⟨m3, n1, by rw [w3, v1, c1, eL]⟩, beq_iff.2 ⟨m4, m1, by rw [w1, w4, c2, c3, t2]⟩,
      beq_iff.2 ⟨m2, n2, by rw [w2, v2, c4, eH]⟩⟩⟩

/-- **C80**, 2D: a kd-tree of any shape has no cracks. Every parameter in the range reported for the box lies in the range
reported for one of its cells; in particular a ray that hits the box hits a cell. -/
theorem C80_kd2 (k : Kd Dimension2 S) (b : BoundingBox2 S) (r : Ray2 S) (hb : LeAll b.min b.max) (fb : AllFinite b)
    (hf : OffPlanes2 b r) (ho : AllFinite r.origin) (hd : AllFinite r.direction) (hc : k.Cuts2 b) (hk : k.OffCuts2 r)
    (i : Range S) (hi : Api.intersect b r = some i) (t : S) (ht1 : (i.start ≤? t) = true) (ht2 : (t ≤? i.stop) = true) :
    ∃ c ∈ k.cells2 b, ∃ j, Api.intersect c r = some j ∧ (j.start ≤? t) = true ∧ (t ≤? j.stop) = true := by
  induction k generalizing b i with
  | cell => exact ⟨b, by simp [Kd.cells2], i, hi, ht1, ht2⟩
  | cut dim m lo up ihl ihu =>
    obtain ⟨⟨h1, h2⟩, cl, cu⟩ := hc
    obtain ⟨hm, kl, ku⟩ := hk
    obtain ⟨⟨wl, fl, pl⟩, ⟨wu, fu, pu⟩, -⟩ := split_order2 ⟨hb, fb, hf⟩ ho hd h1 h2 hm
    simp only [Kd.cells2, List.mem_append]
    have nt : ¬ IsNaN t := (le_nn ht1).2
    have L : ∀ j : Range S, Api.intersect (b.below dim m) r = some j → (j.start ≤? t) = true → (t ≤? j.stop) = true → _ :=
      fun j hj a1 a2 => (ihl (b.below dim m) wl fl pl cl kl j hj a1 a2)
    have U : ∀ j : Range S, Api.intersect (b.above dim m) r = some j → (j.start ≤? t) = true → (t ≤? j.stop) = true → _ :=
      fun j hj a1 a2 => (ihu (b.above dim m) wu fu pu cu ku j hj a1 a2)
    have goL : (∃ c ∈ lo.cells2 (b.below dim m), ∃ j, Api.intersect c r = some j ∧ (j.start ≤? t) = true ∧ (t ≤? j.stop) = true) →
        ∃ c, (c ∈ lo.cells2 (b.below dim m) ∨ c ∈ up.cells2 (b.above dim m)) ∧
          ∃ j, Api.intersect c r = some j ∧ (j.start ≤? t) = true ∧ (t ≤? j.stop) = true :=
      fun ⟨c, hc, h⟩ => ⟨c, .inl hc, h⟩
    have goU : (∃ c ∈ up.cells2 (b.above dim m), ∃ j, Api.intersect c r = some j ∧ (j.start ≤? t) = true ∧ (t ≤? j.stop) = true) →
        ∃ c, (c ∈ lo.cells2 (b.below dim m) ∨ c ∈ up.cells2 (b.above dim m)) ∧
          ∃ j, Api.intersect c r = some j ∧ (j.start ≤? t) = true ∧ (t ≤? j.stop) = true :=
      fun ⟨c, hc, h⟩ => ⟨c, .inr hc, h⟩
    rcases C80_cut2 b r dim m hb fb hf ho hd h1 h2 hm i hi with ⟨j, hj, e1, e2⟩ | ⟨j, hj, e1, e2⟩ | ⟨j, q, hj, hq, hJ⟩
    · exact goL (L j hj (le_trans' (beq_le e1) ht1) (le_trans' ht2 (beq_le (beq_symm e2))))
    · exact goU (U j hj (le_trans' (beq_le e1) ht1) (le_trans' ht2 (beq_le (beq_symm e2))))
    · rcases hJ with ⟨e1, e2, e3⟩ | ⟨e1, e2, e3⟩
      · by_cases hx : (t ≤? j.stop) = true
        · exact goL (L j hj (le_trans' (beq_le e1) ht1) hx)
        · have n := (le_nn (beq_le e2)).1
          have hx : (j.stop ≤? t) = true := by
            rw [le_of_not_nan nt n] at hx
            exact (le_of_not_nan n nt).2 (not_le.1 hx).le
          exact goU (U q hq (le_trans' (beq_le (beq_symm e2)) hx) (le_trans' ht2 (beq_le (beq_symm e3))))
      · by_cases hx : (t ≤? q.stop) = true
        · exact goU (U q hq (le_trans' (beq_le e1) ht1) hx)
        · have n := (le_nn (beq_le e2)).1
          have hx : (q.stop ≤? t) = true := by
            rw [le_of_not_nan nt n] at hx
            exact (le_of_not_nan n nt).2 (not_le.1 hx).le
          exact goL (L j hj (le_trans' (beq_le (beq_symm e2)) hx) (le_trans' ht2 (beq_le (beq_symm e3))))
/-- **C80**, 2D: conversely a ray that hits a cell hits the box, over a range containing that of the cell. -/
theorem C80_cell2 (k : Kd Dimension2 S) (b : BoundingBox2 S) (r : Ray2 S) (hb : LeAll b.min b.max) (fb : AllFinite b)
    (hf : OffPlanes2 b r) (ho : AllFinite r.origin) (hd : AllFinite r.direction) (hc : k.Cuts2 b)
    (c : BoundingBox2 S) (hcell : c ∈ k.cells2 b) (j : Range S) (hj : Api.intersect c r = some j) :
    ∃ i : Range S, Api.intersect b r = some i ∧ (i.start ≤? j.start) = true ∧ (j.stop ≤? i.stop) = true := by
  obtain ⟨wc, hin⟩ := cell_sub2 k b hb hc c hcell
  exact C70_nested2 c b r wc fb ho hd hin hf.offFaces j hj
end

section
variable {S : Type} [Scalar S] [IEEE S]
theorem parts_sub3 (b : BoundingBox3 S) (dim : Dimension3) (m : S) (hb : LeAll b.min b.max)
    (h1 : (b.min.index dim ≤? m) = true) (h2 : (m ≤? b.max.index dim) = true) :
    (LeAll (b.below dim m).min (b.below dim m).max ∧ LeAll (b.above dim m).min (b.above dim m).max) ∧
    ∀ p, b.isInside p = true ↔ ((b.below dim m).isInside p = true ∨ (b.above dim m).isInside p = true) := by
  rw [Point3.leAll] at hb
  have n := (le_nn h1).2
  have tot : ∀ x : S, ¬ IsNaN x → (x ≤? m) = true ∨ (m ≤? x) = true := fun x hx => by
    rw [le_of_not_nan hx n, le_of_not_nan n hx]; exact le_total _ _
  cases dim with
  | X =>
    change (b.min.x ≤? m) = true at h1
    change (m ≤? b.max.x) = true at h2
    refine ⟨⟨Point3.leAll.2 ⟨h1, hb.2.1, hb.2.2⟩, Point3.leAll.2 ⟨h2, hb.2.1, hb.2.2⟩⟩, fun p => ?_⟩
    simp only [isInside3_iff, BoundingBox3.below, BoundingBox3.above, Point3.indexMut]
    constructor
    · intro h
      rcases tot p.x (le_nn h.1.1).2 with q | q
      · exact .inl ⟨⟨h.1.1, q⟩, h.2.1, h.2.2⟩
      · exact .inr ⟨⟨q, h.1.2⟩, h.2.1, h.2.2⟩
    · rintro (h | h)
      · exact ⟨⟨h.1.1, le_trans' h.1.2 h2⟩, h.2.1, h.2.2⟩
      · exact ⟨⟨le_trans' h1 h.1.1, h.1.2⟩, h.2.1, h.2.2⟩
  | Y =>
    change (b.min.y ≤? m) = true at h1
    change (m ≤? b.max.y) = true at h2
    refine ⟨⟨Point3.leAll.2 ⟨hb.1, h1, hb.2.2⟩, Point3.leAll.2 ⟨hb.1, h2, hb.2.2⟩⟩, fun p => ?_⟩
    simp only [isInside3_iff, BoundingBox3.below, BoundingBox3.above, Point3.indexMut]
    constructor
    · intro h
      rcases tot p.y (le_nn h.2.1.1).2 with q | q
      · exact .inl ⟨h.1, ⟨h.2.1.1, q⟩, h.2.2⟩
      · exact .inr ⟨h.1, ⟨q, h.2.1.2⟩, h.2.2⟩
    · rintro (h | h)
      · exact ⟨h.1, ⟨h.2.1.1, le_trans' h.2.1.2 h2⟩, h.2.2⟩
      · exact ⟨h.1, ⟨le_trans' h1 h.2.1.1, h.2.1.2⟩, h.2.2⟩
  | Z =>
    change (b.min.z ≤? m) = true at h1
    change (m ≤? b.max.z) = true at h2
    refine ⟨⟨Point3.leAll.2 ⟨hb.1, hb.2.1, h1⟩, Point3.leAll.2 ⟨hb.1, hb.2.1, h2⟩⟩, fun p => ?_⟩
    simp only [isInside3_iff, BoundingBox3.below, BoundingBox3.above, Point3.indexMut]
    constructor
    · intro h
      rcases tot p.z (le_nn h.2.2.1).2 with q | q
      · exact .inl ⟨h.1, h.2.1, ⟨h.2.2.1, q⟩⟩
      · exact .inr ⟨h.1, h.2.1, ⟨q, h.2.2.2⟩⟩
    · rintro (h | h)
      · exact ⟨h.1, h.2.1, ⟨h.2.2.1, le_trans' h.2.2.2 h2⟩⟩
      · exact ⟨h.1, h.2.1, ⟨le_trans' h1 h.2.2.1, h.2.2.2⟩⟩
/-- **C80**, 3D: the cells are well-formed, they lie in the box, and every point of the box is in one of them. -/
theorem C80_cells3 (k : Kd Dimension3 S) (b : BoundingBox3 S) (hb : LeAll b.min b.max) (hc : k.Cuts3 b) :
    (∀ c ∈ k.cells3 b, LeAll c.min c.max) ∧
    ∀ p, b.isInside p = true ↔ ∃ c ∈ k.cells3 b, c.isInside p = true := by
  induction k generalizing b with
  | cell => simp only [Kd.cells3, List.mem_singleton, forall_eq, exists_eq_left, implies_true, and_true]; exact hb
  | cut dim m lo up ihl ihu =>
    obtain ⟨⟨h1, h2⟩, cl, cu⟩ := hc
    obtain ⟨⟨wl, wu⟩, h⟩ := parts_sub3 b dim m hb h1 h2
    obtain ⟨l1, l2⟩ := ihl _ wl cl
    obtain ⟨u1, u2⟩ := ihu _ wu cu
    simp only [Kd.cells3, List.mem_append]
    refine ⟨fun c hc => hc.elim (l1 c) (u1 c), fun p => ?_⟩
    rw [h p, l2 p, u2 p]
    constructor
    · rintro (⟨c, h1, h2⟩ | ⟨c, h1, h2⟩)
      · exact ⟨c, .inl h1, h2⟩
      · exact ⟨c, .inr h1, h2⟩
    · rintro ⟨c, h1 | h1, h2⟩
      · exact .inl ⟨c, h1, h2⟩
      · exact .inr ⟨c, h1, h2⟩
theorem cell_sub3 (k : Kd Dimension3 S) (b : BoundingBox3 S) (hb : LeAll b.min b.max) (hc : k.Cuts3 b) (c : BoundingBox3 S)
    (h : c ∈ k.cells3 b) : LeAll c.min c.max ∧ ∀ p, c.isInside p = true → b.isInside p = true := by
  obtain ⟨h1, h2⟩ := C80_cells3 k b hb hc
  exact ⟨h1 c h, fun p hp => (h2 p).2 ⟨c, h, hp⟩⟩
end

/-! ## 3 dimensions -/
section
variable {S : Type} [Scalar S] [IEEE S] [Binary S]

/-- The start of the range of the exact order computation. -/
noncomputable def hitLo3 (b : BoundingBox3 S) (r : Ray3 S) : EReal := max (max (max 0 (slabLo b.min.x b.max.x r.origin.x r.direction.x)) (slabLo b.min.y b.max.y r.origin.y r.direction.y)) (slabLo b.min.z b.max.z r.origin.z r.direction.z)
/-- The end of the range. -/
noncomputable def hitHi3 (b : BoundingBox3 S) (r : Ray3 S) : EReal := min (min (slabHi b.min.x b.max.x r.origin.x r.direction.x) (slabHi b.min.y b.max.y r.origin.y r.direction.y)) (slabHi b.min.z b.max.z r.origin.z r.direction.z)

theorem Usable3.nn {r : Ray3 S} {b : BoundingBox3 S} (h : Usable3 r b) (ho : AllFinite r.origin)
    (hd : AllFinite r.direction) :
    (¬ IsNaN ((b.min.x - r.origin.x) / r.direction.x) ∧ ¬ IsNaN ((b.max.x - r.origin.x) / r.direction.x)) ∧ (¬ IsNaN ((b.min.y - r.origin.y) / r.direction.y) ∧ ¬ IsNaN ((b.max.y - r.origin.y) / r.direction.y)) ∧ (¬ IsNaN ((b.min.z - r.origin.z) / r.direction.z) ∧ ¬ IsNaN ((b.max.z - r.origin.z) / r.direction.z)) := by
  obtain ⟨-, hf, hp⟩ := h
  rw [BoundingBox3.allFinite, Point3.allFinite, Point3.allFinite] at hf
  rw [Point3.allFinite] at ho
  rw [Vector3.allFinite] at hd
  exact ⟨⟨cross1_nn ho.1 hd.1 hf.1.1 fun e => (hp.1 e).1, cross1_nn ho.1 hd.1 hf.2.1 fun e => (hp.1 e).2⟩, ⟨cross1_nn ho.2.1 hd.2.1 hf.1.2.1 fun e => (hp.2.1 e).1, cross1_nn ho.2.1 hd.2.1 hf.2.2.1 fun e => (hp.2.1 e).2⟩, ⟨cross1_nn ho.2.2 hd.2.2 hf.1.2.2 fun e => (hp.2.2 e).1, cross1_nn ho.2.2 hd.2.2 hf.2.2.2 fun e => (hp.2.2 e).2⟩⟩

/-- The test in terms of order only. -/
theorem ray_eq3 {r : Ray3 S} {b : BoundingBox3 S} (h : Usable3 r b) (ho : AllFinite r.origin) (hd : AllFinite r.direction) :
    (hitLo3 b r ≤ hitHi3 b r → ∃ j, Api.intersect b r = some j ∧ ¬ IsNaN j.start ∧ ¬ IsNaN j.stop ∧
      val j.start = hitLo3 b r ∧ val j.stop = hitHi3 b r) ∧
    (¬ hitLo3 b r ≤ hitHi3 b r → (Api.intersect b r : Option (Range S)) = none) := by
  obtain ⟨⟨lx, hx⟩, ⟨ly, hy⟩, ⟨lz, hz⟩⟩ := h.nn ho hd
  have s0 : ¬ IsNaN (Scalar.zero : S) := not_nan_zero
  have e0 : ¬ IsNaN (infinity : S) := not_nan_infinity
  have s1 : ¬ IsNaN (fmax Scalar.zero (fmin ((b.min.x - r.origin.x) / r.direction.x) ((b.max.x - r.origin.x) / r.direction.x))) := max_nn s0
  have e1 : ¬ IsNaN (fmin infinity (fmax ((b.min.x - r.origin.x) / r.direction.x) ((b.max.x - r.origin.x) / r.direction.x))) := min_nn e0
  have s2 : ¬ IsNaN (fmax (fmax Scalar.zero (fmin ((b.min.x - r.origin.x) / r.direction.x) ((b.max.x - r.origin.x) / r.direction.x))) (fmin ((b.min.y - r.origin.y) / r.direction.y) ((b.max.y - r.origin.y) / r.direction.y))) := max_nn s1
  have e2 : ¬ IsNaN (fmin (fmin infinity (fmax ((b.min.x - r.origin.x) / r.direction.x) ((b.max.x - r.origin.x) / r.direction.x))) (fmax ((b.min.y - r.origin.y) / r.direction.y) ((b.max.y - r.origin.y) / r.direction.y))) := min_nn e1
  have s3 : ¬ IsNaN (fmax (fmax (fmax Scalar.zero (fmin ((b.min.x - r.origin.x) / r.direction.x) ((b.max.x - r.origin.x) / r.direction.x))) (fmin ((b.min.y - r.origin.y) / r.direction.y) ((b.max.y - r.origin.y) / r.direction.y))) (fmin ((b.min.z - r.origin.z) / r.direction.z) ((b.max.z - r.origin.z) / r.direction.z))) := max_nn s2
  have e3 : ¬ IsNaN (fmin (fmin (fmin infinity (fmax ((b.min.x - r.origin.x) / r.direction.x) ((b.max.x - r.origin.x) / r.direction.x))) (fmax ((b.min.y - r.origin.y) / r.direction.y) ((b.max.y - r.origin.y) / r.direction.y))) (fmax ((b.min.z - r.origin.z) / r.direction.z) ((b.max.z - r.origin.z) / r.direction.z))) := min_nn e2
  have vs : val (fmax (fmax (fmax Scalar.zero (fmin ((b.min.x - r.origin.x) / r.direction.x) ((b.max.x - r.origin.x) / r.direction.x))) (fmin ((b.min.y - r.origin.y) / r.direction.y) ((b.max.y - r.origin.y) / r.direction.y))) (fmin ((b.min.z - r.origin.z) / r.direction.z) ((b.max.z - r.origin.z) / r.direction.z))) = hitLo3 b r := by
    rw [val_max s2 (min_nn lz), val_max s1 (min_nn ly), val_max s0 (min_nn lx), val_min lx hx, val_min ly hy, val_min lz hz]; simp [hitLo3, slabLo, cross1]
  have ve : val (fmin (fmin (fmin infinity (fmax ((b.min.x - r.origin.x) / r.direction.x) ((b.max.x - r.origin.x) / r.direction.x))) (fmax ((b.min.y - r.origin.y) / r.direction.y) ((b.max.y - r.origin.y) / r.direction.y))) (fmax ((b.min.z - r.origin.z) / r.direction.z) ((b.max.z - r.origin.z) / r.direction.z))) = hitHi3 b r := by
    rw [val_min e2 (max_nn lz), val_min e1 (max_nn ly), val_min e0 (max_nn lx), val_max lx hx, val_max ly hy, val_max lz hz]; simp [hitHi3, slabHi, cross1]
  have key : ((fmax (fmax (fmax Scalar.zero (fmin ((b.min.x - r.origin.x) / r.direction.x) ((b.max.x - r.origin.x) / r.direction.x))) (fmin ((b.min.y - r.origin.y) / r.direction.y) ((b.max.y - r.origin.y) / r.direction.y))) (fmin ((b.min.z - r.origin.z) / r.direction.z) ((b.max.z - r.origin.z) / r.direction.z))) ≤? (fmin (fmin (fmin infinity (fmax ((b.min.x - r.origin.x) / r.direction.x) ((b.max.x - r.origin.x) / r.direction.x))) (fmax ((b.min.y - r.origin.y) / r.direction.y) ((b.max.y - r.origin.y) / r.direction.y))) (fmax ((b.min.z - r.origin.z) / r.direction.z) ((b.max.z - r.origin.z) / r.direction.z)))) = true ↔ hitLo3 b r ≤ hitHi3 b r := by
    rw [le_of_not_nan s3 e3, vs, ve]
  constructor
  · intro hle
    refine ⟨⟨(fmax (fmax (fmax Scalar.zero (fmin ((b.min.x - r.origin.x) / r.direction.x) ((b.max.x - r.origin.x) / r.direction.x))) (fmin ((b.min.y - r.origin.y) / r.direction.y) ((b.max.y - r.origin.y) / r.direction.y))) (fmin ((b.min.z - r.origin.z) / r.direction.z) ((b.max.z - r.origin.z) / r.direction.z))), (fmin (fmin (fmin infinity (fmax ((b.min.x - r.origin.x) / r.direction.x) ((b.max.x - r.origin.x) / r.direction.x))) (fmax ((b.min.y - r.origin.y) / r.direction.y) ((b.max.y - r.origin.y) / r.direction.y))) (fmax ((b.min.z - r.origin.z) / r.direction.z) ((b.max.z - r.origin.z) / r.direction.z)))⟩, ?_, s3, e3, vs, ve⟩
    show BoundingBox3.intersectRay b r = _
    unfold BoundingBox3.intersectRay
    have g1 : ¬ ((fmax Scalar.zero (fmin ((b.min.x - r.origin.x) / r.direction.x) ((b.max.x - r.origin.x) / r.direction.x))) >? (fmin infinity (fmax ((b.min.x - r.origin.x) / r.direction.x) ((b.max.x - r.origin.x) / r.direction.x)))) = true := by
      intro hc
      have hc := (lt_iff.1 hc).2.2
      have q1 := (fmax_step (n := (fmin ((b.min.y - r.origin.y) / r.direction.y) ((b.max.y - r.origin.y) / r.direction.y))) s1).2.1
      have q2 := (fmin_step (n := (fmax ((b.min.y - r.origin.y) / r.direction.y) ((b.max.y - r.origin.y) / r.direction.y))) e1).2.1
      have q1 := q1.trans (fmax_step (n := (fmin ((b.min.z - r.origin.z) / r.direction.z) ((b.max.z - r.origin.z) / r.direction.z))) s2).2.1
      have q2 := (fmin_step (n := (fmax ((b.min.z - r.origin.z) / r.direction.z) ((b.max.z - r.origin.z) / r.direction.z))) e2).2.1.trans q2
      rw [vs] at q1
      rw [ve] at q2
      exact absurd (q1.trans (hle.trans q2)) (not_le.2 hc)
    have g2 : ¬ ((fmax (fmax Scalar.zero (fmin ((b.min.x - r.origin.x) / r.direction.x) ((b.max.x - r.origin.x) / r.direction.x))) (fmin ((b.min.y - r.origin.y) / r.direction.y) ((b.max.y - r.origin.y) / r.direction.y))) >? (fmin (fmin infinity (fmax ((b.min.x - r.origin.x) / r.direction.x) ((b.max.x - r.origin.x) / r.direction.x))) (fmax ((b.min.y - r.origin.y) / r.direction.y) ((b.max.y - r.origin.y) / r.direction.y)))) = true := by
      intro hc
      have hc := (lt_iff.1 hc).2.2
      have q1 := (fmax_step (n := (fmin ((b.min.z - r.origin.z) / r.direction.z) ((b.max.z - r.origin.z) / r.direction.z))) s2).2.1
      have q2 := (fmin_step (n := (fmax ((b.min.z - r.origin.z) / r.direction.z) ((b.max.z - r.origin.z) / r.direction.z))) e2).2.1
      rw [vs] at q1
      rw [ve] at q2
      exact absurd (q1.trans (hle.trans q2)) (not_le.2 hc)
    exact ((if_neg g1).trans ((if_neg g2).trans (if_pos (key.2 hle))))
  · intro hle
    show BoundingBox3.intersectRay b r = _
    simp only [BoundingBox3.intersectRay]
    split_ifs <;> first | rfl | exact absurd (key.1 (by assumption)) hle

/-- A cut box, dimension by dimension, in terms of order only. -/
theorem split_order3 {r : Ray3 S} {b : BoundingBox3 S} {dim : Dimension3} {m : S} (h : Usable3 r b)
    (ho : AllFinite r.origin) (hd : AllFinite r.direction) (h1 : (b.min.index dim ≤? m) = true)
    (h2 : (m ≤? b.max.index dim) = true) (hm : real (r.direction.index dim) = 0 → real (r.origin.index dim) ≠ real m) :
    Usable3 r (b.below dim m) ∧ Usable3 r (b.above dim m) ∧
    ∃ X Y l p u : EReal, l ≤ p ∧ p ≤ u ∧ hitLo3 b r = max X l ∧ hitHi3 b r = min Y u ∧
      ((hitLo3 (b.below dim m) r = max X l ∧ hitHi3 (b.below dim m) r = min Y p ∧
        hitLo3 (b.above dim m) r = max X p ∧ hitHi3 (b.above dim m) r = min Y u) ∨
       (hitLo3 (b.above dim m) r = max X l ∧ hitHi3 (b.above dim m) r = min Y p ∧
        hitLo3 (b.below dim m) r = max X p ∧ hitHi3 (b.below dim m) r = min Y u)) := by
  obtain ⟨hw, hf, hp⟩ := h
  rw [Point3.leAll] at hw
  have hf' := hf
  have hp' := hp
  rw [BoundingBox3.allFinite, Point3.allFinite, Point3.allFinite] at hf'
  rw [Point3.allFinite] at ho
  rw [Vector3.allFinite] at hd
  cases dim with
  | X =>
    change (b.min.x ≤? m) = true at h1
    change (m ≤? b.max.x) = true at h2
    change real r.direction.x = 0 → real r.origin.x ≠ real m at hm
    have fm := finite_between hf'.1.1 hf'.2.1 h1 h2
    refine ⟨⟨Point3.leAll.2 ⟨h1, hw.2.1, hw.2.2⟩, ?_, ?_⟩, ⟨Point3.leAll.2 ⟨h2, hw.2.1, hw.2.2⟩, ?_, ?_⟩, ?_⟩
    · rw [BoundingBox3.allFinite, Point3.allFinite, Point3.allFinite]
      exact ⟨hf'.1, ⟨fm, hf'.2.2.1, hf'.2.2.2⟩⟩
    · exact ⟨fun e => ⟨(hp'.1 e).1, hm e⟩, hp'.2.1, hp'.2.2⟩
    · rw [BoundingBox3.allFinite, Point3.allFinite, Point3.allFinite]
      exact ⟨⟨fm, hf'.1.2.1, hf'.1.2.2⟩, hf'.2⟩
    · exact ⟨fun e => ⟨hm e, (hp'.1 e).2⟩, hp'.2.1, hp'.2.2⟩
    obtain ⟨p, p1, p2, hcase⟩ := slab_split hf'.1.1 fm hf'.2.1 ho.1 hd.1 (fun e => (hp.1 e).1) hm (fun e => (hp.1 e).2) h1 h2
    refine ⟨max (max 0 (slabLo b.min.y b.max.y r.origin.y r.direction.y)) (slabLo b.min.z b.max.z r.origin.z r.direction.z), min (slabHi b.min.y b.max.y r.origin.y r.direction.y) (slabHi b.min.z b.max.z r.origin.z r.direction.z), slabLo b.min.x b.max.x r.origin.x r.direction.x, p, slabHi b.min.x b.max.x r.origin.x r.direction.x, p1, p2, ?_, ?_, ?_⟩
    · unfold hitLo3; ac_rfl
    · unfold hitHi3; ac_rfl
    · simp only [hitLo3, hitHi3, BoundingBox3.below, BoundingBox3.above, Point3.indexMut]
      rcases hcase with ⟨k1, k2, k3, k4⟩ | ⟨k1, k2, k3, k4⟩
      · left; rw [k1, k2, k3, k4]; refine ⟨?_, ?_, ?_, ?_⟩ <;> ac_rfl
      · right; rw [k1, k2, k3, k4]; refine ⟨?_, ?_, ?_, ?_⟩ <;> ac_rfl
  | Y =>
    change (b.min.y ≤? m) = true at h1
    change (m ≤? b.max.y) = true at h2
    change real r.direction.y = 0 → real r.origin.y ≠ real m at hm
    have fm := finite_between hf'.1.2.1 hf'.2.2.1 h1 h2
    refine ⟨⟨Point3.leAll.2 ⟨hw.1, h1, hw.2.2⟩, ?_, ?_⟩, ⟨Point3.leAll.2 ⟨hw.1, h2, hw.2.2⟩, ?_, ?_⟩, ?_⟩
    · rw [BoundingBox3.allFinite, Point3.allFinite, Point3.allFinite]
      exact ⟨hf'.1, ⟨hf'.2.1, fm, hf'.2.2.2⟩⟩
    · exact ⟨hp'.1, fun e => ⟨(hp'.2.1 e).1, hm e⟩, hp'.2.2⟩
    · rw [BoundingBox3.allFinite, Point3.allFinite, Point3.allFinite]
      exact ⟨⟨hf'.1.1, fm, hf'.1.2.2⟩, hf'.2⟩
    · exact ⟨hp'.1, fun e => ⟨hm e, (hp'.2.1 e).2⟩, hp'.2.2⟩
    obtain ⟨p, p1, p2, hcase⟩ := slab_split hf'.1.2.1 fm hf'.2.2.1 ho.2.1 hd.2.1 (fun e => (hp.2.1 e).1) hm (fun e => (hp.2.1 e).2) h1 h2
    refine ⟨max (max 0 (slabLo b.min.x b.max.x r.origin.x r.direction.x)) (slabLo b.min.z b.max.z r.origin.z r.direction.z), min (slabHi b.min.x b.max.x r.origin.x r.direction.x) (slabHi b.min.z b.max.z r.origin.z r.direction.z), slabLo b.min.y b.max.y r.origin.y r.direction.y, p, slabHi b.min.y b.max.y r.origin.y r.direction.y, p1, p2, ?_, ?_, ?_⟩
    · unfold hitLo3; ac_rfl
    · unfold hitHi3; ac_rfl
    · simp only [hitLo3, hitHi3, BoundingBox3.below, BoundingBox3.above, Point3.indexMut]
      rcases hcase with ⟨k1, k2, k3, k4⟩ | ⟨k1, k2, k3, k4⟩
      · left; rw [k1, k2, k3, k4]; refine ⟨?_, ?_, ?_, ?_⟩ <;> ac_rfl
      · right; rw [k1, k2, k3, k4]; refine ⟨?_, ?_, ?_, ?_⟩ <;> ac_rfl
  | Z =>
    change (b.min.z ≤? m) = true at h1
    change (m ≤? b.max.z) = true at h2
    change real r.direction.z = 0 → real r.origin.z ≠ real m at hm
    have fm := finite_between hf'.1.2.2 hf'.2.2.2 h1 h2
    refine ⟨⟨Point3.leAll.2 ⟨hw.1, hw.2.1, h1⟩, ?_, ?_⟩, ⟨Point3.leAll.2 ⟨hw.1, hw.2.1, h2⟩, ?_, ?_⟩, ?_⟩
    · rw [BoundingBox3.allFinite, Point3.allFinite, Point3.allFinite]
      exact ⟨hf'.1, ⟨hf'.2.1, hf'.2.2.1, fm⟩⟩
    · exact ⟨hp'.1, hp'.2.1, fun e => ⟨(hp'.2.2 e).1, hm e⟩⟩
    · rw [BoundingBox3.allFinite, Point3.allFinite, Point3.allFinite]
      exact ⟨⟨hf'.1.1, hf'.1.2.1, fm⟩, hf'.2⟩
    · exact ⟨hp'.1, hp'.2.1, fun e => ⟨hm e, (hp'.2.2 e).2⟩⟩
    obtain ⟨p, p1, p2, hcase⟩ := slab_split hf'.1.2.2 fm hf'.2.2.2 ho.2.2 hd.2.2 (fun e => (hp.2.2 e).1) hm (fun e => (hp.2.2 e).2) h1 h2
    refine ⟨max (max 0 (slabLo b.min.x b.max.x r.origin.x r.direction.x)) (slabLo b.min.y b.max.y r.origin.y r.direction.y), min (slabHi b.min.x b.max.x r.origin.x r.direction.x) (slabHi b.min.y b.max.y r.origin.y r.direction.y), slabLo b.min.z b.max.z r.origin.z r.direction.z, p, slabHi b.min.z b.max.z r.origin.z r.direction.z, p1, p2, ?_, ?_, ?_⟩
    · unfold hitLo3; ac_rfl
    · unfold hitHi3; ac_rfl
    · simp only [hitLo3, hitHi3, BoundingBox3.below, BoundingBox3.above, Point3.indexMut]
      rcases hcase with ⟨k1, k2, k3, k4⟩ | ⟨k1, k2, k3, k4⟩
      · left; rw [k1, k2, k3, k4]; refine ⟨?_, ?_, ?_, ?_⟩ <;> ac_rfl
      · right; rw [k1, k2, k3, k4]; refine ⟨?_, ?_, ?_, ?_⟩ <;> ac_rfl

/-- **C80**, 3D: if a ray hits a box, the ranges of the two parts into which a plane cuts the box make up its range:
one part has it all, or both share it, meeting in exactly the same number. -/
theorem C80_cut3 (b : BoundingBox3 S) (r : Ray3 S) (dim : Dimension3) (m : S) (hb : LeAll b.min b.max) (fb : AllFinite b)
    (hf : OffPlanes3 b r) (ho : AllFinite r.origin) (hd : AllFinite r.direction) (h1 : (b.min.index dim ≤? m) = true)
    (h2 : (m ≤? b.max.index dim) = true) (hm : real (r.direction.index dim) = 0 → real (r.origin.index dim) ≠ real m)
    (i : Range S) (hi : Api.intersect b r = some i) :
    (∃ j, Api.intersect (b.below dim m) r = some j ∧ SameRange j i) ∨
    (∃ j, Api.intersect (b.above dim m) r = some j ∧ SameRange j i) ∨
    (∃ j k, Api.intersect (b.below dim m) r = some j ∧ Api.intersect (b.above dim m) r = some k ∧
      (Joins j k i ∨ Joins k j i)) := by
  have hu : Usable3 r b := ⟨hb, fb, hf⟩
  obtain ⟨u1, u2, X, Y, l, p, u, lp, pu, eL, eH, hc⟩ := split_order3 hu ho hd h1 h2 hm
  obtain ⟨b1, b2⟩ := ray_eq3 hu ho hd
  have hle : hitLo3 b r ≤ hitHi3 b r := by
    by_contra hn
    rw [b2 hn] at hi; exact absurd hi (by simp)
  obtain ⟨i', hi', n1, n2, v1, v2⟩ := b1 hle
  obtain rfl : i' = i := Option.some.inj (hi'.symm.trans hi)
  obtain ⟨l1, -⟩ := ray_eq3 u1 ho hd
  obtain ⟨a1, -⟩ := ray_eq3 u2 ho hd
  rw [eL, eH] at hle
  rcases hc with ⟨c1, c2, c3, c4⟩ | ⟨c1, c2, c3, c4⟩
  · rcases tile_order lp pu hle with ⟨t1, t2⟩ | ⟨t1, t2⟩ | ⟨t1, t2, t3⟩
    · obtain ⟨j, hj, m1, m2, w1, w2⟩ := l1 (by rw [c1, c2]; exact t1)
      exact .inl ⟨j, hj, beq_iff.2 ⟨m1, n1, by rw [w1, v1, c1, eL]⟩, beq_iff.2 ⟨m2, n2, by rw [w2, v2, c2, eH, t2]⟩⟩
    · obtain ⟨j, hj, m1, m2, w1, w2⟩ := a1 (by rw [c3, c4]; exact t1)
      exact .inr (.inl ⟨j, hj, beq_iff.2 ⟨m1, n1, by rw [w1, v1, c3, eL, t2]⟩, beq_iff.2 ⟨m2, n2, by rw [w2, v2, c4, eH]⟩⟩)
    · obtain ⟨j, hj, m1, m2, w1, w2⟩ := l1 (by rw [c1, c2]; exact t1)
      obtain ⟨k, hk, m3, m4, w3, w4⟩ := a1 (by rw [c3, c4]; exact t2)
      exact .inr (.inr ⟨j, k, hj, hk, .inl ⟨beq_iff.2 ⟨m1, n1, by rw [w1, v1, c1, eL]⟩,
        beq_iff.2 ⟨m2, m3, by rw [w2, w3, c2, c3, t3]⟩, beq_iff.2 ⟨m4, n2, by rw [w4, v2, c4, eH]⟩⟩⟩)
  · rcases tile_order lp pu hle with ⟨t1, t2⟩ | ⟨t1, t2⟩ | ⟨t1, t2, t3⟩
    · obtain ⟨j, hj, m1, m2, w1, w2⟩ := a1 (by rw [c1, c2]; exact t1)
      exact .inr (.inl ⟨j, hj, beq_iff.2 ⟨m1, n1, by rw [w1, v1, c1, eL]⟩, beq_iff.2 ⟨m2, n2, by rw [w2, v2, c2, eH, t2]⟩⟩)
    · obtain ⟨j, hj, m1, m2, w1, w2⟩ := l1 (by rw [c3, c4]; exact t1)
      exact .inl ⟨j, hj, beq_iff.2 ⟨m1, n1, by rw [w1, v1, c3, eL, t2]⟩, beq_iff.2 ⟨m2, n2, by rw [w2, v2, c4, eH]⟩⟩
    · obtain ⟨j, hj, m1, m2, w1, w2⟩ := a1 (by rw [c1, c2]; exact t1)
      obtain ⟨k, hk, m3, m4, w3, w4⟩ := l1 (by rw [c3, c4]; exact t2)
      exact .inr (.inr ⟨k, j, hk, hj, .inr ⟨beq_iff.2 ⟨m1, n1, by rw [w1, v1, c1, eL]⟩,
        beq_iff.2 ⟨m2, m3, by rw [w2, w3, c2, c3, t3]⟩, beq_iff.2 ⟨m4, n2, by rw [w4, v2, c4, eH]⟩⟩⟩)

/-- **C80**, 3D: if a ray hits both parts it hits the whole, and the two ranges join to that of the whole. -/
theorem C80_parts3 (b : BoundingBox3 S) (r : Ray3 S) (dim : Dimension3) (m : S) (hb : LeAll b.min b.max) (fb : AllFinite b)
    (hf : OffPlanes3 b r) (ho : AllFinite r.origin) (hd : AllFinite r.direction) (h1 : (b.min.index dim ≤? m) = true)
    (h2 : (m ≤? b.max.index dim) = true) (hm : real (r.direction.index dim) = 0 → real (r.origin.index dim) ≠ real m)
    (j k : Range S) (hj : Api.intersect (b.below dim m) r = some j) (hk : Api.intersect (b.above dim m) r = some k) :
    ∃ i, Api.intersect b r = some i ∧ (Joins j k i ∨ Joins k j i) := by
  have hu : Usable3 r b := ⟨hb, fb, hf⟩
  obtain ⟨u1, u2, X, Y, l, p, u, lp, pu, eL, eH, hc⟩ := split_order3 hu ho hd h1 h2 hm
  obtain ⟨b1, -⟩ := ray_eq3 hu ho hd
  obtain ⟨l1, l2⟩ := ray_eq3 u1 ho hd
  obtain ⟨a1, a2⟩ := ray_eq3 u2 ho hd
  have hl : hitLo3 (b.below dim m) r ≤ hitHi3 (b.below dim m) r := by
    by_contra hn
    rw [l2 hn] at hj; exact absurd hj (by simp)
  have ha : hitLo3 (b.above dim m) r ≤ hitHi3 (b.above dim m) r := by
    by_contra hn
    rw [a2 hn] at hk; exact absurd hk (by simp)
  obtain ⟨j', hj', m1, m2, w1, w2⟩ := l1 hl
  obtain rfl : j' = j := Option.some.inj (hj'.symm.trans hj)
  obtain ⟨k', hk', m3, m4, w3, w4⟩ := a1 ha
  obtain rfl : k' = k := Option.some.inj (hk'.symm.trans hk)
  rcases hc with ⟨c1, c2, c3, c4⟩ | ⟨c1, c2, c3, c4⟩
  · rw [c1, c2] at hl
    rw [c3, c4] at ha
    obtain ⟨t1, t2⟩ := tile_order' lp pu hl ha
    obtain ⟨i, hi, n1, n2, v1, v2⟩ := b1 (by rw [eL, eH]; exact t1)
    exact ⟨i, hi, .inl ⟨beq_iff.2 ⟨m1, n1, by rw [w1, v1, c1, eL]⟩, beq_iff.2 ⟨m2, m3, by rw [w2, w3, c2, c3, t2]⟩,
      beq_iff.2 ⟨m4, n2, by rw [w4, v2, c4, eH]⟩⟩⟩
  · rw [c1, c2] at ha
    rw [c3, c4] at hl
    obtain ⟨t1, t2⟩ := tile_order' lp pu ha hl
    obtain ⟨i, hi, n1, n2, v1, v2⟩ := b1 (by rw [eL, eH]; exact t1)
    exact ⟨i, hi, .inr ⟨beq_iff.2 ⟨m3, n1, by rw [w3, v1, c1, eL]⟩, beq_iff.2 ⟨m4, m1, by rw [w1, w4, c2, c3, t2]⟩,
      beq_iff.2 ⟨m2, n2, by rw [w2, v2, c4, eH]⟩⟩⟩

/-- **C80**, 3D: a kd-tree of any shape has no cracks. Every parameter in the range reported for the box lies in the range
reported for one of its cells; in particular a ray that hits the box hits a cell. -/
theorem C80_kd3 (k : Kd Dimension3 S) (b : BoundingBox3 S) (r : Ray3 S) (hb : LeAll b.min b.max) (fb : AllFinite b)
    (hf : OffPlanes3 b r) (ho : AllFinite r.origin) (hd : AllFinite r.direction) (hc : k.Cuts3 b) (hk : k.OffCuts3 r)
    (i : Range S) (hi : Api.intersect b r = some i) (t : S) (ht1 : (i.start ≤? t) = true) (ht2 : (t ≤? i.stop) = true) :
    ∃ c ∈ k.cells3 b, ∃ j, Api.intersect c r = some j ∧ (j.start ≤? t) = true ∧ (t ≤? j.stop) = true := by
  induction k generalizing b i with
  | cell => exact ⟨b, by simp [Kd.cells3], i, hi, ht1, ht2⟩
  | cut dim m lo up ihl ihu =>
    obtain ⟨⟨h1, h2⟩, cl, cu⟩ := hc
    obtain ⟨hm, kl, ku⟩ := hk
    obtain ⟨⟨wl, fl, pl⟩, ⟨wu, fu, pu⟩, -⟩ := split_order3 ⟨hb, fb, hf⟩ ho hd h1 h2 hm
    simp only [Kd.cells3, List.mem_append]
    have nt : ¬ IsNaN t := (le_nn ht1).2
    have L : ∀ j : Range S, Api.intersect (b.below dim m) r = some j → (j.start ≤? t) = true → (t ≤? j.stop) = true → _ :=
      fun j hj a1 a2 => (ihl (b.below dim m) wl fl pl cl kl j hj a1 a2)
    have U : ∀ j : Range S, Api.intersect (b.above dim m) r = some j → (j.start ≤? t) = true → (t ≤? j.stop) = true → _ :=
      fun j hj a1 a2 => (ihu (b.above dim m) wu fu pu cu ku j hj a1 a2)
    have goL : (∃ c ∈ lo.cells3 (b.below dim m), ∃ j, Api.intersect c r = some j ∧ (j.start ≤? t) = true ∧ (t ≤? j.stop) = true) →
        ∃ c, (c ∈ lo.cells3 (b.below dim m) ∨ c ∈ up.cells3 (b.above dim m)) ∧
          ∃ j, Api.intersect c r = some j ∧ (j.start ≤? t) = true ∧ (t ≤? j.stop) = true :=
      fun ⟨c, hc, h⟩ => ⟨c, .inl hc, h⟩
    have goU : (∃ c ∈ up.cells3 (b.above dim m), ∃ j, Api.intersect c r = some j ∧ (j.start ≤? t) = true ∧ (t ≤? j.stop) = true) →
        ∃ c, (c ∈ lo.cells3 (b.below dim m) ∨ c ∈ up.cells3 (b.above dim m)) ∧
          ∃ j, Api.intersect c r = some j ∧ (j.start ≤? t) = true ∧ (t ≤? j.stop) = true :=
      fun ⟨c, hc, h⟩ => ⟨c, .inr hc, h⟩
    rcases C80_cut3 b r dim m hb fb hf ho hd h1 h2 hm i hi with ⟨j, hj, e1, e2⟩ | ⟨j, hj, e1, e2⟩ | ⟨j, q, hj, hq, hJ⟩
    · exact goL (L j hj (le_trans' (beq_le e1) ht1) (le_trans' ht2 (beq_le (beq_symm e2))))
    · exact goU (U j hj (le_trans' (beq_le e1) ht1) (le_trans' ht2 (beq_le (beq_symm e2))))
    · rcases hJ with ⟨e1, e2, e3⟩ | ⟨e1, e2, e3⟩
      · by_cases hx : (t ≤? j.stop) = true
        · exact goL (L j hj (le_trans' (beq_le e1) ht1) hx)
        · have n := (le_nn (beq_le e2)).1
          have hx : (j.stop ≤? t) = true := by
            rw [le_of_not_nan nt n] at hx
            exact (le_of_not_nan n nt).2 (not_le.1 hx).le
          exact goU (U q hq (le_trans' (beq_le (beq_symm e2)) hx) (le_trans' ht2 (beq_le (beq_symm e3))))
      · by_cases hx : (t ≤? q.stop) = true
        · exact goU (U q hq (le_trans' (beq_le e1) ht1) hx)
        · have n := (le_nn (beq_le e2)).1
          have hx : (q.stop ≤? t) = true := by
            rw [le_of_not_nan nt n] at hx
            exact (le_of_not_nan n nt).2 (not_le.1 hx).le
          exact goL (L j hj (le_trans' (beq_le (beq_symm e2)) hx) (le_trans' ht2 (beq_le (beq_symm e3))))
/-- **C80**, 3D: conversely a ray that hits a cell hits the box, over a range containing that of the cell. -/
theorem C80_cell3 (k : Kd Dimension3 S) (b : BoundingBox3 S) (r : Ray3 S) (hb : LeAll b.min b.max) (fb : AllFinite b)
    (hf : OffPlanes3 b r) (ho : AllFinite r.origin) (hd : AllFinite r.direction) (hc : k.Cuts3 b)
    (c : BoundingBox3 S) (hcell : c ∈ k.cells3 b) (j : Range S) (hj : Api.intersect c r = some j) :
    ∃ i : Range S, Api.intersect b r = some i ∧ (i.start ≤? j.start) = true ∧ (j.stop ≤? i.stop) = true := by
  obtain ⟨wc, hin⟩ := cell_sub3 k b hb hc c hcell
  exact C70_nested3 c b r wc fb ho hd hin hf.offFaces j hj
end

end VecMath
