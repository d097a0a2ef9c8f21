import re
H='''import Verif.Spec.Kd
import Verif.Props.FloatCull
/-!
# Cutting a box loses no ray (layer F): C80

The rounded ray/box test is watertight: the ranges reported for the two parts of a box join without gap and without
overlap to the range reported for the whole, although every number in them is rounded. The one exception is a ray
running in the cutting plane. Generated by tools/gen/kd.py.
-/

open Classical
set_option linter.unusedSectionVars false

namespace VecMath
open Scalar IEEE

/-- Order theory of the split. -/
theorem tile_order {α : Type*} [LinearOrder α] {X Y m p M : α} (h1 : m ≤ p) (h2 : p ≤ M) (h : max X m ≤ min Y M) :
    (max X m ≤ min Y p ∧ min Y p = min Y M) ∨ (max X p ≤ min Y M ∧ max X p = max X m) ∨
    (max X m ≤ min Y p ∧ max X p ≤ min Y M ∧ min Y p = max X p) := by
  rw [max_le_iff, le_min_iff, le_min_iff] at h
  obtain ⟨⟨a1, a2⟩, a3, a4⟩ := h
  rcases lt_or_ge p X with hp | hp
  · right; left
    refine ⟨max_le (le_min a1 a2) (le_min (hp.le.trans a1) h2), ?_⟩
    rw [max_eq_left hp.le, max_eq_left (h1.trans hp.le)]
  rcases lt_or_ge Y p with hq | hq
  · left
    refine ⟨max_le (le_min a1 hp) (le_min a3 h1), ?_⟩
    rw [min_eq_left hq.le, min_eq_left (hq.le.trans h2)]
  · right; right
    refine ⟨max_le (le_min a1 hp) (le_min a3 h1), max_le (le_min a1 a2) (le_min hq h2), ?_⟩
    rw [min_eq_right hq, max_eq_right hp]
theorem tile_order' {α : Type*} [LinearOrder α] {X Y m p M : α} (h1 : m ≤ p) (h2 : p ≤ M) (h : max X m ≤ min Y p)
    (h' : max X p ≤ min Y M) : max X m ≤ min Y M ∧ min Y p = max X p := by
  simp only [max_le_iff, le_min_iff] at h h' ⊢
  obtain ⟨⟨a1, a2⟩, a3, a4⟩ := h
  obtain ⟨⟨b1, b2⟩, b3, b4⟩ := h'
  exact ⟨⟨⟨a1, a2⟩, b3, h1.trans h2⟩, by rw [min_eq_right b2, max_eq_right a3]⟩

section
variable {S : Type} [Scalar S] [IEEE S] [Binary S]

/-- The parameter at which the ray crosses the plane at `x` in one dimension. -/
def cross1 (o d x : S) : S := (x - o) / d

theorem cross1_nn {o d x : S} (fo : IsFinite o) (fd : IsFinite d) (fx : IsFinite x) (h : real d = 0 → real o ≠ real x) :
    ¬ IsNaN (cross1 o d x) := by
  have n := isNaN_sub_finite fo fx.not_nan
  by_cases hd : real d = 0
  · exact (val_inf (den_div_zero' n (val_sub_ne n (h hd)) fd hd)).1
  · exact not_nan_div n fd hd
/-- Crossing parameters are monotone in the position of the plane, or antitone. -/
theorem cross1_mono (o d : S) (fo : IsFinite o) (fd : IsFinite d) :
    (∀ x y : S, IsFinite x → IsFinite y → (real d = 0 → real o ≠ real x) → (real d = 0 → real o ≠ real y) →
      (x ≤? y) = true → val (cross1 o d x) ≤ val (cross1 o d y)) ∨
    (∀ x y : S, IsFinite x → IsFinite y → (real d = 0 → real o ≠ real x) → (real d = 0 → real o ≠ real y) →
      (x ≤? y) = true → val (cross1 o d y) ≤ val (cross1 o d x)) := by
  have sub : ∀ x y : S, IsFinite x → IsFinite y → (x ≤? y) = true → val (x - o) ≤ val (y - o) := fun x y fx fy h =>
    val_sub_mono (le_iff.1 h).2.2 le_rfl (isNaN_sub_finite fo fx.not_nan) (isNaN_sub_finite fo fy.not_nan)
  by_cases hd : real d = 0
  · have e : ∀ x : S, IsFinite x → real o ≠ real x →
        val (cross1 o d x) = if (decide (val (x - o) < 0) ^^ (den d).neg?) then ⊥ else ⊤ := fun x fx hx => by
      have n := isNaN_sub_finite fo fx.not_nan
      exact (val_inf (den_div_zero' n (val_sub_ne n hx) fd hd)).2
    cases hn : (den d).neg? with
    | false =>
      left
      intro x y fx fy hx hy h
      rw [e x fx (hx hd), e y fy (hy hd), hn]
      have := sub x y fx fy h
      by_cases h0 : val (y - o) < 0
      · simp [h0, this.trans_lt h0]
      · simp [h0]
    | true =>
      right
      intro x y fx fy hx hy h
      rw [e x fx (hx hd), e y fy (hy hd), hn]
      have := sub x y fx fy h
      by_cases h0 : val (y - o) < 0
      · simp [h0, this.trans_lt h0]
      · simp [h0]
  · rcases lt_or_gt_of_ne hd with h | h
    · right
      intro x y fx fy _ _ hxy
      exact val_div_anti (sub x y fx fy hxy) (isNaN_sub_finite fo fx.not_nan) (isNaN_sub_finite fo fy.not_nan) fd h
    · left
      intro x y fx fy _ _ hxy
      exact val_div_mono (sub x y fx fy hxy) (isNaN_sub_finite fo fx.not_nan) (isNaN_sub_finite fo fy.not_nan) fd h
/-- Lower end of the slab, as a number. -/
noncomputable def slabLo (lo hi o d : S) : EReal := min (val (cross1 o d lo)) (val (cross1 o d hi))
/-- Upper end of the slab, as a number. -/
noncomputable def slabHi (lo hi o d : S) : EReal := max (val (cross1 o d lo)) (val (cross1 o d hi))
theorem slab_split {lo m hi o d : S} (fl : IsFinite lo) (fm : IsFinite m) (fh : IsFinite hi) (fo : IsFinite o)
    (fd : IsFinite d) (hl : real d = 0 → real o ≠ real lo) (hm : real d = 0 → real o ≠ real m)
    (hh : real d = 0 → real o ≠ real hi) (h1 : (lo ≤? m) = true) (h2 : (m ≤? hi) = true) :
    ∃ p : EReal, slabLo lo hi o d ≤ p ∧ p ≤ slabHi lo hi o d ∧
      ((slabLo lo m o d = slabLo lo hi o d ∧ slabHi lo m o d = p ∧ slabLo m hi o d = p ∧ slabHi m hi o d = slabHi lo hi o d) ∨
       (slabLo m hi o d = slabLo lo hi o d ∧ slabHi m hi o d = p ∧ slabLo lo m o d = p ∧ slabHi lo m o d = slabHi lo hi o d)) := by
  refine ⟨val (cross1 o d m), ?_⟩
  unfold slabLo slabHi
  rcases cross1_mono o d fo fd with k | k
  · have a := k lo m fl fm hl hm h1
    have b := k m hi fm fh hm hh h2
    rw [min_eq_left (a.trans b), max_eq_right (a.trans b), min_eq_left a, max_eq_right a, min_eq_left b, max_eq_right b]
    exact ⟨a, b, .inl ⟨rfl, rfl, rfl, rfl⟩⟩
  · have a := k lo m fl fm hl hm h1
    have b := k m hi fm fh hm hh h2
    rw [min_eq_right (b.trans a), max_eq_left (b.trans a), min_eq_right a, max_eq_left a, min_eq_right b, max_eq_left b]
    exact ⟨b, a, .inr ⟨rfl, rfl, rfl, rfl⟩⟩
theorem finite_between {a m b : S} (fa : IsFinite a) (fb : IsFinite b) (h1 : (a ≤? m) = true) (h2 : (m ≤? b) = true) :
    IsFinite m := by
  have h1 := le_iff.1 h1
  have h2 := le_iff.1 h2
  by_contra hf
  rcases Val.not_isFin_iff.1 hf with h | ⟨s, h⟩
  · exact h1.2.1 h
  · obtain ⟨-, v⟩ := val_inf h
    cases s with
    | true => rw [v, fa.val] at h1; simp at h1
    | false => rw [v, fb.val] at h2; simp at h2
end

/-- The range `i` is the range `j`. -/
def SameRange {S : Type} [Scalar S] (j i : Range S) : Prop := (j.start == i.start) = true ∧ (j.stop == i.stop) = true
/-- The ranges `j` and `k`, in this order, join to `i`: no gap, no overlap. -/
def Joins {S : Type} [Scalar S] (j k i : Range S) : Prop :=
  (j.start == i.start) = true ∧ (j.stop == k.start) = true ∧ (k.stop == i.stop) = true
'''
T='''
/-! ## @ dimensions -/
section
variable {S : Type} [Scalar S] [IEEE S] [Binary S]

/-- The start of the range of the exact order computation. -/
noncomputable def hitLo@ (b : BoundingBox@ S) (r : Ray@ S) : EReal := HLO
/-- The end of the range. -/
noncomputable def hitHi@ (b : BoundingBox@ S) (r : Ray@ S) : EReal := HHI

theorem Usable@.nn {r : Ray@ S} {b : BoundingBox@ S} (h : Usable@ r b) (ho : AllFinite r.origin)
    (hd : AllFinite r.direction) :
    NNS := by
  obtain ⟨-, hf, hp⟩ := h
  rw [BoundingBox@.allFinite, Point@.allFinite, Point@.allFinite] at hf
  rw [Point@.allFinite] at ho
  rw [Vector@.allFinite] at hd
  exact ⟨NNP⟩

/-- The test in terms of order only. -/
theorem ray_eq@ {r : Ray@ S} {b : BoundingBox@ S} (h : Usable@ r b) (ho : AllFinite r.origin) (hd : AllFinite r.direction) :
    (hitLo@ b r ≤ hitHi@ b r → ∃ j, Api.intersect b r = some j ∧ ¬ IsNaN j.start ∧ ¬ IsNaN j.stop ∧
      val j.start = hitLo@ b r ∧ val j.stop = hitHi@ b r) ∧
    (¬ hitLo@ b r ≤ hitHi@ b r → (Api.intersect b r : Option (Range S)) = none) := by
  obtain ⟨NPAT⟩ := h.nn ho hd
  have s0 : ¬ IsNaN (Scalar.zero : S) := not_nan_zero
  have e0 : ¬ IsNaN (infinity : S) := not_nan_infinity
STEPS
  have vs : val START = hitLo@ b r := by
    rw [VS]; simp [hitLo@, slabLo, cross1]
  have ve : val STOP = hitHi@ b r := by
    rw [VE]; simp [hitHi@, slabHi, cross1]
  have key : (START ≤? STOP) = true ↔ hitLo@ b r ≤ hitHi@ b r := by
    rw [le_of_not_nan sN eN, vs, ve]
  constructor
  · intro hle
    refine ⟨⟨START, STOP⟩, ?_, sN, eN, vs, ve⟩
    show BoundingBox@.intersectRay b r = _
    unfold BoundingBox@.intersectRay
CASE
    exact IFCHAIN
  · intro hle
    show BoundingBox@.intersectRay b r = _
    simp only [BoundingBox@.intersectRay]
    split_ifs <;> first | rfl | exact absurd (key.1 (by assumption)) hle

/-- A cut box, dimension by dimension, in terms of order only. -/
theorem split_order@ {r : Ray@ S} {b : BoundingBox@ S} {dim : Dimension@} {m : S} (h : Usable@ r b)
    (ho : AllFinite r.origin) (hd : AllFinite r.direction) (h1 : (b.min.index dim ≤? m) = true)
    (h2 : (m ≤? b.max.index dim) = true) (hm : real (r.direction.index dim) = 0 → real (r.origin.index dim) ≠ real m) :
    Usable@ r (b.below dim m) ∧ Usable@ r (b.above dim m) ∧
    ∃ X Y l p u : EReal, l ≤ p ∧ p ≤ u ∧ hitLo@ b r = max X l ∧ hitHi@ b r = min Y u ∧
      ((hitLo@ (b.below dim m) r = max X l ∧ hitHi@ (b.below dim m) r = min Y p ∧
        hitLo@ (b.above dim m) r = max X p ∧ hitHi@ (b.above dim m) r = min Y u) ∨
       (hitLo@ (b.above dim m) r = max X l ∧ hitHi@ (b.above dim m) r = min Y p ∧
        hitLo@ (b.below dim m) r = max X p ∧ hitHi@ (b.below dim m) r = min Y u)) := by
  obtain ⟨hw, hf, hp⟩ := h
  rw [Point@.leAll] at hw
  have hf' := hf
  have hp' := hp
  rw [BoundingBox@.allFinite, Point@.allFinite, Point@.allFinite] at hf'
  rw [Point@.allFinite] at ho
  rw [Vector@.allFinite] at hd
  cases dim with
DIMS

/-- **C80**, @D: if a ray hits a box, the ranges of the two parts into which a plane cuts the box make up its range:
one part has it all, or both share it, meeting in exactly the same number. -/
theorem C80_cut@ (b : BoundingBox@ S) (r : Ray@ S) (dim : Dimension@) (m : S) (hb : LeAll b.min b.max) (fb : AllFinite b)
    (hf : OffPlanes@ b r) (ho : AllFinite r.origin) (hd : AllFinite r.direction) (h1 : (b.min.index dim ≤? m) = true)
    (h2 : (m ≤? b.max.index dim) = true) (hm : real (r.direction.index dim) = 0 → real (r.origin.index dim) ≠ real m)
    (i : Range S) (hi : Api.intersect b r = some i) :
    (∃ j, Api.intersect (b.below dim m) r = some j ∧ SameRange j i) ∨
    (∃ j, Api.intersect (b.above dim m) r = some j ∧ SameRange j i) ∨
    (∃ j k, Api.intersect (b.below dim m) r = some j ∧ Api.intersect (b.above dim m) r = some k ∧
      (Joins j k i ∨ Joins k j i)) := by
  have hu : Usable@ r b := ⟨hb, fb, hf⟩
  obtain ⟨u1, u2, X, Y, l, p, u, lp, pu, eL, eH, hc⟩ := split_order@ hu ho hd h1 h2 hm
  obtain ⟨b1, b2⟩ := ray_eq@ hu ho hd
  have hle : hitLo@ b r ≤ hitHi@ b r := by
    by_contra hn
    rw [b2 hn] at hi; exact absurd hi (by simp)
  obtain ⟨i', hi', n1, n2, v1, v2⟩ := b1 hle
  obtain rfl : i' = i := Option.some.inj (hi'.symm.trans hi)
  obtain ⟨l1, -⟩ := ray_eq@ u1 ho hd
  obtain ⟨a1, -⟩ := ray_eq@ u2 ho hd
  rw [eL, eH] at hle
  rcases hc with ⟨c1, c2, c3, c4⟩ | ⟨c1, c2, c3, c4⟩
  · rcases tile_order lp pu hle with ⟨t1, t2⟩ | ⟨t1, t2⟩ | ⟨t1, t2, t3⟩
    · obtain ⟨j, hj, m1, m2, w1, w2⟩ := l1 (by rw [c1, c2]; exact t1)
      exact .inl ⟨j, hj, beq_iff.2 ⟨m1, n1, by rw [w1, v1, c1, eL]⟩, beq_iff.2 ⟨m2, n2, by rw [w2, v2, c2, eH, t2]⟩⟩
    · obtain ⟨j, hj, m1, m2, w1, w2⟩ := a1 (by rw [c3, c4]; exact t1)
      exact .inr (.inl ⟨j, hj, beq_iff.2 ⟨m1, n1, by rw [w1, v1, c3, eL, t2]⟩, beq_iff.2 ⟨m2, n2, by rw [w2, v2, c4, eH]⟩⟩)
    · obtain ⟨j, hj, m1, m2, w1, w2⟩ := l1 (by rw [c1, c2]; exact t1)
      obtain ⟨k, hk, m3, m4, w3, w4⟩ := a1 (by rw [c3, c4]; exact t2)
      exact .inr (.inr ⟨j, k, hj, hk, .inl ⟨beq_iff.2 ⟨m1, n1, by rw [w1, v1, c1, eL]⟩,
        beq_iff.2 ⟨m2, m3, by rw [w2, w3, c2, c3, t3]⟩, beq_iff.2 ⟨m4, n2, by rw [w4, v2, c4, eH]⟩⟩⟩)
  · rcases tile_order lp pu hle with ⟨t1, t2⟩ | ⟨t1, t2⟩ | ⟨t1, t2, t3⟩
    · obtain ⟨j, hj, m1, m2, w1, w2⟩ := a1 (by rw [c1, c2]; exact t1)
      exact .inr (.inl ⟨j, hj, beq_iff.2 ⟨m1, n1, by rw [w1, v1, c1, eL]⟩, beq_iff.2 ⟨m2, n2, by rw [w2, v2, c2, eH, t2]⟩⟩)
    · obtain ⟨j, hj, m1, m2, w1, w2⟩ := l1 (by rw [c3, c4]; exact t1)
      exact .inl ⟨j, hj, beq_iff.2 ⟨m1, n1, by rw [w1, v1, c3, eL, t2]⟩, beq_iff.2 ⟨m2, n2, by rw [w2, v2, c4, eH]⟩⟩
    · obtain ⟨j, hj, m1, m2, w1, w2⟩ := a1 (by rw [c1, c2]; exact t1)
      obtain ⟨k, hk, m3, m4, w3, w4⟩ := l1 (by rw [c3, c4]; exact t2)
      exact .inr (.inr ⟨k, j, hk, hj, .inr ⟨beq_iff.2 ⟨m1, n1, by rw [w1, v1, c1, eL]⟩,
        beq_iff.2 ⟨m2, m3, by rw [w2, w3, c2, c3, t3]⟩, beq_iff.2 ⟨m4, n2, by rw [w4, v2, c4, eH]⟩⟩⟩)

/-- **C80**, @D: if a ray hits both parts it hits the whole, and the two ranges join to that of the whole. -/
theorem C80_parts@ (b : BoundingBox@ S) (r : Ray@ S) (dim : Dimension@) (m : S) (hb : LeAll b.min b.max) (fb : AllFinite b)
    (hf : OffPlanes@ b r) (ho : AllFinite r.origin) (hd : AllFinite r.direction) (h1 : (b.min.index dim ≤? m) = true)
    (h2 : (m ≤? b.max.index dim) = true) (hm : real (r.direction.index dim) = 0 → real (r.origin.index dim) ≠ real m)
    (j k : Range S) (hj : Api.intersect (b.below dim m) r = some j) (hk : Api.intersect (b.above dim m) r = some k) :
    ∃ i, Api.intersect b r = some i ∧ (Joins j k i ∨ Joins k j i) := by
  have hu : Usable@ r b := ⟨hb, fb, hf⟩
  obtain ⟨u1, u2, X, Y, l, p, u, lp, pu, eL, eH, hc⟩ := split_order@ hu ho hd h1 h2 hm
  obtain ⟨b1, -⟩ := ray_eq@ hu ho hd
  obtain ⟨l1, l2⟩ := ray_eq@ u1 ho hd
  obtain ⟨a1, a2⟩ := ray_eq@ u2 ho hd
  have hl : hitLo@ (b.below dim m) r ≤ hitHi@ (b.below dim m) r := by
    by_contra hn
    rw [l2 hn] at hj; exact absurd hj (by simp)
  have ha : hitLo@ (b.above dim m) r ≤ hitHi@ (b.above dim m) r := by
    by_contra hn
    rw [a2 hn] at hk; exact absurd hk (by simp)
  obtain ⟨j', hj', m1, m2, w1, w2⟩ := l1 hl
  obtain rfl : j' = j := Option.some.inj (hj'.symm.trans hj)
  obtain ⟨k', hk', m3, m4, w3, w4⟩ := a1 ha
  obtain rfl : k' = k := Option.some.inj (hk'.symm.trans hk)
  rcases hc with ⟨c1, c2, c3, c4⟩ | ⟨c1, c2, c3, c4⟩
  · rw [c1, c2] at hl
    rw [c3, c4] at ha
    obtain ⟨t1, t2⟩ := tile_order' lp pu hl ha
    obtain ⟨i, hi, n1, n2, v1, v2⟩ := b1 (by rw [eL, eH]; exact t1)
    exact ⟨i, hi, .inl ⟨beq_iff.2 ⟨m1, n1, by rw [w1, v1, c1, eL]⟩, beq_iff.2 ⟨m2, m3, by rw [w2, w3, c2, c3, t2]⟩,
      beq_iff.2 ⟨m4, n2, by rw [w4, v2, c4, eH]⟩⟩⟩
  · rw [c1, c2] at ha
    rw [c3, c4] at hl
    obtain ⟨t1, t2⟩ := tile_order' lp pu ha hl
    obtain ⟨i, hi, n1, n2, v1, v2⟩ := b1 (by rw [eL, eH]; exact t1)
    exact ⟨i, hi, .inr ⟨beq_iff.2 ⟨m3, n1, by rw [w3, v1, c1, eL]⟩, beq_iff.2 ⟨m4, m1, by rw [w1, w4, c2, c3, t2]⟩,
      beq_iff.2 ⟨m2, n2, by rw [w2, v2, c4, eH]⟩⟩⟩

/-- **C80**, @D: a kd-tree of any shape has no cracks. Every parameter in the range reported for the box lies in the range
reported for one of its cells; in particular a ray that hits the box hits a cell. -/
theorem C80_kd@ (k : Kd Dimension@ S) (b : BoundingBox@ S) (r : Ray@ S) (hb : LeAll b.min b.max) (fb : AllFinite b)
    (hf : OffPlanes@ b r) (ho : AllFinite r.origin) (hd : AllFinite r.direction) (hc : k.Cuts@ b) (hk : k.OffCuts@ r)
    (i : Range S) (hi : Api.intersect b r = some i) (t : S) (ht1 : (i.start ≤? t) = true) (ht2 : (t ≤? i.stop) = true) :
    ∃ c ∈ k.cells@ b, ∃ j, Api.intersect c r = some j ∧ (j.start ≤? t) = true ∧ (t ≤? j.stop) = true := by
  induction k generalizing b i with
  | cell => exact ⟨b, by simp [Kd.cells@], i, hi, ht1, ht2⟩
  | cut dim m lo up ihl ihu =>
    obtain ⟨⟨h1, h2⟩, cl, cu⟩ := hc
    obtain ⟨hm, kl, ku⟩ := hk
    obtain ⟨⟨wl, fl, pl⟩, ⟨wu, fu, pu⟩, -⟩ := split_order@ ⟨hb, fb, hf⟩ ho hd h1 h2 hm
    simp only [Kd.cells@, List.mem_append]
    have nt : ¬ IsNaN t := (le_nn ht1).2
    have L : ∀ j : Range S, Api.intersect (b.below dim m) r = some j → (j.start ≤? t) = true → (t ≤? j.stop) = true → _ :=
      fun j hj a1 a2 => (ihl (b.below dim m) wl fl pl cl kl j hj a1 a2)
    have U : ∀ j : Range S, Api.intersect (b.above dim m) r = some j → (j.start ≤? t) = true → (t ≤? j.stop) = true → _ :=
      fun j hj a1 a2 => (ihu (b.above dim m) wu fu pu cu ku j hj a1 a2)
    have goL : (∃ c ∈ lo.cells@ (b.below dim m), ∃ j, Api.intersect c r = some j ∧ (j.start ≤? t) = true ∧ (t ≤? j.stop) = true) →
        ∃ c, (c ∈ lo.cells@ (b.below dim m) ∨ c ∈ up.cells@ (b.above dim m)) ∧
          ∃ j, Api.intersect c r = some j ∧ (j.start ≤? t) = true ∧ (t ≤? j.stop) = true :=
      fun ⟨c, hc, h⟩ => ⟨c, .inl hc, h⟩
    have goU : (∃ c ∈ up.cells@ (b.above dim m), ∃ j, Api.intersect c r = some j ∧ (j.start ≤? t) = true ∧ (t ≤? j.stop) = true) →
        ∃ c, (c ∈ lo.cells@ (b.below dim m) ∨ c ∈ up.cells@ (b.above dim m)) ∧
          ∃ j, Api.intersect c r = some j ∧ (j.start ≤? t) = true ∧ (t ≤? j.stop) = true :=
      fun ⟨c, hc, h⟩ => ⟨c, .inr hc, h⟩
    rcases C80_cut@ b r dim m hb fb hf ho hd h1 h2 hm i hi with ⟨j, hj, e1, e2⟩ | ⟨j, hj, e1, e2⟩ | ⟨j, q, hj, hq, hJ⟩
    · exact goL (L j hj (le_trans' (beq_le e1) ht1) (le_trans' ht2 (beq_le (beq_symm e2))))
    · exact goU (U j hj (le_trans' (beq_le e1) ht1) (le_trans' ht2 (beq_le (beq_symm e2))))
    · rcases hJ with ⟨e1, e2, e3⟩ | ⟨e1, e2, e3⟩
      · by_cases hx : (t ≤? j.stop) = true
        · exact goL (L j hj (le_trans' (beq_le e1) ht1) hx)
        · have n := (le_nn (beq_le e2)).1
          have hx : (j.stop ≤? t) = true := by
            rw [le_of_not_nan nt n] at hx
            exact (le_of_not_nan n nt).2 (not_le.1 hx).le
          exact goU (U q hq (le_trans' (beq_le (beq_symm e2)) hx) (le_trans' ht2 (beq_le (beq_symm e3))))
      · by_cases hx : (t ≤? q.stop) = true
        · exact goU (U q hq (le_trans' (beq_le e1) ht1) hx)
        · have n := (le_nn (beq_le e2)).1
          have hx : (q.stop ≤? t) = true := by
            rw [le_of_not_nan nt n] at hx
            exact (le_of_not_nan n nt).2 (not_le.1 hx).le
          exact goL (L j hj (le_trans' (beq_le (beq_symm e2)) hx) (le_trans' ht2 (beq_le (beq_symm e3))))
/-- **C80**, @D: conversely a ray that hits a cell hits the box, over a range containing that of the cell. -/
theorem C80_cell@ (k : Kd Dimension@ S) (b : BoundingBox@ S) (r : Ray@ S) (hb : LeAll b.min b.max) (fb : AllFinite b)
    (hf : OffPlanes@ b r) (ho : AllFinite r.origin) (hd : AllFinite r.direction) (hc : k.Cuts@ b)
    (c : BoundingBox@ S) (hcell : c ∈ k.cells@ b) (j : Range S) (hj : Api.intersect c r = some j) :
    ∃ i : Range S, Api.intersect b r = some i ∧ (i.start ≤? j.start) = true ∧ (j.stop ≤? i.stop) = true := by
  obtain ⟨wc, hin⟩ := cell_sub@ k b hb hc c hcell
  exact C70_nested@ c b r wc fb ho hd hin hf.offFaces j hj
end
'''
PRE='''
section
variable {S : Type} [Scalar S] [IEEE S]
theorem parts_sub@ (b : BoundingBox@ S) (dim : Dimension@) (m : S) (hb : LeAll b.min b.max)
    (h1 : (b.min.index dim ≤? m) = true) (h2 : (m ≤? b.max.index dim) = true) :
    (LeAll (b.below dim m).min (b.below dim m).max ∧ LeAll (b.above dim m).min (b.above dim m).max) ∧
    ∀ p, b.isInside p = true ↔ ((b.below dim m).isInside p = true ∨ (b.above dim m).isInside p = true) := by
  rw [Point@.leAll] at hb
  have n := (le_nn h1).2
  have tot : ∀ x : S, ¬ IsNaN x → (x ≤? m) = true ∨ (m ≤? x) = true := fun x hx => by
    rw [le_of_not_nan hx n, le_of_not_nan n hx]; exact le_total _ _
  cases dim with
PDIMS
/-- **C80**, @D: the cells are well-formed, they lie in the box, and every point of the box is in one of them. -/
theorem C80_cells@ (k : Kd Dimension@ S) (b : BoundingBox@ S) (hb : LeAll b.min b.max) (hc : k.Cuts@ b) :
    (∀ c ∈ k.cells@ b, LeAll c.min c.max) ∧
    ∀ p, b.isInside p = true ↔ ∃ c ∈ k.cells@ b, c.isInside p = true := by
  induction k generalizing b with
  | cell => simp only [Kd.cells@, List.mem_singleton, forall_eq, exists_eq_left, implies_true, and_true]; exact hb
  | cut dim m lo up ihl ihu =>
    obtain ⟨⟨h1, h2⟩, cl, cu⟩ := hc
    obtain ⟨⟨wl, wu⟩, h⟩ := parts_sub@ b dim m hb h1 h2
    obtain ⟨l1, l2⟩ := ihl _ wl cl
    obtain ⟨u1, u2⟩ := ihu _ wu cu
    simp only [Kd.cells@, List.mem_append]
    refine ⟨fun c hc => hc.elim (l1 c) (u1 c), fun p => ?_⟩
    rw [h p, l2 p, u2 p]
    constructor
    · rintro (⟨c, h1, h2⟩ | ⟨c, h1, h2⟩)
      · exact ⟨c, .inl h1, h2⟩
      · exact ⟨c, .inr h1, h2⟩
    · rintro ⟨c, h1 | h1, h2⟩
      · exact .inl ⟨c, h1, h2⟩
      · exact .inr ⟨c, h1, h2⟩
theorem cell_sub@ (k : Kd Dimension@ S) (b : BoundingBox@ S) (hb : LeAll b.min b.max) (hc : k.Cuts@ b) (c : BoundingBox@ S)
    (h : c ∈ k.cells@ b) : LeAll c.min c.max ∧ ∀ p, c.isInside p = true → b.isInside p = true := by
  obtain ⟨h1, h2⟩ := C80_cells@ k b hb hc
  exact ⟨h1 c h, fun p hp => (h2 p).2 ⟨c, h, hp⟩⟩
end
'''
out=H
for n in (2,3):
    ax=['x','y','z'][:n]; sel=(['.1','.2'] if n==2 else ['.1','.2.1','.2.2'])
    S=dict(zip(ax,sel))
    sl=lambda f,a:f'{f} b.min.{a} b.max.{a} r.origin.{a} r.direction.{a}'
    def fold(op,z,f):
        s=z
        for a in ax: s=f'{op} {s if s==z else "("+s+")"} ({sl(f,a)})' if s else sl(f,a)
        return s
    HLO=fold('max','0','slabLo')
    HHI=f'min ({sl("slabHi","x")}) ({sl("slabHi","y")})'
    if n==3: HHI=f'min ({HHI}) ({sl("slabHi","z")})'
    cr=lambda c,a:f'(b.{c}.{a} - r.origin.{a}) / r.direction.{a}'
    NNS=' ∧ '.join(f'(¬ IsNaN ({cr("min",a)}) ∧ ¬ IsNaN ({cr("max",a)}))' for a in ax)
    NNP=', '.join(f'⟨cross1_nn ho{S[a]} hd{S[a]} hf.1{S[a]} fun e => (hp{S[a]} e).1, cross1_nn ho{S[a]} hd{S[a]} hf.2{S[a]} fun e => (hp{S[a]} e).2⟩' for a in ax)
    NPAT=', '.join(f'⟨l{a}, h{a}⟩' for a in ax)
    st='Scalar.zero'; en='infinity'; steps='';starts=[];stops=[]
    vs=[];ve=[]
    for i,a in enumerate(ax,1):
        mn=f'(fmin ({cr("min",a)}) ({cr("max",a)}))'; mx=f'(fmax ({cr("min",a)}) ({cr("max",a)}))'
        st=f'(fmax {st} {mn})'; en=f'(fmin {en} {mx})'
        starts.append(st);stops.append(en)
        steps+=f'  have s{i} : ¬ IsNaN {st} := max_nn s{i-1}\n  have e{i} : ¬ IsNaN {en} := min_nn e{i-1}\n'
        vs=[f'val_max s{i-1} (min_nn l{a})']+vs+[f'val_min l{a} h{a}']
        ve=[f'val_min e{i-1} (max_nn l{a})']+ve+[f'val_max l{a} h{a}']
    case=''
    for i in range(1,n):
        case+=f'''    have g{i} : ¬ ({starts[i-1]} >? {stops[i-1]}) = true := by
      intro hc
      have hc := (lt_iff.1 hc).2.2
      have q1 := (fmax_step (n := (fmin ({cr("min",ax[i])}) ({cr("max",ax[i])}))) s{i}).2.1
      have q2 := (fmin_step (n := (fmax ({cr("min",ax[i])}) ({cr("max",ax[i])}))) e{i}).2.1
'''
        for k in range(i+1,n):
            case+=f'''      have q1 := q1.trans (fmax_step (n := (fmin ({cr("min",ax[k])}) ({cr("max",ax[k])}))) s{k}).2.1
      have q2 := (fmin_step (n := (fmax ({cr("min",ax[k])}) ({cr("max",ax[k])}))) e{k}).2.1.trans q2
'''
        case+='''      rw [vs] at q1
      rw [ve] at q2
      exact absurd (q1.trans (hle.trans q2)) (not_le.2 hc)
'''
    ch='(if_pos (key.2 hle))'
    for i in range(n-1,0,-1): ch=f'((if_neg g{i}).trans {ch})'
    spl=' '.join(f'g{i}' for i in range(1,n+1))
    dims=''
    pd=''
    for a in ax:
        oth=[c for c in ax if c!=a]
        A=a.upper()
        upd=lambda f,c: f'{f}'
        X='0'
        for c in oth: X=f'max {X if X=="0" else "("+X+")"} ({sl("slabLo",c)})'
        Y=sl('slabHi',oth[0]) if n==2 else f'min ({sl("slabHi",oth[0])}) ({sl("slabHi",oth[1])})'
        t=lambda f: ', '.join(f(c) for c in ax)
        dims+=f'''  | {A} =>
    change (b.min.{a} ≤? m) = true at h1
    change (m ≤? b.max.{a}) = true at h2
    change real r.direction.{a} = 0 → real r.origin.{a} ≠ real m at hm
    have fm := finite_between hf'.1{S[a]} hf'.2{S[a]} h1 h2
    refine ⟨⟨Point{n}.leAll.2 ⟨{t(lambda c: 'h1' if c==a else 'hw'+S[c])}⟩, ?_, ?_⟩, ⟨Point{n}.leAll.2 ⟨{t(lambda c: 'h2' if c==a else 'hw'+S[c])}⟩, ?_, ?_⟩, ?_⟩
    · rw [BoundingBox{n}.allFinite, Point{n}.allFinite, Point{n}.allFinite]
      exact ⟨hf'.1, ⟨{t(lambda c: 'fm' if c==a else "hf'.2"+S[c])}⟩⟩
    · exact ⟨{t(lambda c: "fun e => ⟨(hp'"+S[c]+" e).1, hm e⟩" if c==a else "hp'"+S[c])}⟩
    · rw [BoundingBox{n}.allFinite, Point{n}.allFinite, Point{n}.allFinite]
      exact ⟨⟨{t(lambda c: 'fm' if c==a else "hf'.1"+S[c])}⟩, hf'.2⟩
    · exact ⟨{t(lambda c: "fun e => ⟨hm e, (hp'"+S[c]+" e).2⟩" if c==a else "hp'"+S[c])}⟩
    obtain ⟨p, p1, p2, hcase⟩ := slab_split hf'.1{S[a]} fm hf'.2{S[a]} ho{S[a]} hd{S[a]} (fun e => (hp{S[a]} e).1) hm (fun e => (hp{S[a]} e).2) h1 h2
    refine ⟨{X}, {Y}, {sl('slabLo',a)}, p, {sl('slabHi',a)}, p1, p2, ?_, ?_, ?_⟩
    · unfold hitLo{n}; ac_rfl
    · unfold hitHi{n}; ac_rfl
    · simp only [hitLo{n}, hitHi{n}, BoundingBox{n}.below, BoundingBox{n}.above, Point{n}.indexMut]
      rcases hcase with ⟨k1, k2, k3, k4⟩ | ⟨k1, k2, k3, k4⟩
      · left; rw [k1, k2, k3, k4]; refine ⟨?_, ?_, ?_, ?_⟩ <;> ac_rfl
      · right; rw [k1, k2, k3, k4]; refine ⟨?_, ?_, ?_, ?_⟩ <;> ac_rfl
'''
        inl=lambda f: '⟨'+', '.join(f(c) for c in ax)+'⟩'
        pd+=f'''  | {A} =>
    change (b.min.{a} ≤? m) = true at h1
    change (m ≤? b.max.{a}) = true at h2
    refine ⟨⟨Point{n}.leAll.2 ⟨{t(lambda c: 'h1' if c==a else 'hb'+S[c])}⟩, Point{n}.leAll.2 ⟨{t(lambda c: 'h2' if c==a else 'hb'+S[c])}⟩⟩, fun p => ?_⟩
    simp only [isInside{n}_iff, BoundingBox{n}.below, BoundingBox{n}.above, Point{n}.indexMut]
    constructor
    · intro h
      rcases tot p.{a} (le_nn h{S[a]}.1).2 with q | q
      · exact .inl {inl(lambda c: f'⟨h{S[c]}.1, q⟩' if c==a else 'h'+S[c])}
      · exact .inr {inl(lambda c: f'⟨q, h{S[c]}.2⟩' if c==a else 'h'+S[c])}
    · rintro (h | h)
      · exact {inl(lambda c: f"⟨h{S[c]}.1, le_trans' h{S[c]}.2 h2⟩" if c==a else 'h'+S[c])}
      · exact {inl(lambda c: f"⟨le_trans' h1 h{S[c]}.1, h{S[c]}.2⟩" if c==a else 'h'+S[c])}
'''
    out+=PRE.replace('PDIMS\n',pd).replace('@',str(n))
    tt=T.replace('STEPS\n',steps).replace('VS]',', '.join(vs)+']').replace('VE]',', '.join(ve)+']').replace('START',starts[-1]).replace('STOP',stops[-1])
    tt=tt.replace('HLO',HLO).replace('HHI',HHI).replace('NNS',NNS).replace('NNP',NNP).replace('NPAT',NPAT).replace('CASE\n',case).replace('IFCHAIN',ch).replace('SPL',spl).replace('DIMS\n',dims)
    tt=re.sub(r'\b([seg])N\b',lambda m:m.group(1)+str(n),tt)
    out+=tt.replace('@',str(n))
out+='\nend VecMath\n'
open('/verif/lean/Verif/Props/FloatKd.lean','w').write(out)
