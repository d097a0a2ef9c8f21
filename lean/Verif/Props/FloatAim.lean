import Verif.Props.FloatCull
import Verif.Props.FloatEq
import Verif.Props.RealBox
import Verif.Lemmas.Grid
/-!
# Layer F: aiming at a point, and segments (C96)

A ray from `p` along `q - p` is the usual test for the segment from `p` to `q`: parameter 0 is `p`, parameter 1 is
`q`. The rounded intersection test is exact for the end points: a box containing `q` reports a range containing 1, a
box containing `p` reports a range starting at 0, because the slab arithmetic is monotone and `x / x` is exactly 1.
-/

open Classical

namespace VecMath
open Scalar IEEE

section
variable {S : Type} [Scalar S] [IEEE S] [Binary S] {lo hi x o d s e : S}

omit [Binary S] in
/-- A nonzero finite number over itself is exactly one. -/
theorem val_div_self (hd : IsFinite d) (h0 : real d ≠ 0) : ¬ IsNaN (d / d) ∧ val (d / d) = 1 := by
  have h1 : (IEEE.A S).Rep (1 : ℝ) := by
    have := (finite_one (S := S)).rep
    rwa [real_one] at this
  have : den (d / d) = Val.mk false 1 := by
    rw [den_div_fin hd hd h0, div_self h0, Bool.xor_self, Rounding.finish_rep _ h1]
  have hk : Val.mk false 1 = Val.fin 1 := by simp [Val.mk]
  rw [hk] at this
  refine ⟨by unfold IsNaN; rw [this]; simp, by unfold val; rw [this]; simp⟩
omit [Binary S] in
/-- A difference of equal numbers over a nonzero number is zero. -/
theorem val_zero_div (ho : IsFinite o) (hd : IsFinite d) (h0 : real d ≠ 0) : ¬ IsNaN ((o - o) / d) ∧ val ((o - o) / d) = 0 := by
  have hz : IsFinite (o - o) ∧ real (o - o) = 0 := by
    have := sub_finite ho ho
    rw [sub_self] at this
    unfold real IsFinite
    rw [this]
    constructor <;> simp
  have : den ((o - o) / d) = Val.mkZero ((den (o - o)).neg? ^^ (den d).neg?) := by
    rw [den_div_fin hz.1 hd h0, hz.2, zero_div, Rounding.finish_zero]
  refine ⟨fun h => ?_, ?_⟩
  · unfold IsNaN at h; rw [this] at h; revert h; cases ((den (o - o)).neg? ^^ (den d).neg?) <;> simp [Val.mkZero]
  · unfold val; rw [this]; cases ((den (o - o)).neg? ^^ (den d).neg?) <;> simp [Val.mkZero]
omit [Binary S] in
theorem sub_self_div_nan (ho : IsFinite o) (hd : IsFinite d) (h0 : real d = 0) : IsNaN ((o - o) / d) := by
  have hz : IsFinite (o - o) ∧ real (o - o) = 0 := by
    have := sub_finite ho ho
    rw [sub_self] at this
    unfold real IsFinite
    rw [this]
    constructor <;> simp
  exact nan_div_zero hz.1 hd hz.2 h0

/-- The running range of the test contains the value `T`. -/
structure Holds (T : EReal) (s e : S) : Prop where
  ns : ¬ IsNaN s
  ne : ¬ IsNaN e
  start : val s ≤ T
  stop : T ≤ val e

namespace Holds
variable {T : EReal}
omit [Binary S] in
theorem init (h : 0 ≤ T) : Holds T (Scalar.zero : S) infinity :=
  ⟨not_nan_zero, not_nan_infinity, by rw [val_zero]; exact h, by rw [val_infinity]; exact le_top⟩
theorem step (i : Holds T s e) (fl : IsFinite lo) (fh : IsFinite hi) (fo : IsFinite o) (fd : IsFinite d)
    (ho : OffFace lo hi o d) (h1 : (lo ≤? x) = true) (h2 : (x ≤? hi) = true)
    (hx : IsNaN ((x - o) / d) ∨ (¬ IsNaN ((x - o) / d) ∧ val ((x - o) / d) = T)) :
    Holds T (fmax s (fmin ((lo - o) / d) ((hi - o) / d))) (fmin e (fmax ((lo - o) / d) ((hi - o) / d))) := by
  obtain ⟨g1, g2⟩ := slab_mono fl fh fo fd ho h1 h2
  obtain ⟨a1, -, -, a4⟩ := fmax_step (n := fmin ((lo - o) / d) ((hi - o) / d)) i.ns
  obtain ⟨c1, -, -, c4⟩ := fmin_step (n := fmax ((lo - o) / d) ((hi - o) / d)) i.ne
  refine ⟨a1, c1, a4 _ i.start fun hn => ?_, c4 _ i.stop fun hn => ?_⟩
  · rcases hx with h | ⟨h, hv⟩
    · rw [(g1 hn).2 h]; exact bot_le
    · exact ((g1 hn).1 h).trans hv.le
  · rcases hx with h | ⟨h, hv⟩
    · rw [(g2 hn).2 h]; exact le_top
    · exact hv.ge.trans ((g2 hn).1 h)
omit [Binary S] in
theorem not_gt (i : Holds T s e) : ¬ (s >? e) = true := fun hc =>
  absurd (i.start.trans i.stop) (not_le.2 (lt_iff.1 hc).2.2)
omit [Binary S] in
theorem le (i : Holds T s e) : (s ≤? e) = true := le_iff.2 ⟨i.ns, i.ne, i.start.trans i.stop⟩
end Holds

/-- The plane through the target is crossed at parameter one. -/
theorem target_one (fd : IsFinite (x - o)) : IsNaN ((x - o) / (x - o)) ∨
    (¬ IsNaN ((x - o) / (x - o)) ∧ val ((x - o) / (x - o)) = 1) := by
  by_cases h : real (x - o) = 0
  · exact .inl (nan_div_zero fd fd h h)
  · exact .inr (val_div_self fd h)
/-- The plane through the origin is crossed at parameter zero. -/
theorem source_zero (fo : IsFinite o) (fd : IsFinite d) : IsNaN ((o - o) / d) ∨
    (¬ IsNaN ((o - o) / d) ∧ val ((o - o) / d) = 0) := by
  by_cases h : real d = 0
  · exact .inl (sub_self_div_nan fo fd h)
  · exact .inr (val_zero_div fo fd h)
omit [Binary S] in
theorem Holds.at_one (i : Holds 1 s e) : (s ≤? one) = true ∧ (one ≤? e) = true := by
  have h1 : val (one : S) = 1 := by rw [finite_one.val, real_one]; rfl
  exact ⟨le_iff.2 ⟨i.ns, finite_one.not_nan, by rw [h1]; exact i.start⟩,
    le_iff.2 ⟨finite_one.not_nan, i.ne, by rw [h1]; exact i.stop⟩⟩


/-! ## 2D -/

/-- The intersection test of a box containing the point `y`, through whose coordinate planes the ray passes at `T`. -/
theorem holds_ray2 {T : EReal} (hT : 0 ≤ T) (b : BoundingBox2 S) (r : Ray2 S) (y : Point2 S) (fb : AllFinite b) (ho : AllFinite r.origin)
    (hd : AllFinite r.direction) (hf : OffFaces2 b r) (hin : b.isInside y = true)
    (hx : ∀ d, IsNaN ((y.index d - r.origin.index d) / r.direction.index d) ∨
      (¬ IsNaN ((y.index d - r.origin.index d) / r.direction.index d) ∧
        val ((y.index d - r.origin.index d) / r.direction.index d) = T)) :
    ∃ i : Range S, Api.intersect b r = some i ∧ Holds T i.start i.stop := by
  rw [BoundingBox2.allFinite, Point2.allFinite, Point2.allFinite] at fb
  rw [Point2.allFinite] at ho
  rw [Vector2.allFinite] at hd
  rw [isInside2_iff] at hin
  have i0 := Holds.init (S := S) hT
  have i1 := i0.step (x := y.x) fb.1.1 fb.2.1 ho.1 hd.1 hf.1 hin.1.1 hin.1.2 (hx .X)
  have i2 := i1.step (x := y.y) fb.1.2 fb.2.2 ho.2 hd.2 hf.2 hin.2.1 hin.2.2 (hx .Y)
  show ∃ i, b.intersectRay r = some i ∧ _
  simp only [BoundingBox2.intersectRay, Api.min, Api.max, MinMax.min, MinMax.max]
  exact ⟨_, (if_neg i1.not_gt).trans (if_pos i2.le), i2⟩

/-- **C96**, 2D: a ray aimed at a point of a box hits the box, over a range containing the parameter 1 of the point.
-/
theorem C96_aim2 (b : BoundingBox2 S) (p q : Point2 S) (fb : AllFinite b) (hp : AllFinite p) (hd : AllFinite (q - p))
    (hf : OffFaces2 b (Ray2.new p (q - p))) (hq : b.isInside q = true) :
    ∃ i : Range S, Api.intersect b (Ray2.new p (q - p)) = some i ∧ (i.start ≤? one) = true ∧ (one ≤? i.stop) = true := by
  have hd' := Vector2.allFinite.1 hd
  obtain ⟨i, h1, h2⟩ := holds_ray2 (T := 1) zero_le_one b (Ray2.new p (q - p)) q fb hp hd hf hq (fun d => by
    cases d
    · exact target_one hd'.1
    · exact target_one hd'.2)
  exact ⟨i, h1, h2.at_one⟩
/-- **C96**, 2D: a ray starting in a box (also on its boundary, if it does not run in a face) hits it, from 0. -/
theorem C96_from2 (b : BoundingBox2 S) (r : Ray2 S) (fb : AllFinite b) (ho : AllFinite r.origin) (hd : AllFinite r.direction)
    (hf : OffFaces2 b r) (hin : b.isInside r.origin = true) :
    ∃ i : Range S, Api.intersect b r = some i ∧ (i.start == zero) = true := by
  have ho' := Point2.allFinite.1 ho
  have hd' := Vector2.allFinite.1 hd
  obtain ⟨i, h1, h2⟩ := holds_ray2 (T := 0) le_rfl b r r.origin fb ho hd hf hin (fun d => by
    cases d
    · exact source_zero ho'.1 hd'.1
    · exact source_zero ho'.2 hd'.2)
  have h0 := (le_iff.1 (C34_range2 b r i h1).1).2.2
  exact ⟨i, h1, beq_iff.2 ⟨h2.ns, not_nan_zero, le_antisymm (by rw [val_zero]; exact h2.start) h0⟩⟩
/-- **C96**, 2D: for two points of a box the reported range of the ray from one to the other starts at 0 and reaches 1. -/
theorem C96_within2 (b : BoundingBox2 S) (p q : Point2 S) (fb : AllFinite b) (hp : AllFinite p) (hd : AllFinite (q - p))
    (hf : OffFaces2 b (Ray2.new p (q - p))) (hip : b.isInside p = true) (hiq : b.isInside q = true) :
    ∃ i : Range S, Api.intersect b (Ray2.new p (q - p)) = some i ∧ (i.start == zero) = true ∧ (one ≤? i.stop) = true := by
  obtain ⟨i, h1, -, h2⟩ := C96_aim2 b p q fb hp hd hf hiq
  obtain ⟨j, h3, h4⟩ := C96_from2 b (Ray2.new p (q - p)) fb hp hd hf hip
  rw [h1, Option.some.injEq] at h3
  subst h3
  exact ⟨i, h1, h4, h2⟩
/-- **C96**, 2D: in a hierarchy of any shape, the culling search along the ray aimed at `q` finds every box containing `q`. -/
theorem C96_tree2 (p q : Point2 S) (t : Tree (BoundingBox2 S)) (hp : AllFinite p) (hd : AllFinite (q - p))
    (ht : ∀ b ∈ t.leaves, LeAll b.min b.max ∧ AllFinite b ∧ OffPlanes2 b (Ray2.new p (q - p)))
    (b : BoundingBox2 S) (hb : b ∈ t.leaves) (hq : b.isInside q = true) :
    b ∈ t.search Api.union (fun b => (Api.intersect b (Ray2.new p (q - p)) : Option (Range S)).isSome) := by
  rw [C70_search2 _ t hp hd ht, List.mem_filter]
  obtain ⟨i, h, -⟩ := C96_aim2 b p q (ht b hb).2.1 hp hd (ht b hb).2.2.offFaces hq
  exact ⟨hb, by simp [h]⟩


/-! ## 3D -/

/-- The intersection test of a box containing the point `y`, through whose coordinate planes the ray passes at `T`. -/
theorem holds_ray3 {T : EReal} (hT : 0 ≤ T) (b : BoundingBox3 S) (r : Ray3 S) (y : Point3 S) (fb : AllFinite b) (ho : AllFinite r.origin)
    (hd : AllFinite r.direction) (hf : OffFaces3 b r) (hin : b.isInside y = true)
    (hx : ∀ d, IsNaN ((y.index d - r.origin.index d) / r.direction.index d) ∨
      (¬ IsNaN ((y.index d - r.origin.index d) / r.direction.index d) ∧
        val ((y.index d - r.origin.index d) / r.direction.index d) = T)) :
    ∃ i : Range S, Api.intersect b r = some i ∧ Holds T i.start i.stop := by
  rw [BoundingBox3.allFinite, Point3.allFinite, Point3.allFinite] at fb
  rw [Point3.allFinite] at ho
  rw [Vector3.allFinite] at hd
  rw [isInside3_iff] at hin
  have i0 := Holds.init (S := S) hT
  have i1 := i0.step (x := y.x) fb.1.1 fb.2.1 ho.1 hd.1 hf.1 hin.1.1 hin.1.2 (hx .X)
  have i2 := i1.step (x := y.y) fb.1.2.1 fb.2.2.1 ho.2.1 hd.2.1 hf.2.1 hin.2.1.1 hin.2.1.2 (hx .Y)
  have i3 := i2.step (x := y.z) fb.1.2.2 fb.2.2.2 ho.2.2 hd.2.2 hf.2.2 hin.2.2.1 hin.2.2.2 (hx .Z)
  show ∃ i, b.intersectRay r = some i ∧ _
  simp only [BoundingBox3.intersectRay, Api.min, Api.max, MinMax.min, MinMax.max]
  exact ⟨_, (if_neg i1.not_gt).trans ((if_neg i2.not_gt).trans (if_pos i3.le)), i3⟩

/-- **C96**, 3D: a ray aimed at a point of a box hits the box, over a range containing the parameter 1 of the point.
-/
theorem C96_aim3 (b : BoundingBox3 S) (p q : Point3 S) (fb : AllFinite b) (hp : AllFinite p) (hd : AllFinite (q - p))
    (hf : OffFaces3 b (Ray3.new p (q - p))) (hq : b.isInside q = true) :
    ∃ i : Range S, Api.intersect b (Ray3.new p (q - p)) = some i ∧ (i.start ≤? one) = true ∧ (one ≤? i.stop) = true := by
  have hd' := Vector3.allFinite.1 hd
  obtain ⟨i, h1, h2⟩ := holds_ray3 (T := 1) zero_le_one b (Ray3.new p (q - p)) q fb hp hd hf hq (fun d => by
    cases d
    · exact target_one hd'.1
    · exact target_one hd'.2.1
    · exact target_one hd'.2.2)
  exact ⟨i, h1, h2.at_one⟩
/-- **C96**, 3D: a ray starting in a box (also on its boundary, if it does not run in a face) hits it, from 0. -/
theorem C96_from3 (b : BoundingBox3 S) (r : Ray3 S) (fb : AllFinite b) (ho : AllFinite r.origin) (hd : AllFinite r.direction)
    (hf : OffFaces3 b r) (hin : b.isInside r.origin = true) :
    ∃ i : Range S, Api.intersect b r = some i ∧ (i.start == zero) = true := by
  have ho' := Point3.allFinite.1 ho
  have hd' := Vector3.allFinite.1 hd
  obtain ⟨i, h1, h2⟩ := holds_ray3 (T := 0) le_rfl b r r.origin fb ho hd hf hin (fun d => by
    cases d
    · exact source_zero ho'.1 hd'.1
    · exact source_zero ho'.2.1 hd'.2.1
    · exact source_zero ho'.2.2 hd'.2.2)
  have h0 := (le_iff.1 (C34_range3 b r i h1).1).2.2
  exact ⟨i, h1, beq_iff.2 ⟨h2.ns, not_nan_zero, le_antisymm (by rw [val_zero]; exact h2.start) h0⟩⟩
/-- **C96**, 3D: for two points of a box the reported range of the ray from one to the other starts at 0 and reaches 1. -/
theorem C96_within3 (b : BoundingBox3 S) (p q : Point3 S) (fb : AllFinite b) (hp : AllFinite p) (hd : AllFinite (q - p))
    (hf : OffFaces3 b (Ray3.new p (q - p))) (hip : b.isInside p = true) (hiq : b.isInside q = true) :
    ∃ i : Range S, Api.intersect b (Ray3.new p (q - p)) = some i ∧ (i.start == zero) = true ∧ (one ≤? i.stop) = true := by
  obtain ⟨i, h1, -, h2⟩ := C96_aim3 b p q fb hp hd hf hiq
  obtain ⟨j, h3, h4⟩ := C96_from3 b (Ray3.new p (q - p)) fb hp hd hf hip
  rw [h1, Option.some.injEq] at h3
  subst h3
  exact ⟨i, h1, h4, h2⟩
/-- **C96**, 3D: in a hierarchy of any shape, the culling search along the ray aimed at `q` finds every box containing `q`. -/
theorem C96_tree3 (p q : Point3 S) (t : Tree (BoundingBox3 S)) (hp : AllFinite p) (hd : AllFinite (q - p))
    (ht : ∀ b ∈ t.leaves, LeAll b.min b.max ∧ AllFinite b ∧ OffPlanes3 b (Ray3.new p (q - p)))
    (b : BoundingBox3 S) (hb : b ∈ t.leaves) (hq : b.isInside q = true) :
    b ∈ t.search Api.union (fun b => (Api.intersect b (Ray3.new p (q - p)) : Option (Range S)).isSome) := by
  rw [C70_search3 _ t hp hd ht, List.mem_filter]
  obtain ⟨i, h, -⟩ := C96_aim3 b p q (ht b hb).2.1 hp hd (ht b hb).2.2.offFaces hq
  exact ⟨hb, by simp [h]⟩

end
end VecMath