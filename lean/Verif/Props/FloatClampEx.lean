import Verif.Props.FloatClamp
import Verif.Props.FloatAimEx
import Verif.Props.FloatExamples7
import Verif.Props.RealVector
/-!
# Nearest points in exact arithmetic, balls and boxes, and concrete cases (C97)
-/

open Classical

namespace VecMath
open Scalar IEEE

/-- The angle at the clamped coordinate is not acute. -/
theorem clamp_obtuse {lo hi o q : ℝ} (h1 : lo ≤ q) (h2 : q ≤ hi) :
    (o - min (max o lo) hi) ^ 2 + (min (max o lo) hi - q) ^ 2 ≤ (o - q) ^ 2 := by
  rcases le_total o lo with h | h
  · rw [max_eq_right h, min_eq_left (h1.trans h2)]; nlinarith
  · rw [max_eq_left h]
    rcases le_total o hi with h' | h'
    · rw [min_eq_left h']; nlinarith
    · rw [min_eq_right h']; nlinarith
theorem real_clamp {lo hi x : Ideal} (hx : IsFinite x) (hl : IsFinite lo) (hh : IsFinite hi) :
    IsFinite (fmin (fmax x lo) hi) ∧ real (fmin (fmax x lo) hi) = min (max (real x) (real lo)) (real hi) := by
  obtain ⟨n, v⟩ := val_clamp hx.not_nan hl.not_nan hh.not_nan
  have f : IsFinite (fmin (fmax x lo) hi) := finite_fmin (finite_fmax hx hl) hh
  refine ⟨f, ?_⟩
  rw [f.val, hx.val, hl.val, hh.val] at v
  have mx : ∀ a b : ℝ, ((max a b : ℝ) : EReal) = max (a : EReal) b := fun a b => (Monotone.map_max EReal.coe_strictMono.monotone)
  have mn : ∀ a b : ℝ, ((min a b : ℝ) : EReal) = min (a : EReal) b := fun a b => (Monotone.map_min EReal.coe_strictMono.monotone)
  rw [← mx, ← mn] at v
  exact EReal.coe_injective v


/-- **C97**, 2D, exact arithmetic: the clamped point has the coordinates of `o` cut off at the faces; the squared distances
satisfy `|o - c|² + |c - q|² ≤ |o - q|²` for every point `q` of the box, so that `c` is the only nearest point. -/
theorem C97_real2 (b : BoundingBox2 Ideal) (hb : AllFinite b) (wb : LeAll b.min b.max) (o : Point2 Ideal) (ho : AllFinite o) :
    AllFinite (b.clamp o) ∧ (∀ i, (b.clamp o).toReal i = min (max (o.toReal i) (b.min.toReal i)) (b.max.toReal i)) ∧
    ∀ q : Point2 Ideal, AllFinite q → b.isInside q = true →
      real (Api.distance o (b.clamp o)) ^ 2 + real (Api.distance (b.clamp o) q) ^ 2 ≤ real (Api.distance o q) ^ 2 ∧
      ((Api.distance o q ≤? (Api.distance o (b.clamp o) : Ideal)) = true → (q == b.clamp o) = true) := by
  have fb := BoundingBox2.allFinite.1 hb
  rw [Point2.allFinite, Point2.allFinite] at fb
  have fo := Point2.allFinite.1 ho
  have c0 := real_clamp fo.1 fb.1.1 fb.2.1
  have c1 := real_clamp fo.2 fb.1.2 fb.2.2
  have fc : AllFinite (b.clamp o) := Point2.allFinite.2 ⟨c0.1, c1.1⟩
  have val : ∀ i, (b.clamp o).toReal i = min (max (o.toReal i) (b.min.toReal i)) (b.max.toReal i) := by
    intro i; fin_cases i
    exacts [c0.2, c1.2]
  have z : ∀ p q : Point2 Ideal, AllFinite p → AllFinite q → real (Api.distance p q) ^ 2 = ∑ i, (p.toReal i - q.toReal i) ^ 2 := by
    intro p q hp hq
    rw [(C15_real2 p q p (p - p) hp hq hp (Vector2.fin_subp hp hp)).1, Real.sq_sqrt]
    exact Finset.sum_nonneg fun i _ => sq_nonneg _
  refine ⟨fc, val, fun q hq hin => ?_⟩
  rw [BoundingBox2.inside_real hb hq] at hin
  have main : real (Api.distance o (b.clamp o)) ^ 2 + real (Api.distance (b.clamp o) q) ^ 2 ≤ real (Api.distance o q) ^ 2 := by
    rw [z _ _ ho fc, z _ _ fc hq, z _ _ ho hq, ← Finset.sum_add_distrib]
    refine Finset.sum_le_sum fun i _ => ?_
    rw [val i]
    exact clamp_obtuse (hin i).1 (hin i).2
  refine ⟨main, fun hle => ?_⟩
  rw [Ideal.le_real (Point2.fin_distance ho hq) (Point2.fin_distance ho fc)] at hle
  have h0 : 0 ≤ real (Api.distance o q) := by rw [Point2.real_distance ho hq]; exact dist_nonneg
  have h1 : real (Api.distance (b.clamp o) q) ^ 2 ≤ 0 := by nlinarith
  have h2 : real (Api.distance (b.clamp o) q) = 0 := by nlinarith [sq_nonneg (real (Api.distance (b.clamp o) q))]
  rw [Point2.real_distance fc hq, dist_eq_zero] at h2
  rw [Point2.beq_toReal hq fc]
  have := congrArg (fun e => (WithLp.ofLp e : Fin 2 → ℝ)) h2
  exact this.symm
/-- **C97**, 2D: a ball and a box. Some point of the box has a computed distance of at most `r` from `o` exactly if the
clamped point has. -/
theorem C97_ball2 {S : Type} [Scalar S] [IEEE S] (b : BoundingBox2 S) (wb : LeAll b.min b.max) (o : Point2 S) (ho : AllFinite o) (r : S) :
    (Api.distance o (b.clamp o) ≤? r) = true ↔ ∃ q, b.isInside q = true ∧ (Api.distance o q ≤? r) = true :=
  ⟨fun h => ⟨_, (C97_inside2 b wb o).1, h⟩, fun ⟨q, hq, h⟩ => le_trans' (C97_nearest_point2 b o q ho hq).1 h⟩

example := C97_inside2 (cube2 1 3) (cube2_le (by norm_num)) ⟨nan32, int32 8⟩
example := C97_inside2 (cube2 1 3) (cube2_le (by norm_num)) ⟨int32 9, int32 8⟩
example := (C97_inside2 (cube2 1 3) (cube2_le (by norm_num)) ⟨int32 2, int32 3⟩).2 (isInside2_iff.2 ⟨⟨int32_le (by norm_num), int32_le (by norm_num)⟩, ⟨int32_le (by norm_num), int32_le (by norm_num)⟩⟩)
example := C97_nearest_point2 (cube2 1 3) ⟨int32 9, int32 8⟩ ⟨int32 2, int32 3⟩ (Point2.allFinite.2 (by simp [finite_int32])) (isInside2_iff.2 ⟨⟨int32_le (by norm_num), int32_le (by norm_num)⟩, ⟨int32_le (by norm_num), int32_le (by norm_num)⟩⟩)
example := C97_prune2 (cube2 1 3) ⟨int32 9, int32 8⟩ ⟨int32 2, int32 9⟩ (Point2.allFinite.2 (by simp [finite_int32])) ⟨int32 2, int32 3⟩ (isInside2_iff.2 ⟨⟨int32_le (by norm_num), int32_le (by norm_num)⟩, ⟨int32_le (by norm_num), int32_le (by norm_num)⟩⟩)
example := C97_ball2 (cube2 1 3) (cube2_le (by norm_num)) ⟨int32 9, int32 8⟩ (Point2.allFinite.2 (by simp [finite_int32])) (int32 10)
example := C97_contract2 (cube2 1 3) cube2_finite ⟨int32 9, int32 8⟩ ⟨int32 2, int32 9⟩ (Point2.allFinite.2 (by simp [finite_int32])) (Point2.allFinite.2 (by simp [finite_int32]))
/-- A tree of three points. -/
theorem three_points2 : ∀ p ∈ (Tree.node (.leaf ⟨int32 9, int32 8⟩) (.node (.leaf ⟨int32 2, int32 9⟩) (.leaf ⟨int32 0, int32 3⟩)) : Tree (Point2 F32)).leaves, NoNaN p := by
  intro p hp
  simp only [Tree.leaves, List.cons_append, List.nil_append, List.mem_cons, List.not_mem_nil, or_false] at hp
  rcases hp with rfl | rfl | rfl
  all_goals exact (Point2.noNaN.2 (by simp [finite_int32.not_nan]))
example := C97_search2 ⟨int32 2, int32 3⟩ (Point2.allFinite.2 (by simp [finite_int32])) _ three_points2 (fun a b => RelativeDistance.isCloserTo ⟨int32 2, int32 3⟩ (b.clamp ⟨int32 2, int32 3⟩) (a.clamp ⟨int32 2, int32 3⟩)) ⟨int32 2, int32 3⟩
example := C97_best2 ⟨int32 2, int32 3⟩ (Point2.allFinite.2 (by simp [finite_int32])) _ three_points2 (fun a b => RelativeDistance.isCloserTo ⟨int32 2, int32 3⟩ (b.clamp ⟨int32 2, int32 3⟩) (a.clamp ⟨int32 2, int32 3⟩)) ⟨int32 9, int32 8⟩ (Point2.noNaN.2 (by simp [finite_int32.not_nan]))


/-- **C97**, 3D, exact arithmetic: the clamped point has the coordinates of `o` cut off at the faces; the squared distances
satisfy `|o - c|² + |c - q|² ≤ |o - q|²` for every point `q` of the box, so that `c` is the only nearest point. -/
theorem C97_real3 (b : BoundingBox3 Ideal) (hb : AllFinite b) (wb : LeAll b.min b.max) (o : Point3 Ideal) (ho : AllFinite o) :
    AllFinite (b.clamp o) ∧ (∀ i, (b.clamp o).toReal i = min (max (o.toReal i) (b.min.toReal i)) (b.max.toReal i)) ∧
    ∀ q : Point3 Ideal, AllFinite q → b.isInside q = true →
      real (Api.distance o (b.clamp o)) ^ 2 + real (Api.distance (b.clamp o) q) ^ 2 ≤ real (Api.distance o q) ^ 2 ∧
      ((Api.distance o q ≤? (Api.distance o (b.clamp o) : Ideal)) = true → (q == b.clamp o) = true) := by
  have fb := BoundingBox3.allFinite.1 hb
  rw [Point3.allFinite, Point3.allFinite] at fb
  have fo := Point3.allFinite.1 ho
  have c0 := real_clamp fo.1 fb.1.1 fb.2.1
  have c1 := real_clamp fo.2.1 fb.1.2.1 fb.2.2.1
  have c2 := real_clamp fo.2.2 fb.1.2.2 fb.2.2.2
  have fc : AllFinite (b.clamp o) := Point3.allFinite.2 ⟨c0.1, c1.1, c2.1⟩
  have val : ∀ i, (b.clamp o).toReal i = min (max (o.toReal i) (b.min.toReal i)) (b.max.toReal i) := by
    intro i; fin_cases i
    exacts [c0.2, c1.2, c2.2]
  have z : ∀ p q : Point3 Ideal, AllFinite p → AllFinite q → real (Api.distance p q) ^ 2 = ∑ i, (p.toReal i - q.toReal i) ^ 2 := by
    intro p q hp hq
    rw [(C15_real3 p q p (p - p) hp hq hp (Vector3.fin_subp hp hp)).1, Real.sq_sqrt]
    exact Finset.sum_nonneg fun i _ => sq_nonneg _
  refine ⟨fc, val, fun q hq hin => ?_⟩
  rw [BoundingBox3.inside_real hb hq] at hin
  have main : real (Api.distance o (b.clamp o)) ^ 2 + real (Api.distance (b.clamp o) q) ^ 2 ≤ real (Api.distance o q) ^ 2 := by
    rw [z _ _ ho fc, z _ _ fc hq, z _ _ ho hq, ← Finset.sum_add_distrib]
    refine Finset.sum_le_sum fun i _ => ?_
    rw [val i]
    exact clamp_obtuse (hin i).1 (hin i).2
  refine ⟨main, fun hle => ?_⟩
  rw [Ideal.le_real (Point3.fin_distance ho hq) (Point3.fin_distance ho fc)] at hle
  have h0 : 0 ≤ real (Api.distance o q) := by rw [Point3.real_distance ho hq]; exact dist_nonneg
  have h1 : real (Api.distance (b.clamp o) q) ^ 2 ≤ 0 := by nlinarith
  have h2 : real (Api.distance (b.clamp o) q) = 0 := by nlinarith [sq_nonneg (real (Api.distance (b.clamp o) q))]
  rw [Point3.real_distance fc hq, dist_eq_zero] at h2
  rw [Point3.beq_toReal hq fc]
  have := congrArg (fun e => (WithLp.ofLp e : Fin 3 → ℝ)) h2
  exact this.symm
/-- **C97**, 3D: a ball and a box. Some point of the box has a computed distance of at most `r` from `o` exactly if the
clamped point has. -/
theorem C97_ball3 {S : Type} [Scalar S] [IEEE S] (b : BoundingBox3 S) (wb : LeAll b.min b.max) (o : Point3 S) (ho : AllFinite o) (r : S) :
    (Api.distance o (b.clamp o) ≤? r) = true ↔ ∃ q, b.isInside q = true ∧ (Api.distance o q ≤? r) = true :=
  ⟨fun h => ⟨_, (C97_inside3 b wb o).1, h⟩, fun ⟨q, hq, h⟩ => le_trans' (C97_nearest_point3 b o q ho hq).1 h⟩

example := C97_inside3 (cube3 1 3) (cube3_le (by norm_num)) ⟨nan32, int32 8, int32 7⟩
example := C97_inside3 (cube3 1 3) (cube3_le (by norm_num)) ⟨int32 9, int32 8, int32 7⟩
example := (C97_inside3 (cube3 1 3) (cube3_le (by norm_num)) ⟨int32 2, int32 3, int32 1⟩).2 (isInside3_iff.2 ⟨⟨int32_le (by norm_num), int32_le (by norm_num)⟩, ⟨int32_le (by norm_num), int32_le (by norm_num)⟩, ⟨int32_le (by norm_num), int32_le (by norm_num)⟩⟩)
example := C97_nearest_point3 (cube3 1 3) ⟨int32 9, int32 8, int32 7⟩ ⟨int32 2, int32 3, int32 1⟩ (Point3.allFinite.2 (by simp [finite_int32])) (isInside3_iff.2 ⟨⟨int32_le (by norm_num), int32_le (by norm_num)⟩, ⟨int32_le (by norm_num), int32_le (by norm_num)⟩, ⟨int32_le (by norm_num), int32_le (by norm_num)⟩⟩)
example := C97_prune3 (cube3 1 3) ⟨int32 9, int32 8, int32 7⟩ ⟨int32 2, int32 9, int32 0⟩ (Point3.allFinite.2 (by simp [finite_int32])) ⟨int32 2, int32 3, int32 1⟩ (isInside3_iff.2 ⟨⟨int32_le (by norm_num), int32_le (by norm_num)⟩, ⟨int32_le (by norm_num), int32_le (by norm_num)⟩, ⟨int32_le (by norm_num), int32_le (by norm_num)⟩⟩)
example := C97_ball3 (cube3 1 3) (cube3_le (by norm_num)) ⟨int32 9, int32 8, int32 7⟩ (Point3.allFinite.2 (by simp [finite_int32])) (int32 10)
example := C97_contract3 (cube3 1 3) cube3_finite ⟨int32 9, int32 8, int32 7⟩ ⟨int32 2, int32 9, int32 0⟩ (Point3.allFinite.2 (by simp [finite_int32])) (Point3.allFinite.2 (by simp [finite_int32]))
/-- A tree of three points. -/
theorem three_points3 : ∀ p ∈ (Tree.node (.leaf ⟨int32 9, int32 8, int32 7⟩) (.node (.leaf ⟨int32 2, int32 9, int32 0⟩) (.leaf ⟨int32 0, int32 3, int32 5⟩)) : Tree (Point3 F32)).leaves, NoNaN p := by
  intro p hp
  simp only [Tree.leaves, List.cons_append, List.nil_append, List.mem_cons, List.not_mem_nil, or_false] at hp
  rcases hp with rfl | rfl | rfl
  all_goals exact (Point3.noNaN.2 (by simp [finite_int32.not_nan]))
example := C97_search3 ⟨int32 2, int32 3, int32 1⟩ (Point3.allFinite.2 (by simp [finite_int32])) _ three_points3 (fun a b => RelativeDistance.isCloserTo ⟨int32 2, int32 3, int32 1⟩ (b.clamp ⟨int32 2, int32 3, int32 1⟩) (a.clamp ⟨int32 2, int32 3, int32 1⟩)) ⟨int32 2, int32 3, int32 1⟩
example := C97_best3 ⟨int32 2, int32 3, int32 1⟩ (Point3.allFinite.2 (by simp [finite_int32])) _ three_points3 (fun a b => RelativeDistance.isCloserTo ⟨int32 2, int32 3, int32 1⟩ (b.clamp ⟨int32 2, int32 3, int32 1⟩) (a.clamp ⟨int32 2, int32 3, int32 1⟩)) ⟨int32 9, int32 8, int32 7⟩ (Point3.noNaN.2 (by simp [finite_int32.not_nan]))

end VecMath