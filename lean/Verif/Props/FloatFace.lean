import Verif.Props.FloatKd
import Verif.Props.FloatExamples2
/-!
# Rays in the plane of a face, in floating point (layer F): C37, and the exception of C80

Generated by tools/gen/face.py.
-/

open Classical
set_option linter.unusedSectionVars false

namespace VecMath
open Scalar IEEE
section
variable {S : Type} [Scalar S] [IEEE S] [Binary S]

/-- Exactly one of the two planes contains the ray: both computed bounds of the slab are the same infinity. -/
theorem slab_one_plane {lo hi o d : S} (fl : IsFinite lo) (fh : IsFinite hi) (fo : IsFinite o) (fd : IsFinite d)
    (h0 : real d = 0) (h : (real o = real lo ∧ real o ≠ real hi) ∨ (real o ≠ real lo ∧ real o = real hi)) :
    ¬ IsNaN (fmin ((lo - o) / d) ((hi - o) / d)) ∧ ¬ IsNaN (fmax ((lo - o) / d) ((hi - o) / d)) ∧
    ((val (fmin ((lo - o) / d) ((hi - o) / d)) = ⊤ ∧ val (fmax ((lo - o) / d) ((hi - o) / d)) = ⊤) ∨
     (val (fmin ((lo - o) / d) ((hi - o) / d)) = ⊥ ∧ val (fmax ((lo - o) / d) ((hi - o) / d)) = ⊥)) := by
  have nan : ∀ {a : S}, IsFinite a → real o = real a → IsNaN ((a - o) / d) := by
    intro a ha h
    have e : real (a - o) = 0 ∧ IsFinite (a - o) := by
      have := sub_finite ha fo
      rw [h, sub_self] at this
      unfold real IsFinite
      rw [this]
      constructor
      · simp
      · simp
    exact nan_div_zero e.2 fd e.1 h0
  have inf : ∀ {a : S}, IsFinite a → real o ≠ real a → ¬ IsNaN ((a - o) / d) ∧
      (val ((a - o) / d) = ⊤ ∨ val ((a - o) / d) = ⊥) := by
    intro a ha h
    have n := isNaN_sub_finite fo ha.not_nan
    obtain ⟨n1, v⟩ := val_inf (den_div_zero' n (val_sub_ne n h) fd h0)
    refine ⟨n1, ?_⟩
    rw [v]; split <;> simp
  rcases h with ⟨h1, h2⟩ | ⟨h1, h2⟩
  · obtain ⟨n, v⟩ := inf fh h2
    have e1 := min_nan_left (b := (hi - o) / d) (nan fl h1)
    have e2 := max_nan_left (b := (hi - o) / d) (nan fl h1)
    rw [e1.isNaN, e2.isNaN, e1.val, e2.val]
    exact ⟨n, n, v.imp (fun h => ⟨h, h⟩) fun h => ⟨h, h⟩⟩
  · obtain ⟨n, v⟩ := inf fl h1
    have e1 := min_nan_right (a := (lo - o) / d) (nan fh h2)
    have e2 := max_nan_right (a := (lo - o) / d) (nan fh h2)
    rw [e1.isNaN, e2.isNaN, e1.val, e2.val]
    exact ⟨n, n, v.imp (fun h => ⟨h, h⟩) fun h => ⟨h, h⟩⟩
theorem real_lt' {a b : S} (ha : IsFinite a) (hb : IsFinite b) : (a <? b) = true ↔ real a < real b := by
  rw [lt_of_not_nan ha.not_nan hb.not_nan, ha.val, hb.val, EReal.coe_lt_coe_iff]
/-- Such a slab leaves only `inf..inf`. -/
theorem degenerate {mn mx s e : S} (ns : ¬ IsNaN s) (ne : ¬ IsNaN e) (h0 : 0 ≤ val s) (h : val s ≤ val e)
    (n1 : ¬ IsNaN mn) (n2 : ¬ IsNaN mx) (hv : (val mn = ⊤ ∧ val mx = ⊤) ∨ (val mn = ⊥ ∧ val mx = ⊥))
    (b1 : ¬ IsNaN mn → val mn ≤ val s) (b2 : ¬ IsNaN mx → val e ≤ val mx) :
    (s == infinity) = true ∧ (e == infinity) = true := by
  rcases hv with ⟨v1, v2⟩ | ⟨v1, v2⟩
  · have := b1 n1
    rw [v1, top_le_iff] at this
    have h' := h
    rw [this, top_le_iff] at h'
    exact ⟨beq_iff.2 ⟨ns, not_nan_infinity, by rw [this]; simp⟩, beq_iff.2 ⟨ne, not_nan_infinity, by rw [h']; simp⟩⟩
  · have := b2 n2
    rw [v2] at this
    have := h0.trans (h.trans this)
    simp at this
end

/-! ## 2 dimensions -/
section
variable {S : Type} [Scalar S] [IEEE S] [Binary S]

/-- What a reported range says about every slab. -/
theorem range_bounds2 {b : BoundingBox2 S} {r : Ray2 S} {j : Range S} (h : Api.intersect b r = some j) :
    ¬ IsNaN j.start ∧ ¬ IsNaN j.stop ∧ 0 ≤ val j.start ∧ val j.start ≤ val j.stop ∧
    (((¬ IsNaN (fmin ((b.min.x - r.origin.x) / r.direction.x) ((b.max.x - r.origin.x) / r.direction.x)) → val (fmin ((b.min.x - r.origin.x) / r.direction.x) ((b.max.x - r.origin.x) / r.direction.x)) ≤ val j.start) ∧ (¬ IsNaN (fmax ((b.min.x - r.origin.x) / r.direction.x) ((b.max.x - r.origin.x) / r.direction.x)) → val j.stop ≤ val (fmax ((b.min.x - r.origin.x) / r.direction.x) ((b.max.x - r.origin.x) / r.direction.x)))) ∧
     ((¬ IsNaN (fmin ((b.min.y - r.origin.y) / r.direction.y) ((b.max.y - r.origin.y) / r.direction.y)) → val (fmin ((b.min.y - r.origin.y) / r.direction.y) ((b.max.y - r.origin.y) / r.direction.y)) ≤ val j.start) ∧ (¬ IsNaN (fmax ((b.min.y - r.origin.y) / r.direction.y) ((b.max.y - r.origin.y) / r.direction.y)) → val j.stop ≤ val (fmax ((b.min.y - r.origin.y) / r.direction.y) ((b.max.y - r.origin.y) / r.direction.y))))) := by
  change b.intersectRay r = some j at h
  simp only [BoundingBox2.intersectRay] at h
  have s0 : ¬ IsNaN (Scalar.zero : S) := not_nan_zero
  have e0 : ¬ IsNaN (infinity : S) := not_nan_infinity
  have z : (0 : EReal) ≤ val (Scalar.zero : S) := by simp
  split_ifs at h with g1 g2
  obtain rfl := Option.some.inj h
  obtain ⟨s1, ls1, ms1, -⟩ := fmax_step (n := (fmin ((b.min.x - r.origin.x) / r.direction.x) ((b.max.x - r.origin.x) / r.direction.x))) s0
  obtain ⟨e1, le1, me1, -⟩ := fmin_step (n := (fmax ((b.min.x - r.origin.x) / r.direction.x) ((b.max.x - r.origin.x) / r.direction.x))) e0
  obtain ⟨s2, ls2, ms2, -⟩ := fmax_step (n := (fmin ((b.min.y - r.origin.y) / r.direction.y) ((b.max.y - r.origin.y) / r.direction.y))) s1
  obtain ⟨e2, le2, me2, -⟩ := fmin_step (n := (fmax ((b.min.y - r.origin.y) / r.direction.y) ((b.max.y - r.origin.y) / r.direction.y))) e1
  obtain ⟨n1, n2, hle⟩ := le_iff.1 g2
  exact ⟨n1, n2, ((z.trans ls1).trans ls2), hle, ⟨fun h => ((ms1 h).trans ls2), fun h => (le2.trans (me1 h))⟩, ⟨fun h => (ms2 h), fun h => (me2 h)⟩⟩

/-- The ray runs, in the dimension `dim`, in the plane of exactly one of the two faces. -/
def InFace2 (b : BoundingBox2 S) (r : Ray2 S) (dim : Dimension2) : Prop :=
  real (r.direction.index dim) = 0 ∧
  ((real (r.origin.index dim) = real (b.min.index dim) ∧ real (r.origin.index dim) ≠ real (b.max.index dim)) ∨
   (real (r.origin.index dim) ≠ real (b.min.index dim) ∧ real (r.origin.index dim) = real (b.max.index dim)))

/-- **C37** in floating point, 2D: a ray running in the plane of a face is never reported with a finite range: the result
is none, or (when the other dimensions end at infinity too) the empty range `inf..inf`. -/
theorem C37_float2 (b : BoundingBox2 S) (r : Ray2 S) (fb : AllFinite b) (ho : AllFinite r.origin)
    (hd : AllFinite r.direction) (dim : Dimension2) (h : InFace2 b r dim) :
    Api.intersect b r = (none : Option (Range S)) ∨
    ∃ j : Range S, Api.intersect b r = some j ∧ (j.start == infinity) = true ∧ (j.stop == infinity) = true := by
  cases hj : (Api.intersect b r : Option (Range S)) with
  | none => exact .inl rfl
  | some j =>
    refine .inr ⟨j, rfl, ?_⟩
    obtain ⟨n1, n2, p0, hle, hb⟩ := range_bounds2 hj
    rw [BoundingBox2.allFinite, Point2.allFinite, Point2.allFinite] at fb
    rw [Point2.allFinite] at ho
    rw [Vector2.allFinite] at hd
    obtain ⟨h0, h⟩ := h
    cases dim with
    | X =>
      obtain ⟨q1, q2, q3⟩ := slab_one_plane fb.1.1 fb.2.1 ho.1 hd.1 h0 h
      exact degenerate n1 n2 p0 hle q1 q2 q3 hb.1.1 hb.1.2
    | Y =>
      obtain ⟨q1, q2, q3⟩ := slab_one_plane fb.1.2 fb.2.2 ho.2 hd.2 h0 h
      exact degenerate n1 n2 p0 hle q1 q2 q3 hb.2.1 hb.2.2

/-- **C80**, 2D: the exception. A ray running in the cutting plane inside the box is lost: neither part reports it with a
finite range, although it starts strictly inside the box, which reports it from 0 on. -/
theorem C80_in_plane2 (b : BoundingBox2 S) (r : Ray2 S) (dim : Dimension2) (m : S) (fb : AllFinite b)
    (ho : AllFinite r.origin) (hd : AllFinite r.direction) (fm : IsFinite m)
    (hin : ∀ d : Dimension2, (b.min.index d <? r.origin.index d) = true ∧ (r.origin.index d <? b.max.index d) = true)
    (h0 : real (r.direction.index dim) = 0) (hm : real (r.origin.index dim) = real m) :
    (∃ i, Api.intersect b r = some i ∧ (i.start == Scalar.zero) = true) ∧
    ∀ c, c = b.below dim m ∨ c = b.above dim m → Api.intersect c r = (none : Option (Range S)) ∨
      ∃ j : Range S, Api.intersect c r = some j ∧ (j.start == infinity) = true ∧ (j.stop == infinity) = true := by
  refine ⟨C36_inside2 b r hd.noNaN ⟨hin .X, hin .Y⟩, ?_⟩
  have fb' := fb
  have ho' := ho
  rw [BoundingBox2.allFinite, Point2.allFinite, Point2.allFinite] at fb'
  rw [Point2.allFinite] at ho'
  have q := hin dim
  rintro c (rfl | rfl)
  · refine C37_float2 _ r ?_ ho hd dim ⟨h0, .inr ?_⟩
    · rw [BoundingBox2.allFinite, Point2.allFinite, Point2.allFinite]
      cases dim
      exacts [⟨fb'.1, ⟨fm, fb'.2.2⟩⟩, ⟨fb'.1, ⟨fb'.2.1, fm⟩⟩]
    · cases dim
      exacts [⟨((real_lt' fb'.1.1 ho'.1).1 q.1).ne', hm⟩, ⟨((real_lt' fb'.1.2 ho'.2).1 q.1).ne', hm⟩]
  · refine C37_float2 _ r ?_ ho hd dim ⟨h0, .inl ?_⟩
    · rw [BoundingBox2.allFinite, Point2.allFinite, Point2.allFinite]
      cases dim
      exacts [⟨⟨fm, fb'.1.2⟩, fb'.2⟩, ⟨⟨fb'.1.1, fm⟩, fb'.2⟩]
    · cases dim
      exacts [⟨hm, ((real_lt' ho'.1 fb'.2.1).1 q.2).ne⟩, ⟨hm, ((real_lt' ho'.2 fb'.2.2).1 q.2).ne⟩]
end

/-! Concrete cases, 2D. -/
/-- Straight up from the middle of the cube. -/
noncomputable def rayUp2 : Ray2 F32 := ⟨⟨int32 2, int32 2⟩, ⟨int32 0, int32 1⟩⟩
theorem rayUp2_finite : AllFinite rayUp2.origin ∧ AllFinite rayUp2.direction :=
  ⟨Point2.allFinite.2 ⟨trivial, trivial⟩, Vector2.allFinite.2 ⟨trivial, trivial⟩⟩
example := C80_in_plane2 (cube2 1 3) rayUp2 .X (int32 2) cube2_finite rayUp2_finite.1 rayUp2_finite.2 trivial
  (by intro d; cases d <;> exact ⟨int32_lt (by norm_num), int32_lt (by norm_num)⟩)
  (show ((0 : ℤ) : ℝ) = 0 by norm_num) rfl
/-- Cut the cube at `y = 2`, and the upper part at `x = 1`. -/
noncomputable def kd2 : Kd Dimension2 F32 := .cut .Y (int32 2) .cell (.cut .X (int32 1) .cell .cell)
theorem kd2_cuts : kd2.Cuts2 (cube2 1 3) :=
  ⟨⟨int32_le (by norm_num), int32_le (by norm_num)⟩, trivial, ⟨int32_le (by norm_num), int32_le (by norm_num)⟩, trivial, trivial⟩
theorem kd2_off : kd2.OffCuts2 rayIn2 :=
  ⟨fun h => absurd (show ((4 : ℤ) : ℝ) = 0 from h) (by norm_num), trivial,
    fun h => absurd (show ((3 : ℤ) : ℝ) = 0 from h) (by norm_num), trivial, trivial⟩
example : ∃ c ∈ kd2.cells2 (cube2 1 3), ∃ j : Range F32, Api.intersect c rayIn2 = some j := by
  obtain ⟨i, hi⟩ := hit2
  obtain ⟨-, h, n, -⟩ := C34_range2 _ _ i hi
  obtain ⟨c, hc, j, hj, -⟩ := C80_kd2 kd2 (cube2 1 3) rayIn2 (cube2_le (by norm_num)) cube2_finite (off2 _) rayIn2_finite.1
    rayIn2_finite.2 kd2_cuts kd2_off i hi i.start (le_self n) h
  exact ⟨c, hc, j, hj⟩
example := C80_cut2 (cube2 1 3) rayIn2 .X (int32 2) (cube2_le (by norm_num)) cube2_finite (off2 _) rayIn2_finite.1
  rayIn2_finite.2 (int32_le (by norm_num)) (int32_le (by norm_num)) (fun h => absurd (show ((3 : ℤ) : ℝ) = 0 from h) (by norm_num))
example := C80_cells2 kd2 (cube2 1 3) (cube2_le (by norm_num)) kd2_cuts

/-! ## 3 dimensions -/
section
variable {S : Type} [Scalar S] [IEEE S] [Binary S]

/-- What a reported range says about every slab. -/
theorem range_bounds3 {b : BoundingBox3 S} {r : Ray3 S} {j : Range S} (h : Api.intersect b r = some j) :
    ¬ IsNaN j.start ∧ ¬ IsNaN j.stop ∧ 0 ≤ val j.start ∧ val j.start ≤ val j.stop ∧
    (((¬ IsNaN (fmin ((b.min.x - r.origin.x) / r.direction.x) ((b.max.x - r.origin.x) / r.direction.x)) → val (fmin ((b.min.x - r.origin.x) / r.direction.x) ((b.max.x - r.origin.x) / r.direction.x)) ≤ val j.start) ∧ (¬ IsNaN (fmax ((b.min.x - r.origin.x) / r.direction.x) ((b.max.x - r.origin.x) / r.direction.x)) → val j.stop ≤ val (fmax ((b.min.x - r.origin.x) / r.direction.x) ((b.max.x - r.origin.x) / r.direction.x)))) ∧
     ((¬ IsNaN (fmin ((b.min.y - r.origin.y) / r.direction.y) ((b.max.y - r.origin.y) / r.direction.y)) → val (fmin ((b.min.y - r.origin.y) / r.direction.y) ((b.max.y - r.origin.y) / r.direction.y)) ≤ val j.start) ∧ (¬ IsNaN (fmax ((b.min.y - r.origin.y) / r.direction.y) ((b.max.y - r.origin.y) / r.direction.y)) → val j.stop ≤ val (fmax ((b.min.y - r.origin.y) / r.direction.y) ((b.max.y - r.origin.y) / r.direction.y)))) ∧
     ((¬ IsNaN (fmin ((b.min.z - r.origin.z) / r.direction.z) ((b.max.z - r.origin.z) / r.direction.z)) → val (fmin ((b.min.z - r.origin.z) / r.direction.z) ((b.max.z - r.origin.z) / r.direction.z)) ≤ val j.start) ∧ (¬ IsNaN (fmax ((b.min.z - r.origin.z) / r.direction.z) ((b.max.z - r.origin.z) / r.direction.z)) → val j.stop ≤ val (fmax ((b.min.z - r.origin.z) / r.direction.z) ((b.max.z - r.origin.z) / r.direction.z))))) := by
  change b.intersectRay r = some j at h
  simp only [BoundingBox3.intersectRay] at h
  have s0 : ¬ IsNaN (Scalar.zero : S) := not_nan_zero
  have e0 : ¬ IsNaN (infinity : S) := not_nan_infinity
  have z : (0 : EReal) ≤ val (Scalar.zero : S) := by simp
  split_ifs at h with g1 g2 g3
  obtain rfl := Option.some.inj h
  obtain ⟨s1, ls1, ms1, -⟩ := fmax_step (n := (fmin ((b.min.x - r.origin.x) / r.direction.x) ((b.max.x - r.origin.x) / r.direction.x))) s0
  obtain ⟨e1, le1, me1, -⟩ := fmin_step (n := (fmax ((b.min.x - r.origin.x) / r.direction.x) ((b.max.x - r.origin.x) / r.direction.x))) e0
  obtain ⟨s2, ls2, ms2, -⟩ := fmax_step (n := (fmin ((b.min.y - r.origin.y) / r.direction.y) ((b.max.y - r.origin.y) / r.direction.y))) s1
  obtain ⟨e2, le2, me2, -⟩ := fmin_step (n := (fmax ((b.min.y - r.origin.y) / r.direction.y) ((b.max.y - r.origin.y) / r.direction.y))) e1
  obtain ⟨s3, ls3, ms3, -⟩ := fmax_step (n := (fmin ((b.min.z - r.origin.z) / r.direction.z) ((b.max.z - r.origin.z) / r.direction.z))) s2
  obtain ⟨e3, le3, me3, -⟩ := fmin_step (n := (fmax ((b.min.z - r.origin.z) / r.direction.z) ((b.max.z - r.origin.z) / r.direction.z))) e2
  obtain ⟨n1, n2, hle⟩ := le_iff.1 g3
  exact ⟨n1, n2, (((z.trans ls1).trans ls2).trans ls3), hle, ⟨fun h => (((ms1 h).trans ls2).trans ls3), fun h => (le3.trans (le2.trans (me1 h)))⟩, ⟨fun h => ((ms2 h).trans ls3), fun h => (le3.trans (me2 h))⟩, ⟨fun h => (ms3 h), fun h => (me3 h)⟩⟩

/-- The ray runs, in the dimension `dim`, in the plane of exactly one of the two faces. -/
def InFace3 (b : BoundingBox3 S) (r : Ray3 S) (dim : Dimension3) : Prop :=
  real (r.direction.index dim) = 0 ∧
  ((real (r.origin.index dim) = real (b.min.index dim) ∧ real (r.origin.index dim) ≠ real (b.max.index dim)) ∨
   (real (r.origin.index dim) ≠ real (b.min.index dim) ∧ real (r.origin.index dim) = real (b.max.index dim)))

/-- **C37** in floating point, 3D: a ray running in the plane of a face is never reported with a finite range: the result
is none, or (when the other dimensions end at infinity too) the empty range `inf..inf`. -/
theorem C37_float3 (b : BoundingBox3 S) (r : Ray3 S) (fb : AllFinite b) (ho : AllFinite r.origin)
    (hd : AllFinite r.direction) (dim : Dimension3) (h : InFace3 b r dim) :
    Api.intersect b r = (none : Option (Range S)) ∨
    ∃ j : Range S, Api.intersect b r = some j ∧ (j.start == infinity) = true ∧ (j.stop == infinity) = true := by
  cases hj : (Api.intersect b r : Option (Range S)) with
  | none => exact .inl rfl
  | some j =>
    refine .inr ⟨j, rfl, ?_⟩
    obtain ⟨n1, n2, p0, hle, hb⟩ := range_bounds3 hj
    rw [BoundingBox3.allFinite, Point3.allFinite, Point3.allFinite] at fb
    rw [Point3.allFinite] at ho
    rw [Vector3.allFinite] at hd
    obtain ⟨h0, h⟩ := h
    cases dim with
    | X =>
      obtain ⟨q1, q2, q3⟩ := slab_one_plane fb.1.1 fb.2.1 ho.1 hd.1 h0 h
      exact degenerate n1 n2 p0 hle q1 q2 q3 hb.1.1 hb.1.2
    | Y =>
      obtain ⟨q1, q2, q3⟩ := slab_one_plane fb.1.2.1 fb.2.2.1 ho.2.1 hd.2.1 h0 h
      exact degenerate n1 n2 p0 hle q1 q2 q3 hb.2.1.1 hb.2.1.2
    | Z =>
      obtain ⟨q1, q2, q3⟩ := slab_one_plane fb.1.2.2 fb.2.2.2 ho.2.2 hd.2.2 h0 h
      exact degenerate n1 n2 p0 hle q1 q2 q3 hb.2.2.1 hb.2.2.2

/-- **C80**, 3D: the exception. A ray running in the cutting plane inside the box is lost: neither part reports it with a
finite range, although it starts strictly inside the box, which reports it from 0 on. -/
theorem C80_in_plane3 (b : BoundingBox3 S) (r : Ray3 S) (dim : Dimension3) (m : S) (fb : AllFinite b)
    (ho : AllFinite r.origin) (hd : AllFinite r.direction) (fm : IsFinite m)
    (hin : ∀ d : Dimension3, (b.min.index d <? r.origin.index d) = true ∧ (r.origin.index d <? b.max.index d) = true)
    (h0 : real (r.direction.index dim) = 0) (hm : real (r.origin.index dim) = real m) :
    (∃ i, Api.intersect b r = some i ∧ (i.start == Scalar.zero) = true) ∧
    ∀ c, c = b.below dim m ∨ c = b.above dim m → Api.intersect c r = (none : Option (Range S)) ∨
      ∃ j : Range S, Api.intersect c r = some j ∧ (j.start == infinity) = true ∧ (j.stop == infinity) = true := by
  refine ⟨C36_inside3 b r hd.noNaN ⟨hin .X, hin .Y, hin .Z⟩, ?_⟩
  have fb' := fb
  have ho' := ho
  rw [BoundingBox3.allFinite, Point3.allFinite, Point3.allFinite] at fb'
  rw [Point3.allFinite] at ho'
  have q := hin dim
  rintro c (rfl | rfl)
  · refine C37_float3 _ r ?_ ho hd dim ⟨h0, .inr ?_⟩
    · rw [BoundingBox3.allFinite, Point3.allFinite, Point3.allFinite]
      cases dim
      exacts [⟨fb'.1, ⟨fm, fb'.2.2.1, fb'.2.2.2⟩⟩, ⟨fb'.1, ⟨fb'.2.1, fm, fb'.2.2.2⟩⟩, ⟨fb'.1, ⟨fb'.2.1, fb'.2.2.1, fm⟩⟩]
    · cases dim
      exacts [⟨((real_lt' fb'.1.1 ho'.1).1 q.1).ne', hm⟩, ⟨((real_lt' fb'.1.2.1 ho'.2.1).1 q.1).ne', hm⟩, ⟨((real_lt' fb'.1.2.2 ho'.2.2).1 q.1).ne', hm⟩]
  · refine C37_float3 _ r ?_ ho hd dim ⟨h0, .inl ?_⟩
    · rw [BoundingBox3.allFinite, Point3.allFinite, Point3.allFinite]
      cases dim
      exacts [⟨⟨fm, fb'.1.2.1, fb'.1.2.2⟩, fb'.2⟩, ⟨⟨fb'.1.1, fm, fb'.1.2.2⟩, fb'.2⟩, ⟨⟨fb'.1.1, fb'.1.2.1, fm⟩, fb'.2⟩]
    · cases dim
      exacts [⟨hm, ((real_lt' ho'.1 fb'.2.1).1 q.2).ne⟩, ⟨hm, ((real_lt' ho'.2.1 fb'.2.2.1).1 q.2).ne⟩, ⟨hm, ((real_lt' ho'.2.2 fb'.2.2.2).1 q.2).ne⟩]
end

/-! Concrete cases, 3D. -/
/-- Straight up from the middle of the cube. -/
noncomputable def rayUp3 : Ray3 F32 := ⟨⟨int32 2, int32 2, int32 2⟩, ⟨int32 0, int32 1, int32 0⟩⟩
theorem rayUp3_finite : AllFinite rayUp3.origin ∧ AllFinite rayUp3.direction :=
  ⟨Point3.allFinite.2 ⟨trivial, trivial, trivial⟩, Vector3.allFinite.2 ⟨trivial, trivial, trivial⟩⟩
example := C80_in_plane3 (cube3 1 3) rayUp3 .X (int32 2) cube3_finite rayUp3_finite.1 rayUp3_finite.2 trivial
  (by intro d; cases d <;> exact ⟨int32_lt (by norm_num), int32_lt (by norm_num)⟩)
  (show ((0 : ℤ) : ℝ) = 0 by norm_num) rfl
/-- Cut the cube at `y = 2`, and the upper part at `x = 1`. -/
noncomputable def kd3 : Kd Dimension3 F32 := .cut .Y (int32 2) .cell (.cut .X (int32 1) .cell .cell)
theorem kd3_cuts : kd3.Cuts3 (cube3 1 3) :=
  ⟨⟨int32_le (by norm_num), int32_le (by norm_num)⟩, trivial, ⟨int32_le (by norm_num), int32_le (by norm_num)⟩, trivial, trivial⟩
theorem kd3_off : kd3.OffCuts3 rayIn3 :=
  ⟨fun h => absurd (show ((3 : ℤ) : ℝ) = 0 from h) (by norm_num), trivial,
    fun h => absurd (show ((2 : ℤ) : ℝ) = 0 from h) (by norm_num), trivial, trivial⟩
example : ∃ c ∈ kd3.cells3 (cube3 1 3), ∃ j : Range F32, Api.intersect c rayIn3 = some j := by
  obtain ⟨i, hi⟩ := hit3
  obtain ⟨-, h, n, -⟩ := C34_range3 _ _ i hi
  obtain ⟨c, hc, j, hj, -⟩ := C80_kd3 kd3 (cube3 1 3) rayIn3 (cube3_le (by norm_num)) cube3_finite (off3 _) rayIn3_finite.1
    rayIn3_finite.2 kd3_cuts kd3_off i hi i.start (le_self n) h
  exact ⟨c, hc, j, hj⟩
example := C80_cut3 (cube3 1 3) rayIn3 .X (int32 2) (cube3_le (by norm_num)) cube3_finite (off3 _) rayIn3_finite.1
  rayIn3_finite.2 (int32_le (by norm_num)) (int32_le (by norm_num)) (fun h => absurd (show ((2 : ℤ) : ℝ) = 0 from h) (by norm_num))
example := C80_cells3 kd3 (cube3 1 3) (cube3_le (by norm_num)) kd3_cuts

end VecMath
