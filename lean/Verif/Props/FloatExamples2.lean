import Verif.Props.FloatExamples
import Verif.Props.FloatMono
import Verif.Props.FloatCull
/-!
# More concrete `f32` cases: C69, C70
-/

open Classical

namespace VecMath
open Scalar IEEE

theorem int32_le {a b : ℤ} (h : a ≤ b)
    (ha : |a| ≤ 16777216 := by first | assumption | norm_num) (hb : |b| ≤ 16777216 := by first | assumption | norm_num) : (int32 a ha ≤? int32 b hb) = true :=
  (le_real finite_int32 finite_int32).2 (show (a : ℝ) ≤ (b : ℝ) by exact_mod_cast h)
theorem int32_lt {a b : ℤ} (h : a < b)
    (ha : |a| ≤ 16777216 := by first | assumption | norm_num) (hb : |b| ≤ 16777216 := by first | assumption | norm_num) : (int32 a ha <? int32 b hb) = true := by
  rw [lt_iff]
  refine ⟨finite_int32.not_nan, finite_int32.not_nan, ?_⟩
  rw [finite_int32.val, finite_int32.val, EReal.coe_lt_coe_iff, real_int32, real_int32]
  exact_mod_cast h

/-- The box from `(a, a)` to `(b, b)`. -/
noncomputable def cube2 (a b : ℤ) (ha : |a| ≤ 16777216 := by norm_num) (hb : |b| ≤ 16777216 := by norm_num) :
    BoundingBox2 F32 := ⟨⟨int32 a ha, int32 a ha⟩, ⟨int32 b hb, int32 b hb⟩⟩
/-- The box from `(a, a, a)` to `(b, b, b)`. -/
noncomputable def cube3 (a b : ℤ) (ha : |a| ≤ 16777216 := by norm_num) (hb : |b| ≤ 16777216 := by norm_num) :
    BoundingBox3 F32 := ⟨⟨int32 a ha, int32 a ha, int32 a ha⟩, ⟨int32 b hb, int32 b hb, int32 b hb⟩⟩
variable {a b c d : ℤ} {ha : |a| ≤ 16777216} {hb : |b| ≤ 16777216} {hc : |c| ≤ 16777216} {hd : |d| ≤ 16777216}
theorem cube2_le (h : a ≤ b) : LeAll (cube2 a b ha hb).min (cube2 a b ha hb).max :=
  Point2.leAll.2 ⟨int32_le h, int32_le h⟩
theorem cube3_le (h : a ≤ b) : LeAll (cube3 a b ha hb).min (cube3 a b ha hb).max :=
  Point3.leAll.2 ⟨int32_le h, int32_le h, int32_le h⟩
theorem cube2_finite : AllFinite (cube2 a b ha hb) :=
  BoundingBox2.allFinite.2 ⟨Point2.allFinite.2 ⟨trivial, trivial⟩, Point2.allFinite.2 ⟨trivial, trivial⟩⟩
theorem cube3_finite : AllFinite (cube3 a b ha hb) :=
  BoundingBox3.allFinite.2
    ⟨Point3.allFinite.2 ⟨trivial, trivial, trivial⟩, Point3.allFinite.2 ⟨trivial, trivial, trivial⟩⟩
theorem cube2_sub (h : a ≤ b) (h1 : c ≤ a) (h2 : b ≤ d) :
    ∀ p, (cube2 a b ha hb).isInside p = true → (cube2 c d hc hd).isInside p = true :=
  (subset2_iff (cube2_le h)).2 ⟨Point2.leAll.2 ⟨int32_le h1, int32_le h1⟩, Point2.leAll.2 ⟨int32_le h2, int32_le h2⟩⟩
theorem cube3_sub (h : a ≤ b) (h1 : c ≤ a) (h2 : b ≤ d) :
    ∀ p, (cube3 a b ha hb).isInside p = true → (cube3 c d hc hd).isInside p = true :=
  (subset3_iff (cube3_le h)).2 ⟨Point3.leAll.2 ⟨int32_le h1, int32_le h1, int32_le h1⟩,
    Point3.leAll.2 ⟨int32_le h2, int32_le h2, int32_le h2⟩⟩

/-- The ray from `(2, 2)` in direction `(3, 4)`. -/
noncomputable def rayIn2 : Ray2 F32 := ⟨⟨int32 2, int32 2⟩, v34⟩
/-- The ray from `(2, 2, 2)` in direction `(2, 3, 6)`. -/
noncomputable def rayIn3 : Ray3 F32 := ⟨⟨int32 2, int32 2, int32 2⟩, v236⟩
theorem rayIn2_finite : AllFinite rayIn2.origin ∧ AllFinite rayIn2.direction :=
  ⟨Point2.allFinite.2 ⟨trivial, trivial⟩, finite_v34⟩
theorem rayIn3_finite : AllFinite rayIn3.origin ∧ AllFinite rayIn3.direction :=
  ⟨Point3.allFinite.2 ⟨trivial, trivial, trivial⟩, finite_v236⟩
theorem off2 (b : BoundingBox2 F32) : OffPlanes2 b rayIn2 :=
  ⟨fun h => absurd (show ((3 : ℤ) : ℝ) = 0 from h) (by norm_num),
    fun h => absurd (show ((4 : ℤ) : ℝ) = 0 from h) (by norm_num)⟩
theorem off3 (b : BoundingBox3 F32) : OffPlanes3 b rayIn3 :=
  ⟨fun h => absurd (show ((2 : ℤ) : ℝ) = 0 from h) (by norm_num),
    fun h => absurd (show ((3 : ℤ) : ℝ) = 0 from h) (by norm_num),
    fun h => absurd (show ((6 : ℤ) : ℝ) = 0 from h) (by norm_num)⟩
theorem hit2 : ∃ i : Range F32, Api.intersect (cube2 1 3) rayIn2 = some i := by
  obtain ⟨i, h, -⟩ := C36_inside2 (cube2 1 3) rayIn2 rayIn2_finite.2.noNaN
    ⟨⟨int32_lt (by norm_num), int32_lt (by norm_num)⟩, ⟨int32_lt (by norm_num), int32_lt (by norm_num)⟩⟩
  exact ⟨i, h⟩
theorem hit3 : ∃ i : Range F32, Api.intersect (cube3 1 3) rayIn3 = some i := by
  obtain ⟨i, h, -⟩ := C36_inside3 (cube3 1 3) rayIn3 rayIn3_finite.2.noNaN
    ⟨⟨int32_lt (by norm_num), int32_lt (by norm_num)⟩, ⟨int32_lt (by norm_num), int32_lt (by norm_num)⟩,
      ⟨int32_lt (by norm_num), int32_lt (by norm_num)⟩⟩
  exact ⟨i, h⟩

/-! ### C69 -/
example := C69_extent2 (cube2 1 3) (cube2 0 5) (cube2_le (by norm_num)) cube2_finite
  (cube2_sub (by norm_num) (by norm_num) (by norm_num))
example := C69_extent3 (cube3 1 3) (cube3 0 5) (cube3_le (by norm_num)) cube3_finite
  (cube3_sub (by norm_num) (by norm_num) (by norm_num))
example := C69_area (cube2 1 3) (cube2 0 5) (cube2_le (by norm_num)) cube2_finite
  (cube2_sub (by norm_num) (by norm_num) (by norm_num))
example := C69_volume (cube3 1 3) (cube3 0 5) (cube3_le (by norm_num)) cube3_finite
  (cube3_sub (by norm_num) (by norm_num) (by norm_num))
example := C69_surface (cube3 1 3) (cube3 0 5) (cube3_le (by norm_num)) cube3_finite
  (cube3_sub (by norm_num) (by norm_num) (by norm_num))
theorem union_finite2 : AllFinite (Api.union (cube2 1 3) (cube2 4 9)) :=
  (Usable2.union (r := rayIn2) ⟨cube2_le (by norm_num), cube2_finite, off2 _⟩ ⟨cube2_le (by norm_num), cube2_finite, off2 _⟩).2.1
theorem union_finite3 : AllFinite (Api.union (cube3 1 3) (cube3 4 9)) :=
  (Usable3.union (r := rayIn3) ⟨cube3_le (by norm_num), cube3_finite, off3 _⟩ ⟨cube3_le (by norm_num), cube3_finite, off3 _⟩).2.1
example := C69_union_area (cube2 1 3) (cube2 4 9) (cube2_le (by norm_num)) (cube2_le (by norm_num)) union_finite2
example := C69_union3 (cube3 1 3) (cube3 4 9) (cube3_le (by norm_num)) (cube3_le (by norm_num)) union_finite3
example := C69_distance2 (cube2 1 3).min (cube2 2 3).min (cube2 1 3).max (BoundingBox2.allFinite.1 cube2_finite).1
  (BoundingBox2.allFinite.1 cube2_finite).2 (Point2.leAll.2 ⟨int32_le (by norm_num), int32_le (by norm_num)⟩)
  (Point2.leAll.2 ⟨int32_le (by norm_num), int32_le (by norm_num)⟩)
example := C69_distance3 (cube3 1 3).min (cube3 2 3).min (cube3 1 3).max (BoundingBox3.allFinite.1 cube3_finite).1
  (BoundingBox3.allFinite.1 cube3_finite).2
  (Point3.leAll.2 ⟨int32_le (by norm_num), int32_le (by norm_num), int32_le (by norm_num)⟩)
  (Point3.leAll.2 ⟨int32_le (by norm_num), int32_le (by norm_num), int32_le (by norm_num)⟩)
theorem abs_le_of {x y : F32} (hx : IsFinite x) (hy : IsFinite y) (h : |real x| ≤ |real y|) :
    (Scalar.abs x ≤? Scalar.abs y) = true := by
  have fin : ∀ {x : F32}, IsFinite x → IsFinite (Scalar.abs x) ∧ val (Scalar.abs x) = ((|real x| : ℝ) : EReal) := by
    intro x hx
    have e : val (Scalar.abs x) = ((|real x| : ℝ) : EReal) := by
      rw [val_abs_eq_max, hx.val, abs_eq_max_neg, EReal.coe_strictMono.monotone.map_max]; rfl
    refine ⟨finite_iff.2 ⟨fun hc => ?_, by rw [e]; exact EReal.coe_ne_top _, by rw [e]; exact EReal.coe_ne_bot _⟩, e⟩
    refine hx.not_nan ?_
    unfold IsNaN at *
    rw [den_abs] at hc
    revert hc
    generalize den x = v
    rcases v with _ | _ | _ | _ <;> simp [Val.abs]
  exact le_iff.2 ⟨(fin hx).1.not_nan, (fin hy).1.not_nan, by rw [(fin hx).2, (fin hy).2]; exact_mod_cast h⟩
example := C69_length2 (⟨int32 (-2), int32 1⟩ : Vector2 F32) v34 (Vector2.leAll.2
  ⟨abs_le_of trivial trivial (show |((-2 : ℤ) : ℝ)| ≤ |((3 : ℤ) : ℝ)| by norm_num),
    abs_le_of trivial trivial (show |((1 : ℤ) : ℝ)| ≤ |((4 : ℤ) : ℝ)| by norm_num)⟩)
example := C69_length3 (⟨int32 (-2), int32 1, int32 (-6)⟩ : Vector3 F32) v236 (Vector3.leAll.2
  ⟨abs_le_of trivial trivial (show |((-2 : ℤ) : ℝ)| ≤ |((2 : ℤ) : ℝ)| by norm_num),
    abs_le_of trivial trivial (show |((1 : ℤ) : ℝ)| ≤ |((3 : ℤ) : ℝ)| by norm_num),
    abs_le_of trivial trivial (show |((-6 : ℤ) : ℝ)| ≤ |((6 : ℤ) : ℝ)| by norm_num)⟩)

/-! ### C70 -/
example : ∃ j : Range F32, Api.intersect (cube2 0 5) rayIn2 = some j := by
  obtain ⟨i, hi⟩ := hit2
  obtain ⟨j, hj, -⟩ := C70_nested2 (cube2 1 3) (cube2 0 5) rayIn2 (cube2_le (by norm_num)) cube2_finite rayIn2_finite.1
    rayIn2_finite.2 (cube2_sub (by norm_num) (by norm_num) (by norm_num)) (off2 _).offFaces i hi
  exact ⟨j, hj⟩
example : ∃ j : Range F32, Api.intersect (cube3 0 5) rayIn3 = some j := by
  obtain ⟨i, hi⟩ := hit3
  obtain ⟨j, hj, -⟩ := C70_nested3 (cube3 1 3) (cube3 0 5) rayIn3 (cube3_le (by norm_num)) cube3_finite rayIn3_finite.1
    rayIn3_finite.2 (cube3_sub (by norm_num) (by norm_num) (by norm_num)) (off3 _).offFaces i hi
  exact ⟨j, hj⟩
/-- A hierarchy of three boxes. -/
noncomputable def tree2 : Tree (BoundingBox2 F32) := .node (.leaf (cube2 1 3)) (.node (.leaf (cube2 4 9)) (.leaf (cube2 (-7) 0)))
/-- A hierarchy of three boxes. -/
noncomputable def tree3 : Tree (BoundingBox3 F32) := .node (.leaf (cube3 1 3)) (.node (.leaf (cube3 4 9)) (.leaf (cube3 (-7) 0)))
theorem tree2_ok : ∀ b ∈ tree2.leaves, LeAll b.min b.max ∧ AllFinite b ∧ OffPlanes2 b rayIn2 := by
  intro b h
  simp only [tree2, Tree.leaves, List.cons_append, List.nil_append, List.mem_cons, List.not_mem_nil, or_false] at h
  rcases h with rfl | rfl | rfl <;> exact ⟨cube2_le (by norm_num), cube2_finite, off2 _⟩
theorem tree3_ok : ∀ b ∈ tree3.leaves, LeAll b.min b.max ∧ AllFinite b ∧ OffPlanes3 b rayIn3 := by
  intro b h
  simp only [tree3, Tree.leaves, List.cons_append, List.nil_append, List.mem_cons, List.not_mem_nil, or_false] at h
  rcases h with rfl | rfl | rfl <;> exact ⟨cube3_le (by norm_num), cube3_finite, off3 _⟩
example := C70_search2 rayIn2 tree2 rayIn2_finite.1 rayIn2_finite.2 tree2_ok
example := C70_search3 rayIn3 tree3 rayIn3_finite.1 rayIn3_finite.2 tree3_ok
example := C70_search_point2 rayIn2.origin tree2 fun b hb => (tree2_ok b hb).1
example := C70_search_point3 rayIn3.origin tree3 fun b hb => (tree3_ok b hb).1
example := C70_search_box2 (cube2 2 5) tree2 fun b hb => (tree2_ok b hb).1
example := C70_search_box3 (cube3 2 5) tree3 fun b hb => (tree3_ok b hb).1

end VecMath
