import Verif.Props.FloatMono
import Verif.Props.FloatExamples2
/-!
# Layer F: measures of unions and intersections (C69)

`C69_union_area`/`C69_union3` (Props/FloatMono) compare a union with its first operand; here the second operand and
the intersection.
-/
open Classical

namespace VecMath
open Scalar IEEE

variable {S : Type} [Scalar S] [IEEE S]

/-- **C69**: the union of two boxes is, in rounded arithmetic, at least as large as the second of them. -/
theorem C69_union_right2 (a b : BoundingBox2 S) (ha : LeAll a.min a.max) (hb : LeAll b.min b.max)
    (hf : AllFinite (Api.union a b)) : Smaller b.area (Api.union a b).area :=
  C69_area b _ hb hf fun p hp => (C26_union2 a b ha hb).2.1 p (.inr hp)
/-- **C69**, 3D. -/
theorem C69_union_right3 (a b : BoundingBox3 S) (ha : LeAll a.min a.max) (hb : LeAll b.min b.max)
    (hf : AllFinite (Api.union a b)) : Smaller b.volume (Api.union a b).volume ∧
      Smaller b.surfaceArea (Api.union a b).surfaceArea :=
  ⟨C69_volume b _ hb hf fun p hp => (C26_union3 a b ha hb).2.1 p (.inr hp),
    C69_surface b _ hb hf fun p hp => (C26_union3 a b ha hb).2.1 p (.inr hp)⟩

/-- **C69**: the intersection of two boxes is, in rounded arithmetic, at most as large as either of them. -/
theorem C69_intersect2 (a b c : BoundingBox2 S) (ha : LeAll a.min a.max) (hb : LeAll b.min b.max)
    (h : Api.intersect a b = some c) :
    (AllFinite a → Smaller c.area a.area ∧ ∀ d, (c.extent d ≤? a.extent d) = true) ∧
    (AllFinite b → Smaller c.area b.area ∧ ∀ d, (c.extent d ≤? b.extent d) = true) := by
  obtain ⟨hc, hp⟩ := (C30_intersect2 a b ha hb).2.1 c h
  exact ⟨fun f => ⟨C69_area c a hc f fun p q => ((hp p).1 q).1, C69_extent2 c a hc f fun p q => ((hp p).1 q).1⟩,
    fun f => ⟨C69_area c b hc f fun p q => ((hp p).1 q).2, C69_extent2 c b hc f fun p q => ((hp p).1 q).2⟩⟩
/-- **C69**, 3D. -/
theorem C69_intersect3 (a b c : BoundingBox3 S) (ha : LeAll a.min a.max) (hb : LeAll b.min b.max)
    (h : Api.intersect a b = some c) :
    (AllFinite a → Smaller c.volume a.volume ∧ Smaller c.surfaceArea a.surfaceArea ∧
      ∀ d, (c.extent d ≤? a.extent d) = true) ∧
    (AllFinite b → Smaller c.volume b.volume ∧ Smaller c.surfaceArea b.surfaceArea ∧
      ∀ d, (c.extent d ≤? b.extent d) = true) := by
  obtain ⟨hc, hp⟩ := (C30_intersect3 a b ha hb).2.1 c h
  exact ⟨fun f => ⟨C69_volume c a hc f fun p q => ((hp p).1 q).1, C69_surface c a hc f fun p q => ((hp p).1 q).1,
      C69_extent3 c a hc f fun p q => ((hp p).1 q).1⟩,
    fun f => ⟨C69_volume c b hc f fun p q => ((hp p).1 q).2, C69_surface c b hc f fun p q => ((hp p).1 q).2,
      C69_extent3 c b hc f fun p q => ((hp p).1 q).2⟩⟩

/-! ### Concrete boxes: `[1,3]^n` and `[2,9]^n` meet in `[2,3]^n` -/
example := C69_union_right2 (cube2 1 3) (cube2 4 9) (cube2_le (by norm_num)) (cube2_le (by norm_num)) union_finite2
example := C69_union_right3 (cube3 1 3) (cube3 4 9) (cube3_le (by norm_num)) (cube3_le (by norm_num)) union_finite3
example : ∃ c : BoundingBox2 F32, Api.intersect (cube2 1 3) (cube2 2 9) = some c ∧ Smaller c.area (cube2 1 3).area := by
  have h := (C30_intersect2 (cube2 1 3) (cube2 2 9) (cube2_le (by norm_num)) (cube2_le (by norm_num))).1.2
    ⟨⟨int32 2, int32 3⟩, isInside2_iff.2 ⟨⟨int32_le (by norm_num), int32_le (by norm_num)⟩,
      int32_le (by norm_num), int32_le (by norm_num)⟩, isInside2_iff.2 ⟨⟨int32_le (by norm_num), int32_le (by norm_num)⟩,
      int32_le (by norm_num), int32_le (by norm_num)⟩⟩
  obtain ⟨c, hc⟩ := Option.isSome_iff_exists.1 h
  exact ⟨c, hc, ((C69_intersect2 _ _ c (cube2_le (by norm_num)) (cube2_le (by norm_num)) hc).1 cube2_finite).1⟩
example : ∃ c : BoundingBox3 F32, Api.intersect (cube3 1 3) (cube3 2 9) = some c ∧ Smaller c.volume (cube3 2 9).volume := by
  have h := (C30_intersect3 (cube3 1 3) (cube3 2 9) (cube3_le (by norm_num)) (cube3_le (by norm_num))).1.2
    ⟨⟨int32 2, int32 3, int32 3⟩, isInside3_iff.2 ⟨⟨int32_le (by norm_num), int32_le (by norm_num)⟩,
      ⟨int32_le (by norm_num), int32_le (by norm_num)⟩, int32_le (by norm_num), int32_le (by norm_num)⟩,
      isInside3_iff.2 ⟨⟨int32_le (by norm_num), int32_le (by norm_num)⟩,
      ⟨int32_le (by norm_num), int32_le (by norm_num)⟩, int32_le (by norm_num), int32_le (by norm_num)⟩⟩
  obtain ⟨c, hc⟩ := Option.isSome_iff_exists.1 h
  exact ⟨c, hc, ((C69_intersect3 _ _ c (cube3_le (by norm_num)) (cube3_le (by norm_num)) hc).2 cube3_finite).1⟩

end VecMath
