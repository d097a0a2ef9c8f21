import Verif.Props.FloatFirstHit
import Verif.Props.FloatExamples2
/-!
# C103: concrete `f32` cases
-/

namespace VecMath
open Scalar IEEE

/-- The three boxes of `tree2`, searched from inside the first: a box is found, entered at the origin of the ray. -/
example : ∃ b s, (tree2.map fun b => (b, b)).firstHit Api.union (enter2 rayIn2) (fun _ _ => true) (enter2 rayIn2) none = some (b, s) ∧
    b ∈ tree2.leaves ∧ (s ≤? (zero : F32)) = true := by
  obtain ⟨h1, h2⟩ := C103_boxes2 rayIn2 rayIn2_finite.1 rayIn2_finite.2 tree2 tree2_ok fun _ _ => true
  obtain ⟨i, hi, h0⟩ := C36_inside2 (cube2 1 3) rayIn2 rayIn2_finite.2.noNaN
    ⟨⟨int32_lt (by norm_num), int32_lt (by norm_num)⟩, ⟨int32_lt (by norm_num), int32_lt (by norm_num)⟩⟩
  have mem : cube2 1 3 ∈ tree2.leaves := by simp [tree2, Tree.leaves]
  rcases hf : (tree2.map fun b => (b, b)).firstHit Api.union (enter2 rayIn2) (fun _ _ => true) (enter2 rayIn2) none with _ | ⟨b, s⟩
  · have := h1.1 hf _ mem
    rw [hi] at this
    cases this
  · obtain ⟨hb, -, h3⟩ := h2 b s hf
    refine ⟨b, s, rfl, hb, le_trans' (h3 _ mem i hi) ?_⟩
    have h0 := beq_iff.1 h0
    exact le_iff.2 ⟨h0.1, h0.2.1, h0.2.2.le⟩
example : ∃ b s, (tree3.map fun b => (b, b)).firstHit Api.union (enter3 rayIn3) (fun _ _ => true) (enter3 rayIn3) none = some (b, s) ∧
    b ∈ tree3.leaves ∧ (s ≤? (zero : F32)) = true := by
  obtain ⟨h1, h2⟩ := C103_boxes3 rayIn3 rayIn3_finite.1 rayIn3_finite.2 tree3 tree3_ok fun _ _ => true
  obtain ⟨i, hi, h0⟩ := C36_inside3 (cube3 1 3) rayIn3 rayIn3_finite.2.noNaN
    ⟨⟨int32_lt (by norm_num), int32_lt (by norm_num)⟩, ⟨int32_lt (by norm_num), int32_lt (by norm_num)⟩,
      ⟨int32_lt (by norm_num), int32_lt (by norm_num)⟩⟩
  have mem : cube3 1 3 ∈ tree3.leaves := by simp [tree3, Tree.leaves]
  rcases hf : (tree3.map fun b => (b, b)).firstHit Api.union (enter3 rayIn3) (fun _ _ => true) (enter3 rayIn3) none with _ | ⟨b, s⟩
  · have := h1.1 hf _ mem
    rw [hi] at this
    cases this
  · obtain ⟨hb, -, h3⟩ := h2 b s hf
    refine ⟨b, s, rfl, hb, le_trans' (h3 _ mem i hi) ?_⟩
    have h0 := beq_iff.1 h0
    exact le_iff.2 ⟨h0.1, h0.2.1, h0.2.2.le⟩
example := C103_between2 rayIn2 rayIn2_finite.1 rayIn2_finite.2 (int32 0) (int32 1) tree2 tree2_ok
example := C103_between3 rayIn3 rayIn3_finite.1 rayIn3_finite.2 (int32 0) (int32 1) tree3 tree3_ok
/-- Objects that are hit where the ray leaves their box. -/
example := C103_search2 (A := BoundingBox2 F32) rayIn2 rayIn2_finite.1 rayIn2_finite.2
  (fun b => (Api.intersect b rayIn2 : Option (Range F32)).map Range.stop) (.node (.leaf (cube2 1 3, cube2 1 3)) (.leaf (cube2 4 9, cube2 4 9)))
  (by
    intro x hx
    simp only [Tree.leaves, List.cons_append, List.nil_append, List.mem_cons, List.not_mem_nil, or_false] at hx
    rcases hx with rfl | rfl <;> exact ⟨cube2_le (by norm_num), cube2_finite, off2 _⟩)
  (by
    intro x hx s hs
    obtain ⟨i, hi, rfl⟩ := Option.map_eq_some_iff.1 hs
    simp only [Tree.leaves, List.cons_append, List.nil_append, List.mem_cons, List.not_mem_nil, or_false] at hx
    rcases hx with rfl | rfl <;> exact ⟨i, hi, (C34_range2 _ _ i hi).2.1⟩) (fun _ _ => false) none
example := C103_first3 (A := BoundingBox3 F32) rayIn3 rayIn3_finite.1 rayIn3_finite.2
  (fun b => (Api.intersect b rayIn3 : Option (Range F32)).map Range.stop) (.node (.leaf (cube3 1 3, cube3 1 3)) (.leaf (cube3 4 9, cube3 4 9)))
  (by
    intro x hx
    simp only [Tree.leaves, List.cons_append, List.nil_append, List.mem_cons, List.not_mem_nil, or_false] at hx
    rcases hx with rfl | rfl <;> exact ⟨cube3_le (by norm_num), cube3_finite, off3 _⟩)
  (by
    intro x hx s hs
    obtain ⟨i, hi, rfl⟩ := Option.map_eq_some_iff.1 hs
    simp only [Tree.leaves, List.cons_append, List.nil_append, List.mem_cons, List.not_mem_nil, or_false] at hx
    rcases hx with rfl | rfl <;> exact ⟨i, hi, (C34_range3 _ _ i hi).2.1⟩) (fun _ _ => false)

end VecMath
