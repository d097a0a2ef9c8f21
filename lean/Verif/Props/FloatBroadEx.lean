import Verif.Props.FloatBroad
import Verif.Props.FloatExamples2
/-!
# C104: concrete `f32` cases
-/

namespace VecMath
open Scalar IEEE

example := C104_two2 tree2 tree2 (fun b hb => (tree2_ok b hb).1) (fun b hb => (tree2_ok b hb).1)
example := C104_two3 tree3 tree3 (fun b hb => (tree3_ok b hb).1) (fun b hb => (tree3_ok b hb).1)
example := C104_self3 tree3 (fun b hb => (tree3_ok b hb).1)
/-- The boxes `0..5` and `2..7` overlap and are found; `6..9` is a leaf of the second hierarchy that the search prunes. -/
example : (cube2 0 5, cube2 2 7) ∈ (Tree.leaf (cube2 0 5)).pairs Api.union BoundingBox2.overlaps (.node (.leaf (cube2 2 7)) (.leaf (cube2 6 9))) := by
  rw [C104_two2]
  · refine List.mem_filter.2 ⟨by simp [crossPairs, Tree.leaves], overlaps2_iff.2 ⟨⟨?_, ?_⟩, ?_, ?_⟩⟩ <;> exact int32_le (by norm_num)
  · intro b hb
    simp only [Tree.leaves, List.mem_singleton] at hb
    subst hb
    exact cube2_le (by norm_num)
  · intro b hb
    simp only [Tree.leaves, List.cons_append, List.nil_append, List.mem_cons, List.not_mem_nil, or_false] at hb
    rcases hb with rfl | rfl <;> exact cube2_le (by norm_num)
/-- Sorted along Y; sweep and prune agrees with the hierarchy `tree2` of the same boxes in another order. -/
example := C104_agree2 .Y [cube2 1 3, cube2 4 9, cube2 (-7) 0] [cube2 (-7) 0, cube2 1 3, cube2 4 9] tree2
  (by
    refine List.Perm.trans (.swap _ _ _) (.cons _ (.swap _ _ _)))
  (.refl _) (fun b hb => (tree2_ok b (by simpa [tree2, Tree.leaves] using hb)).1)
  (by
    simp only [List.pairwise_cons, List.mem_cons, List.not_mem_nil, or_false]
    refine ⟨?_, ?_, by simp, .nil⟩
    · rintro b (rfl | rfl) <;> exact int32_le (by norm_num)
    · rintro b rfl; exact int32_le (by norm_num))
example := C104_sweep3 .Z [cube3 (-7) 0, cube3 1 3, cube3 2 9]
  (by
    simp only [List.pairwise_cons, List.mem_cons, List.not_mem_nil, or_false]
    refine ⟨?_, ?_, by simp, .nil⟩
    · rintro b (rfl | rfl) <;> exact int32_le (by norm_num)
    · rintro b rfl; exact int32_le (by norm_num))

end VecMath
