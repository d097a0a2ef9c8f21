import Verif.Props.RealPlane
import Verif.Props.FloatInvAffineEx
/-!
# C110: concrete `f32` cases, and a box with a visible point that the center-and-extents test rejects

(Generated by tools/gen.)
-/

open Classical

namespace VecMath
open Scalar IEEE

theorem rnd_odd24 : Exactly ((int32 16777216 : F32) - int32 (-1)) ((16777216 : ℤ) : ℝ) := by
  refine exec_sub (x := ((16777216 : ℤ) : ℝ)) (y := ((-1 : ℤ) : ℝ)) exactly_int exactly_int ?_ (big32 (by norm_num))
  have := Fmt.rnd_lit_even binary32 (x := ((16777216 : ℤ) : ℝ) - ((-1 : ℤ) : ℝ)) 24 1 8388608 (by decide) (by decide) (by norm_num) (by norm_num) (by norm_num) (by norm_num)
  exact this.trans (by norm_num)
theorem half_even32 {x : F32} {a : ℤ} (hx : Exactly x ((2 * a : ℤ) : ℝ)) (h : |a| ≤ 16777216) : Exactly (x * half) (a : ℝ) := by
  have e : ((2 * a : ℤ) : ℝ) * (1 / 2) = (a : ℝ) := by push_cast; ring
  refine exec_mul hx (y := 1 / 2) ⟨finite_half, real_half⟩ ?_ ?_ <;> rw [e]
  · exact rnd_int32 h
  · refine big32 ?_
    rw [← Int.cast_abs]
    exact_mod_cast h.trans (by norm_num)
theorem lt_exact {x y : F32} {a b : ℤ} (hx : Exactly x a) (hy : Exactly y b) (h : a < b) : (x <? y) = true := by
  rw [olt_real hx.1 hy.1, hx.2, hy.2]; exact_mod_cast h
theorem not_lt_exact {x y : F32} {a b : ℤ} (hx : Exactly x a) (hy : Exactly y b) (h : b ≤ a) : (x <? y) = false := by
  rw [Bool.eq_false_iff, Ne, olt_real hx.1 hy.1, hx.2, hy.2]; exact_mod_cast not_lt.2 h
theorem le_exact {x y : F32} {a b : ℤ} (hx : Exactly x a) (hy : Exactly y b) (h : a ≤ b) : (x ≤? y) = true := by
  rw [ole_real hx.1 hy.1, hx.2, hy.2]; exact_mod_cast h

theorem int_abs32 {x : F32} {a : ℤ} (hx : Exactly x a) : Exactly (Scalar.abs x) ((|a| : ℤ) : ℝ) := ⟨finite_abs.2 hx.1, by rw [real_abs, hx.2, Int.cast_abs]⟩
/-! ## Dimension 2 -/
/-- A flat box from `-1` to `2^24`. -/
noncomputable def thin2 : BoundingBox2 F32 := ⟨⟨int32 (-1), int32 0⟩, ⟨int32 16777216, int32 0⟩⟩
/-- The plane through its upper end, facing up. -/
noncomputable def thinN2 : Vector2 F32 := ⟨int32 1, int32 0⟩
noncomputable def thinO2 : Point2 F32 := ⟨int32 16777216, int32 0⟩
theorem thin_dot2 : Exactly (Api.dot thinN2 (thinO2 - thinO2 : Vector2 F32) : F32) ((0 : ℤ) : ℝ) :=
  int_add32' (int_mul32 (x := int32 1) (a := 1) exactly_int (int_sub32' (x := int32 16777216) (y := int32 16777216) (a := 16777216) (b := 16777216) exactly_int exactly_int (by norm_num)) (by norm_num)) (int_mul32 (x := int32 0) (a := 0) exactly_int (int_sub32' (x := int32 0) (y := int32 0) (a := 0) (b := 0) exactly_int exactly_int (by norm_num)) (by norm_num)) (by norm_num)
theorem thin_inside2 : thin2.isInside thinO2 = true := by
  rw [(C25_inside2 _ _).1, Point2.leAll, Point2.leAll]
  exact ⟨⟨le_exact (x := int32 (-1)) (a := -1) (y := int32 16777216) (b := 16777216) exactly_int exactly_int (by norm_num), le_exact (x := int32 0) (a := 0) (y := int32 0) (b := 0) exactly_int exactly_int (by norm_num)⟩,
    ⟨le_exact (x := int32 16777216) (a := 16777216) (y := int32 16777216) (b := 16777216) exactly_int exactly_int (by norm_num), le_exact (x := int32 0) (a := 0) (y := int32 0) (b := 0) exactly_int exactly_int (by norm_num)⟩⟩
theorem thin_wf2 : LeAll thin2.min thin2.max := by
  rw [Point2.leAll]
  exact ⟨le_exact (x := int32 (-1)) (a := -1) (y := int32 16777216) (b := 16777216) exactly_int exactly_int (by norm_num), le_exact (x := int32 0) (a := 0) (y := int32 0) (b := 0) exactly_int exactly_int (by norm_num)⟩
theorem thin_visible2 : thinO2.Visible [(thinN2, thinO2)] := fun q hq => by
  rw [List.mem_singleton] at hq; subst hq
  exact le_exact int_zero32 thin_dot2 (by norm_num)
/-- **C110** (2D, finding): in `f32` the center-and-extents test rejects a box that contains a point of the plane, because the
extent was rounded down; the farthest-corner test keeps it. -/
theorem C110_center_wrong2 (build : Build) : thin2.behindCenter thinN2 thinO2 = true ∧ thin2.behind build thinN2 thinO2 = false ∧
    thin2.isInside thinO2 = true ∧ thinO2.Visible [(thinN2, thinO2)] := by
  refine ⟨?_, ?_, thin_inside2, thin_visible2⟩
  · have d1 : Exactly (Api.dot thinN2 (thin2.center - thinO2 : Vector2 F32) : F32) ((-8388609 : ℤ) : ℝ) :=
      int_add32' (int_mul32 (x := int32 1) (a := 1) exactly_int (int_sub32' (y := int32 16777216) (b := 16777216) (int_add32' (x := int32 (-1)) (a := -1) exactly_int (half_even32 (a := 8388608) rnd_odd24 (by norm_num)) (by norm_num)) exactly_int (by norm_num)) (by norm_num)) (int_mul32 (x := int32 0) (a := 0) exactly_int (int_sub32' (y := int32 0) (b := 0) (int_add32' (x := int32 0) (a := 0) exactly_int (half_even32 (a := 0) (int_sub32' (x := int32 0) (y := int32 0) (a := 0) (b := 0) exactly_int exactly_int (by norm_num)) (by norm_num)) (by norm_num)) exactly_int (by norm_num)) (by norm_num)) (by norm_num)
    have d2 : Exactly (Api.dot thinN2.abs thin2.diagonal : F32) ((16777216 : ℤ) : ℝ) :=
      int_add32' (int_mul32 (int_abs32 (x := int32 1) (a := 1) exactly_int) rnd_odd24 (by norm_num)) (int_mul32 (int_abs32 (x := int32 0) (a := 0) exactly_int) (int_sub32' (x := int32 0) (y := int32 0) (a := 0) (b := 0) exactly_int exactly_int (by norm_num)) (by norm_num)) (by norm_num)
    exact lt_exact (int_add32' d1 (half_even32 (a := 8388608) d2 (by norm_num)) (by norm_num)) int_zero32 (by norm_num)
  · rw [Bool.eq_false_iff]
    intro h
    have := C110_behind2 _ _ _ _ build h thin_inside2
    rw [thin_visible2 _ (List.mem_singleton_self _)] at this
    cases this
theorem thin_clear2 : thin2.Clear thinN2 thinO2 := by
  have f : IsFinite ((int32 0 : F32) * (int32 0 - int32 0)) := (int_mul32 (x := int32 0) (a := 0) exactly_int (int_sub32' (x := int32 0) (y := int32 0) (a := 0) (b := 0) exactly_int exactly_int (by norm_num)) (by norm_num)).1
  refine ⟨⟨?_, ?_⟩, ⟨f, f⟩⟩
  · have e : Exactly ((int32 (-1) : F32) - int32 16777216) ((-16777216 : ℤ) : ℝ) := by
      refine exec_sub (x := ((-1 : ℤ) : ℝ)) (y := ((16777216 : ℤ) : ℝ)) exactly_int exactly_int ?_ (big32 (by norm_num [_root_.abs]))
      have := Fmt.rnd_lit_even binary32 (x := ((16777216 : ℤ) : ℝ) - ((-1 : ℤ) : ℝ)) 24 1 8388608 (by decide) (by decide) (by norm_num) (by norm_num) (by norm_num) (by norm_num)
      rw [show ((-1 : ℤ) : ℝ) - ((16777216 : ℤ) : ℝ) = -(((16777216 : ℤ) : ℝ) - ((-1 : ℤ) : ℝ)) by norm_num, Fmt.rnd_neg]
      exact (congrArg Neg.neg this).trans (by norm_num)
    exact (int_mul32 (x := int32 1) (a := 1) exactly_int e (by norm_num)).1
  · exact (int_mul32 (x := int32 1) (a := 1) exactly_int (int_sub32' (x := int32 16777216) (y := int32 16777216) (a := 16777216) (b := 16777216) exactly_int exactly_int (by norm_num)) (by norm_num)).1
example : thinN2.farIndex < 4 ∧ thinN2.Along thinN2.farIndex := C110_index2 thinN2 (by rw [Vector2.noNaN]; exact ⟨(exactly_int (n := 1) (h := by norm_num)).1.not_nan, (exactly_int (n := 0) (h := by norm_num)).1.not_nan⟩)
example := C110_clear2 _ _ _ _ thin_clear2 thin_inside2
example (build : Build) := C110_exact2 _ _ _ build thin_wf2 thin_clear2
example (build : Build) : thin2.kept build [(thinN2, thinO2)] = true := C110_kept2 _ _ _ build thin_inside2 thin_visible2
example (build : Build) : thin2 ∈ (Tree.node (.leaf thin2) (.leaf thin2)).search Api.union (BoundingBox2.kept build [(thinN2, thinO2)]) :=
  C110_tree_visible2 _ build _ (by intro b hb; simp [Tree.leaves] at hb; subst hb; exact thin_wf2) _ (by simp [Tree.leaves]) _ thin_inside2 thin_visible2
example (build : Build) := C110_tree2 [(thinN2, thinO2)] build (.node (.leaf thin2) (.leaf thin2))
  (by intro b hb; simp [Tree.leaves] at hb; subst hb; exact ⟨thin_wf2, fun q hq => by rw [List.mem_singleton] at hq; subst hq; exact thin_clear2⟩)

/-! ## Dimension 3 -/
/-- A flat box from `-1` to `2^24`. -/
noncomputable def thin3 : BoundingBox3 F32 := ⟨⟨int32 (-1), int32 0, int32 0⟩, ⟨int32 16777216, int32 0, int32 0⟩⟩
/-- The plane through its upper end, facing up. -/
noncomputable def thinN3 : Vector3 F32 := ⟨int32 1, int32 0, int32 0⟩
noncomputable def thinO3 : Point3 F32 := ⟨int32 16777216, int32 0, int32 0⟩
theorem thin_dot3 : Exactly (Api.dot thinN3 (thinO3 - thinO3 : Vector3 F32) : F32) ((0 : ℤ) : ℝ) :=
  int_add32' (int_add32' (int_mul32 (x := int32 1) (a := 1) exactly_int (int_sub32' (x := int32 16777216) (y := int32 16777216) (a := 16777216) (b := 16777216) exactly_int exactly_int (by norm_num)) (by norm_num)) (int_mul32 (x := int32 0) (a := 0) exactly_int (int_sub32' (x := int32 0) (y := int32 0) (a := 0) (b := 0) exactly_int exactly_int (by norm_num)) (by norm_num)) (by norm_num)) (int_mul32 (x := int32 0) (a := 0) exactly_int (int_sub32' (x := int32 0) (y := int32 0) (a := 0) (b := 0) exactly_int exactly_int (by norm_num)) (by norm_num)) (by norm_num)
theorem thin_inside3 : thin3.isInside thinO3 = true := by
  rw [(C25_inside3 _ _).1, Point3.leAll, Point3.leAll]
  exact ⟨⟨le_exact (x := int32 (-1)) (a := -1) (y := int32 16777216) (b := 16777216) exactly_int exactly_int (by norm_num), le_exact (x := int32 0) (a := 0) (y := int32 0) (b := 0) exactly_int exactly_int (by norm_num), le_exact (x := int32 0) (a := 0) (y := int32 0) (b := 0) exactly_int exactly_int (by norm_num)⟩,
    ⟨le_exact (x := int32 16777216) (a := 16777216) (y := int32 16777216) (b := 16777216) exactly_int exactly_int (by norm_num), le_exact (x := int32 0) (a := 0) (y := int32 0) (b := 0) exactly_int exactly_int (by norm_num), le_exact (x := int32 0) (a := 0) (y := int32 0) (b := 0) exactly_int exactly_int (by norm_num)⟩⟩
theorem thin_wf3 : LeAll thin3.min thin3.max := by
  rw [Point3.leAll]
  exact ⟨le_exact (x := int32 (-1)) (a := -1) (y := int32 16777216) (b := 16777216) exactly_int exactly_int (by norm_num), le_exact (x := int32 0) (a := 0) (y := int32 0) (b := 0) exactly_int exactly_int (by norm_num), le_exact (x := int32 0) (a := 0) (y := int32 0) (b := 0) exactly_int exactly_int (by norm_num)⟩
theorem thin_visible3 : thinO3.Visible [(thinN3, thinO3)] := fun q hq => by
  rw [List.mem_singleton] at hq; subst hq
  exact le_exact int_zero32 thin_dot3 (by norm_num)
/-- **C110** (3D, finding): in `f32` the center-and-extents test rejects a box that contains a point of the plane, because the
extent was rounded down; the farthest-corner test keeps it. -/
theorem C110_center_wrong3 (build : Build) : thin3.behindCenter thinN3 thinO3 = true ∧ thin3.behind build thinN3 thinO3 = false ∧
    thin3.isInside thinO3 = true ∧ thinO3.Visible [(thinN3, thinO3)] := by
  refine ⟨?_, ?_, thin_inside3, thin_visible3⟩
  · have d1 : Exactly (Api.dot thinN3 (thin3.center - thinO3 : Vector3 F32) : F32) ((-8388609 : ℤ) : ℝ) :=
      int_add32' (int_add32' (int_mul32 (x := int32 1) (a := 1) exactly_int (int_sub32' (y := int32 16777216) (b := 16777216) (int_add32' (x := int32 (-1)) (a := -1) exactly_int (half_even32 (a := 8388608) rnd_odd24 (by norm_num)) (by norm_num)) exactly_int (by norm_num)) (by norm_num)) (int_mul32 (x := int32 0) (a := 0) exactly_int (int_sub32' (y := int32 0) (b := 0) (int_add32' (x := int32 0) (a := 0) exactly_int (half_even32 (a := 0) (int_sub32' (x := int32 0) (y := int32 0) (a := 0) (b := 0) exactly_int exactly_int (by norm_num)) (by norm_num)) (by norm_num)) exactly_int (by norm_num)) (by norm_num)) (by norm_num)) (int_mul32 (x := int32 0) (a := 0) exactly_int (int_sub32' (y := int32 0) (b := 0) (int_add32' (x := int32 0) (a := 0) exactly_int (half_even32 (a := 0) (int_sub32' (x := int32 0) (y := int32 0) (a := 0) (b := 0) exactly_int exactly_int (by norm_num)) (by norm_num)) (by norm_num)) exactly_int (by norm_num)) (by norm_num)) (by norm_num)
    have d2 : Exactly (Api.dot thinN3.abs thin3.diagonal : F32) ((16777216 : ℤ) : ℝ) :=
      int_add32' (int_add32' (int_mul32 (int_abs32 (x := int32 1) (a := 1) exactly_int) rnd_odd24 (by norm_num)) (int_mul32 (int_abs32 (x := int32 0) (a := 0) exactly_int) (int_sub32' (x := int32 0) (y := int32 0) (a := 0) (b := 0) exactly_int exactly_int (by norm_num)) (by norm_num)) (by norm_num)) (int_mul32 (int_abs32 (x := int32 0) (a := 0) exactly_int) (int_sub32' (x := int32 0) (y := int32 0) (a := 0) (b := 0) exactly_int exactly_int (by norm_num)) (by norm_num)) (by norm_num)
    exact lt_exact (int_add32' d1 (half_even32 (a := 8388608) d2 (by norm_num)) (by norm_num)) int_zero32 (by norm_num)
  · rw [Bool.eq_false_iff]
    intro h
    have := C110_behind3 _ _ _ _ build h thin_inside3
    rw [thin_visible3 _ (List.mem_singleton_self _)] at this
    cases this
theorem thin_clear3 : thin3.Clear thinN3 thinO3 := by
  have f : IsFinite ((int32 0 : F32) * (int32 0 - int32 0)) := (int_mul32 (x := int32 0) (a := 0) exactly_int (int_sub32' (x := int32 0) (y := int32 0) (a := 0) (b := 0) exactly_int exactly_int (by norm_num)) (by norm_num)).1
  refine ⟨⟨?_, ?_⟩, ⟨f, f⟩, f, f⟩
  · have e : Exactly ((int32 (-1) : F32) - int32 16777216) ((-16777216 : ℤ) : ℝ) := by
      refine exec_sub (x := ((-1 : ℤ) : ℝ)) (y := ((16777216 : ℤ) : ℝ)) exactly_int exactly_int ?_ (big32 (by norm_num [_root_.abs]))
      have := Fmt.rnd_lit_even binary32 (x := ((16777216 : ℤ) : ℝ) - ((-1 : ℤ) : ℝ)) 24 1 8388608 (by decide) (by decide) (by norm_num) (by norm_num) (by norm_num) (by norm_num)
      rw [show ((-1 : ℤ) : ℝ) - ((16777216 : ℤ) : ℝ) = -(((16777216 : ℤ) : ℝ) - ((-1 : ℤ) : ℝ)) by norm_num, Fmt.rnd_neg]
      exact (congrArg Neg.neg this).trans (by norm_num)
    exact (int_mul32 (x := int32 1) (a := 1) exactly_int e (by norm_num)).1
  · exact (int_mul32 (x := int32 1) (a := 1) exactly_int (int_sub32' (x := int32 16777216) (y := int32 16777216) (a := 16777216) (b := 16777216) exactly_int exactly_int (by norm_num)) (by norm_num)).1
example : thinN3.farIndex < 8 ∧ thinN3.Along thinN3.farIndex := C110_index3 thinN3 (by rw [Vector3.noNaN]; exact ⟨(exactly_int (n := 1) (h := by norm_num)).1.not_nan, (exactly_int (n := 0) (h := by norm_num)).1.not_nan, (exactly_int (n := 0) (h := by norm_num)).1.not_nan⟩)
example := C110_clear3 _ _ _ _ thin_clear3 thin_inside3
example (build : Build) := C110_exact3 _ _ _ build thin_wf3 thin_clear3
example (build : Build) : thin3.kept build [(thinN3, thinO3)] = true := C110_kept3 _ _ _ build thin_inside3 thin_visible3
example (build : Build) : thin3 ∈ (Tree.node (.leaf thin3) (.leaf thin3)).search Api.union (BoundingBox3.kept build [(thinN3, thinO3)]) :=
  C110_tree_visible3 _ build _ (by intro b hb; simp [Tree.leaves] at hb; subst hb; exact thin_wf3) _ (by simp [Tree.leaves]) _ thin_inside3 thin_visible3
example (build : Build) := C110_tree3 [(thinN3, thinO3)] build (.node (.leaf thin3) (.leaf thin3))
  (by intro b hb; simp [Tree.leaves] at hb; subst hb; exact ⟨thin_wf3, fun q hq => by rw [List.mem_singleton] at hq; subst hq; exact thin_clear3⟩)

end VecMath
