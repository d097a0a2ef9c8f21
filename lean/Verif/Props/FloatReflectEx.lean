import Verif.Props.FloatReflect
import Verif.Props.FloatInvAffineEx
import Verif.Props.FloatRangeFmt
/-!
# C109: concrete `f32` cases, and a reflection that overflows although the mirror image is representable
-/

open Classical

namespace VecMath
open Scalar IEEE

/-- The normal `(1, 1)`, whose squared length is off by 1. -/
noncomputable def ones2 : Vector2 F32 := ⟨int32 1, int32 1⟩
/-- The normal `(1, 1, 1)`, whose squared length is off by 2. -/
noncomputable def ones3 : Vector3 F32 := ⟨int32 1, int32 1, int32 1⟩

theorem dot_ones2 : Exactly (Api.dot v34 ones2 : F32) ((7 : ℤ) : ℝ) :=
  int_add32' (int_mul32 (x := int32 3) (y := int32 1) (a := 3) (b := 1) exactly_int exactly_int (by norm_num)) (int_mul32 (x := int32 4) (y := int32 1) (a := 4) (b := 1) exactly_int exactly_int (by norm_num)) (by norm_num)
theorem dot_ones3 : Exactly (Api.dot v236 ones3 : F32) ((11 : ℤ) : ℝ) :=
  int_add32' (int_add32' (int_mul32 (x := int32 2) (y := int32 1) (a := 2) (b := 1) exactly_int exactly_int (by norm_num)) (int_mul32 (x := int32 3) (y := int32 1) (a := 3) (b := 1) exactly_int exactly_int (by norm_num)) (by norm_num))
    (int_mul32 (x := int32 6) (y := int32 1) (a := 6) (b := 1) exactly_int exactly_int (by norm_num)) (by norm_num)
theorem reflect_ones2 : AllFinite (v34.reflect ones2) := by
  have d := int_add32' dot_ones2 dot_ones2 (by norm_num)
  have p := int_mul32 (x := int32 1) (a := 1) exactly_int d (by norm_num)
  exact Vector2.allFinite.2 ⟨(int_sub32' (x := int32 3) (a := 3) exactly_int p (by norm_num)).1, (int_sub32' (x := int32 4) (a := 4) exactly_int p (by norm_num)).1⟩
theorem reject_ones2 : AllFinite (v34.reject ones2) := by
  have p := int_mul32 (x := int32 1) (a := 1) exactly_int dot_ones2 (by norm_num)
  exact Vector2.allFinite.2 ⟨(int_sub32' (x := int32 3) (a := 3) exactly_int p (by norm_num)).1, (int_sub32' (x := int32 4) (a := 4) exactly_int p (by norm_num)).1⟩
theorem reflect_ones3 : AllFinite (v236.reflect ones3) := by
  have d := int_add32' dot_ones3 dot_ones3 (by norm_num)
  have p := int_mul32 (x := int32 1) (a := 1) exactly_int d (by norm_num)
  exact Vector3.allFinite.2 ⟨(int_sub32' (x := int32 2) (a := 2) exactly_int p (by norm_num)).1, (int_sub32' (x := int32 3) (a := 3) exactly_int p (by norm_num)).1, (int_sub32' (x := int32 6) (a := 6) exactly_int p (by norm_num)).1⟩
theorem reject_ones3 : AllFinite (v236.reject ones3) := by
  have p := int_mul32 (x := int32 1) (a := 1) exactly_int dot_ones3 (by norm_num)
  exact Vector3.allFinite.2 ⟨(int_sub32' (x := int32 2) (a := 2) exactly_int p (by norm_num)).1, (int_sub32' (x := int32 3) (a := 3) exactly_int p (by norm_num)).1, (int_sub32' (x := int32 6) (a := 6) exactly_int p (by norm_num)).1⟩
theorem unit_ones2 : |∑ i, ones2.toReal i ^ 2 - 1| ≤ (1 : ℝ) := by
  rw [Fin.sum_univ_two]
  show |((1 : ℤ) : ℝ) ^ 2 + ((1 : ℤ) : ℝ) ^ 2 - 1| ≤ 1
  norm_num
theorem unit_ones3 : |∑ i, ones3.toReal i ^ 2 - 1| ≤ (2 : ℝ) := by
  rw [Fin.sum_univ_three]
  show |((1 : ℤ) : ℝ) ^ 2 + ((1 : ℤ) : ℝ) ^ 2 + ((1 : ℤ) : ℝ) ^ 2 - 1| ≤ 2
  norm_num

example := C109_error_reflect2 v34 ones2 reflect_ones2
example := C109_error_reject2 v34 ones2 reject_ones2
example := C109_error_reflect3 v236 ones3 reflect_ones3
example := C109_error_reject3 v236 ones3 reject_ones3
example := C109_length2 v34 ones2 reflect_ones2 unit_ones2
example := C109_perp2 v34 ones2 reject_ones2 unit_ones2
example := C109_length3 v236 ones3 reflect_ones3 unit_ones3
example := C109_perp3 v236 ones3 reject_ones3 unit_ones3
example := (C109_flip2 v34 ones2).1 (Vector2.noNaN.2 ⟨(Vector2.allFinite.1 reflect_ones2).1.not_nan, (Vector2.allFinite.1 reflect_ones2).2.not_nan⟩)
example := (C109_flip3 v236 ones3).2 (Vector3.noNaN.2 ⟨(Vector3.allFinite.1 reject_ones3).1.not_nan, (Vector3.allFinite.1 reject_ones3).2.1.not_nan, (Vector3.allFinite.1 reject_ones3).2.2.not_nan⟩)
/-- Reflecting any `f32` vector at the plane perpendicular to any `f32` vector of components zero or between `2^-62` and
`2^62`, normalized. -/
example (v m : Vector3 F32) (hm : Moderate 62 m) (h0 : m.toReal ≠ 0) (h : AllFinite (v.reflect m.normalize)) :=
  C109_length3 v m.normalize h (C109_normalized3 m hm h0 (room32 2) (room32 1) (by decide)).2
example (v m : Vector2 F32) (hm : Moderate 62 m) (h0 : m.toReal ≠ 0) (h : AllFinite (v.reject m.normalize)) :=
  C109_perp2 v m.normalize h (C109_normalized2 m hm h0 (room32 2) (room32 1) (by decide)).2
theorem four_four : IsFinite (v34.index .Y + v34.index .Y) := (int_add32' (x := int32 4) (y := int32 4) (a := 4) (b := 4) exactly_int exactly_int (by norm_num)).1
theorem six_six : IsFinite (v236.index .Z + v236.index .Z) := (int_add32' (x := int32 6) (y := int32 6) (a := 6) (b := 6) exactly_int exactly_int (by norm_num)).1
example := C109_axis_reflect2 v34 finite_v34 .Y four_four
example := C109_axis_twice2 v34 finite_v34 .Y four_four
example := C109_axis_reject2 v34 finite_v34 .Y
example := C109_axis_reflect3 v236 finite_v236 .Z six_six
example := C109_axis_twice3 v236 finite_v236 .Z six_six
example := C109_axis_reject3 v236 finite_v236 .Z

theorem big_twice : ¬ IsFinite (Fl.big binary32 + Fl.big binary32 : F32) := by
  intro h
  have f := Fl.finite_big (F := binary32)
  have c := (correct_add f f).1.1 h
  rw [← Fl.big_double] at c
  have := Fl.overflow_le (F := binary32)
  rw [abs_of_pos (by positivity)] at c
  linarith
/-- **C109**: a finite vector whose mirror image is finite, but whose computed reflection is neither finite nor free of NaN:
the doubled product overflows. -/
theorem C109_overflow : ∃ v : Vector3 F32, AllFinite v ∧ AllFinite (-v) ∧
    ¬ IsFinite (v.reflect Vector3.xAxis).x ∧ IsNaN (v.reflect Vector3.xAxis).y ∧ IsNaN (v.reflect Vector3.xAxis).z := by
  have fv : AllFinite (⟨Fl.big binary32, zero, zero⟩ : Vector3 F32) := Vector3.allFinite.2 ⟨Fl.finite_big, finite_zero, finite_zero⟩
  refine ⟨⟨Fl.big binary32, zero, zero⟩, fv, Vector3.allFinite.2 ⟨finite_neg.2 Fl.finite_big, finite_neg.2 finite_zero, finite_neg.2 finite_zero⟩, ?_⟩
  have D := num_of_beq (C101_dot3 _ fv .X).2
  have D2 := num_add_congr D D
  have nf : ¬ IsFinite (Api.dot (⟨Fl.big binary32, zero, zero⟩ : Vector3 F32) (Vector3.axis .X : Vector3 F32) + Api.dot (⟨Fl.big binary32, zero, zero⟩ : Vector3 F32) (Vector3.axis .X : Vector3 F32) : F32) :=
    fun h => big_twice (finite_of_num D2.symm h)
  have nan : ∀ a x : F32, ¬ IsFinite a → IsNaN (x - zero * a) := fun a x ha => by
    rw [(same_sub _ _).isNaN]
    refine isNaN_add_right ?_
    rw [isNaN_neg]
    unfold IsNaN IsFinite at *
    rw [den_mul, den_zero]
    cases e : den a with
    | nan => rfl
    | inf s => simp [Rounding.mul]
    | nzero => rw [e] at ha; exact absurd trivial ha
    | fin r => rw [e] at ha; exact absurd trivial ha
  refine ⟨fun h => nf ?_, nan _ _ nf, nan _ _ nf⟩
  exact (finite_of_mul (finite_of_sub h).2).2
end VecMath
