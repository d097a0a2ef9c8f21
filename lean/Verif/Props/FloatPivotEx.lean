import Verif.Props.FloatPivot
import Verif.Props.FloatPlaneEx
import Verif.Props.FloatChain2
/-!
# C111: scaling about a pivot in floating point, concrete cases, and a pivot that the composed transform moves

(Generated by tools/gen.)
-/

open Classical

namespace VecMath
open Scalar IEEE

/-- `3 (2^23 + 1)`, `- 3 (2^23 + 1) + (2^23 + 1)` and what they are rounded to. -/
theorem rnd_three : Exactly ((int32 3 : F32) * int32 8388609) ((25165828 : ℤ) : ℝ) := by
  refine exec_mul (x := ((3 : ℤ) : ℝ)) (y := ((8388609 : ℤ) : ℝ)) exactly_int exactly_int ?_ (big32 (by norm_num [_root_.abs]))
  have := Fmt.rnd_lit_even binary32 (x := ((3 : ℤ) : ℝ) * ((8388609 : ℤ) : ℝ)) 24 1 12582914 (by decide) (by decide) (by norm_num) (by norm_num) (by norm_num) (by norm_num)
  exact this.trans (by norm_num)
theorem rnd_three' : Exactly ((int32 3 : F32) * -int32 8388609) ((-25165828 : ℤ) : ℝ) := by
  have h : num ((int32 3 : F32) * -int32 8388609) = num (-((int32 3 : F32) * int32 8388609)) := (same_mul_neg _ _).num
  have e := int_neg32 rnd_three
  have f := finite_of_num h e.1
  exact ⟨f, (real_of_num f e.1 h).trans e.2⟩
theorem rnd_off : Exactly ((int32 3 : F32) * -int32 8388609 + int32 8388609) ((-16777220 : ℤ) : ℝ) := by
  refine exec_add (x := ((-25165828 : ℤ) : ℝ)) (y := ((8388609 : ℤ) : ℝ)) rnd_three' exactly_int ?_ (big32 (by norm_num [_root_.abs]))
  have := Fmt.rnd_lit_even binary32 (x := ((16777219 : ℤ) : ℝ)) 24 1 8388610 (by decide) (by decide) (by norm_num) (by norm_num) (by norm_num) (by norm_num)
  rw [show ((-25165828 : ℤ) : ℝ) + ((8388609 : ℤ) : ℝ) = -((16777219 : ℤ) : ℝ) by norm_num, Fmt.rnd_neg]
  exact (congrArg Neg.neg this).trans (by norm_num)
theorem rnd_moved : Exactly ((int32 3 : F32) * int32 8388609 + ((int32 3 : F32) * -int32 8388609 + int32 8388609)) ((8388608 : ℤ) : ℝ) := by
  exact int_add32' rnd_three rnd_off (by norm_num)
theorem not_beq_exact {x y : F32} {a b : ℤ} (hx : Exactly x a) (hy : Exactly y b) (h : a ≠ b) : (x == y) = false := by
  rw [Bool.eq_false_iff, Ne, obeq_real hx.1 hy.1, hx.2, hy.2]; exact_mod_cast h
/-! ## Dimension 2 -/
section
variable {S : Type} [Scalar S] [IEEE S]
/-- **C111** (2D): scaling about a pivot, composed into one transform: the offset `s * -c + c` is rounded before it is added. -/
theorem C111_scale2 (sx sy : S) (hsx : IsFinite sx) (hsy : IsFinite sy) (c p : Point2 S) (hc : AllFinite c) (hp : AllFinite p) (hox : IsFinite (sx * -c.x + c.x)) (hoy : IsFinite (sy * -c.y + c.y)) :
    (Transform.transform ((Transform2.scale sx sy).about c) p == Point2.new (sx * p.x + (sx * -c.x + c.x)) (sy * p.y + (sy * -c.y + c.y))) = true := by
  show (Matrix3x3.translate (Vector2.fromPoint c) * (Matrix3x3.scale sx sy * Matrix3x3.translate (-(Vector2.fromPoint c))) * p == _) = true
  have v0 : (Vector2.fromPoint c).x = c.x ∧ (-(Vector2.fromPoint c)).x = -c.x ∧ (Vector2.fromPoint c).y = c.y ∧ (-(Vector2.fromPoint c)).y = -c.y := ⟨rfl, rfl, rfl, rfl⟩
  rw [Point2.allFinite] at hc hp
  obtain ⟨g0, g1⟩ := hc
  obtain ⟨p0, p1⟩ := hp
  have n0 := finite_neg.2 g0
  have n1 := finite_neg.2 g1
  have f0 := (finite_of_add hox).1
  have f1 := (finite_of_add hoy).1
  rw [Point2.beq_iff]
  refine ⟨?_, ?_⟩ <;> refine beq_of_num' ?_ (nan_add_prod (by assumption) (by assumption) (by assumption)) <;>
    mat_simp [Point2.new, v0] <;> generalize sx * -c.x = ox at * <;> generalize sy * -c.y = oy at * <;> refine num_div_of_one ?_ ?_ <;> num_simp [f0, f1, g0, g1, p0, p1, n0, n1, hsx, hsy]
/-- The composed matrix of a scaling about a pivot. -/
theorem about_scale_forward2 (sx sy : S) (hsx : IsFinite sx) (hsy : IsFinite sy) (c : Point2 S) (hc : AllFinite c) (hox : IsFinite (sx * -c.x + c.x)) (hoy : IsFinite (sy * -c.y + c.y)) :
    (((Transform2.scale sx sy).about c).forward == (Matrix3x3.mk #v[sx, zero, sx * -c.x + c.x, zero, sy, sy * -c.y + c.y, zero, zero, one] : Matrix3x3 S)) = true := by
  show (Matrix3x3.translate (Vector2.fromPoint c) * (Matrix3x3.scale sx sy * Matrix3x3.translate (-(Vector2.fromPoint c))) == _) = true
  have v0 : (Vector2.fromPoint c).x = c.x ∧ (-(Vector2.fromPoint c)).x = -c.x ∧ (Vector2.fromPoint c).y = c.y ∧ (-(Vector2.fromPoint c)).y = -c.y := ⟨rfl, rfl, rfl, rfl⟩
  rw [Point2.allFinite] at hc
  obtain ⟨g0, g1⟩ := hc
  have n0 := finite_neg.2 g0
  have n1 := finite_neg.2 g1
  have f0 := (finite_of_add hox).1
  have f1 := (finite_of_add hoy).1
  have z := finite_zero (S := S)
  have o := finite_one (S := S)
  rw [Matrix3x3.beq_iff, forall_lt_9]
  refine ⟨?_, ?_, ?_, ?_, ?_, ?_, ?_, ?_, ?_⟩
  · refine beq_of_num' (b := sx) ?_ (IsFinite.not_nan (by assumption)); mat_simp [v0]; try generalize sx * -c.x = ox at *; try generalize sy * -c.y = oy at *; num_simp [f0, f1, g0, g1, n0, n1, hsx, hsy]
  · refine beq_of_num' (b := zero) ?_ (IsFinite.not_nan (by assumption)); mat_simp [v0]; try generalize sx * -c.x = ox at *; try generalize sy * -c.y = oy at *; num_simp [f0, f1, g0, g1, n0, n1, hsx, hsy]
  · refine beq_of_num' (b := sx * -c.x + c.x) ?_ (IsFinite.not_nan (by assumption)); mat_simp [v0]; try generalize sx * -c.x = ox at *; try generalize sy * -c.y = oy at *; num_simp [f0, f1, g0, g1, n0, n1, hsx, hsy]
  · refine beq_of_num' (b := zero) ?_ (IsFinite.not_nan (by assumption)); mat_simp [v0]; try generalize sx * -c.x = ox at *; try generalize sy * -c.y = oy at *; num_simp [f0, f1, g0, g1, n0, n1, hsx, hsy]
  · refine beq_of_num' (b := sy) ?_ (IsFinite.not_nan (by assumption)); mat_simp [v0]; try generalize sx * -c.x = ox at *; try generalize sy * -c.y = oy at *; num_simp [f0, f1, g0, g1, n0, n1, hsx, hsy]
  · refine beq_of_num' (b := sy * -c.y + c.y) ?_ (IsFinite.not_nan (by assumption)); mat_simp [v0]; try generalize sx * -c.x = ox at *; try generalize sy * -c.y = oy at *; num_simp [f0, f1, g0, g1, n0, n1, hsx, hsy]
  · refine beq_of_num' (b := zero) ?_ (IsFinite.not_nan (by assumption)); mat_simp [v0]; try generalize sx * -c.x = ox at *; try generalize sy * -c.y = oy at *; num_simp [f0, f1, g0, g1, n0, n1, hsx, hsy]
  · refine beq_of_num' (b := zero) ?_ (IsFinite.not_nan (by assumption)); mat_simp [v0]; try generalize sx * -c.x = ox at *; try generalize sy * -c.y = oy at *; num_simp [f0, f1, g0, g1, n0, n1, hsx, hsy]
  · refine beq_of_num' (b := one) ?_ (IsFinite.not_nan (by assumption)); mat_simp [v0]; try generalize sx * -c.x = ox at *; try generalize sy * -c.y = oy at *; num_simp [f0, f1, g0, g1, n0, n1, hsx, hsy]
end
/-- The pivot `2^23 + 1` on the first axis. -/
noncomputable def hinge2 : Point2 F32 := ⟨int32 8388609, int32 0⟩
theorem finite_hinge2 : AllFinite hinge2 := by rw [Point2.allFinite]; exact ⟨(exactly_int (n := 8388609) (h := by norm_num)).1, (exactly_int (n := 0) (h := by norm_num)).1⟩
theorem three_origin2 : (Transform.transform (Transform2.scale (int32 3) (int32 3)) (Point2.origin : Point2 F32) == (Point2.origin : Point2 F32)) = true := by
  have fo : AllFinite (Point2.origin : Point2 F32) := by rw [Point2.allFinite]; exact ⟨finite_zero, finite_zero⟩
  have fv : AllFinite (Vector2.zero : Vector2 F32) := by rw [Vector2.allFinite]; exact ⟨finite_zero, finite_zero⟩
  have f3 : IsFinite (int32 3 : F32) := (exactly_int (n := 3) (h := by norm_num)).1
  have := Point2.beq_iff.1 (C46_float_scale2 (int32 3) (int32 3) (Vector2.zero : Vector2 F32) (Point2.origin : Point2 F32) f3 f3 fo fv).1
  have go : ∀ {x : F32}, (x == int32 3 * zero) = true → (x == zero) = true := fun h =>
    beq_of_num ((num_of_beq h).trans (IEEE.num_mul_zero f3)) (beq_iff.1 h).1
  exact Point2.beq_iff.2 ⟨go this.1, go this.2⟩
theorem finite_three2 : AllFinite (Transform2.scale (int32 3) (int32 3) : Transform2 F32).forward := by
  rw [Matrix3x3.allFinite, forall_lt_9]
  have f3 : IsFinite (int32 3 : F32) := (exactly_int (n := 3) (h := by norm_num)).1
  have z := finite_zero (S := F32)
  have o := finite_one (S := F32)
  exact ⟨f3, z, z, z, f3, z, z, z, o⟩
theorem affine_three2 : (Transform2.scale (int32 3) (int32 3) : Transform2 F32).forward.toReal 2 = ![0, 0, 1] := by
  funext j; fin_cases j <;> first | exact real_zero (S := F32) | exact real_one (S := F32)
/-- **C111** (2D, finding): composed into one transform, scaling by 3 about the point `(2^23 + 1, 0, ...)` in `f32` does not leave that point in place: its
first coordinate becomes `2^23`. Applied one after the other, the same three transforms do leave it in place. -/
theorem C111_pivot_moves2 :
    (Transform.transform ((Transform2.scale (int32 3) (int32 3)).about hinge2) hinge2 == hinge2) = false ∧
    ((Transform.transform ((Transform2.scale (int32 3) (int32 3)).about hinge2) hinge2 : Point2 F32).x == int32 8388608) = true ∧
    (Transform2.oneByOne [Transform2.translate (-(Vector2.fromPoint hinge2)), Transform2.scale (int32 3) (int32 3), Transform2.translate (Vector2.fromPoint hinge2)] hinge2 == hinge2) = true := by
  have f3 : IsFinite (int32 3 : F32) := (exactly_int (n := 3) (h := by norm_num)).1
  have zo : Exactly ((int32 3 : F32) * -int32 0 + int32 0) ((0 : ℤ) : ℝ) := int_add32' (int_mul32 (x := int32 3) (a := 3) exactly_int (int_neg32 (x := int32 0) (a := 0) exactly_int) (by norm_num)) (y := int32 0) (b := 0) exactly_int (by norm_num)
  have h := Point2.beq_iff.1 (C111_scale2 (int32 3) (int32 3) f3 f3 hinge2 hinge2 finite_hinge2 finite_hinge2 rnd_off.1 (by exact zo.1))
  have m : Exactly ((int32 3 : F32) * hinge2.x + (int32 3 * -hinge2.x + hinge2.x)) ((8388608 : ℤ) : ℝ) := rnd_moved
  have e := num_of_beq h.1
  have fx := finite_of_num e m.1
  have mx : Exactly (Transform.transform ((Transform2.scale (int32 3) (int32 3)).about hinge2) hinge2 : Point2 F32).x ((8388608 : ℤ) : ℝ) := ⟨fx, (real_of_num fx m.1 e).trans m.2⟩
  refine ⟨?_, ?_, (C111_pivot2 _ finite_three2 affine_three2 hinge2 finite_hinge2).2 three_origin2⟩
  · rw [Bool.eq_false_iff]
    intro hb
    have := (Point2.beq_iff.1 hb).1
    rw [not_beq_exact mx (show Exactly hinge2.x ((8388609 : ℤ) : ℝ) from exactly_int (h := by norm_num)) (by norm_num)] at this
    cases this
  · exact (obeq_real mx.1 (exactly_int (n := 8388608) (h := by norm_num)).1).2 (mx.2.trans (exactly_int (n := 8388608) (h := by norm_num)).2.symm)
theorem finite_about2 : AllFinite ((Transform2.scale (int32 3) (int32 3)).about hinge2).forward := by
  have f3 : IsFinite (int32 3 : F32) := (exactly_int (n := 3) (h := by norm_num)).1
  have zo : Exactly ((int32 3 : F32) * -int32 0 + int32 0) ((0 : ℤ) : ℝ) := int_add32' (int_mul32 (x := int32 3) (a := 3) exactly_int (int_neg32 (x := int32 0) (a := 0) exactly_int) (by norm_num)) (y := int32 0) (b := 0) exactly_int (by norm_num)
  have z := finite_zero (S := F32)
  have o := finite_one (S := F32)
  have h := about_scale_forward2 (int32 3) (int32 3) f3 f3 hinge2 finite_hinge2 rnd_off.1 (by exact zo.1)
  rw [Matrix3x3.beq_iff, forall_lt_9] at h
  rw [Matrix3x3.allFinite, forall_lt_9]
  have fz := zo.1
  have fo := rnd_off.1
  refine ⟨?_, ?_, ?_, ?_, ?_, ?_, ?_, ?_, ?_⟩
  · exact finite_of_num (num_of_beq h.1) f3
  · exact finite_of_num (num_of_beq h.2.1) z
  · exact finite_of_num (num_of_beq h.2.2.1) fo
  · exact finite_of_num (num_of_beq h.2.2.2.1) z
  · exact finite_of_num (num_of_beq h.2.2.2.2.1) f3
  · exact finite_of_num (num_of_beq h.2.2.2.2.2.1) fz
  · exact finite_of_num (num_of_beq h.2.2.2.2.2.2.1) z
  · exact finite_of_num (num_of_beq h.2.2.2.2.2.2.2.1) z
  · exact finite_of_num (num_of_beq h.2.2.2.2.2.2.2.2) o
theorem finite_about_image2 : AllFinite (Transform.transform ((Transform2.scale (int32 3) (int32 3)).about hinge2) hinge2 : Point2 F32) := by
  have f3 : IsFinite (int32 3 : F32) := (exactly_int (n := 3) (h := by norm_num)).1
  have zo : Exactly ((int32 3 : F32) * -int32 0 + int32 0) ((0 : ℤ) : ℝ) := int_add32' (int_mul32 (x := int32 3) (a := 3) exactly_int (int_neg32 (x := int32 0) (a := 0) exactly_int) (by norm_num)) (y := int32 0) (b := 0) exactly_int (by norm_num)
  have h := Point2.beq_iff.1 (C111_scale2 (int32 3) (int32 3) f3 f3 hinge2 hinge2 finite_hinge2 finite_hinge2 rnd_off.1 (by exact zo.1))
  have z1 : Exactly ((int32 3 : F32) * int32 0 + ((int32 3 : F32) * -int32 0 + int32 0)) ((0 : ℤ) : ℝ) :=
    int_add32' (int_mul32 (x := int32 3) (a := 3) (y := int32 0) (b := 0) exactly_int exactly_int (by norm_num)) zo (by norm_num)
  rw [Point2.allFinite]
  exact ⟨finite_of_num (num_of_beq h.1) rnd_moved.1, finite_of_num (num_of_beq h.2) z1.1⟩
example := C111_about2 _ affine_three2 hinge2 hinge2 finite_about2 finite_about_image2
example := C111_about_steps2 _ finite_three2 affine_three2 hinge2 hinge2 finite_hinge2 (by
  have h := Point2.beq_iff.1 C111_pivot_moves2.2.2
  have g := Point2.allFinite.1 finite_hinge2
  rw [Point2.allFinite]
  exact ⟨finite_of_num (num_of_beq h.1) g.1, finite_of_num (num_of_beq h.2) g.2⟩)
/-! ## Dimension 3 -/
section
variable {S : Type} [Scalar S] [IEEE S]
/-- **C111** (3D): scaling about a pivot, composed into one transform: the offset `s * -c + c` is rounded before it is added. -/
theorem C111_scale3 (sx sy sz : S) (hsx : IsFinite sx) (hsy : IsFinite sy) (hsz : IsFinite sz) (c p : Point3 S) (hc : AllFinite c) (hp : AllFinite p) (hox : IsFinite (sx * -c.x + c.x)) (hoy : IsFinite (sy * -c.y + c.y)) (hoz : IsFinite (sz * -c.z + c.z)) :
    (Transform.transform ((Transform3.scale sx sy sz).about c) p == Point3.new (sx * p.x + (sx * -c.x + c.x)) (sy * p.y + (sy * -c.y + c.y)) (sz * p.z + (sz * -c.z + c.z))) = true := by
  show (Matrix4x4.translate (Vector3.fromPoint c) * (Matrix4x4.scale sx sy sz * Matrix4x4.translate (-(Vector3.fromPoint c))) * p == _) = true
  have v0 : (Vector3.fromPoint c).x = c.x ∧ (-(Vector3.fromPoint c)).x = -c.x ∧ (Vector3.fromPoint c).y = c.y ∧ (-(Vector3.fromPoint c)).y = -c.y ∧ (Vector3.fromPoint c).z = c.z ∧ (-(Vector3.fromPoint c)).z = -c.z := ⟨rfl, rfl, rfl, rfl, rfl, rfl⟩
  rw [Point3.allFinite] at hc hp
  obtain ⟨g0, g1, g2⟩ := hc
  obtain ⟨p0, p1, p2⟩ := hp
  have n0 := finite_neg.2 g0
  have n1 := finite_neg.2 g1
  have n2 := finite_neg.2 g2
  have f0 := (finite_of_add hox).1
  have f1 := (finite_of_add hoy).1
  have f2 := (finite_of_add hoz).1
  rw [Point3.beq_iff]
  refine ⟨?_, ?_, ?_⟩ <;> refine beq_of_num' ?_ (nan_add_prod (by assumption) (by assumption) (by assumption)) <;>
    mat_simp [Point3.new, v0] <;> generalize sx * -c.x = ox at * <;> generalize sy * -c.y = oy at * <;> generalize sz * -c.z = oz at * <;> refine num_div_of_one ?_ ?_ <;> num_simp [f0, f1, f2, g0, g1, g2, p0, p1, p2, n0, n1, n2, hsx, hsy, hsz]
/-- The composed matrix of a scaling about a pivot. -/
theorem about_scale_forward3 (sx sy sz : S) (hsx : IsFinite sx) (hsy : IsFinite sy) (hsz : IsFinite sz) (c : Point3 S) (hc : AllFinite c) (hox : IsFinite (sx * -c.x + c.x)) (hoy : IsFinite (sy * -c.y + c.y)) (hoz : IsFinite (sz * -c.z + c.z)) :
    (((Transform3.scale sx sy sz).about c).forward == (Matrix4x4.mk #v[sx, zero, zero, sx * -c.x + c.x, zero, sy, zero, sy * -c.y + c.y, zero, zero, sz, sz * -c.z + c.z, zero, zero, zero, one] : Matrix4x4 S)) = true := by
  show (Matrix4x4.translate (Vector3.fromPoint c) * (Matrix4x4.scale sx sy sz * Matrix4x4.translate (-(Vector3.fromPoint c))) == _) = true
  have v0 : (Vector3.fromPoint c).x = c.x ∧ (-(Vector3.fromPoint c)).x = -c.x ∧ (Vector3.fromPoint c).y = c.y ∧ (-(Vector3.fromPoint c)).y = -c.y ∧ (Vector3.fromPoint c).z = c.z ∧ (-(Vector3.fromPoint c)).z = -c.z := ⟨rfl, rfl, rfl, rfl, rfl, rfl⟩
  rw [Point3.allFinite] at hc
  obtain ⟨g0, g1, g2⟩ := hc
  have n0 := finite_neg.2 g0
  have n1 := finite_neg.2 g1
  have n2 := finite_neg.2 g2
  have f0 := (finite_of_add hox).1
  have f1 := (finite_of_add hoy).1
  have f2 := (finite_of_add hoz).1
  have z := finite_zero (S := S)
  have o := finite_one (S := S)
  rw [Matrix4x4.beq_iff, forall_lt_16]
  refine ⟨?_, ?_, ?_, ?_, ?_, ?_, ?_, ?_, ?_, ?_, ?_, ?_, ?_, ?_, ?_, ?_⟩
  · refine beq_of_num' (b := sx) ?_ (IsFinite.not_nan (by assumption)); mat_simp [v0]; try generalize sx * -c.x = ox at *; try generalize sy * -c.y = oy at *; try generalize sz * -c.z = oz at *; num_simp [f0, f1, f2, g0, g1, g2, n0, n1, n2, hsx, hsy, hsz]
  · refine beq_of_num' (b := zero) ?_ (IsFinite.not_nan (by assumption)); mat_simp [v0]; try generalize sx * -c.x = ox at *; try generalize sy * -c.y = oy at *; try generalize sz * -c.z = oz at *; num_simp [f0, f1, f2, g0, g1, g2, n0, n1, n2, hsx, hsy, hsz]
  · refine beq_of_num' (b := zero) ?_ (IsFinite.not_nan (by assumption)); mat_simp [v0]; try generalize sx * -c.x = ox at *; try generalize sy * -c.y = oy at *; try generalize sz * -c.z = oz at *; num_simp [f0, f1, f2, g0, g1, g2, n0, n1, n2, hsx, hsy, hsz]
  · refine beq_of_num' (b := sx * -c.x + c.x) ?_ (IsFinite.not_nan (by assumption)); mat_simp [v0]; try generalize sx * -c.x = ox at *; try generalize sy * -c.y = oy at *; try generalize sz * -c.z = oz at *; num_simp [f0, f1, f2, g0, g1, g2, n0, n1, n2, hsx, hsy, hsz]
  · refine beq_of_num' (b := zero) ?_ (IsFinite.not_nan (by assumption)); mat_simp [v0]; try generalize sx * -c.x = ox at *; try generalize sy * -c.y = oy at *; try generalize sz * -c.z = oz at *; num_simp [f0, f1, f2, g0, g1, g2, n0, n1, n2, hsx, hsy, hsz]
  · refine beq_of_num' (b := sy) ?_ (IsFinite.not_nan (by assumption)); mat_simp [v0]; try generalize sx * -c.x = ox at *; try generalize sy * -c.y = oy at *; try generalize sz * -c.z = oz at *; num_simp [f0, f1, f2, g0, g1, g2, n0, n1, n2, hsx, hsy, hsz]
  · refine beq_of_num' (b := zero) ?_ (IsFinite.not_nan (by assumption)); mat_simp [v0]; try generalize sx * -c.x = ox at *; try generalize sy * -c.y = oy at *; try generalize sz * -c.z = oz at *; num_simp [f0, f1, f2, g0, g1, g2, n0, n1, n2, hsx, hsy, hsz]
  · refine beq_of_num' (b := sy * -c.y + c.y) ?_ (IsFinite.not_nan (by assumption)); mat_simp [v0]; try generalize sx * -c.x = ox at *; try generalize sy * -c.y = oy at *; try generalize sz * -c.z = oz at *; num_simp [f0, f1, f2, g0, g1, g2, n0, n1, n2, hsx, hsy, hsz]
  · refine beq_of_num' (b := zero) ?_ (IsFinite.not_nan (by assumption)); mat_simp [v0]; try generalize sx * -c.x = ox at *; try generalize sy * -c.y = oy at *; try generalize sz * -c.z = oz at *; num_simp [f0, f1, f2, g0, g1, g2, n0, n1, n2, hsx, hsy, hsz]
  · refine beq_of_num' (b := zero) ?_ (IsFinite.not_nan (by assumption)); mat_simp [v0]; try generalize sx * -c.x = ox at *; try generalize sy * -c.y = oy at *; try generalize sz * -c.z = oz at *; num_simp [f0, f1, f2, g0, g1, g2, n0, n1, n2, hsx, hsy, hsz]
  · refine beq_of_num' (b := sz) ?_ (IsFinite.not_nan (by assumption)); mat_simp [v0]; try generalize sx * -c.x = ox at *; try generalize sy * -c.y = oy at *; try generalize sz * -c.z = oz at *; num_simp [f0, f1, f2, g0, g1, g2, n0, n1, n2, hsx, hsy, hsz]
  · refine beq_of_num' (b := sz * -c.z + c.z) ?_ (IsFinite.not_nan (by assumption)); mat_simp [v0]; try generalize sx * -c.x = ox at *; try generalize sy * -c.y = oy at *; try generalize sz * -c.z = oz at *; num_simp [f0, f1, f2, g0, g1, g2, n0, n1, n2, hsx, hsy, hsz]
  · refine beq_of_num' (b := zero) ?_ (IsFinite.not_nan (by assumption)); mat_simp [v0]; try generalize sx * -c.x = ox at *; try generalize sy * -c.y = oy at *; try generalize sz * -c.z = oz at *; num_simp [f0, f1, f2, g0, g1, g2, n0, n1, n2, hsx, hsy, hsz]
  · refine beq_of_num' (b := zero) ?_ (IsFinite.not_nan (by assumption)); mat_simp [v0]; try generalize sx * -c.x = ox at *; try generalize sy * -c.y = oy at *; try generalize sz * -c.z = oz at *; num_simp [f0, f1, f2, g0, g1, g2, n0, n1, n2, hsx, hsy, hsz]
  · refine beq_of_num' (b := zero) ?_ (IsFinite.not_nan (by assumption)); mat_simp [v0]; try generalize sx * -c.x = ox at *; try generalize sy * -c.y = oy at *; try generalize sz * -c.z = oz at *; num_simp [f0, f1, f2, g0, g1, g2, n0, n1, n2, hsx, hsy, hsz]
  · refine beq_of_num' (b := one) ?_ (IsFinite.not_nan (by assumption)); mat_simp [v0]; try generalize sx * -c.x = ox at *; try generalize sy * -c.y = oy at *; try generalize sz * -c.z = oz at *; num_simp [f0, f1, f2, g0, g1, g2, n0, n1, n2, hsx, hsy, hsz]
end
/-- The pivot `2^23 + 1` on the first axis. -/
noncomputable def hinge3 : Point3 F32 := ⟨int32 8388609, int32 0, int32 0⟩
theorem finite_hinge3 : AllFinite hinge3 := by rw [Point3.allFinite]; exact ⟨(exactly_int (n := 8388609) (h := by norm_num)).1, (exactly_int (n := 0) (h := by norm_num)).1, (exactly_int (n := 0) (h := by norm_num)).1⟩
theorem three_origin3 : (Transform.transform (Transform3.scale (int32 3) (int32 3) (int32 3)) (Point3.origin : Point3 F32) == (Point3.origin : Point3 F32)) = true := by
  have fo : AllFinite (Point3.origin : Point3 F32) := by rw [Point3.allFinite]; exact ⟨finite_zero, finite_zero, finite_zero⟩
  have fv : AllFinite (Vector3.zero : Vector3 F32) := by rw [Vector3.allFinite]; exact ⟨finite_zero, finite_zero, finite_zero⟩
  have f3 : IsFinite (int32 3 : F32) := (exactly_int (n := 3) (h := by norm_num)).1
  have := Point3.beq_iff.1 (C46_float_scale3 (int32 3) (int32 3) (int32 3) (Vector3.zero : Vector3 F32) (Point3.origin : Point3 F32) f3 f3 f3 fo fv).1
  have go : ∀ {x : F32}, (x == int32 3 * zero) = true → (x == zero) = true := fun h =>
    beq_of_num ((num_of_beq h).trans (IEEE.num_mul_zero f3)) (beq_iff.1 h).1
  exact Point3.beq_iff.2 ⟨go this.1, go this.2.1, go this.2.2⟩
theorem finite_three3 : AllFinite (Transform3.scale (int32 3) (int32 3) (int32 3) : Transform3 F32).forward := by
  rw [Matrix4x4.allFinite, forall_lt_16]
  have f3 : IsFinite (int32 3 : F32) := (exactly_int (n := 3) (h := by norm_num)).1
  have z := finite_zero (S := F32)
  have o := finite_one (S := F32)
  exact ⟨f3, z, z, z, z, f3, z, z, z, z, f3, z, z, z, z, o⟩
theorem affine_three3 : (Transform3.scale (int32 3) (int32 3) (int32 3) : Transform3 F32).forward.toReal 3 = ![0, 0, 0, 1] := by
  funext j; fin_cases j <;> first | exact real_zero (S := F32) | exact real_one (S := F32)
/-- **C111** (3D, finding): composed into one transform, scaling by 3 about the point `(2^23 + 1, 0, ...)` in `f32` does not leave that point in place: its
first coordinate becomes `2^23`. Applied one after the other, the same three transforms do leave it in place. -/
theorem C111_pivot_moves3 :
    (Transform.transform ((Transform3.scale (int32 3) (int32 3) (int32 3)).about hinge3) hinge3 == hinge3) = false ∧
    ((Transform.transform ((Transform3.scale (int32 3) (int32 3) (int32 3)).about hinge3) hinge3 : Point3 F32).x == int32 8388608) = true ∧
    (Transform3.oneByOne [Transform3.translate (-(Vector3.fromPoint hinge3)), Transform3.scale (int32 3) (int32 3) (int32 3), Transform3.translate (Vector3.fromPoint hinge3)] hinge3 == hinge3) = true := by
  have f3 : IsFinite (int32 3 : F32) := (exactly_int (n := 3) (h := by norm_num)).1
  have zo : Exactly ((int32 3 : F32) * -int32 0 + int32 0) ((0 : ℤ) : ℝ) := int_add32' (int_mul32 (x := int32 3) (a := 3) exactly_int (int_neg32 (x := int32 0) (a := 0) exactly_int) (by norm_num)) (y := int32 0) (b := 0) exactly_int (by norm_num)
  have h := Point3.beq_iff.1 (C111_scale3 (int32 3) (int32 3) (int32 3) f3 f3 f3 hinge3 hinge3 finite_hinge3 finite_hinge3 rnd_off.1 (by exact zo.1) (by exact zo.1))
  have m : Exactly ((int32 3 : F32) * hinge3.x + (int32 3 * -hinge3.x + hinge3.x)) ((8388608 : ℤ) : ℝ) := rnd_moved
  have e := num_of_beq h.1
  have fx := finite_of_num e m.1
  have mx : Exactly (Transform.transform ((Transform3.scale (int32 3) (int32 3) (int32 3)).about hinge3) hinge3 : Point3 F32).x ((8388608 : ℤ) : ℝ) := ⟨fx, (real_of_num fx m.1 e).trans m.2⟩
  refine ⟨?_, ?_, (C111_pivot3 _ finite_three3 affine_three3 hinge3 finite_hinge3).2 three_origin3⟩
  · rw [Bool.eq_false_iff]
    intro hb
    have := (Point3.beq_iff.1 hb).1
    rw [not_beq_exact mx (show Exactly hinge3.x ((8388609 : ℤ) : ℝ) from exactly_int (h := by norm_num)) (by norm_num)] at this
    cases this
  · exact (obeq_real mx.1 (exactly_int (n := 8388608) (h := by norm_num)).1).2 (mx.2.trans (exactly_int (n := 8388608) (h := by norm_num)).2.symm)
theorem finite_about3 : AllFinite ((Transform3.scale (int32 3) (int32 3) (int32 3)).about hinge3).forward := by
  have f3 : IsFinite (int32 3 : F32) := (exactly_int (n := 3) (h := by norm_num)).1
  have zo : Exactly ((int32 3 : F32) * -int32 0 + int32 0) ((0 : ℤ) : ℝ) := int_add32' (int_mul32 (x := int32 3) (a := 3) exactly_int (int_neg32 (x := int32 0) (a := 0) exactly_int) (by norm_num)) (y := int32 0) (b := 0) exactly_int (by norm_num)
  have z := finite_zero (S := F32)
  have o := finite_one (S := F32)
  have h := about_scale_forward3 (int32 3) (int32 3) (int32 3) f3 f3 f3 hinge3 finite_hinge3 rnd_off.1 (by exact zo.1) (by exact zo.1)
  rw [Matrix4x4.beq_iff, forall_lt_16] at h
  rw [Matrix4x4.allFinite, forall_lt_16]
  have fz := zo.1
  have fo := rnd_off.1
  refine ⟨?_, ?_, ?_, ?_, ?_, ?_, ?_, ?_, ?_, ?_, ?_, ?_, ?_, ?_, ?_, ?_⟩
  · exact finite_of_num (num_of_beq h.1) f3
  · exact finite_of_num (num_of_beq h.2.1) z
  · exact finite_of_num (num_of_beq h.2.2.1) z
  · exact finite_of_num (num_of_beq h.2.2.2.1) fo
  · exact finite_of_num (num_of_beq h.2.2.2.2.1) z
  · exact finite_of_num (num_of_beq h.2.2.2.2.2.1) f3
  · exact finite_of_num (num_of_beq h.2.2.2.2.2.2.1) z
  · exact finite_of_num (num_of_beq h.2.2.2.2.2.2.2.1) fz
  · exact finite_of_num (num_of_beq h.2.2.2.2.2.2.2.2.1) z
  · exact finite_of_num (num_of_beq h.2.2.2.2.2.2.2.2.2.1) z
  · exact finite_of_num (num_of_beq h.2.2.2.2.2.2.2.2.2.2.1) f3
  · exact finite_of_num (num_of_beq h.2.2.2.2.2.2.2.2.2.2.2.1) fz
  · exact finite_of_num (num_of_beq h.2.2.2.2.2.2.2.2.2.2.2.2.1) z
  · exact finite_of_num (num_of_beq h.2.2.2.2.2.2.2.2.2.2.2.2.2.1) z
  · exact finite_of_num (num_of_beq h.2.2.2.2.2.2.2.2.2.2.2.2.2.2.1) z
  · exact finite_of_num (num_of_beq h.2.2.2.2.2.2.2.2.2.2.2.2.2.2.2) o
theorem finite_about_image3 : AllFinite (Transform.transform ((Transform3.scale (int32 3) (int32 3) (int32 3)).about hinge3) hinge3 : Point3 F32) := by
  have f3 : IsFinite (int32 3 : F32) := (exactly_int (n := 3) (h := by norm_num)).1
  have zo : Exactly ((int32 3 : F32) * -int32 0 + int32 0) ((0 : ℤ) : ℝ) := int_add32' (int_mul32 (x := int32 3) (a := 3) exactly_int (int_neg32 (x := int32 0) (a := 0) exactly_int) (by norm_num)) (y := int32 0) (b := 0) exactly_int (by norm_num)
  have h := Point3.beq_iff.1 (C111_scale3 (int32 3) (int32 3) (int32 3) f3 f3 f3 hinge3 hinge3 finite_hinge3 finite_hinge3 rnd_off.1 (by exact zo.1) (by exact zo.1))
  have z1 : Exactly ((int32 3 : F32) * int32 0 + ((int32 3 : F32) * -int32 0 + int32 0)) ((0 : ℤ) : ℝ) :=
    int_add32' (int_mul32 (x := int32 3) (a := 3) (y := int32 0) (b := 0) exactly_int exactly_int (by norm_num)) zo (by norm_num)
  rw [Point3.allFinite]
  exact ⟨finite_of_num (num_of_beq h.1) rnd_moved.1, finite_of_num (num_of_beq h.2.1) z1.1, finite_of_num (num_of_beq h.2.2) z1.1⟩
example := C111_about3 _ affine_three3 hinge3 hinge3 finite_about3 finite_about_image3
example := C111_about_steps3 _ finite_three3 affine_three3 hinge3 hinge3 finite_hinge3 (by
  have h := Point3.beq_iff.1 C111_pivot_moves3.2.2
  have g := Point3.allFinite.1 finite_hinge3
  rw [Point3.allFinite]
  exact ⟨finite_of_num (num_of_beq h.1) g.1, finite_of_num (num_of_beq h.2.1) g.2.1, finite_of_num (num_of_beq h.2.2) g.2.2⟩)
end VecMath
