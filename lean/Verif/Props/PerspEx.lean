import Verif.Props.RealPersp
import Verif.Props.FloatPersp
import Verif.Props.FloatBallEx
/-! # C120: the hypotheses are met

(Generated by tools/gen/persp_ex.py.) -/

namespace VecMath
open Scalar IEEE

/-! ### Dimension 2: dividing by the last coordinate -/
/-- `(x, y) -> (x / y, 1 / y)` -/
noncomputable def eye2 : Matrix3x3 Ideal := ⟨(#v[1, 0, 0, 0, 0, 1, 0, 1, 0] : Vector ℝ 9).map Ideal.of⟩
theorem eye2_fin : AllFinite eye2 := by
  rw [Matrix3x3.allFinite]; intro i hi; rw [eye2, Vector.getElem_map]; exact Ideal.finite_of _
theorem eye2_real : eye2.toReal = !![1, 0, 0; 0, 0, 1; 0, 1, 0] := by
  rw [Matrix3x3.toReal_eq]; simp [eye2]
theorem eye2_weight (p : Point2 Ideal) : eye2.weight p = real p.y := by
  rw [Matrix3x3.weight, eye2_real]
  simp [Matrix.mulVec, dotProduct, Fin.sum_univ_succ, Point2.hom, Fin.last]
noncomputable def look2 : Ray2 Ideal := ⟨⟨.of 0, .of 1⟩, ⟨.of 1, .of 1⟩⟩
theorem look2_fin : AllFinite look2 := Ray2.allFinite.2 ⟨Point2.allFinite.2 ⟨trivial, trivial⟩, Vector2.allFinite.2 ⟨trivial, trivial⟩⟩
theorem look2_weight {s : Ideal} (hs : IsFinite s) : eye2.weight (look2.at s) = 1 + real s := by
  rw [eye2_weight]
  have := congrFun (Ray2.toReal_at look2_fin hs) 1
  simpa [Point2.toReal, Vector2.toReal, look2] using this
theorem look2_zero : eye2.weight (look2.at zero) = 1 := by rw [look2_weight finite_zero, real_zero, add_zero]
theorem look2_one : eye2.weight (look2.at one) = 2 := by rw [look2_weight finite_one, real_one]; norm_num
theorem look2_of (x : ℝ) : eye2.weight (look2.at (.of x)) = 1 + x := look2_weight (Ideal.finite_of x)
/-- the point at 3 is at 3/2 of the image line -/
example := C120_line2 eye2 eye2_fin look2 look2_fin (.of 3) (.of (3 / 2)) (Ideal.finite_of _) (Ideal.finite_of _)
  (by rw [look2_zero]; norm_num) (by rw [look2_one]; norm_num) (by rw [look2_of]; norm_num)
  (by rw [look2_one, look2_of, Ideal.real_of, Ideal.real_of]; norm_num)
example := C120_segment2 eye2 eye2_fin look2 look2_fin (by rw [look2_zero]; norm_num) (by rw [look2_one]; norm_num)
example : ((Ideal.of (3 / 2)) <? (Ideal.of (5 / 3))) = ((Ideal.of 3) <? (Ideal.of 5)) :=
  C120_order2 eye2 look2 look2_fin (.of 3) (.of 5) (.of (3 / 2)) (.of (5 / 3)) (Ideal.finite_of _) (Ideal.finite_of _)
  (Ideal.finite_of _) (Ideal.finite_of _) (by rw [look2_zero]; norm_num) (by rw [look2_one]; norm_num) (by rw [look2_of]; norm_num)
  (by rw [look2_of]; norm_num) (by rw [look2_one, look2_of, Ideal.real_of, Ideal.real_of]; norm_num)
  (by rw [look2_one, look2_of, Ideal.real_of, Ideal.real_of]; norm_num)
example := C120_scale2 eye2 eye2_fin ⟨.of 5, .of 5⟩ (Point2.allFinite.2 ⟨trivial, trivial⟩) (.of (-2)) (Ideal.finite_of _)
  (by rw [Ideal.real_of]; norm_num) (by rw [eye2_weight]; change real (Ideal.of 5) ≠ 0; rw [Ideal.real_of]; norm_num)
/-- As `try_from` gives it: the matrix is its own inverse. -/
noncomputable def eyeT2 : Transform2 Ideal := Transform2.new eye2 eye2
theorem eyeT2_fin : AllFinite eyeT2 := Transform2.allFinite.2 ⟨eye2_fin, eye2_fin⟩
theorem eyeT2_paired : eyeT2.Paired := by
  rw [Transform2.paired_iff eye2_fin eye2_fin]
  change eye2.toReal * eye2.toReal = 1
  rw [eye2_real]
  ext i j
  fin_cases i <;> fin_cases j <;> simp [Matrix.mul_apply, Fin.sum_univ_succ]
theorem eyeT2_not_affine : ¬ eyeT2.forward.Affine := by
  intro h
  have := h (Fin.last 2)
  change eye2.toReal (Fin.last 2) (Fin.last 2) = _ at this
  rw [eye2_real] at this
  simp [Fin.last] at this
noncomputable def slab2 : BoundingBox2 Ideal := ⟨⟨.of 0, .of 1⟩, ⟨.of 1, .of 2⟩⟩
theorem slab2_fin : AllFinite slab2 := BoundingBox2.allFinite.2 ⟨Point2.allFinite.2 ⟨trivial, trivial⟩, Point2.allFinite.2 ⟨trivial, trivial⟩⟩
theorem slab2_le : LeAll slab2.min slab2.max := by
  rw [Point2.leAll]
  have k : ∀ a b : ℝ, a ≤ b → (Ideal.of a ≤? Ideal.of b) = true := fun a b h => by
    rw [Ideal.le_real (Ideal.finite_of _) (Ideal.finite_of _), Ideal.real_of, Ideal.real_of]; exact h
  exact ⟨k _ _ (by norm_num), k _ _ (by norm_num)⟩
/-- the box around the corners of a box in front of the eye -/
example (build : Build) := C120_box2 eyeT2 eye2_fin build slab2 slab2_fin slab2_le (fun k hk c hc => by
  change 0 < eye2.weight c
  have hi := corner_inside2 build slab2 slab2_le hk hc
  have fc := BoundingBox2.fin_inside slab2_fin hi
  rw [BoundingBox2.inside_real slab2_fin fc] at hi
  have h1 := (hi 1).1
  rw [eye2_weight]
  have e : slab2.min.toReal 1 = 1 := by simp [Point2.toReal, slab2]
  rw [e] at h1
  change 1 ≤ real c.y at h1
  linarith)
/-- **C120**, the failure: `try_from` accepts the perspective matrix, and there is a ray, and a point on it with positive weight, that
the transformed ray does not reach at that parameter. -/
theorem C120_ray_wrong2 : eyeT2.Paired ∧ ∃ (r : Ray2 Ideal) (s : Ideal), AllFinite r ∧ IsFinite s ∧
    eyeT2.forward.weight r.origin ≠ 0 ∧ eyeT2.forward.weight (r.at s) ≠ 0 ∧
    ((Transform.transform eyeT2 r : Ray2 Ideal).at s == (Transform.transform eyeT2 (r.at s) : Point2 Ideal)) = false := by
  refine ⟨eyeT2_paired, ?_⟩
  by_contra hc
  push Not at hc
  refine eyeT2_not_affine ((C120_ray_iff2 eyeT2 eyeT2_fin eyeT2_paired).1 fun r s hr hs h0 h1 => ?_)
  have := hc r s hr hs h0 h1
  simpa using this

noncomputable def eyeF2 : Matrix3x3 F32 := ⟨#v[int32 1, int32 0, int32 0, int32 0, int32 0, int32 1, int32 0, int32 1, int32 0]⟩
noncomputable def ahead2 : Point2 F32 := ⟨int32 1, int32 4⟩
noncomputable def behind2 : Point2 F32 := ⟨int32 0, int32 (-2)⟩
theorem ahead2_0 : Exactly (eyeF2.rowAt 0 ahead2) ((1 : ℤ) : ℝ) := ex_int (int_add32' (int_add32' (int_mul32 exi exi (by norm_num)) (int_mul32 exi exi (by norm_num)) (by norm_num)) exi (by norm_num)) (by norm_num)
theorem ahead2_1 : Exactly (eyeF2.rowAt 1 ahead2) ((1 : ℤ) : ℝ) := ex_int (int_add32' (int_add32' (int_mul32 exi exi (by norm_num)) (int_mul32 exi exi (by norm_num)) (by norm_num)) exi (by norm_num)) (by norm_num)
theorem ahead2_2 : Exactly (eyeF2.rowAt 2 ahead2) ((4 : ℤ) : ℝ) := ex_int (int_add32' (int_add32' (int_mul32 exi exi (by norm_num)) (int_mul32 exi exi (by norm_num)) (by norm_num)) exi (by norm_num)) (by norm_num)
theorem behind2_0 : Exactly (eyeF2.rowAt 0 behind2) ((0 : ℤ) : ℝ) := ex_int (int_add32' (int_add32' (int_mul32 exi exi (by norm_num)) (int_mul32 exi exi (by norm_num)) (by norm_num)) exi (by norm_num)) (by norm_num)
theorem behind2_1 : Exactly (eyeF2.rowAt 1 behind2) ((1 : ℤ) : ℝ) := ex_int (int_add32' (int_add32' (int_mul32 exi exi (by norm_num)) (int_mul32 exi exi (by norm_num)) (by norm_num)) exi (by norm_num)) (by norm_num)
theorem behind2_2 : Exactly (eyeF2.rowAt 2 behind2) ((-2 : ℤ) : ℝ) := ex_int (int_add32' (int_add32' (int_mul32 exi exi (by norm_num)) (int_mul32 exi exi (by norm_num)) (by norm_num)) exi (by norm_num)) (by norm_num)
/-- a point in front of the eye, inside the clip volume -/
example : clipBox2.isInside (eyeF2 * ahead2) = true :=
  (C120_clip2 eyeF2 ahead2 ahead2_2.1 (lt_exact int_zero32 ahead2_2 (by norm_num))).2 (fun i => by
    fin_cases i
    · exact ⟨le_exact (int_neg32 ahead2_2) ahead2_0 (by norm_num), le_exact ahead2_0 ahead2_2 (by norm_num)⟩
    · exact ⟨le_exact (int_neg32 ahead2_2) ahead2_1 (by norm_num), le_exact ahead2_1 ahead2_2 (by norm_num)⟩)
/-- **C120**, the failure: a point behind the eye (weight -2) passes the test of the image against the clip box. -/
theorem C120_behind_seen2 : (eyeF2.rowAt 2 behind2 <? zero) = true ∧ clipBox2.isInside (eyeF2 * behind2) = true := by
  refine ⟨lt_exact behind2_2 int_zero32 (by norm_num), ?_⟩
  refine (C120_behind2 eyeF2 behind2 behind2_2.1 (lt_exact behind2_2 int_zero32 (by norm_num))).2 (fun i => ?_)
  fin_cases i
  · exact ⟨le_exact behind2_0 (int_neg32 behind2_2) (by norm_num), le_exact behind2_2 behind2_0 (by norm_num)⟩
  · exact ⟨le_exact behind2_1 (int_neg32 behind2_2) (by norm_num), le_exact behind2_2 behind2_1 (by norm_num)⟩
theorem ahead2_fin (i : Fin 2) : IsFinite (eyeF2.rowAt i.castSucc ahead2 / eyeF2.rowAt 2 ahead2) := by
  have k : ∀ {x : F32} {a : ℤ}, Exactly x (a : ℝ) → |a| ≤ 4 → IsFinite (x / eyeF2.rowAt 2 ahead2) := by
    intro x a hx ha
    rw [(correct_div hx.1 ahead2_2.1 (by rw [ahead2_2.2]; norm_num)).1, hx.2, ahead2_2.2]
    refine big32' ?_
    have : |(a : ℝ)| ≤ 4 := by exact_mod_cast ha
    rw [abs_div]; norm_num; linarith
  fin_cases i
  · exact k ahead2_0 (by norm_num)
  · exact k ahead2_1 (by norm_num)
theorem ahead2_nn : NoNaN (eyeF2 * ahead2) := Point2.noNaN.2 ⟨(ahead2_fin 0).not_nan, (ahead2_fin 1).not_nan⟩
example : ((eyeF2 * (-one : F32)) * ahead2 == eyeF2 * ahead2) = true :=
  C120_negate2 eyeF2 ahead2 (by rw [ahead2_2.1.val, ahead2_2.2]; norm_num) ahead2_nn
theorem ahead2_weight : (∑ j : Fin 2, eyeF2.toReal 2 j.castSucc * ahead2.toReal j + eyeF2.toReal 2 2) = 4 ∧
    (∑ j : Fin 2, |eyeF2.toReal 2 j.castSucc * ahead2.toReal j| + |eyeF2.toReal 2 2|) = 4 := by
  rw [Fin.sum_univ_two, Fin.sum_univ_two]
  change real (int32 0 : F32) * real (int32 1 : F32) + real (int32 1 : F32) * real (int32 4 : F32) + real (int32 0 : F32) = 4 ∧
    |real (int32 0 : F32) * real (int32 1 : F32)| + |real (int32 1 : F32) * real (int32 4 : F32)| + |real (int32 0 : F32)| = 4
  simp only [real_int32]
  norm_num
/-- the weight 4 is larger than its error bound -/
example := C120_error2 eyeF2 ahead2 0 ahead2_0.1 ahead2_2.1 (ahead2_fin 0) rfl rfl rfl rfl (by
  rw [ahead2_weight.1, ahead2_weight.2]
  have u : uro F32 ≤ 1 / 16 := by
    change (2 : ℝ) ^ (-(24 : ℤ)) ≤ 1 / 16
    norm_num
  have u0 := uro_pos (S := F32)
  have t : tiny F32 ≤ 1 / 16 := by
    change (2 : ℝ) ^ ((-149 : ℤ) - 1) ≤ 1 / 16
    norm_num
  have t0 := tiny_pos (S := F32)
  have p3 : (1 + uro F32) ^ 3 ≤ (1 + 1 / 16) ^ 3 := pow_le_pow_left₀ (by linarith) (by linarith) _
  have p2 : (1 + uro F32) ^ 2 ≤ (1 + 1 / 16) ^ 2 := pow_le_pow_left₀ (by linarith) (by linarith) _
  have q : (1 + uro F32) ^ 2 * (2 * tiny F32) ≤ (1 + 1 / 16) ^ 2 * (2 * (1 / 16)) := mul_le_mul p2 (by linarith) (by positivity) (by positivity)
  norm_num at p3 p2 q ⊢
  linarith) rfl

/-! ### Dimension 3: dividing by the last coordinate -/
/-- `(x, y, z) -> (x / z, y / z, 1 / z)` -/
noncomputable def eye3 : Matrix4x4 Ideal := ⟨(#v[1, 0, 0, 0, 0, 1, 0, 0, 0, 0, 0, 1, 0, 0, 1, 0] : Vector ℝ 16).map Ideal.of⟩
theorem eye3_fin : AllFinite eye3 := by
  rw [Matrix4x4.allFinite]; intro i hi; rw [eye3, Vector.getElem_map]; exact Ideal.finite_of _
theorem eye3_real : eye3.toReal = !![1, 0, 0, 0; 0, 1, 0, 0; 0, 0, 0, 1; 0, 0, 1, 0] := by
  rw [Matrix4x4.toReal_eq]; simp [eye3]
theorem eye3_weight (p : Point3 Ideal) : eye3.weight p = real p.z := by
  rw [Matrix4x4.weight, eye3_real]
  simp [Matrix.mulVec, dotProduct, Fin.sum_univ_succ, Point3.hom, Fin.last]
noncomputable def look3 : Ray3 Ideal := ⟨⟨.of 0, .of 0, .of 1⟩, ⟨.of 1, .of 0, .of 1⟩⟩
theorem look3_fin : AllFinite look3 := Ray3.allFinite.2 ⟨Point3.allFinite.2 ⟨trivial, trivial, trivial⟩, Vector3.allFinite.2 ⟨trivial, trivial, trivial⟩⟩
theorem look3_weight {s : Ideal} (hs : IsFinite s) : eye3.weight (look3.at s) = 1 + real s := by
  rw [eye3_weight]
  have := congrFun (Ray3.toReal_at look3_fin hs) 2
  simpa [Point3.toReal, Vector3.toReal, look3] using this
theorem look3_zero : eye3.weight (look3.at zero) = 1 := by rw [look3_weight finite_zero, real_zero, add_zero]
theorem look3_one : eye3.weight (look3.at one) = 2 := by rw [look3_weight finite_one, real_one]; norm_num
theorem look3_of (x : ℝ) : eye3.weight (look3.at (.of x)) = 1 + x := look3_weight (Ideal.finite_of x)
/-- the point at 3 is at 3/2 of the image line -/
example := C120_line3 eye3 eye3_fin look3 look3_fin (.of 3) (.of (3 / 2)) (Ideal.finite_of _) (Ideal.finite_of _)
  (by rw [look3_zero]; norm_num) (by rw [look3_one]; norm_num) (by rw [look3_of]; norm_num)
  (by rw [look3_one, look3_of, Ideal.real_of, Ideal.real_of]; norm_num)
example := C120_segment3 eye3 eye3_fin look3 look3_fin (by rw [look3_zero]; norm_num) (by rw [look3_one]; norm_num)
example : ((Ideal.of (3 / 2)) <? (Ideal.of (5 / 3))) = ((Ideal.of 3) <? (Ideal.of 5)) :=
  C120_order3 eye3 look3 look3_fin (.of 3) (.of 5) (.of (3 / 2)) (.of (5 / 3)) (Ideal.finite_of _) (Ideal.finite_of _)
  (Ideal.finite_of _) (Ideal.finite_of _) (by rw [look3_zero]; norm_num) (by rw [look3_one]; norm_num) (by rw [look3_of]; norm_num)
  (by rw [look3_of]; norm_num) (by rw [look3_one, look3_of, Ideal.real_of, Ideal.real_of]; norm_num)
  (by rw [look3_one, look3_of, Ideal.real_of, Ideal.real_of]; norm_num)
example := C120_scale3 eye3 eye3_fin ⟨.of 5, .of 5, .of 5⟩ (Point3.allFinite.2 ⟨trivial, trivial, trivial⟩) (.of (-2)) (Ideal.finite_of _)
  (by rw [Ideal.real_of]; norm_num) (by rw [eye3_weight]; change real (Ideal.of 5) ≠ 0; rw [Ideal.real_of]; norm_num)
/-- As `try_from` gives it: the matrix is its own inverse. -/
noncomputable def eyeT3 : Transform3 Ideal := Transform3.new eye3 eye3
theorem eyeT3_fin : AllFinite eyeT3 := Transform3.allFinite.2 ⟨eye3_fin, eye3_fin⟩
theorem eyeT3_paired : eyeT3.Paired := by
  rw [Transform3.paired_iff eye3_fin eye3_fin]
  change eye3.toReal * eye3.toReal = 1
  rw [eye3_real]
  ext i j
  fin_cases i <;> fin_cases j <;> simp [Matrix.mul_apply, Fin.sum_univ_succ]
theorem eyeT3_not_affine : ¬ eyeT3.forward.Affine := by
  intro h
  have := h (Fin.last 3)
  change eye3.toReal (Fin.last 3) (Fin.last 3) = _ at this
  rw [eye3_real] at this
  simp [Fin.last] at this
noncomputable def slab3 : BoundingBox3 Ideal := ⟨⟨.of 0, .of 0, .of 1⟩, ⟨.of 1, .of 1, .of 2⟩⟩
theorem slab3_fin : AllFinite slab3 := BoundingBox3.allFinite.2 ⟨Point3.allFinite.2 ⟨trivial, trivial, trivial⟩, Point3.allFinite.2 ⟨trivial, trivial, trivial⟩⟩
theorem slab3_le : LeAll slab3.min slab3.max := by
  rw [Point3.leAll]
  have k : ∀ a b : ℝ, a ≤ b → (Ideal.of a ≤? Ideal.of b) = true := fun a b h => by
    rw [Ideal.le_real (Ideal.finite_of _) (Ideal.finite_of _), Ideal.real_of, Ideal.real_of]; exact h
  exact ⟨k _ _ (by norm_num), k _ _ (by norm_num), k _ _ (by norm_num)⟩
/-- the box around the corners of a box in front of the eye -/
example (build : Build) := C120_box3 eyeT3 eye3_fin build slab3 slab3_fin slab3_le (fun k hk c hc => by
  change 0 < eye3.weight c
  have hi := corner_inside3 build slab3 slab3_le hk hc
  have fc := BoundingBox3.fin_inside slab3_fin hi
  rw [BoundingBox3.inside_real slab3_fin fc] at hi
  have h1 := (hi 2).1
  rw [eye3_weight]
  have e : slab3.min.toReal 2 = 1 := by simp [Point3.toReal, slab3]
  rw [e] at h1
  change 1 ≤ real c.z at h1
  linarith)
/-- **C120**, the failure: `try_from` accepts the perspective matrix, and there is a ray, and a point on it with positive weight, that
the transformed ray does not reach at that parameter. -/
theorem C120_ray_wrong3 : eyeT3.Paired ∧ ∃ (r : Ray3 Ideal) (s : Ideal), AllFinite r ∧ IsFinite s ∧
    eyeT3.forward.weight r.origin ≠ 0 ∧ eyeT3.forward.weight (r.at s) ≠ 0 ∧
    ((Transform.transform eyeT3 r : Ray3 Ideal).at s == (Transform.transform eyeT3 (r.at s) : Point3 Ideal)) = false := by
  refine ⟨eyeT3_paired, ?_⟩
  by_contra hc
  push Not at hc
  refine eyeT3_not_affine ((C120_ray_iff3 eyeT3 eyeT3_fin eyeT3_paired).1 fun r s hr hs h0 h1 => ?_)
  have := hc r s hr hs h0 h1
  simpa using this

noncomputable def eyeF3 : Matrix4x4 F32 := ⟨#v[int32 1, int32 0, int32 0, int32 0, int32 0, int32 1, int32 0, int32 0, int32 0, int32 0, int32 0, int32 1, int32 0, int32 0, int32 1, int32 0]⟩
noncomputable def ahead3 : Point3 F32 := ⟨int32 1, int32 2, int32 4⟩
noncomputable def behind3 : Point3 F32 := ⟨int32 0, int32 0, int32 (-2)⟩
theorem ahead3_0 : Exactly (eyeF3.rowAt 0 ahead3) ((1 : ℤ) : ℝ) := ex_int (int_add32' (int_add32' (int_add32' (int_mul32 exi exi (by norm_num)) (int_mul32 exi exi (by norm_num)) (by norm_num)) (int_mul32 exi exi (by norm_num)) (by norm_num)) exi (by norm_num)) (by norm_num)
theorem ahead3_1 : Exactly (eyeF3.rowAt 1 ahead3) ((2 : ℤ) : ℝ) := ex_int (int_add32' (int_add32' (int_add32' (int_mul32 exi exi (by norm_num)) (int_mul32 exi exi (by norm_num)) (by norm_num)) (int_mul32 exi exi (by norm_num)) (by norm_num)) exi (by norm_num)) (by norm_num)
theorem ahead3_2 : Exactly (eyeF3.rowAt 2 ahead3) ((1 : ℤ) : ℝ) := ex_int (int_add32' (int_add32' (int_add32' (int_mul32 exi exi (by norm_num)) (int_mul32 exi exi (by norm_num)) (by norm_num)) (int_mul32 exi exi (by norm_num)) (by norm_num)) exi (by norm_num)) (by norm_num)
theorem ahead3_3 : Exactly (eyeF3.rowAt 3 ahead3) ((4 : ℤ) : ℝ) := ex_int (int_add32' (int_add32' (int_add32' (int_mul32 exi exi (by norm_num)) (int_mul32 exi exi (by norm_num)) (by norm_num)) (int_mul32 exi exi (by norm_num)) (by norm_num)) exi (by norm_num)) (by norm_num)
theorem behind3_0 : Exactly (eyeF3.rowAt 0 behind3) ((0 : ℤ) : ℝ) := ex_int (int_add32' (int_add32' (int_add32' (int_mul32 exi exi (by norm_num)) (int_mul32 exi exi (by norm_num)) (by norm_num)) (int_mul32 exi exi (by norm_num)) (by norm_num)) exi (by norm_num)) (by norm_num)
theorem behind3_1 : Exactly (eyeF3.rowAt 1 behind3) ((0 : ℤ) : ℝ) := ex_int (int_add32' (int_add32' (int_add32' (int_mul32 exi exi (by norm_num)) (int_mul32 exi exi (by norm_num)) (by norm_num)) (int_mul32 exi exi (by norm_num)) (by norm_num)) exi (by norm_num)) (by norm_num)
theorem behind3_2 : Exactly (eyeF3.rowAt 2 behind3) ((1 : ℤ) : ℝ) := ex_int (int_add32' (int_add32' (int_add32' (int_mul32 exi exi (by norm_num)) (int_mul32 exi exi (by norm_num)) (by norm_num)) (int_mul32 exi exi (by norm_num)) (by norm_num)) exi (by norm_num)) (by norm_num)
theorem behind3_3 : Exactly (eyeF3.rowAt 3 behind3) ((-2 : ℤ) : ℝ) := ex_int (int_add32' (int_add32' (int_add32' (int_mul32 exi exi (by norm_num)) (int_mul32 exi exi (by norm_num)) (by norm_num)) (int_mul32 exi exi (by norm_num)) (by norm_num)) exi (by norm_num)) (by norm_num)
/-- a point in front of the eye, inside the clip volume -/
example : clipBox3.isInside (eyeF3 * ahead3) = true :=
  (C120_clip3 eyeF3 ahead3 ahead3_3.1 (lt_exact int_zero32 ahead3_3 (by norm_num))).2 (fun i => by
    fin_cases i
    · exact ⟨le_exact (int_neg32 ahead3_3) ahead3_0 (by norm_num), le_exact ahead3_0 ahead3_3 (by norm_num)⟩
    · exact ⟨le_exact (int_neg32 ahead3_3) ahead3_1 (by norm_num), le_exact ahead3_1 ahead3_3 (by norm_num)⟩
    · exact ⟨le_exact (int_neg32 ahead3_3) ahead3_2 (by norm_num), le_exact ahead3_2 ahead3_3 (by norm_num)⟩)
/-- **C120**, the failure: a point behind the eye (weight -2) passes the test of the image against the clip box. -/
theorem C120_behind_seen3 : (eyeF3.rowAt 3 behind3 <? zero) = true ∧ clipBox3.isInside (eyeF3 * behind3) = true := by
  refine ⟨lt_exact behind3_3 int_zero32 (by norm_num), ?_⟩
  refine (C120_behind3 eyeF3 behind3 behind3_3.1 (lt_exact behind3_3 int_zero32 (by norm_num))).2 (fun i => ?_)
  fin_cases i
  · exact ⟨le_exact behind3_0 (int_neg32 behind3_3) (by norm_num), le_exact behind3_3 behind3_0 (by norm_num)⟩
  · exact ⟨le_exact behind3_1 (int_neg32 behind3_3) (by norm_num), le_exact behind3_3 behind3_1 (by norm_num)⟩
  · exact ⟨le_exact behind3_2 (int_neg32 behind3_3) (by norm_num), le_exact behind3_3 behind3_2 (by norm_num)⟩
theorem ahead3_fin (i : Fin 3) : IsFinite (eyeF3.rowAt i.castSucc ahead3 / eyeF3.rowAt 3 ahead3) := by
  have k : ∀ {x : F32} {a : ℤ}, Exactly x (a : ℝ) → |a| ≤ 4 → IsFinite (x / eyeF3.rowAt 3 ahead3) := by
    intro x a hx ha
    rw [(correct_div hx.1 ahead3_3.1 (by rw [ahead3_3.2]; norm_num)).1, hx.2, ahead3_3.2]
    refine big32' ?_
    have : |(a : ℝ)| ≤ 4 := by exact_mod_cast ha
    rw [abs_div]; norm_num; linarith
  fin_cases i
  · exact k ahead3_0 (by norm_num)
  · exact k ahead3_1 (by norm_num)
  · exact k ahead3_2 (by norm_num)
theorem ahead3_nn : NoNaN (eyeF3 * ahead3) := Point3.noNaN.2 ⟨(ahead3_fin 0).not_nan, (ahead3_fin 1).not_nan, (ahead3_fin 2).not_nan⟩
example : ((eyeF3 * (-one : F32)) * ahead3 == eyeF3 * ahead3) = true :=
  C120_negate3 eyeF3 ahead3 (by rw [ahead3_3.1.val, ahead3_3.2]; norm_num) ahead3_nn
theorem ahead3_weight : (∑ j : Fin 3, eyeF3.toReal 3 j.castSucc * ahead3.toReal j + eyeF3.toReal 3 3) = 4 ∧
    (∑ j : Fin 3, |eyeF3.toReal 3 j.castSucc * ahead3.toReal j| + |eyeF3.toReal 3 3|) = 4 := by
  rw [Fin.sum_univ_three, Fin.sum_univ_three]
  change real (int32 0 : F32) * real (int32 1 : F32) + real (int32 0 : F32) * real (int32 2 : F32) + real (int32 1 : F32) * real (int32 4 : F32) + real (int32 0 : F32) = 4 ∧
    |real (int32 0 : F32) * real (int32 1 : F32)| + |real (int32 0 : F32) * real (int32 2 : F32)| + |real (int32 1 : F32) * real (int32 4 : F32)| + |real (int32 0 : F32)| = 4
  simp only [real_int32]
  norm_num
/-- the weight 4 is larger than its error bound -/
example := C120_error3 eyeF3 ahead3 0 ahead3_0.1 ahead3_3.1 (ahead3_fin 0) rfl rfl rfl rfl (by
  rw [ahead3_weight.1, ahead3_weight.2]
  have u : uro F32 ≤ 1 / 16 := by
    change (2 : ℝ) ^ (-(24 : ℤ)) ≤ 1 / 16
    norm_num
  have u0 := uro_pos (S := F32)
  have t : tiny F32 ≤ 1 / 16 := by
    change (2 : ℝ) ^ ((-149 : ℤ) - 1) ≤ 1 / 16
    norm_num
  have t0 := tiny_pos (S := F32)
  have p4 : (1 + uro F32) ^ 4 ≤ (1 + 1 / 16) ^ 4 := pow_le_pow_left₀ (by linarith) (by linarith) _
  have p3 : (1 + uro F32) ^ 3 ≤ (1 + 1 / 16) ^ 3 := pow_le_pow_left₀ (by linarith) (by linarith) _
  have q : (1 + uro F32) ^ 3 * (3 * tiny F32) ≤ (1 + 1 / 16) ^ 3 * (3 * (1 / 16)) := mul_le_mul p3 (by linarith) (by positivity) (by positivity)
  norm_num at p4 p3 q ⊢
  linarith) rfl

end VecMath
