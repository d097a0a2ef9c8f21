import Verif.Props.FloatExamples4
import Verif.Props.FloatLookAt2
/-! # Concrete `f32` cases for C76 -/

open Classical

namespace VecMath
open Scalar IEEE

theorem standard_f32 : Standard F32 := by
  refine ⟨?_, ample_f32.2, ?_⟩
  · rw [uro_f32]; norm_num
  · rw [uro_f32]
    show (2 : ℝ) ^ (_ : ℤ) ≤ _
    have : (binary32.emin + (binary32.p : ℤ) - 1) = -126 := by decide
    exact (congrArg _ this).trans_le (by norm_num)
theorem standard_f64 : Standard F64 := by
  refine ⟨?_, ample_f64.2, ?_⟩
  · show (2 : ℝ) ^ (-((53 : ℕ) : ℤ)) ≤ _; norm_num
  · show (2 : ℝ) ^ (_ : ℤ) ≤ ((2 : ℝ) ^ (-((53 : ℕ) : ℤ))) ^ 2
    have : (binary64.emin + (binary64.p : ℤ) - 1) = -1022 := by decide
    refine (congrArg _ this).trans_le ?_
    rw [← zpow_natCast, ← zpow_mul]
    exact zpow_le_zpow_right₀ (by norm_num) (by norm_num)

/-- A camera at `(1, 1, 1)` … -/
noncomputable def eye : Point3 F32 := ⟨int32 1, int32 1, int32 1⟩
/-- … that looks at `(3, 4, 7)` … -/
noncomputable def gaze : Point3 F32 := ⟨int32 3, int32 4, int32 7⟩
/-- … with `up = (2, 3, -6)`. -/
noncomputable def tilt : Vector3 F32 := ⟨int32 2, int32 3, int32 (-6)⟩

theorem gaze_eye : gaze.toReal - eye.toReal = ![2, 3, 6] := by
  funext i; fin_cases i
  · show ((3 : ℤ) : ℝ) - ((1 : ℤ) : ℝ) = 2; norm_num
  · show ((4 : ℤ) : ℝ) - ((1 : ℤ) : ℝ) = 3; norm_num
  · show ((7 : ℤ) : ℝ) - ((1 : ℤ) : ℝ) = 6; norm_num
theorem tilt_real : tilt.toReal = ![2, 3, -6] := by
  funext i; fin_cases i
  · show ((2 : ℤ) : ℝ) = 2; norm_num
  · show ((3 : ℤ) : ℝ) = 3; norm_num
  · show ((-6 : ℤ) : ℝ) = -6; norm_num
theorem norm_gaze : norm2 (gaze.toReal - eye.toReal) = 7 := by
  have : norm2 (gaze.toReal - eye.toReal) ^ 2 = 7 ^ 2 := by rw [gaze_eye, norm2_sq3]; simp; norm_num
  exact (pow_left_inj₀ (norm2_nonneg _) (by norm_num) two_ne_zero).1 this
theorem norm_tilt : norm2 tilt.toReal = 7 := by
  have : norm2 tilt.toReal ^ 2 = 7 ^ 2 := by rw [tilt_real, norm2_sq3]; simp; norm_num
  exact (pow_left_inj₀ (norm2_nonneg _) (by norm_num) two_ne_zero).1 this
theorem sin_gaze : 1 / 2 ≤ sinAngle tilt.toReal (gaze.toReal - eye.toReal) := by
  unfold sinAngle
  rw [norm_gaze, norm_tilt, le_div_iff₀ (by norm_num)]
  have h : norm2 (crossProduct tilt.toReal (gaze.toReal - eye.toReal)) ^ 2 = 1872 := by
    rw [gaze_eye, tilt_real, norm2_sq3]; simp [cross_apply]; norm_num
  nlinarith [norm2_nonneg (crossProduct tilt.toReal (gaze.toReal - eye.toReal))]
theorem grid_eye (i : Fin 3) : OnGrid 0 8 (eye.toReal i) := by
  fin_cases i <;> exact OnGrid.int (n := 1) (by norm_num)
theorem grid_gaze (i : Fin 3) : OnGrid 0 8 (gaze.toReal i) := by
  fin_cases i
  · exact OnGrid.int (n := 3) (by norm_num)
  · exact OnGrid.int (n := 4) (by norm_num)
  · exact OnGrid.int (n := 7) (by norm_num)
theorem grid_tilt (i : Fin 3) : OnGrid 0 8 (tilt.toReal i) := by
  fin_cases i
  · exact OnGrid.int (n := 2) (by norm_num)
  · exact OnGrid.int (n := 3) (by norm_num)
  · exact OnGrid.int (n := -6) (by norm_num)
theorem finite_tilt : AllFinite tilt := Vector3.allFinite.2 ⟨trivial, trivial, trivial⟩
theorem finite_eye : AllFinite eye := Point3.allFinite.2 ⟨trivial, trivial, trivial⟩
theorem finite_gaze : AllFinite gaze := Point3.allFinite.2 ⟨trivial, trivial, trivial⟩
theorem length_tilt : IsFinite (Api.length tilt) := by
  have e : √(∑ i, tilt.toReal i ^ 2) = ((7 : ℤ) : ℝ) := by
    have := norm_tilt; unfold norm2 at this; rw [this]; norm_num
  exact (C68_length3 (d := 0) (K := 7) tilt finite_tilt grid_tilt (fits_f32 (by norm_num))
    (by rw [e]; exact OnGrid.int (n := 7) (by norm_num)) (fits_f32 (by norm_num))).1
theorem length_gaze : IsFinite (Api.length (gaze - eye)) := by
  have e : √(∑ i, (eye.toReal i - gaze.toReal i) ^ 2) = ((7 : ℤ) : ℝ) := by
    have := norm_gaze
    rw [norm2_sub_comm] at this; unfold norm2 at this
    refine Eq.trans this ?_; norm_num
  exact (C68_distance3 (d := 0) (K := 7) eye gaze finite_eye finite_gaze grid_eye grid_gaze (fits_f32 (by norm_num))
    (fits_f32 (by norm_num)) (by rw [e]; exact OnGrid.int (n := 7) (by norm_num)) (fits_f32 (by norm_num))).1
theorem minNormal_f32 : minNormal F32 ≤ 1 := by
  refine standard_f32.normal.trans ?_
  rw [uro_f32]; norm_num

/-- C76 applies to this camera: every entry of its `f32` matrix is within `2^-15` of the exact one. -/
example : AllFinite (Matrix4x4.inverseLookAt eye gaze tilt) ∧ ∀ i j,
    |(Matrix4x4.inverseLookAt eye gaze tilt).toReal i j - cameraToWorld eye.toReal gaze.toReal tilt.toReal i j| ≤ 1 / 32768 := by
  have hm := minNormal_f32
  have hs := sin_gaze
  obtain ⟨h, h', -⟩ := C76_inverse_look_at standard_f32 eye gaze tilt finite_eye length_gaze length_tilt
    (by rw [norm_gaze]; linarith) (by rw [norm_tilt]; linarith) (by rw [uro_f32]; linarith)
  refine ⟨h, fun i j => (h' i j).trans ?_⟩
  rw [div_le_iff₀ (by linarith), uro_f32]; linarith
example := C76_orthonormal standard_f32 eye gaze tilt length_gaze length_tilt
    (by rw [norm_gaze]; have := minNormal_f32; linarith) (by rw [norm_tilt]; have := minNormal_f32; linarith)
    (by rw [uro_f32]; have := sin_gaze; linarith)
example := C62_near3 tilt standard_f32 length_tilt (by rw [norm_tilt]; have := minNormal_f32; linarith)
example := C76_exact_frame ![1, 1, 1] ![3, 4, 7] ![2, 3, -6] (by
  intro h; have := congrFun h 0; simp [cross_apply] at this; norm_num at this)

theorem norm_eye : norm2 eye.toReal ≤ 2 := by
  have : norm2 eye.toReal ^ 2 = 3 := by
    rw [norm2_sq3]; show ((1 : ℤ) : ℝ) ^ 2 + ((1 : ℤ) : ℝ) ^ 2 + ((1 : ℤ) : ℝ) ^ 2 = 3; norm_num
  nlinarith [norm2_nonneg eye.toReal]
theorem overflow_f32_uro : 2 ≤ overflowAt F32 * uro F32 ^ 4 := by
  rw [uro_f32]
  show (2 : ℝ) ≤ ((2 : ℝ) ^ (128 : ℤ) - 2 ^ (128 - ((24 : ℕ) : ℤ) - 1)) * _; norm_num
/-- C76: `look_at` accepts this camera, and every entry of its `f32` forward matrix is within `1/3000` of the exact one. -/
example : ∃ f, Transform3.lookAt eye gaze tilt = .ok ⟨f, Matrix4x4.inverseLookAt eye gaze tilt⟩ ∧ AllFinite f ∧
    ∀ i j, |f.toReal i j - worldToCamera eye.toReal gaze.toReal tilt.toReal i j| ≤ 1 / 3000 := by
  have hm := minNormal_f32
  have hs := sin_gaze
  have hn := norm_eye
  obtain ⟨f, h, ff, h1, h2, -⟩ := C76_look_at standard_f32 overflow_f32_uro eye gaze tilt finite_eye length_gaze length_tilt
    (by rw [norm_gaze]; linarith) (by rw [norm_tilt]; linarith) (by rw [uro_f32]; linarith) (by rw [uro_f32]; linarith)
  refine ⟨f, h, ff, fun i j => ?_⟩
  by_cases hj : j = 3
  · subst hj
    refine (h2 i).trans ?_
    rw [div_le_iff₀ (by linarith), uro_f32]; linarith
  · refine (h1 i j hj).trans ?_
    rw [div_le_iff₀ (by linarith), uro_f32]; linarith
example := C76_exact_inverse ![1, 1, 1] ![3, 4, 7] ![2, 3, -6] (by
  intro h; have := congrFun h 0; simp [cross_apply] at this; norm_num at this)

end VecMath
