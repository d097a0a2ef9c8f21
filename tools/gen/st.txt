/-! ### Splitting along the longest dimension can stall -/

/-- `2^24 + 2`, the successor of `2^24` in `f32` -/
noncomputable def nextFar : F32 := Fl.of (F := binary32) 16777218 ⟨8388609, 1, by decide, by decide, by norm_num⟩ (by
  show |(16777218 : ℝ)| < 2 ^ (128 : ℤ)
  norm_num)
/-- `[2^24, 2^24 + 2] × [0, 1]` -/
noncomputable def farBox : BoundingBox2 F32 := ⟨⟨int32 16777216, int32 0⟩, ⟨nextFar, int32 1⟩⟩
/-- **C92**: splitting a box at its center along `max_dimension()` can stall: the center is on a face of the longest
dimension, although the other dimension can be split further. -/
theorem C92_longest_stalls : AllFinite farBox ∧ LeAll farBox.min farBox.max ∧ AllFinite farBox.diagonal ∧
    farBox.maxDimension = .X ∧ (farBox.center.x == farBox.min.x) = true ∧
    ∃ m, (farBox.min.y <? m) = true ∧ (m <? farBox.max.y) = true := by
  have ho := overflow32
  have e1 : Exactly (int32 16777216) 16777216 := ⟨finite_int32, by rw [real_int32]; norm_num⟩
  have e2 : Exactly nextFar 16777218 := ⟨trivial, rfl⟩
  have e3 : Exactly (int32 0) 0 := ⟨finite_int32, by rw [real_int32]; norm_num⟩
  have e4 : Exactly (int32 1) 1 := ⟨finite_int32, by rw [real_int32]; norm_num⟩
  have eh : Exactly (Scalar.half : F32) (1 / 2) := ⟨finite_half, by rw [real_half]⟩
  have dx : Exactly (nextFar - int32 16777216) 2 := by
    have := correct_sub e2.1 e1.1
    rw [e2.2, e1.2] at this
    have g := this.grid (e := 0) (N := 2) ((OnGrid.int (n := 2) (by norm_num)).congr (by norm_num)) (fits_f32 (by norm_num))
    rwa [show (16777218 - 16777216 : ℝ) = 2 by norm_num] at g
  have dy : Exactly (int32 1 - int32 0) 1 := by
    have := correct_sub e4.1 e3.1
    rw [e4.2, e3.2] at this
    have g := this.grid (e := 0) (N := 2) ((OnGrid.int (n := 1) (by norm_num)).congr (by norm_num)) (fits_f32 (by norm_num))
    rwa [show (1 - 0 : ℝ) = 1 by norm_num] at g
  have hx : Exactly ((nextFar - int32 16777216) * Scalar.half) 1 := by
    have := correct_mul dx.1 eh.1
    rw [dx.2, eh.2] at this
    have g := this.grid (e := 0) (N := 2) ((OnGrid.int (n := 1) (by norm_num)).congr (by norm_num)) (fits_f32 (by norm_num))
    rwa [show (2 * (1 / 2) : ℝ) = 1 by norm_num] at g
  have cx : Exactly (int32 16777216 + (nextFar - int32 16777216) * Scalar.half) 16777216 :=
    exec_add e1 hx (by
      show binary32.rnd _ = _
      rw [binary32.rnd_lit_even 24 1 8388608 (by decide) (by decide)] <;> norm_num) (by
      show |(16777216 + 1 : ℝ)| < 2 ^ (128 : ℤ) - 2 ^ (103 : ℤ)
      norm_num)
  refine ⟨?_, ?_, ?_, ?_, ?_, ?_⟩
  · rw [BoundingBox2.allFinite, Point2.allFinite, Point2.allFinite]
    exact ⟨⟨e1.1, e3.1⟩, ⟨e2.1, e4.1⟩⟩
  · rw [wf2_iff]
    exact ⟨(ole_real e1.1 e2.1).2 (by rw [e1.2, e2.2]; norm_num), (ole_real e3.1 e4.1).2 (by rw [e3.2, e4.2]; norm_num)⟩
  · rw [Vector2.allFinite]
    exact ⟨dx.1, dy.1⟩
  · have : (farBox.diagonal.x >? farBox.diagonal.y) = true := (olt_real dy.1 dx.1).2 (by rw [dx.2, dy.2]; norm_num)
    exact if_pos this
  · exact (obeq_real cx.1 e1.1).2 (by rw [cx.2, e1.2])
  · refine ⟨Scalar.half, (olt_real e3.1 eh.1).2 ?_, (olt_real eh.1 e4.1).2 ?_⟩
    · rw [e3.2, eh.2]; norm_num
    · rw [e4.2, eh.2]; norm_num

