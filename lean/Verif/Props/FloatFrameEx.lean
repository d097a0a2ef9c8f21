import Verif.Props.RealFrame
import Verif.Props.FloatExamples8
import Verif.Props.FloatFootEx
/-! # Concrete cases for C114 -/

namespace VecMath
open Scalar IEEE

theorem norm_v236 : norm2 v236.toReal ^ 2 = 49 := by
  rw [norm2_sq3]; show ((2 : ℤ) : ℝ) ^ 2 + ((3 : ℤ) : ℝ) ^ 2 + ((6 : ℤ) : ℝ) ^ 2 = _; norm_num

/-- C114: `(2, 3, 6) × x` is `(0, 6, -3)`, and the inner product with `(2, 3, 6)` is zero. -/
example := (C114_cross_axis v236 finite_v236).1
example := C114_cross_exact v236 finite_v236 .Y
example := C114_orthogonal_axis v236 finite_v236 .Z
example := C114_orthogonal_length v236 length_v236.1 .X
/-- C114: in every format, `(b, b, 0)` for a large `b` has an inner product with `(b, b, 0) × z` that is NaN. -/
example {F : Fmt} : IsNaN (Api.dot (⟨Fl.big F, Fl.big F, zero⟩ : Vector3 (Fl F)) (Api.cross (⟨Fl.big F, Fl.big F, zero⟩ : Vector3 (Fl F))
    (Vector3.zAxis : Vector3 (Fl F)) : Vector3 (Fl F)) : Fl F) :=
  (C114_orthogonal _ (Vector3.allFinite.2 ⟨Fl.finite_big, Fl.finite_big, finite_zero⟩)).2.2.2.2.2.2 big_mul
example := C114_sideways v236 finite_v236
example := C114_turned v34 finite_v34
example := C114_turned_length v34
/-- C114: the `f32` frame of `(2, 3, 6)` is orthonormal up to `2⁻¹⁷`. -/
example : IsFrameUpTo (1 / 131072) v236.frame.dir.toReal v236.frame.side.toReal v236.frame.up.toReal := by
  have h := C114_frame standard_f32 v236 length_v236.1 (by rw [norm_v236]; linarith [minNormal_f32])
  rw [uro_f32] at h
  obtain ⟨⟨a, b, c⟩, ⟨d, e, f⟩, g⟩ := h
  refine ⟨⟨?_, ?_, ?_⟩, ⟨?_, ?_, ?_⟩, ?_⟩ <;> refine le_trans (by assumption) (by norm_num)
example := C114_near standard_f32 v236 length_v236.1 (by rw [norm_v236]; linarith [minNormal_f32])
/-- C114, exact arithmetic: `(2, 3, 6)`. -/
example := C114_exact ⟨.of 2, .of 3, .of 6⟩ (Vector3.allFinite.2 ⟨trivial, trivial, trivial⟩) (by
  intro k
  have : (2 : ℝ) = 0 := congrFun k 0
  norm_num at this)
end VecMath
