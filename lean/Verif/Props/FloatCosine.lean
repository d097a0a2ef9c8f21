import Verif.Lemmas.Exec
import Verif.Props.FloatExamples
/-!
# The computed cosine of an angle can exceed 1 (layer F, concrete `f32` and `f64` numbers): C89

`Vector2::new(3, 3).normalize()` has, with itself, an inner product greater than 1, in `f32` and in `f64`: code that
takes the arc cosine of `dot(u.normalize(), v.normalize())` gets NaN for it. Generated by tools/gen/cosx.py.
-/
open Classical

namespace VecMath
open Scalar IEEE

theorem sq9_32 : binary32.rnd (3 * 3) = 9 := by
  rw [show (3 * 3 : ℝ) = 9 by norm_num]; exact binary32.rnd_of_has ⟨9, 0, by decide, by decide, by norm_num⟩
theorem sum18_32 : binary32.rnd (9 + 9) = 18 := by
  rw [show (9 + 9 : ℝ) = 18 by norm_num]; exact binary32.rnd_of_has ⟨18, 0, by decide, by decide, by norm_num⟩
theorem root_32 : binary32.rnd √18 = (4448731 / 1048576 : ℝ) := by
  rw [binary32.rnd_lit (2) (-21) 8897462 (by decide)]
  · norm_num
  · rw [Real.le_sqrt (by norm_num) (by norm_num)]; norm_num
  · rw [Real.sqrt_lt' (by norm_num)]; norm_num
  · rw [Real.lt_sqrt (by norm_num)]; norm_num
  · rw [Real.sqrt_lt' (by norm_num)]; norm_num
theorem quot_32 : binary32.rnd (3 / (4448731 / 1048576 : ℝ)) = (2965821 / 4194304 : ℝ) := by
  rw [binary32.rnd_lit (-1) (-24) 11863284 (by decide)]
  · norm_num
  all_goals norm_num
theorem square_32 : binary32.rnd ((2965821 / 4194304 : ℝ) * (2965821 / 4194304 : ℝ)) = (8388609 / 16777216 : ℝ) := by
  rw [binary32.rnd_lit (-1) (-24) 8388609 (by decide)]
  · norm_num
  all_goals norm_num
theorem total_32 : binary32.rnd ((8388609 / 16777216 : ℝ) + (8388609 / 16777216 : ℝ)) = (8388609 / 8388608 : ℝ) := by
  rw [binary32.rnd_lit (0) (-23) 8388609 (by decide)]
  · norm_num
  all_goals norm_num
/-- The number 3 in `f32`. -/
noncomputable def three32 : Fl binary32 := Fl.of (F := binary32) 3 ⟨3, 0, by decide, by decide, by norm_num⟩ (by
  show |(3 : ℝ)| < 2 ^ (128 : ℤ)
  rw [abs_of_pos (by norm_num)]
  exact lt_of_lt_of_le (by norm_num : (3 : ℝ) < 2 ^ (2 : ℤ)) (Fmt.z_le (by norm_num)))
/-- **C89** cannot be improved to `≤ 1`: in `f32` the vector `(3, 3)`, normalized, has inner product `1 + 2^-23 > 1`
with itself. -/
theorem C89_cosine_exceeds_32 : Exactly (Api.dot (Vector2.new three32 three32).normalize
    (Vector2.new three32 three32).normalize) (1 + 2 ^ (-23 : ℤ)) := by
  have ho := overflow32
  have h3 : Exactly three32 3 := ⟨trivial, rfl⟩
  have h9 : Exactly (three32 * three32) 9 := exec_mul h3 h3 sq9_32 (by rw [abs_of_pos (by norm_num)]; linarith)
  have h18 : Exactly (three32 * three32 + three32 * three32) 18 :=
    exec_add h9 h9 sum18_32 (by rw [abs_of_pos (by norm_num)]; linarith)
  have hl : Exactly (Api.length (Vector2.new three32 three32)) (4448731 / 1048576 : ℝ) :=
    exec_sqrt h18 (by norm_num) root_32 (by
      rw [abs_of_nonneg (Real.sqrt_nonneg _)]
      have : √18 < 5 := by rw [Real.sqrt_lt' (by norm_num)]; norm_num
      linarith)
  have hq : Exactly (three32 / Api.length (Vector2.new three32 three32)) (2965821 / 4194304 : ℝ) :=
    exec_div h3 hl (by norm_num) quot_32 (by rw [abs_of_pos (by norm_num)]; norm_num at ho ⊢; linarith)
  have hs := exec_mul hq hq square_32 (by rw [abs_of_pos (by norm_num)]; norm_num at ho ⊢; linarith)
  have hd := exec_add hs hs total_32 (by rw [abs_of_pos (by norm_num)]; norm_num at ho ⊢; linarith)
  have e : (8388609 / 8388608 : ℝ) = 1 + 2 ^ (-23 : ℤ) := by norm_num
  rw [e] at hd
  exact hd

theorem sq9_64 : binary64.rnd (3 * 3) = 9 := by
  rw [show (3 * 3 : ℝ) = 9 by norm_num]; exact binary64.rnd_of_has ⟨9, 0, by decide, by decide, by norm_num⟩
theorem sum18_64 : binary64.rnd (9 + 9) = 18 := by
  rw [show (9 + 9 : ℝ) = 18 by norm_num]; exact binary64.rnd_of_has ⟨18, 0, by decide, by decide, by norm_num⟩
theorem root_64 : binary64.rnd √18 = (4776788754394329 / 1125899906842624 : ℝ) := by
  rw [binary64.rnd_lit (2) (-50) 4776788754394329 (by decide)]
  · norm_num
  · rw [Real.le_sqrt (by norm_num) (by norm_num)]; norm_num
  · rw [Real.sqrt_lt' (by norm_num)]; norm_num
  · rw [Real.lt_sqrt (by norm_num)]; norm_num
  · rw [Real.sqrt_lt' (by norm_num)]; norm_num
theorem quot_64 : binary64.rnd (3 / (4776788754394329 / 1125899906842624 : ℝ)) = (6369051672525773 / 9007199254740992 : ℝ) := by
  rw [binary64.rnd_lit (-1) (-53) 6369051672525773 (by decide)]
  · norm_num
  all_goals norm_num
theorem square_64 : binary64.rnd ((6369051672525773 / 9007199254740992 : ℝ) * (6369051672525773 / 9007199254740992 : ℝ)) = (4503599627370497 / 9007199254740992 : ℝ) := by
  rw [binary64.rnd_lit (-1) (-53) 4503599627370497 (by decide)]
  · norm_num
  all_goals norm_num
theorem total_64 : binary64.rnd ((4503599627370497 / 9007199254740992 : ℝ) + (4503599627370497 / 9007199254740992 : ℝ)) = (4503599627370497 / 4503599627370496 : ℝ) := by
  rw [binary64.rnd_lit (0) (-52) 4503599627370497 (by decide)]
  · norm_num
  all_goals norm_num
/-- The number 3 in `f64`. -/
noncomputable def three64 : Fl binary64 := Fl.of (F := binary64) 3 ⟨3, 0, by decide, by decide, by norm_num⟩ (by
  show |(3 : ℝ)| < 2 ^ (1024 : ℤ)
  rw [abs_of_pos (by norm_num)]
  exact lt_of_lt_of_le (by norm_num : (3 : ℝ) < 2 ^ (2 : ℤ)) (Fmt.z_le (by norm_num)))
/-- **C89** cannot be improved to `≤ 1`: in `f64` the vector `(3, 3)`, normalized, has inner product `1 + 2^-52 > 1`
with itself. -/
theorem C89_cosine_exceeds_64 : Exactly (Api.dot (Vector2.new three64 three64).normalize
    (Vector2.new three64 three64).normalize) (1 + 2 ^ (-52 : ℤ)) := by
  have ho := overflow64
  have h3 : Exactly three64 3 := ⟨trivial, rfl⟩
  have h9 : Exactly (three64 * three64) 9 := exec_mul h3 h3 sq9_64 (by rw [abs_of_pos (by norm_num)]; linarith)
  have h18 : Exactly (three64 * three64 + three64 * three64) 18 :=
    exec_add h9 h9 sum18_64 (by rw [abs_of_pos (by norm_num)]; linarith)
  have hl : Exactly (Api.length (Vector2.new three64 three64)) (4776788754394329 / 1125899906842624 : ℝ) :=
    exec_sqrt h18 (by norm_num) root_64 (by
      rw [abs_of_nonneg (Real.sqrt_nonneg _)]
      have : √18 < 5 := by rw [Real.sqrt_lt' (by norm_num)]; norm_num
      linarith)
  have hq : Exactly (three64 / Api.length (Vector2.new three64 three64)) (6369051672525773 / 9007199254740992 : ℝ) :=
    exec_div h3 hl (by norm_num) quot_64 (by rw [abs_of_pos (by norm_num)]; norm_num at ho ⊢; linarith)
  have hs := exec_mul hq hq square_64 (by rw [abs_of_pos (by norm_num)]; norm_num at ho ⊢; linarith)
  have hd := exec_add hs hs total_64 (by rw [abs_of_pos (by norm_num)]; norm_num at ho ⊢; linarith)
  have e : (4503599627370497 / 4503599627370496 : ℝ) = 1 + 2 ^ (-52 : ℤ) := by norm_num
  rw [e] at hd
  exact hd

end VecMath
