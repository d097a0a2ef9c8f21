import Verif.Props.FloatLookAt
import Verif.Props.FloatAxis
import Verif.Props.FloatExamples8
/-!
# Layer F: the accuracy of `normalize` in 2D (C62)

The plane is embedded into space: the third component is an exact zero and changes nothing.
-/

open Classical

namespace VecMath
open Scalar IEEE

theorem norm2_embed (v : Fin 2 → ℝ) : norm2 ![v 0, v 1, 0] = norm2 v := by
  unfold norm2
  simp [Fin.sum_univ_three, Fin.sum_univ_two]

section
variable {S : Type} [Scalar S] [IEEE S] [Binary S]
theorem embed_length {v : Vector2 S} (h : IsFinite (Api.length v)) :
    IsFinite (Api.length (⟨v.x, v.y, zero⟩ : Vector3 S)) ∧ real (Api.length (⟨v.x, v.y, zero⟩ : Vector3 S)) = real (Api.length v) := by
  obtain ⟨fd, d0⟩ := finite_of_sqrt (a := v.x * v.x + v.y * v.y) h
  have z : IsZero (zero * zero : S) := isZero_sq ⟨finite_zero, real_zero⟩
  obtain ⟨f, e⟩ := add_zero_right fd z
  have fl : IsFinite (Scalar.sqrt (v.x * v.x + v.y * v.y + zero * zero)) := finite_sqrt_nonneg f (by rw [e]; exact d0)
  refine ⟨fl, ?_⟩
  show real (Scalar.sqrt (v.x * v.x + v.y * v.y + zero * zero)) = real (Scalar.sqrt (v.x * v.x + v.y * v.y))
  rw [real_sqrt fl, real_sqrt (a := v.x * v.x + v.y * v.y) h, e]
theorem div_congr {a b c : S} (ha : IsFinite a) (hb : IsFinite b) (hc : IsFinite c) (h0 : real b ≠ 0) (e : real b = real c)
    (h : IsFinite (a / b)) : IsFinite (a / c) ∧ real (a / c) = real (a / b) := by
  have f : IsFinite (a / c) := by
    rw [(correct_div ha hc (e ▸ h0)).1, ← e]
    exact (correct_div ha hb h0).1.1 h
  exact ⟨f, by rw [real_div ha hc (e ▸ h0) f, real_div ha hb h0 h, e]⟩
/-- **C62**: in 2D, `normalize` is within 11 units of roundoff (Euclidean distance) of the exact unit vector whenever the
squared length is a normal number and does not overflow; nothing is asked of the single coordinates, which may underflow. -/
theorem C62_near2 (v : Vector2 S) (hS : Standard S) (h : IsFinite (Api.length v)) (hn : minNormal S ≤ norm2 v.toReal ^ 2) :
    AllFinite v.normalize ∧ norm2 (v.normalize.toReal - unit v.toReal) ≤ 11 * uro S := by
  obtain ⟨fl, el⟩ := embed_length h
  have er : (⟨v.x, v.y, zero⟩ : Vector3 S).toReal = ![v.toReal 0, v.toReal 1, 0] := by
    ext i; fin_cases i
    · rfl
    · rfl
    · exact real_zero
  have hn' : minNormal S ≤ norm2 (⟨v.x, v.y, zero⟩ : Vector3 S).toReal ^ 2 := by rw [er, norm2_embed]; exact hn
  obtain ⟨fn, en⟩ := C62_near3 (⟨v.x, v.y, zero⟩ : Vector3 S) hS fl hn'
  have hp := norm2_pos_of hn'
  have fd : IsFinite (v.x * v.x + v.y * v.y) := (finite_of_sqrt h).1
  have f1 := finite_of_add fd
  have fx := (finite_of_mul f1.1).1
  have fy := (finite_of_mul f1.2).1
  have l0 : real (Api.length (⟨v.x, v.y, zero⟩ : Vector3 S)) ≠ 0 := by
    intro hz
    exact (Vector3.allFinite.1 fn).2.2.not_nan (nan_div_zero finite_zero fl real_zero hz)
  rw [Vector3.allFinite] at fn
  obtain ⟨qx, rx⟩ := div_congr fx fl h l0 el fn.1
  obtain ⟨qy, ry⟩ := div_congr fy fl h l0 el fn.2.1
  refine ⟨Vector2.allFinite.2 ⟨qx, qy⟩, le_trans (le_of_eq ?_) en⟩
  have z0 : real ((⟨v.x, v.y, zero⟩ : Vector3 S).normalize.z) = 0 := by
    exact (zero_div_num ⟨finite_zero, real_zero⟩ fl l0).2
  rw [← norm2_embed]
  congr 1
  ext i
  fin_cases i
  · show real (v.x / Api.length v) - v.toReal 0 / norm2 v.toReal = real (v.x / Api.length (⟨v.x, v.y, zero⟩ : Vector3 S)) - real v.x / norm2 (⟨v.x, v.y, zero⟩ : Vector3 S).toReal
    rw [rx, er, norm2_embed]; rfl
  · show real (v.y / Api.length v) - v.toReal 1 / norm2 v.toReal = real (v.y / Api.length (⟨v.x, v.y, zero⟩ : Vector3 S)) - real v.y / norm2 (⟨v.x, v.y, zero⟩ : Vector3 S).toReal
    rw [ry, er, norm2_embed]; rfl
  · show (0 : ℝ) = real ((⟨v.x, v.y, zero⟩ : Vector3 S).normalize.z) - real (zero : S) / norm2 (⟨v.x, v.y, zero⟩ : Vector3 S).toReal
    rw [z0, real_zero]; simp
end
/-- `(3, 4)` -/
example := C62_near2 v34 standard_f32 length_v34.1 (by
  have h : norm2 v34.toReal ^ 2 = 25 := by
    unfold norm2; rw [sq_v34, Real.sqrt_sq (by norm_num)]; norm_num
  rw [h]; exact (one_normal (S := F32)).trans (by norm_num))
end VecMath
