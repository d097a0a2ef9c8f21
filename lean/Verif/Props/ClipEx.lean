import Verif.Props.FloatClipAcc
import Verif.Props.RealClip
import Verif.Props.RealEdges
import Verif.Props.ShadowEx
/-! # C126: the hypotheses are met; in `f32` a crossing can be outside -/

namespace VecMath
open Scalar IEEE

/-! ## Numbers that are rounded in `f32` -/
theorem clip_rnd_a : binary32.rnd ((-7 : ℝ) / -13) = 4516943 / 8388608 := by
  rw [show ((-7 : ℝ) / -13) = 7 / 13 by norm_num, binary32.rnd_lit (-1) (-24) 9033886 (by decide)]
  all_goals norm_num
theorem clip_rnd_b : binary32.rnd ((-13 : ℝ) * (4516943 / 8388608)) = -(14680065 / 2097152) := by
  rw [show ((-13 : ℝ) * (4516943 / 8388608)) = -(58720259 / 8388608) by norm_num, binary32.rnd_neg, binary32.rnd_lit (2) (-21) 14680065 (by decide)]
  all_goals norm_num
theorem clip_rnd_c : binary32.rnd ((7 : ℝ) + -(14680065 / 2097152)) = -(1 / 2097152) := by
  rw [show ((7 : ℝ) + -(14680065 / 2097152)) = -(1 / 2097152) by norm_num, binary32.rnd_neg, binary32.rnd_lit (-21) (-44) 8388608 (by decide)]
  all_goals norm_num
theorem clip_rnd_d : binary32.rnd ((1 : ℝ) * -(1 / 2097152)) = -(1 / 2097152) := by
  rw [one_mul, binary32.rnd_neg, binary32.rnd_lit (-21) (-44) 8388608 (by decide)]
  all_goals norm_num
theorem clip_rnd_e : binary32.rnd (-(1 / 2097152) + 0 : ℝ) = -(1 / 2097152) := by
  rw [add_zero, ← one_mul (-(1 / 2097152) : ℝ)]
  exact clip_rnd_d.trans (one_mul _).symm
theorem clip_big {x : ℝ} (h : |x| ≤ 2 ^ 50) : |x| < overflowAt F32 := big32' h

/-! ## One crossing -/
theorem clip_p : Exactly ((vec2 1 0).along (pt2 7 0)) ((7 : ℤ) : ℝ) :=
  ex_int (small_along 1 0 7 0 (by norm_num) (by norm_num) (by norm_num) (by norm_num) _ _ _ _) (by norm_num)
theorem clip_q : Exactly ((vec2 1 0).along (pt2 (-6) 0)) ((-6 : ℤ) : ℝ) :=
  ex_int (small_along 1 0 (-6) 0 (by norm_num) (by norm_num) (by norm_num) (by norm_num) _ _ _ _) (by norm_num)
theorem clip_width : Exactly ((vec2 1 0).along (pt2 (-6) 0) - (vec2 1 0).along (pt2 7 0)) ((-13 : ℤ) : ℝ) := ex_int (int_sub32' clip_q clip_p (by norm_num)) (by norm_num)
theorem clip_t : Exactly ((int32 0 - (vec2 1 0).along (pt2 7 0)) / ((vec2 1 0).along (pt2 (-6) 0) - (vec2 1 0).along (pt2 7 0)) : F32) (4516943 / 8388608) := by
  have a : Exactly (int32 0 - (vec2 1 0).along (pt2 7 0) : F32) ((-7 : ℤ) : ℝ) := ex_int (int_sub32' (exi (by norm_num)) clip_p (by norm_num)) (by norm_num)
  refine exec_div a clip_width (by norm_num) ?_ (clip_big ?_)
  · push_cast
    exact clip_rnd_a
  · norm_num [abs_div]
/-- What the line reaches at the crossing. -/
theorem clip_cut : Exactly (Point2.cut (vec2 1 0) (int32 0) (pt2 7 0) (pt2 (-6) 0)).x (-(1 / 2097152)) ∧
    Exactly (Point2.cut (vec2 1 0) (int32 0) (pt2 7 0) (pt2 (-6) 0)).y 0 := by
  constructor
  · have a : Exactly (int32 (-6) (by norm_num) - int32 7 (by norm_num) : F32) ((-13 : ℤ) : ℝ) := area_dif _ _ _ (by norm_num) (by norm_num) (by norm_num) (by norm_num)
    refine exec_add (exi (by norm_num)) (exec_mul a clip_t (z := -(14680065 / 2097152)) ?_ (clip_big ?_)) ?_ (clip_big ?_)
    · push_cast; exact clip_rnd_b
    · norm_num [abs_mul]
    · push_cast; exact clip_rnd_c
    · push_cast; norm_num [abs_le]
  · have a : Exactly (int32 0 (by norm_num) - int32 0 (by norm_num) : F32) ((0 : ℤ) : ℝ) := area_dif _ _ _ (by norm_num) (by norm_num) (by norm_num) (by norm_num)
    refine exec_add (exi (by norm_num)) (exec_mul a clip_t (z := 0) ?_ (clip_big ?_)) ?_ (clip_big ?_)
    · rw [Int.cast_zero, zero_mul]; exact binary32.rnd_zero
    · norm_num
    · rw [Int.cast_zero, add_zero]; exact binary32.rnd_zero
    · norm_num
theorem clip_along : Exactly ((vec2 1 0).along (Point2.cut (vec2 1 0) (int32 0) (pt2 7 0) (pt2 (-6) 0))) (-(1 / 2097152)) := by
  obtain ⟨cx, cy⟩ := clip_cut
  refine exec_add (exec_mul (exi (n := 1) (by norm_num)) cx (z := -(1 / 2097152)) ?_ (clip_big ?_)) (exec_mul (exi (n := 0) (by norm_num)) cy (z := 0) ?_ (clip_big ?_)) ?_ (clip_big ?_)
  · push_cast; exact clip_rnd_d
  · push_cast; norm_num [abs_le]
  · rw [Int.cast_zero, zero_mul]; exact binary32.rnd_zero
  · norm_num
  · exact clip_rnd_e
  · norm_num [abs_le]
theorem clip_in : (int32 0 ≤? (vec2 1 0).along (pt2 7 0) : Bool) = true := by
  refine (ole_real' finite_int32 clip_p.1).2 ?_
  rw [real_int32, clip_p.2]; norm_num
theorem clip_out : (int32 0 ≤? (vec2 1 0).along (pt2 (-6) 0) : Bool) = false := by
  rw [← Bool.not_eq_true, ole_real' finite_int32 clip_q.1, real_int32, clip_q.2]; norm_num
/-- **C126**, where it fails in floating point: the new point is itself outside, so that it would be cut off by the same plane, and the convex hull of the
result leaves the half-space. -/
theorem C126_outside : ∃ (n : Vector2 F32) (d : F32) (p q : Point2 F32), AllFinite n ∧ IsFinite d ∧ AllFinite p ∧ AllFinite q ∧ (d ≤? n.along p) = true ∧
    (d ≤? n.along q) = false ∧ n.clip d [p, q] = [p, Point2.cut n d p q] ∧ AllFinite (Point2.cut n d p q) ∧
    n.toReal ⬝ᵥ (Point2.cut n d p q).toReal < real d ∧ (d ≤? n.along (Point2.cut n d p q)) = false ∧ n.kept d (n.clip d [p, q]) = [p] := by
  obtain ⟨cx, cy⟩ := clip_cut
  have out : (int32 0 ≤? (vec2 1 0).along (Point2.cut (vec2 1 0) (int32 0) (pt2 7 0) (pt2 (-6) 0)) : Bool) = false := by
    rw [← Bool.not_eq_true, ole_real' finite_int32 clip_along.1, real_int32, clip_along.2]; norm_num
  have two := (C126_edge2 (vec2 1 0) (int32 0) (pt2 7 0) (pt2 (-6) 0) clip_in clip_out).1
  refine ⟨vec2 1 0, int32 0, pt2 7 0, pt2 (-6) 0, finite_vec2, finite_int32, finite_pt2, finite_pt2, clip_in, clip_out, two, ?_, ?_, out, ?_⟩
  · exact Point2.allFinite.2 ⟨cx.1, cy.1⟩
  · have e : ∀ c : Point2 F32, (vec2 1 0).toReal ⬝ᵥ c.toReal = real c.x := fun c => by
      simp [dotProduct, Fin.sum_univ_two, Vector2.toReal, Point2.toReal, vec2, real_int32]
    rw [real_int32, e, cx.2]
    norm_num
  · rw [two]
    simp [Vector2.kept, clip_in, out]

/-! ## The hypotheses are met -/
theorem clip_same {a b : F32} {x : ℝ} (ha : Exactly a x) (hb : Exactly b x) : (a == b) = true :=
  IEEE.beq_iff.2 ⟨ha.1.not_nan, hb.1.not_nan, by rw [ha.1.val, hb.1.val, ha.2, hb.2]⟩
theorem clip_finite : AllFinite ((pt2 (-6) 0 : Point2 F32) - (pt2 7 0) : Vector2 F32) :=
  Vector2.allFinite.2 ⟨(area_dif (-6) 7 (-13) (by norm_num) (by norm_num) (by norm_num) (by norm_num)).1, (area_dif 0 0 0 (by norm_num) (by norm_num) (by norm_num) (by norm_num)).1⟩
/-- The parameter of this crossing is between `0` and `1`. -/
example : (zero ≤? (int32 0 - (vec2 1 0).along (pt2 7 0)) / ((vec2 1 0).along (pt2 (-6) 0) - (vec2 1 0).along (pt2 7 0) : F32)) = true ∧
    ((int32 0 - (vec2 1 0).along (pt2 7 0)) / ((vec2 1 0).along (pt2 (-6) 0) - (vec2 1 0).along (pt2 7 0)) ≤? (one : F32)) = true :=
  C126_parameter2 (vec2 1 0) (int32 0) (pt2 7 0) (pt2 (-6) 0) finite_int32 clip_width.1 clip_in clip_out
theorem clip_small (a b : ℤ) (ha : |a| ≤ 100) (hb : |b| ≤ 100) (ha' : |a| ≤ 16777216) (hb' : |b| ≤ 16777216) :
    Exactly (int32 a ha' + (int32 b hb' - int32 a ha') : F32) ((b : ℤ) : ℝ) := by
  have k : |b - a| ≤ 16777216 := (abs_sub b a).trans (by linarith)
  exact ex_int (int_add32' (exi ha') (int_sub32' (exi hb') (exi ha') k) (by rw [add_sub_cancel]; exact hb')) (by ring)
theorem clip_reach (a b c e : ℤ) (ha : |a| ≤ 100) (hb : |b| ≤ 100) (hc : |c| ≤ 100) (he : |e| ≤ 100) (ha' : |a| ≤ 16777216) (hb' : |b| ≤ 16777216)
    (hc' : |c| ≤ 16777216) (he' : |e| ≤ 16777216) :
    AllFinite (pt2 c e hc' he' - pt2 a b ha' hb' : Vector2 F32) ∧ (pt2 a b ha' hb' + (pt2 c e hc' he' - pt2 a b ha' hb') == pt2 c e hc' he') = true ∧
    IsFinite ((vec2 1 2).along (pt2 c e hc' he') - (vec2 1 2).along (pt2 a b ha' hb')) := by
  have x := clip_small a c ha hc ha' hc'
  have y := clip_small b e hb he hb' he'
  refine ⟨Vector2.allFinite.2 ⟨(finite_of_add x.1).2, (finite_of_add y.1).2⟩, ?_, ?_⟩
  · refine Point2.beq_iff.2 ⟨clip_same x (exi hc'), clip_same y (exi he')⟩
  · refine (int_sub32' (small_along 1 2 c e (by norm_num) (by norm_num) hc he _ _ _ _) (small_along 1 2 a b (by norm_num) (by norm_num) ha hb _ _ _ _) ?_).1
    rw [abs_le] at *
    constructor <;> linarith [ha.1, ha.2, hb.1, hb.2, hc.1, hc.2, he.1, he.2]
/-- Clipping a triangle does not leave the boxes that hold it. -/
example (b : BoundingBox2 F32) (h1 : b.isInside (pt2 0 0) = true) (h2 : b.isInside (pt2 7 0) = true) (h3 : b.isInside (pt2 0 5) = true) :
    ∀ c ∈ (vec2 1 2).clip (int32 3) [pt2 0 0, pt2 7 0, pt2 0 5], b.isInside c = true := by
  refine C126_box2 (vec2 1 2) (int32 3) _ finite_int32 ?_ ?_ b ?_
  · simp only [List.mem_cons, List.not_mem_nil, or_false]
    rintro p (rfl | rfl | rfl) <;> exact finite_pt2
  · simp only [List.mem_cons, List.not_mem_nil, or_false]
    rintro p (rfl | rfl | rfl) q (rfl | rfl | rfl) <;>
      exact clip_reach _ _ _ _ (by norm_num) (by norm_num) (by norm_num) (by norm_num) _ _ _ _
  · simp only [List.mem_cons, List.not_mem_nil, or_false]
    rintro p (rfl | rfl | rfl) <;> assumption
/-- Of that triangle two corners are kept. -/
example : pt2 7 0 ∈ (vec2 1 2).kept (int32 3) [pt2 0 0, pt2 7 0, pt2 0 5] ∧ pt2 0 0 ∉ (vec2 1 2).kept (int32 3) [pt2 0 0, pt2 7 0, pt2 0 5] := by
  have key := C126_exact2 (e := 0) (f := 0) (M := 2) (N := 8) (vec2 1 2) (int32 3) [pt2 0 0, pt2 7 0, pt2 0 5] finite_vec2 finite_int32
    (fun p h => by
      simp only [List.mem_cons, List.not_mem_nil, or_false] at h
      rcases h with rfl | rfl | rfl <;> exact finite_pt2) (grid_vec2 (by norm_num) (by norm_num))
    (fun p h => by
      simp only [List.mem_cons, List.not_mem_nil, or_false] at h
      rcases h with rfl | rfl | rfl <;> exact grid_pt2 (by norm_num) (by norm_num)) (fits_f32 (by norm_num))
  constructor
  · refine (key _).2 ⟨by simp, ?_⟩
    simp [dotProduct, Fin.sum_univ_two, Vector2.toReal, Point2.toReal, vec2, pt2, real_int32]
    norm_num
  · intro h
    have := ((key _).1 h).2
    simp [dotProduct, Fin.sum_univ_two, Vector2.toReal, Point2.toReal, vec2, pt2, real_int32] at this
    norm_num at this
/-- How far outside the crossing of the counterexample can be. -/
example : |(vec2 1 0).toReal ⬝ᵥ (Point2.cut (vec2 1 0) (int32 0) (pt2 7 0) (pt2 (-6) 0) : Point2 F32).toReal - real (int32 0 : F32)| ≤
    0 + (5 * uro F32 * (7 - 0) + tiny F32 * (7 - -6)) + 1 * (mixErr F32 * 7 + (1 + uro F32) * tiny F32) := by
  have e : ∀ c : Point2 F32, (vec2 1 0).toReal ⬝ᵥ c.toReal = real c.x := fun c => by
    simp [dotProduct, Fin.sum_univ_two, Vector2.toReal, Point2.toReal, vec2, real_int32]
  have := C126_near2 (vec2 1 0) (int32 0) (pt2 7 0) (pt2 (-6) 0) 0 7 finite_int32 clip_width.1 clip_in clip_out (Point2.allFinite.2 ⟨clip_cut.1.1, clip_cut.2.1⟩)
    (by rw [e, clip_p.2]; simp [pt2, real_int32]) (by rw [e, clip_q.2]; simp [pt2, real_int32])
    (fun i => by fin_cases i <;> simp [pt2, Point2.toReal, real_int32]) (fun i => by fin_cases i <;> simp [pt2, Point2.toReal, real_int32] <;> norm_num)
  rw [clip_p.2, clip_q.2] at this
  simpa [Fin.sum_univ_two, Vector2.toReal, vec2, real_int32] using this
/-- In exact arithmetic: the triangle `(0,0) (2,0) (0,2)`, cut by `x ≥ 1`, still holds `(1,1)`. -/
example : (![1, 1] : Fin 2 → ℝ) ∈ Point2.hull ((⟨Ideal.of 1, Ideal.of 0⟩ : Vector2 Ideal).clip (Ideal.of 1) [ipt2 0 0, ipt2 2 0, ipt2 0 2]) := by
  have hn : AllFinite (⟨Ideal.of 1, Ideal.of 0⟩ : Vector2 Ideal) := Vector2.allFinite.2 ⟨Ideal.finite_of _, Ideal.finite_of _⟩
  have hp : ∀ p ∈ [ipt2 0 0, ipt2 2 0, ipt2 0 2], AllFinite p := by
    simp only [List.mem_cons, List.not_mem_nil, or_false]
    rintro p (rfl | rfl | rfl) <;> exact fin_ipt2
  rw [(C126_clip2 (⟨Ideal.of 1, Ideal.of 0⟩ : Vector2 Ideal) (Ideal.of 1) _ hn (Ideal.finite_of _) hp).2]
  constructor
  · have := (convex_convexHull ℝ {x | ∃ p : Point2 Ideal, p ∈ [ipt2 0 0, ipt2 2 0, ipt2 0 2] ∧ x = p.toReal}).midpoint_mem
      (subset_convexHull ℝ _ ⟨ipt2 2 0, by simp, real_ipt2.symm⟩) (subset_convexHull ℝ _ ⟨ipt2 0 2, by simp, real_ipt2.symm⟩)
    have e : midpoint ℝ (![2, 0] : Fin 2 → ℝ) ![0, 2] = ![1, 1] := by
      rw [midpoint_eq_smul_add]
      funext i; fin_cases i <;> simp
    rw [← e]
    exact this
  · have e : (⟨Ideal.of 1, Ideal.of 0⟩ : Vector2 Ideal).toReal = ![1, 0] := by ext i; fin_cases i <;> exact Ideal.real_of _
    simp [e, Ideal.real_of, dotProduct, Fin.sum_univ_two]

end VecMath
