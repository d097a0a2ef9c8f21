import Verif.Props.FloatClip
/-! # C126: how far from the plane a computed crossing can be -/

namespace VecMath
open Scalar IEEE

section
variable {S : Type} [Scalar S] [IEEE S] [Binary S]
theorem cut_scalar {u t X W x w r tiny : ℝ} (u0 : 0 ≤ u) (u1 : u ≤ 1 / 4) (X0 : 0 ≤ X) (W0 : 0 < W) (hx : |x - X| ≤ u * X) (hw : |w - W| ≤ u * W)
    (hr : r * w = x) (r0 : 0 ≤ r) (ht : |t - r| ≤ u * r + tiny) : |X - t * W| ≤ 5 * u * X + tiny * W := by
  have hw' := abs_le.1 hw
  have hx' := abs_le.1 hx
  have k1 : r * W ≤ 5 / 3 * X := by
    have : r * (3 / 4 * W) ≤ r * w := mul_le_mul_of_nonneg_left (by nlinarith) r0
    have : u * X ≤ 1 / 4 * X := mul_le_mul_of_nonneg_right u1 X0
    linarith
  have k0 : 0 ≤ r * W := mul_nonneg r0 W0.le
  have k2 : |r * W - r * w| ≤ u * (r * W) := by
    rw [← mul_sub, abs_mul, abs_of_nonneg r0, abs_sub_comm]
    calc r * |w - W| ≤ r * (u * W) := mul_le_mul_of_nonneg_left hw r0
      _ = u * (r * W) := by ring
  have k3 : |t * W - r * W| ≤ u * (r * W) + tiny * W := by
    rw [← sub_mul, abs_mul, abs_of_pos W0]
    calc |t - r| * W ≤ (u * r + tiny) * W := mul_le_mul_of_nonneg_right ht W0.le
      _ = u * (r * W) + tiny * W := by ring
  have k4 : u * (r * W) ≤ u * (5 / 3 * X) := mul_le_mul_of_nonneg_left k1 u0
  have k5 : 0 ≤ u * X := mul_nonneg u0 X0
  rw [hr] at k2
  rw [abs_le] at *
  constructor <;> linarith [k2.1, k2.2, k3.1, k3.2, hx.1, hx.2]
theorem cut_error {a b d : S} (ha : IsFinite a) (hb : IsFinite b) (hd : IsFinite d) (ka : (d ≤? a) = true) (kb : (d ≤? b) = false) (hw : IsFinite (b - a)) :
    |(real a - real d) - real ((d - a) / (b - a)) * (real a - real b)| ≤ 5 * uro S * (real a - real d) + tiny S * (real a - real b) := by
  obtain ⟨h0, h1⟩ := cut_param ha hb hd ka kb hw
  obtain ⟨ft, -, -⟩ := unit_real h0 h1
  have la : real d ≤ real a := (ole_real' hd ha).1 ka
  have lb : real b < real d := by
    rw [← Bool.not_eq_true, ole_real' hd hb, not_le] at kb
    exact kb
  have hx : IsFinite (d - a) := by
    refine (correct_sub hd ha).1.2 (lt_of_le_of_lt ?_ ((correct_sub hb ha).1.1 hw))
    rw [abs_of_nonpos (by linarith), abs_of_nonpos (by linarith)]
    linarith
  have w0 : real (b - a) < 0 := (sub_pos_iff hw).2.1.2 (by linarith)
  have x0 : real (d - a) ≤ 0 := by
    rw [IEEE.real_sub hx]
    exact (IEEE.A S).rnd_nonpos (by linarith)
  have e1 := err_sub hx
  have e2 := err_sub hw
  have e3 := err_div hx hw w0.ne ft
  have r0 : 0 ≤ real (d - a) / real (b - a) := div_nonneg_of_nonpos x0 w0.le
  rw [abs_of_nonneg r0] at e3
  refine cut_scalar (x := -real (d - a)) (w := -real (b - a)) (r := real (d - a) / real (b - a)) uro_pos.le uro_le (by linarith) (by linarith) ?_ ?_ ?_ r0 e3
  · rw [abs_of_nonpos (show real d - real a ≤ 0 by linarith)] at e1
    rw [← abs_neg]
    calc _ = |real (d - a) - (real d - real a)| := by congr 1; ring
      _ ≤ _ := e1
      _ = _ := by ring
  · rw [abs_of_nonpos (show real b - real a ≤ 0 by linarith)] at e2
    rw [← abs_neg]
    calc _ = |real (b - a) - (real b - real a)| := by congr 1; ring
      _ ≤ _ := e2
      _ = _ := by ring
  · rw [mul_neg, div_mul_cancel₀ _ w0.ne]
theorem cut_near {a b d t np nq nc E s B : ℝ} (t0 : 0 ≤ t) (t1 : t ≤ 1) (ha : |a - np| ≤ E) (hb : |b - nq| ≤ E) (hc : |nc - (np + (nq - np) * t)| ≤ B)
    (h : |(a - d) - t * (a - b)| ≤ s) : |nc - d| ≤ E + s + B := by
  rw [abs_le] at *
  have m1 := mul_le_mul_of_nonneg_left ha.1 (sub_nonneg.2 t1)
  have m2 := mul_le_mul_of_nonneg_left ha.2 (sub_nonneg.2 t1)
  have m3 := mul_le_mul_of_nonneg_left hb.1 t0
  have m4 := mul_le_mul_of_nonneg_left hb.2 t0
  constructor <;> nlinarith [h.1, h.2, hc.1, hc.2]

/-- **C126**: how far from the plane a computed crossing can be: `E` bounds the rounding errors of the two projections, `M` the coordinates. -/
theorem C126_near2 (n : Vector2 S) (d : S) (p q : Point2 S) (E M : ℝ) (hd : IsFinite d) (hw : IsFinite (n.along q - n.along p))
    (kp : (d ≤? n.along p) = true) (kq : (d ≤? n.along q) = false) (hc : AllFinite (Point2.cut n d p q))
    (hp : |real (n.along p) - n.toReal ⬝ᵥ p.toReal| ≤ E) (hq : |real (n.along q) - n.toReal ⬝ᵥ q.toReal| ≤ E)
    (Mp : ∀ i, |p.toReal i| ≤ M) (Mq : ∀ i, |q.toReal i| ≤ M) :
    |n.toReal ⬝ᵥ (Point2.cut n d p q).toReal - real d| ≤ E + (5 * uro S * (real (n.along p) - real d) + tiny S * (real (n.along p) - real (n.along q))) +
      (∑ i, |n.toReal i|) * (mixErr S * M + (1 + uro S) * tiny S) := by
  obtain ⟨h0, h1⟩ := C126_parameter2 n d p q hd hw kp kq
  obtain ⟨-, t0, t1⟩ := unit_real h0 h1
  have h := cut_error (finite_of_sub hw).2 (finite_of_sub hw).1 hd kp kq hw
  rw [Point2.allFinite] at hc
  refine cut_near t0 t1 hp hq ?_ h
  have e0 : |(Point2.cut n d p q).toReal 0 - (p.toReal 0 + (q.toReal 0 - p.toReal 0) * real ((d - n.along p) / (n.along q - n.along p)))| ≤ mixErr S * M + (1 + uro S) * tiny S := mix_err hc.1 t0 t1 (Mp 0) (Mq 0)
  have e1 : |(Point2.cut n d p q).toReal 1 - (p.toReal 1 + (q.toReal 1 - p.toReal 1) * real ((d - n.along p) / (n.along q - n.along p)))| ≤ mixErr S * M + (1 + uro S) * tiny S := mix_err hc.2 t0 t1 (Mp 1) (Mq 1)
  simp only [dotProduct, Fin.sum_univ_two]
  generalize mixErr S * M + (1 + uro S) * tiny S = B at *
  generalize real ((d - n.along p) / (n.along q - n.along p)) = t at *
  have m0 := mul_le_mul_of_nonneg_left e0 (abs_nonneg (n.toReal 0))
  rw [← abs_mul] at m0
  have m1 := mul_le_mul_of_nonneg_left e1 (abs_nonneg (n.toReal 1))
  rw [← abs_mul] at m1
  have k := (abs_add_le _ _).trans (add_le_add m0 m1)
  calc _ = _ := by congr 1; ring
    _ ≤ _ := k
    _ = _ := by ring
/-- **C126**: how far from the plane a computed crossing can be: `E` bounds the rounding errors of the two projections, `M` the coordinates. -/
theorem C126_near3 (n : Vector3 S) (d : S) (p q : Point3 S) (E M : ℝ) (hd : IsFinite d) (hw : IsFinite (n.along q - n.along p))
    (kp : (d ≤? n.along p) = true) (kq : (d ≤? n.along q) = false) (hc : AllFinite (Point3.cut n d p q))
    (hp : |real (n.along p) - n.toReal ⬝ᵥ p.toReal| ≤ E) (hq : |real (n.along q) - n.toReal ⬝ᵥ q.toReal| ≤ E)
    (Mp : ∀ i, |p.toReal i| ≤ M) (Mq : ∀ i, |q.toReal i| ≤ M) :
    |n.toReal ⬝ᵥ (Point3.cut n d p q).toReal - real d| ≤ E + (5 * uro S * (real (n.along p) - real d) + tiny S * (real (n.along p) - real (n.along q))) +
      (∑ i, |n.toReal i|) * (mixErr S * M + (1 + uro S) * tiny S) := by
  obtain ⟨h0, h1⟩ := C126_parameter3 n d p q hd hw kp kq
  obtain ⟨-, t0, t1⟩ := unit_real h0 h1
  have h := cut_error (finite_of_sub hw).2 (finite_of_sub hw).1 hd kp kq hw
  rw [Point3.allFinite] at hc
  refine cut_near t0 t1 hp hq ?_ h
  have e0 : |(Point3.cut n d p q).toReal 0 - (p.toReal 0 + (q.toReal 0 - p.toReal 0) * real ((d - n.along p) / (n.along q - n.along p)))| ≤ mixErr S * M + (1 + uro S) * tiny S := mix_err hc.1 t0 t1 (Mp 0) (Mq 0)
  have e1 : |(Point3.cut n d p q).toReal 1 - (p.toReal 1 + (q.toReal 1 - p.toReal 1) * real ((d - n.along p) / (n.along q - n.along p)))| ≤ mixErr S * M + (1 + uro S) * tiny S := mix_err hc.2.1 t0 t1 (Mp 1) (Mq 1)
  have e2 : |(Point3.cut n d p q).toReal 2 - (p.toReal 2 + (q.toReal 2 - p.toReal 2) * real ((d - n.along p) / (n.along q - n.along p)))| ≤ mixErr S * M + (1 + uro S) * tiny S := mix_err hc.2.2 t0 t1 (Mp 2) (Mq 2)
  simp only [dotProduct, Fin.sum_univ_three]
  generalize mixErr S * M + (1 + uro S) * tiny S = B at *
  generalize real ((d - n.along p) / (n.along q - n.along p)) = t at *
  have m0 := mul_le_mul_of_nonneg_left e0 (abs_nonneg (n.toReal 0))
  rw [← abs_mul] at m0
  have m1 := mul_le_mul_of_nonneg_left e1 (abs_nonneg (n.toReal 1))
  rw [← abs_mul] at m1
  have m2 := mul_le_mul_of_nonneg_left e2 (abs_nonneg (n.toReal 2))
  rw [← abs_mul] at m2
  have k := (abs_add_three _ _ _).trans (add_le_add (add_le_add m0 m1) m2)
  calc _ = _ := by congr 1; ring
    _ ≤ _ := k
    _ = _ := by ring
end

end VecMath