import Verif.Spec.RayImage
import Verif.Props.FloatErrorMat
import Verif.Props.FloatExamples
/-!
# Layer F: the image of a point on a ray (C85)
-/

open Classical

namespace VecMath
open Scalar IEEE

section
variable {S : Type} [Scalar S] [IEEE S] [Binary S]

theorem at_err_size {x o d s : ℝ} (h : |x - (o + d * s)| ≤
    uro S * |o| + ((1 + uro S) ^ 2 - 1) * |d * s| + (1 + uro S) * tiny S) :
    |x - (o + d * s)| ≤ ((1 + uro S) ^ 2 - 1) * (|o| + |d * s|) + (1 + uro S) * tiny S := by
  have hu := uro_pos (S := S)
  have := abs_nonneg o
  nlinarith [mul_nonneg (mul_nonneg hu.le hu.le) this, mul_nonneg hu.le this]

theorem image_point {n : ℕ} {A : Fin n → ℝ} {a y s : ℝ} {o d p : Fin n → ℝ}
    (h1 : ∀ j, |p j - (o j + d j * s)| ≤ ((1 + uro S) ^ 2 - 1) * (|o j| + |d j * s|) + (1 + uro S) * tiny S)
    (h2 : |y - (∑ j, A j * p j + a)| ≤ ((1 + uro S) ^ (n + 1) - 1) * (∑ j, |A j * p j| + |a|) +
      (1 + uro S) ^ n * (n * tiny S)) :
    |y - imageAt A a o d s| ≤ ((1 + uro S) ^ (n + 3) - 1) * imageSize A a o d s + flushPoint S A := by
  have hu := uro_pos (S := S)
  have ht := tiny_pos (S := S)
  have hG : (1 : ℝ) ≤ (1 + uro S) ^ (n + 1) := one_le_pow₀ (by linarith)
  have hH : (1 : ℝ) ≤ (1 + uro S) ^ 2 := one_le_pow₀ (by linarith)
  have e3 : (1 + uro S) ^ (n + 3) = (1 + uro S) ^ (n + 1) * (1 + uro S) ^ 2 := by ring
  have e2 : (1 + uro S) ^ (n + 2) = (1 + uro S) ^ (n + 1) * (1 + uro S) := by ring
  unfold imageAt imageSize flushPoint
  rw [e3, e2]
  generalize (1 + uro S) ^ (n + 1) = G at *
  generalize (1 + uro S) ^ 2 = H at *
  generalize (1 + uro S) ^ n * (n * tiny S) = σ at *
  set τ := (1 + uro S) * tiny S with hτ
  have hp : ∀ j, |p j| ≤ H * (|o j| + |d j * s|) + τ := by
    intro j
    have a1 := abs_sub_abs_le_abs_sub (p j) (o j + d j * s)
    have a2 := abs_add_le (o j) (d j * s)
    have a3 := h1 j
    linarith
  have t1 : ∑ j, |A j * p j| ≤ H * (∑ j, |A j| * (|o j| + |d j * s|)) + τ * ∑ j, |A j| := by
    rw [Finset.mul_sum, Finset.mul_sum, ← Finset.sum_add_distrib]
    refine Finset.sum_le_sum fun j _ => ?_
    rw [abs_mul]
    have := mul_le_mul_of_nonneg_left (hp j) (abs_nonneg (A j))
    linarith
  have t2 : |∑ j, A j * p j - ∑ j, A j * (o j + d j * s)| ≤
      (H - 1) * (∑ j, |A j| * (|o j| + |d j * s|)) + τ * ∑ j, |A j| := by
    rw [← Finset.sum_sub_distrib, Finset.mul_sum, Finset.mul_sum, ← Finset.sum_add_distrib]
    refine (Finset.abs_sum_le_sum_abs _ _).trans (Finset.sum_le_sum fun j _ => ?_)
    rw [← mul_sub, abs_mul]
    have := mul_le_mul_of_nonneg_left (h1 j) (abs_nonneg (A j))
    linarith
  have e : y - (∑ j, A j * (o j + d j * s) + a) =
      (y - (∑ j, A j * p j + a)) + (∑ j, A j * p j - ∑ j, A j * (o j + d j * s)) := by ring
  rw [e]
  refine (abs_add_le _ _).trans ?_
  have t3 := mul_le_mul_of_nonneg_left t1 (sub_nonneg.2 hG)
  have t4 : 0 ≤ G * (H - 1) * |a| := mul_nonneg (mul_nonneg (by linarith) (by linarith)) (abs_nonneg a)
  have e5 : G * (1 + uro S) * tiny S * ∑ j, |A j| = G * (τ * ∑ j, |A j|) := by rw [hτ]; ring
  rw [e5]
  generalize ∑ j, |A j * p j| = B at *
  generalize ∑ j, |A j| * (|o j| + |d j * s|) = W at *
  generalize τ * ∑ j, |A j| = Z at *
  linarith

theorem image_ray {n : ℕ} {A : Fin n → ℝ} {a x o' d' s : ℝ} {o d : Fin n → ℝ}
    (h1 : |o' - (∑ j, A j * o j + a)| ≤ ((1 + uro S) ^ (n + 1) - 1) * (∑ j, |A j * o j| + |a|) +
      (1 + uro S) ^ n * (n * tiny S))
    (h2 : |d' - ∑ j, A j * d j| ≤ ((1 + uro S) ^ n - 1) * ∑ j, |A j * d j| + (1 + uro S) ^ (n - 1) * (n * tiny S))
    (h3 : |x - (o' + d' * s)| ≤ uro S * |o'| + ((1 + uro S) ^ 2 - 1) * |d' * s| + (1 + uro S) * tiny S) :
    |x - imageAt A a o d s| ≤ ((1 + uro S) ^ (n + 2) - 1) * imageSize A a o d s + flushRay S n s := by
  have hu := uro_pos (S := S)
  have ht := tiny_pos (S := S)
  set O := ∑ j, A j * o j + a with hO
  set D := ∑ j, A j * d j with hD
  set Yo := ∑ j, |A j * o j| + |a| with hYo
  set Yd := ∑ j, |A j * d j| with hYd
  have b1 : |O| ≤ Yo := (abs_add_le _ _).trans (add_le_add_left (Finset.abs_sum_le_sum_abs _ _) _)
  have b2 : |D| ≤ Yd := Finset.abs_sum_le_sum_abs _ _
  have eX : imageAt A a o d s = O + D * s := by
    unfold imageAt
    rw [hO, hD, Finset.sum_mul]
    rw [show ∑ j, A j * o j + a + ∑ j, A j * d j * s = (∑ j, A j * o j + ∑ j, A j * d j * s) + a by ring,
      ← Finset.sum_add_distrib]
    congr 1
    exact Finset.sum_congr rfl fun j _ => by ring
  have eY : imageSize A a o d s = Yo + Yd * |s| := by
    unfold imageSize
    rw [hYo, hYd, Finset.sum_mul]
    rw [show ∑ j, |A j * o j| + |a| + ∑ j, |A j * d j| * |s| = (∑ j, |A j * o j| + ∑ j, |A j * d j| * |s|) + |a| by ring,
      ← Finset.sum_add_distrib]
    congr 1
    exact Finset.sum_congr rfl fun j _ => by rw [abs_mul, abs_mul, abs_mul]; ring
  rw [eX, eY]
  unfold flushRay
  have pm : (1 + uro S) ^ 2 * (1 + uro S) ^ (n - 1) * (n * tiny S) ≤ (1 + uro S) ^ (n + 1) * (n * tiny S) := by
    rcases Nat.eq_zero_or_pos n with rfl | h
    · simp
    · rw [← pow_add, show 2 + (n - 1) = n + 1 by omega]
  have p1 : (1 + uro S) ^ (n + 2) = (1 + uro S) ^ (n + 1) * (1 + uro S) := by ring
  have p2 : (1 + uro S) ^ (n + 1) = (1 + uro S) ^ n * (1 + uro S) := by ring
  have g1 : (1 : ℝ) ≤ (1 + uro S) ^ n := one_le_pow₀ (by linarith)
  have e : x - (O + D * s) = (x - (o' + d' * s)) + ((o' - O) + (d' - D) * s) := by ring
  rw [e]
  have q1 : |(o' - O) + (d' - D) * s| ≤ |o' - O| + |d' - D| * |s| := by
    rw [← abs_mul]; exact abs_add_le _ _
  have q2 : |o'| ≤ |o' - O| + Yo := by have := abs_sub_abs_le_abs_sub o' O; linarith
  have q3 : |d'| ≤ |d' - D| + Yd := by have := abs_sub_abs_le_abs_sub d' D; linarith
  refine (abs_add_le _ _).trans ?_
  have s0 := abs_nonneg s
  rw [abs_mul] at h3
  set ρ := (1 + uro S) ^ (n - 1) * (n * tiny S) with hρ
  set σ := (1 + uro S) ^ n * (n * tiny S) with hσ
  have r1 : uro S * |o'| ≤ uro S * (|o' - O| + Yo) := mul_le_mul_of_nonneg_left q2 hu.le
  have hh : (0 : ℝ) ≤ (1 + uro S) ^ 2 - 1 := by nlinarith
  have r2 : ((1 + uro S) ^ 2 - 1) * (|d'| * |s|) ≤ ((1 + uro S) ^ 2 - 1) * ((|d' - D| + Yd) * |s|) :=
    mul_le_mul_of_nonneg_left (mul_le_mul_of_nonneg_right q3 s0) hh
  have r3 : (1 + uro S) * |o' - O| ≤ (1 + uro S) * (((1 + uro S) ^ (n + 1) - 1) * Yo + σ) :=
    mul_le_mul_of_nonneg_left h1 (by linarith)
  have r4 : (1 + uro S) ^ 2 * (|d' - D| * |s|) ≤ (1 + uro S) ^ 2 * ((((1 + uro S) ^ n - 1) * Yd + ρ) * |s|) :=
    mul_le_mul_of_nonneg_left (mul_le_mul_of_nonneg_right h2 s0) (by positivity)
  have r5 : (1 + uro S) ^ 2 * ρ * |s| ≤ (1 + uro S) ^ (n + 1) * (n * tiny S) * |s| :=
    mul_le_mul_of_nonneg_right (by rw [hρ]; linarith) s0
  have r6 : (1 + uro S) * σ = (1 + uro S) ^ (n + 1) * (n * tiny S) := by rw [hσ, p2]; ring
  have r7 : (1 + uro S) ^ 2 * ((((1 + uro S) ^ n - 1) * Yd + ρ) * |s|) =
      ((1 + uro S) ^ (n + 2) - (1 + uro S) ^ 2) * (Yd * |s|) + (1 + uro S) ^ 2 * ρ * |s| := by ring
  have r8 : (1 + uro S) * (((1 + uro S) ^ (n + 1) - 1) * Yo + σ) =
      ((1 + uro S) ^ (n + 2) - (1 + uro S)) * Yo + (1 + uro S) * σ := by ring
  rw [r7] at r4
  rw [r8, r6] at r3
  generalize (1 + uro S) ^ (n + 2) = G at *
  generalize (1 + uro S) ^ (n + 1) * (n * tiny S) = N at *
  generalize (1 + uro S) ^ 2 = H at *
  generalize (1 + uro S) * tiny S = τ at *
  nlinarith [h3, q1, r1, r2, r3, r4, r5]

/-! ### 2D -/

/-- **C85** (2D): the transform of the computed point `ray.at(s)` is close to the image of the exact point. -/
theorem C85_point2 (t : Transform2 S) (r : Ray2 S) (s : S) (ht : AllFinite t.forward) (haff : t.forward.toReal 2 = ![0, 0, 1])
    (hp : AllFinite (r.at s)) (hq : AllFinite (Transform.transform t (r.at s) : Point2 S)) (i : Fin 2) :
    |(Transform.transform t (r.at s) : Point2 S).toReal i - imageAt (fun j => t.forward.toReal i.castSucc j.castSucc) (t.forward.toReal i.castSucc 2) r.origin.toReal r.direction.toReal (real s)| ≤
      ((1 + uro S) ^ 5 - 1) * imageSize (fun j => t.forward.toReal i.castSucc j.castSucc) (t.forward.toReal i.castSucc 2) r.origin.toReal r.direction.toReal (real s) + flushPoint S (fun j => t.forward.toReal i.castSucc j.castSucc) := by
  have hat := C64_at2 r s hp
  have key : ∀ j, |(r.at s).toReal j - (r.origin.toReal j + r.direction.toReal j * real s)| ≤
      ((1 + uro S) ^ 2 - 1) * (|r.origin.toReal j| + |r.direction.toReal j * real s|) + (1 + uro S) * tiny S := by
    intro j
    fin_cases j
    · exact at_err_size hat.1
    · exact at_err_size hat.2
  exact image_point (S := S) key (by exact_mod_cast C63_point2 t (r.at s) ht hp haff hq i)

/-- **C85** (2D): evaluating the transformed ray is close to the image of the exact point. -/
theorem C85_ray2 (t : Transform2 S) (r : Ray2 S) (s : S) (ht : AllFinite t.forward) (haff : t.forward.toReal 2 = ![0, 0, 1])
    (ho : AllFinite r.origin) (hd : AllFinite (Transform.transform t r : Ray2 S).direction) (hr : AllFinite ((Transform.transform t r : Ray2 S).at s))
    (i : Fin 2) :
    |((Transform.transform t r : Ray2 S).at s).toReal i - imageAt (fun j => t.forward.toReal i.castSucc j.castSucc) (t.forward.toReal i.castSucc 2) r.origin.toReal r.direction.toReal (real s)| ≤
      ((1 + uro S) ^ 4 - 1) * imageSize (fun j => t.forward.toReal i.castSucc j.castSucc) (t.forward.toReal i.castSucc 2) r.origin.toReal r.direction.toReal (real s) + flushRay S 2 (real s) := by
  have hat := C64_at2 (Transform.transform t r : Ray2 S) s hr
  have ho' : AllFinite (Transform.transform t r : Ray2 S).origin := by
    rw [Point2.allFinite] at hr ⊢
    exact ⟨(finite_of_add hr.1).1, (finite_of_add hr.2).1⟩
  have key : |((Transform.transform t r : Ray2 S).at s).toReal i - ((Transform.transform t r : Ray2 S).origin.toReal i +
      (Transform.transform t r : Ray2 S).direction.toReal i * real s)| ≤ uro S * |(Transform.transform t r : Ray2 S).origin.toReal i| +
        ((1 + uro S) ^ 2 - 1) * |(Transform.transform t r : Ray2 S).direction.toReal i * real s| + (1 + uro S) * tiny S := by
    fin_cases i
    · exact hat.1
    · exact hat.2
  have hv : |(Transform.transform t r : Ray2 S).direction.toReal i - ∑ j : Fin 2, t.forward.toReal i.castSucc j.castSucc * r.direction.toReal j| ≤
      ((1 + uro S) ^ 2 - 1) * ∑ j : Fin 2, |t.forward.toReal i.castSucc j.castSucc * r.direction.toReal j| +
        (1 + uro S) ^ (2 - 1) * ((2 : ℕ) * tiny S) := by
    have h := C63_vector2 t r.direction hd i
    norm_num only [pow_one, Nat.cast_ofNat]
    exact h
  exact image_ray (S := S) (o := r.origin.toReal) (d := r.direction.toReal)
    (C63_point2 t r.origin ht ho haff ho' i) hv key

/-- **C85** (2D): so transforming the point of a ray and evaluating the transformed ray agree up to rounding. -/
theorem C85_commute2 (t : Transform2 S) (r : Ray2 S) (s : S) (ht : AllFinite t.forward) (haff : t.forward.toReal 2 = ![0, 0, 1])
    (hp : AllFinite (r.at s)) (hq : AllFinite (Transform.transform t (r.at s) : Point2 S))
    (ho : AllFinite r.origin) (hd : AllFinite (Transform.transform t r : Ray2 S).direction) (hr : AllFinite ((Transform.transform t r : Ray2 S).at s))
    (i : Fin 2) :
    |(Transform.transform t (r.at s) : Point2 S).toReal i - ((Transform.transform t r : Ray2 S).at s).toReal i| ≤
      (((1 + uro S) ^ 5 - 1) + ((1 + uro S) ^ 4 - 1)) * imageSize (fun j => t.forward.toReal i.castSucc j.castSucc) (t.forward.toReal i.castSucc 2) r.origin.toReal r.direction.toReal (real s) +
        (flushPoint S (fun j => t.forward.toReal i.castSucc j.castSucc) + flushRay S 2 (real s)) := by
  have a := C85_point2 t r s ht haff hp hq i
  have b := C85_ray2 t r s ht haff ho hd hr i
  have := abs_sub_le ((Transform.transform t (r.at s) : Point2 S).toReal i) (imageAt (fun j => t.forward.toReal i.castSucc j.castSucc) (t.forward.toReal i.castSucc 2) r.origin.toReal r.direction.toReal (real s)) (((Transform.transform t r : Ray2 S).at s).toReal i)
  rw [abs_sub_comm (imageAt (fun j => t.forward.toReal i.castSucc j.castSucc) (t.forward.toReal i.castSucc 2) r.origin.toReal r.direction.toReal (real s))] at this
  linarith

/-! ### 3D -/

/-- **C85** (3D): the transform of the computed point `ray.at(s)` is close to the image of the exact point. -/
theorem C85_point3 (t : Transform3 S) (r : Ray3 S) (s : S) (ht : AllFinite t.forward) (haff : t.forward.toReal 3 = ![0, 0, 0, 1])
    (hp : AllFinite (r.at s)) (hq : AllFinite (Transform.transform t (r.at s) : Point3 S)) (i : Fin 3) :
    |(Transform.transform t (r.at s) : Point3 S).toReal i - imageAt (fun j => t.forward.toReal i.castSucc j.castSucc) (t.forward.toReal i.castSucc 3) r.origin.toReal r.direction.toReal (real s)| ≤
      ((1 + uro S) ^ 6 - 1) * imageSize (fun j => t.forward.toReal i.castSucc j.castSucc) (t.forward.toReal i.castSucc 3) r.origin.toReal r.direction.toReal (real s) + flushPoint S (fun j => t.forward.toReal i.castSucc j.castSucc) := by
  have hat := C64_at3 r s hp
  have key : ∀ j, |(r.at s).toReal j - (r.origin.toReal j + r.direction.toReal j * real s)| ≤
      ((1 + uro S) ^ 2 - 1) * (|r.origin.toReal j| + |r.direction.toReal j * real s|) + (1 + uro S) * tiny S := by
    intro j
    fin_cases j
    · exact at_err_size hat.1
    · exact at_err_size hat.2.1
    · exact at_err_size hat.2.2
  exact image_point (S := S) key (by exact_mod_cast C63_point3 t (r.at s) ht hp haff hq i)

/-- **C85** (3D): evaluating the transformed ray is close to the image of the exact point. -/
theorem C85_ray3 (t : Transform3 S) (r : Ray3 S) (s : S) (ht : AllFinite t.forward) (haff : t.forward.toReal 3 = ![0, 0, 0, 1])
    (ho : AllFinite r.origin) (hd : AllFinite (Transform.transform t r : Ray3 S).direction) (hr : AllFinite ((Transform.transform t r : Ray3 S).at s))
    (i : Fin 3) :
    |((Transform.transform t r : Ray3 S).at s).toReal i - imageAt (fun j => t.forward.toReal i.castSucc j.castSucc) (t.forward.toReal i.castSucc 3) r.origin.toReal r.direction.toReal (real s)| ≤
      ((1 + uro S) ^ 5 - 1) * imageSize (fun j => t.forward.toReal i.castSucc j.castSucc) (t.forward.toReal i.castSucc 3) r.origin.toReal r.direction.toReal (real s) + flushRay S 3 (real s) := by
  have hat := C64_at3 (Transform.transform t r : Ray3 S) s hr
  have ho' : AllFinite (Transform.transform t r : Ray3 S).origin := by
    rw [Point3.allFinite] at hr ⊢
    exact ⟨(finite_of_add hr.1).1, (finite_of_add hr.2.1).1, (finite_of_add hr.2.2).1⟩
  have key : |((Transform.transform t r : Ray3 S).at s).toReal i - ((Transform.transform t r : Ray3 S).origin.toReal i +
      (Transform.transform t r : Ray3 S).direction.toReal i * real s)| ≤ uro S * |(Transform.transform t r : Ray3 S).origin.toReal i| +
        ((1 + uro S) ^ 2 - 1) * |(Transform.transform t r : Ray3 S).direction.toReal i * real s| + (1 + uro S) * tiny S := by
    fin_cases i
    · exact hat.1
    · exact hat.2.1
    · exact hat.2.2
  have hv : |(Transform.transform t r : Ray3 S).direction.toReal i - ∑ j : Fin 3, t.forward.toReal i.castSucc j.castSucc * r.direction.toReal j| ≤
      ((1 + uro S) ^ 3 - 1) * ∑ j : Fin 3, |t.forward.toReal i.castSucc j.castSucc * r.direction.toReal j| +
        (1 + uro S) ^ (3 - 1) * ((3 : ℕ) * tiny S) := by
    have h := C63_vector3 t r.direction hd i
    norm_num only [pow_one, Nat.cast_ofNat]
    exact h
  exact image_ray (S := S) (o := r.origin.toReal) (d := r.direction.toReal)
    (C63_point3 t r.origin ht ho haff ho' i) hv key

/-- **C85** (3D): so transforming the point of a ray and evaluating the transformed ray agree up to rounding. -/
theorem C85_commute3 (t : Transform3 S) (r : Ray3 S) (s : S) (ht : AllFinite t.forward) (haff : t.forward.toReal 3 = ![0, 0, 0, 1])
    (hp : AllFinite (r.at s)) (hq : AllFinite (Transform.transform t (r.at s) : Point3 S))
    (ho : AllFinite r.origin) (hd : AllFinite (Transform.transform t r : Ray3 S).direction) (hr : AllFinite ((Transform.transform t r : Ray3 S).at s))
    (i : Fin 3) :
    |(Transform.transform t (r.at s) : Point3 S).toReal i - ((Transform.transform t r : Ray3 S).at s).toReal i| ≤
      (((1 + uro S) ^ 6 - 1) + ((1 + uro S) ^ 5 - 1)) * imageSize (fun j => t.forward.toReal i.castSucc j.castSucc) (t.forward.toReal i.castSucc 3) r.origin.toReal r.direction.toReal (real s) +
        (flushPoint S (fun j => t.forward.toReal i.castSucc j.castSucc) + flushRay S 3 (real s)) := by
  have a := C85_point3 t r s ht haff hp hq i
  have b := C85_ray3 t r s ht haff ho hd hr i
  have := abs_sub_le ((Transform.transform t (r.at s) : Point3 S).toReal i) (imageAt (fun j => t.forward.toReal i.castSucc j.castSucc) (t.forward.toReal i.castSucc 3) r.origin.toReal r.direction.toReal (real s)) (((Transform.transform t r : Ray3 S).at s).toReal i)
  rw [abs_sub_comm (imageAt (fun j => t.forward.toReal i.castSucc j.castSucc) (t.forward.toReal i.castSucc 3) r.origin.toReal r.direction.toReal (real s))] at this
  linarith

end
end VecMath
