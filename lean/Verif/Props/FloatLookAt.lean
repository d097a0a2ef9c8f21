import Verif.Lemmas.Perturb
import Verif.Lemmas.LookAt
/-!
# Layer F: accuracy of `inverse_look_at` in rounded arithmetic (C76), and of `normalize` without underflow conditions on
single coordinates (C62)
-/

open Classical

namespace VecMath
open Scalar IEEE

variable {S : Type} [Scalar S] [IEEE S] [Binary S]

/-- **C62**: in 3D, `normalize` is within 11 units of roundoff (Euclidean distance) of the exact unit vector whenever the
squared length is a normal number and does not overflow; nothing is asked of the single coordinates, which may underflow. -/
theorem C62_near3 (v : Vector3 S) (hS : Standard S) (h : IsFinite (Api.length v)) (hn : minNormal S ≤ norm2 v.toReal ^ 2) :
    AllFinite v.normalize ∧ norm2 (v.normalize.toReal - unit v.toReal) ≤ 11 * uro S := normalize_near3 hS h hn

theorem minNormal_pos : 0 < minNormal S := by unfold minNormal; positivity
theorem norm2_pos_of {n : ℕ} {v : Fin n → ℝ} (h : minNormal S ≤ norm2 v ^ 2) : 0 < norm2 v := by
  rcases (norm2_nonneg v).eq_or_lt with h0 | h0
  · have := minNormal_pos (S := S)
    rw [← h0] at h; norm_num at h; linarith
  · exact h0
theorem bd_of_norm {v : Vector3 S} {A : ℝ} (hf : AllFinite v) (h : norm2 v.toReal ≤ A) : Bd A v.x ∧ Bd A v.y ∧ Bd A v.z := by
  rw [Vector3.allFinite] at hf
  exact ⟨⟨hf.1, (abs_le_norm2 v.toReal 0).trans h⟩, ⟨hf.2.1, (abs_le_norm2 v.toReal 1).trans h⟩,
    ⟨hf.2.2, (abs_le_norm2 v.toReal 2).trans h⟩⟩
theorem cross_finite {a b : Vector3 S} (hS : Standard S) (ha : AllFinite a) (hb : AllFinite b) (hA : norm2 a.toReal ≤ 4 / 3)
    (hB : norm2 b.toReal ≤ 4 / 3) : AllFinite (Api.cross a b : Vector3 S) := by
  obtain ⟨a1, a2, a3⟩ := bd_of_norm ha hA
  obtain ⟨b1, b2, b3⟩ := bd_of_norm hb hB
  have key : ∀ {x y z w : S}, Bd (4 / 3) x → Bd (4 / 3) y → Bd (4 / 3) z → Bd (4 / 3) w → IsFinite (x * y - z * w) := by
    intro x y z w hx hy hz hw
    have p := Bd.mul hS.ample hx hy (K := 3) (by norm_num) (by norm_num)
    have q := Bd.mul hS.ample hz hw (K := 3) (by norm_num) (by norm_num)
    exact (Bd.sub hS.ample p q (K := 10) (by norm_num) (by norm_num)).1
  exact Vector3.allFinite.2 ⟨key a2 b3 a3 b2, key a3 b1 a1 b3, key a1 b2 a2 b1⟩
theorem length_finite {v : Vector3 S} (hS : Standard S) (hf : AllFinite v) (h : norm2 v.toReal ≤ 4 / 3) : IsFinite (Api.length v) := by
  obtain ⟨a1, a2, a3⟩ := bd_of_norm hf h
  have p := Bd.mul hS.ample a1 a1 (K := 3) (by norm_num) (by norm_num)
  have q := Bd.mul hS.ample a2 a2 (K := 3) (by norm_num) (by norm_num)
  have r := Bd.mul hS.ample a3 a3 (K := 3) (by norm_num) (by norm_num)
  have s := Bd.add hS.ample p q (K := 7) (by norm_num) (by norm_num)
  have t := Bd.add hS.ample s r (K := 11) (by norm_num) (by norm_num)
  have hn : ∀ {x : S}, IsFinite (x * x) → 0 ≤ real (x * x) := by
    intro x hx
    rw [real_mul hx, rnd_eq]; exact (Binary.F S).rnd_nonneg (mul_self_nonneg _)
  have n1 : 0 ≤ real (v.x * v.x + v.y * v.y) := by
    rw [real_add s.1, rnd_eq]; exact (Binary.F S).rnd_nonneg (_root_.add_nonneg (hn p.1) (hn q.1))
  have n2 : 0 ≤ real (v.x * v.x + v.y * v.y + v.z * v.z) := by
    rw [real_add t.1, rnd_eq]; exact (Binary.F S).rnd_nonneg (_root_.add_nonneg n1 (hn r.1))
  refine finite_sqrt_of t.1 n2 ?_
  have : √(real (v.x * v.x + v.y * v.y + v.z * v.z)) ≤ 4 := by
    rw [Real.sqrt_le_left (by norm_num)]
    have := (abs_le.1 t.2).2
    linarith
  have := hS.overflow
  show √(real (v.x * v.x + v.y * v.y + v.z * v.z)) < _
  linarith
theorem sub_near {t o : Point3 S} (h : AllFinite (t - o : Vector3 S)) :
    norm2 ((t - o : Vector3 S).toReal - (t.toReal - o.toReal)) ≤ uro S * norm2 (t.toReal - o.toReal) := by
  rw [Vector3.allFinite] at h
  rw [← norm2_abs (t.toReal - o.toReal), ← norm2_smul _ (uro_pos (S := S)).le]
  refine norm2_mono fun i => ?_
  fin_cases i
  · exact err_sub h.1
  · exact err_sub h.2.1
  · exact err_sub h.2.2
theorem allFinite_of_length {v : Vector3 S} (h : IsFinite (Api.length v)) : AllFinite v := by
  have hd : IsFinite (v.x * v.x + v.y * v.y + v.z * v.z) := (finite_of_sqrt h).1
  have h1 := finite_of_add hd
  have h2 := finite_of_add h1.1
  exact Vector3.allFinite.2 ⟨(finite_of_mul h2.1).1, (finite_of_mul h2.2).1, (finite_of_mul h1.2).1⟩

theorem sinAngle_le (a b : Fin 3 → ℝ) : sinAngle a b ≤ 1 :=
  div_le_one_of_le₀ (norm2_cross a b) (mul_nonneg (norm2_nonneg _) (norm2_nonneg _))

variable {o t : Point3 S} {up : Vector3 S}

/-- The frame computed by `inverse_look_at` against the exact one. -/
theorem look_frame_near (hS : Standard S) (h1 : IsFinite (Api.length (t - o))) (h2 : IsFinite (Api.length up))
    (n1 : 2 * minNormal S ≤ norm2 (t.toReal - o.toReal) ^ 2) (n2 : minNormal S ≤ norm2 up.toReal ^ 2)
    (hσ : 256 * uro S ≤ sinAngle up.toReal (t.toReal - o.toReal)) :
    (AllFinite (t - o).normalize ∧ norm2 ((t - o).normalize.toReal - aim o.toReal t.toReal) ≤ 13 * uro S) ∧
    (AllFinite (Api.cross up.normalize (t - o).normalize : Vector3 S).normalize ∧
      norm2 ((Api.cross up.normalize (t - o).normalize : Vector3 S).normalize.toReal - side o.toReal t.toReal up.toReal) ≤
        79 * uro S / sinAngle up.toReal (t.toReal - o.toReal)) ∧
    (AllFinite (Api.cross (t - o).normalize (Api.cross up.normalize (t - o).normalize : Vector3 S).normalize : Vector3 S) ∧
      norm2 ((Api.cross (t - o).normalize (Api.cross up.normalize (t - o).normalize : Vector3 S).normalize : Vector3 S).toReal -
        top o.toReal t.toReal up.toReal) ≤ 106 * uro S / sinAngle up.toReal (t.toReal - o.toReal)) := by
  have hu := uro_pos (S := S)
  have hu1 := hS.uro
  set w := t.toReal - o.toReal with hw
  set σ := sinAngle up.toReal w with hσd
  have mn := minNormal_pos (S := S)
  have pw : 0 < norm2 w := norm2_pos_of (S := S) (by linarith)
  have pu : 0 < norm2 up.toReal := norm2_pos_of (S := S) n2
  have hσp : 0 < σ := by linarith
  have fv := allFinite_of_length h1
  have ev := sub_near fv
  rw [← hw] at ev
  -- the rounded difference
  have pv : 99 / 100 * norm2 w ≤ norm2 (t - o : Vector3 S).toReal := by
    have := (abs_le.1 (norm2_abs_sub (t - o : Vector3 S).toReal w)).1
    nlinarith
  have nv : minNormal S ≤ norm2 (t - o : Vector3 S).toReal ^ 2 := by
    have := pow_le_pow_left₀ (by positivity) pv 2
    nlinarith
  have pv0 : 0 < norm2 (t - o : Vector3 S).toReal := norm2_pos_of (S := S) nv
  -- direction
  obtain ⟨fd, ed⟩ := normalize_near3 hS h1 nv
  have ed2 : norm2 ((t - o).normalize.toReal - unit w) ≤ 13 * uro S := by
    refine (norm2_tri _ (unit (t - o : Vector3 S).toReal) _).trans ?_
    have := unit_near pv0 pw
    have h : 2 * norm2 ((t - o : Vector3 S).toReal - w) / norm2 w ≤ 2 * uro S := by
      rw [div_le_iff₀ pw]; linarith
    linarith
  -- up
  obtain ⟨fn, en⟩ := normalize_near3 hS h2 n2
  have uD := norm2_unit pw
  have uU := norm2_unit pu
  set D := unit w with hD
  set U := unit up.toReal with hU
  set d := (t - o).normalize with hd
  set n := up.normalize with hn
  have ld : norm2 d.toReal ≤ 102 / 100 := by
    have := norm2_le_add d.toReal D
    rw [uD] at this; linarith
  have ln : norm2 n.toReal ≤ 102 / 100 := by
    have := norm2_le_add n.toReal U
    rw [uU] at this; linarith
  have eUD : crossProduct U D = ((norm2 up.toReal)⁻¹ * (norm2 w)⁻¹) • crossProduct up.toReal w := by
    rw [hU, hD, unit_eq, unit_eq]; simp [map_smul, LinearMap.smul_apply, smul_smul]; ring_nf
  have nUD : norm2 (crossProduct U D) = σ := by
    rw [eUD, norm2_smul', abs_of_pos (by positivity), hσd, sinAngle]; field_simp
  have hR : unit (crossProduct U D) = side o.toReal t.toReal up.toReal := by
    rw [eUD, unit_smul (by positivity)]; rfl
  have σ1 : σ ≤ 1 := by
    rw [← nUD]; have := norm2_cross U D; rw [uU, uD] at this; linarith
  -- the cross product
  have fc := cross_finite hS fn fd (by linarith) (by linarith)
  have ec := cross_err3 fc hS ln ld (by norm_num)
  have ecx : norm2 ((Api.cross n d : Vector3 S).toReal - crossProduct U D) ≤ 34 * uro S := by
    refine (norm2_tri _ (crossProduct n.toReal d.toReal) _).trans ?_
    have := cross_near (a := n.toReal) (b := d.toReal) (A := U) (B := D)
    have q : norm2 (n.toReal - U) * norm2 d.toReal ≤ 11 * uro S * (102 / 100) :=
      mul_le_mul en ld (norm2_nonneg _) (by positivity)
    rw [uU] at this
    linarith
  set c := (Api.cross n d : Vector3 S) with hc
  have lc : norm2 c.toReal ≤ 4 / 3 := by
    have := norm2_le_add c.toReal (crossProduct U D)
    rw [nUD] at this; linarith
  have lc0 : σ / 2 ≤ norm2 c.toReal := by
    have := (abs_le.1 (norm2_abs_sub c.toReal (crossProduct U D))).1
    rw [nUD] at this; linarith
  have pc : 0 < norm2 c.toReal := by linarith
  have nc : minNormal S ≤ norm2 c.toReal ^ 2 := by
    have := pow_le_pow_left₀ (by positivity) lc0 2
    have h3 := pow_le_pow_left₀ (by positivity) hσ 2
    have := hS.normal
    nlinarith [sq_nonneg (uro S)]
  obtain ⟨fr, er⟩ := normalize_near3 hS (length_finite hS fc lc) nc
  have inv1 : uro S ≤ uro S / σ := by rw [le_div_iff₀ hσp]; nlinarith
  have er2 : norm2 (c.normalize.toReal - side o.toReal t.toReal up.toReal) ≤ 79 * uro S / σ := by
    rw [← hR]
    refine (norm2_tri _ (unit c.toReal) _).trans ?_
    have h := unit_near pc (by rw [nUD]; exact hσp : 0 < norm2 (crossProduct U D))
    rw [nUD] at h
    have h' : 2 * norm2 (c.toReal - crossProduct U D) / σ ≤ 68 * (uro S / σ) := by
      rw [← mul_div_assoc]; exact div_le_div_of_nonneg_right (by linarith) hσp.le
    rw [mul_div_assoc]
    linarith
  set r := c.normalize with hr
  set R := side o.toReal t.toReal up.toReal with hRd
  have uR : norm2 R = 1 := by rw [← hR]; exact norm2_unit (by rw [nUD]; exact hσp)
  have small : 79 * uro S / σ ≤ 79 / 256 := by rw [div_le_iff₀ hσp]; linarith
  have lr : norm2 r.toReal ≤ 335 / 256 := by
    have := norm2_le_add r.toReal R
    rw [uR] at this; linarith
  have ft := cross_finite hS fd fr (by linarith) (by linarith)
  have et := cross_err3 ft hS ld lr (by norm_num)
  refine ⟨⟨fd, ed2⟩, ⟨fr, er2⟩, ft, ?_⟩
  have htop : top o.toReal t.toReal up.toReal = crossProduct D R := rfl
  rw [htop]
  refine (norm2_tri _ (crossProduct d.toReal r.toReal) _).trans ?_
  have h := cross_near (a := d.toReal) (b := r.toReal) (A := D) (B := R)
  rw [uD] at h
  have q : norm2 (d.toReal - D) * norm2 r.toReal ≤ 13 * uro S * (335 / 256) :=
    mul_le_mul ed2 lr (norm2_nonneg _) (by positivity)
  rw [mul_div_assoc] at er2 ⊢
  linarith

/-- **C76**: every entry of the matrix computed by `inverse_look_at` in `f32`/`f64` is within `106 u / sin θ` of the exact
camera-to-world matrix of the given data, where `u` is the unit roundoff and `θ` the angle between `up` and the viewing
direction; the viewing direction itself is within `13 u`, whatever `θ`; the position and the last row are exact. Asked for:
no overflow in the two squared lengths, neither of them subnormal, and `sin θ` at least `256 u`. -/
theorem C76_inverse_look_at (hS : Standard S) (o t : Point3 S) (up : Vector3 S) (ho : AllFinite o)
    (h1 : IsFinite (Api.length (t - o))) (h2 : IsFinite (Api.length up))
    (n1 : 2 * minNormal S ≤ norm2 (t.toReal - o.toReal) ^ 2) (n2 : minNormal S ≤ norm2 up.toReal ^ 2)
    (hσ : 256 * uro S ≤ sinAngle up.toReal (t.toReal - o.toReal)) :
    AllFinite (Matrix4x4.inverseLookAt o t up) ∧
    (∀ i j, |(Matrix4x4.inverseLookAt o t up).toReal i j - cameraToWorld o.toReal t.toReal up.toReal i j| ≤
      106 * uro S / sinAngle up.toReal (t.toReal - o.toReal)) ∧
    (∀ i, |(Matrix4x4.inverseLookAt o t up).toReal i 2 - cameraToWorld o.toReal t.toReal up.toReal i 2| ≤ 13 * uro S) ∧
    (∀ i, (Matrix4x4.inverseLookAt o t up).toReal i 3 = cameraToWorld o.toReal t.toReal up.toReal i 3) ∧
    (∀ j, (Matrix4x4.inverseLookAt o t up).toReal 3 j = cameraToWorld o.toReal t.toReal up.toReal 3 j) := by
  obtain ⟨⟨fd, ed⟩, ⟨fr, er⟩, ft, et⟩ := look_frame_near hS h1 h2 n1 n2 hσ
  have hu := uro_pos (S := S)
  set σ := sinAngle up.toReal (t.toReal - o.toReal)
  set d := (t - o).normalize with hd
  set r := (Api.cross up.normalize d : Vector3 S).normalize with hr
  set n := (Api.cross d r : Vector3 S) with hn
  have hσp : 0 < σ := by linarith
  have hM : Matrix4x4.inverseLookAt o t up = ⟨#v[r.x, n.x, d.x, o.x, r.y, n.y, d.y, o.y, r.z, n.z, d.z, o.z, zero, zero, zero, one]⟩ := rfl
  rw [hM]
  have b0 : 0 ≤ 106 * uro S / σ := by positivity
  have σ1 : σ ≤ 1 := sinAngle_le _ _
  have ed' : 13 * uro S ≤ 106 * uro S / σ := by rw [le_div_iff₀ hσp]; nlinarith
  have dcol : ∀ k : Fin 3, |d.toReal k - aim o.toReal t.toReal k| ≤ 13 * uro S := fun k => (abs_le_norm2 _ k).trans ed
  have rcol : ∀ k : Fin 3, |r.toReal k - side o.toReal t.toReal up.toReal k| ≤ 106 * uro S / σ := fun k =>
    ((abs_le_norm2 _ k).trans er).trans (div_le_div_of_nonneg_right (by linarith) hσp.le)
  have ncol : ∀ k : Fin 3, |n.toReal k - top o.toReal t.toReal up.toReal k| ≤ 106 * uro S / σ := fun k =>
    (abs_le_norm2 _ k).trans et
  rw [Vector3.allFinite] at fd fr ft
  rw [Point3.allFinite] at ho
  have z0 : real (zero : S) = 0 := real_zero
  refine ⟨?_, ?_, ?_, ?_, ?_⟩
  · rw [Matrix4x4.allFinite]
    intro i hi
    interval_cases i
    · exact fr.1
    · exact ft.1
    · exact fd.1
    · exact ho.1
    · exact fr.2.1
    · exact ft.2.1
    · exact fd.2.1
    · exact ho.2.1
    · exact fr.2.2
    · exact ft.2.2
    · exact fd.2.2
    · exact ho.2.2
    · exact finite_zero
    · exact finite_zero
    · exact finite_zero
    · exact finite_one
  · have ex : ∀ x : ℝ, |x - x| ≤ 106 * uro S / σ := fun x => by rw [sub_self, abs_zero]; exact b0
    intro i j
    fin_cases i <;> fin_cases j
    · exact rcol 0
    · exact ncol 0
    · exact (dcol 0).trans ed'
    · exact ex _
    · exact rcol 1
    · exact ncol 1
    · exact (dcol 1).trans ed'
    · exact ex _
    · exact rcol 2
    · exact ncol 2
    · exact (dcol 2).trans ed'
    · exact ex _
    · show |real (zero : S) - 0| ≤ _; rw [real_zero]; exact ex _
    · show |real (zero : S) - 0| ≤ _; rw [real_zero]; exact ex _
    · show |real (zero : S) - 0| ≤ _; rw [real_zero]; exact ex _
    · show |real (one : S) - 1| ≤ _; rw [real_one]; exact ex _
  · intro i
    fin_cases i
    · exact dcol 0
    · exact dcol 1
    · exact dcol 2
    · show |real (zero : S) - 0| ≤ _; rw [real_zero, sub_self, abs_zero]; positivity
  · intro i
    fin_cases i
    · rfl
    · rfl
    · rfl
    · exact real_one
  · intro j
    fin_cases j
    · exact real_zero
    · exact real_zero
    · exact real_zero
    · exact real_one

/-! ## The exact frame is what it should be -/

theorem dot_self_norm2 {n : ℕ} (v : Fin n → ℝ) : v ⬝ᵥ v = norm2 v ^ 2 := by
  unfold norm2
  rw [Real.sq_sqrt (Finset.sum_nonneg fun i _ => sq_nonneg _)]
  exact Finset.sum_congr rfl fun i _ => (sq _).symm
theorem norm2_pos_of_ne {v : Fin 3 → ℝ} (h : v ≠ 0) : 0 < norm2 v := by
  rcases (norm2_nonneg v).eq_or_lt with h0 | h0
  · refine absurd ?_ h
    funext i
    have := abs_le_norm2 v i
    rw [← h0] at this
    exact abs_eq_zero.1 (le_antisymm this (abs_nonneg _))
  · exact h0

/-- **C76**, the yardstick: when `up` is not parallel to the viewing direction, the three axes of the specification are
orthonormal and right-handed; the third points from the camera to the target, the first is perpendicular to `up` and the
second leans towards `up`. -/
theorem C76_exact_frame (o t up : Fin 3 → ℝ) (h : crossProduct up (t - o) ≠ 0) :
    aim o t ⬝ᵥ aim o t = 1 ∧ side o t up ⬝ᵥ side o t up = 1 ∧ top o t up ⬝ᵥ top o t up = 1 ∧
    aim o t ⬝ᵥ side o t up = 0 ∧ aim o t ⬝ᵥ top o t up = 0 ∧ side o t up ⬝ᵥ top o t up = 0 ∧
    crossProduct (aim o t) (side o t up) = top o t up ∧
    t - o = norm2 (t - o) • aim o t ∧ side o t up ⬝ᵥ up = 0 ∧ 0 < top o t up ⬝ᵥ up := by
  have hw : 0 < norm2 (t - o) := norm2_pos_of_ne fun h' => h (by rw [h', map_zero])
  have hc : 0 < norm2 (crossProduct up (t - o)) := norm2_pos_of_ne h
  have a1 : aim o t ⬝ᵥ aim o t = 1 := by rw [dot_self_norm2, aim, norm2_unit hw, one_pow]
  have s1 : side o t up ⬝ᵥ side o t up = 1 := by rw [dot_self_norm2, side, norm2_unit hc, one_pow]
  have as : side o t up ⬝ᵥ aim o t = 0 := by
    rw [side, aim, unit_eq, unit_eq, smul_dotProduct, dotProduct_smul, dotProduct_comm, dot_cross_self, smul_zero, smul_zero]
  have tt : top o t up ⬝ᵥ top o t up = 1 := by
    rw [top, cross_dot_cross, a1, s1, as, dotProduct_comm, as]; norm_num
  refine ⟨a1, s1, tt, by rw [dotProduct_comm, as], dot_self_cross _ _, dot_cross_self _ _, rfl, ?_, ?_, ?_⟩
  · rw [aim, unit_eq, smul_smul, mul_inv_cancel₀ hw.ne', one_smul]
  · rw [side, unit_eq, smul_dotProduct, dotProduct_comm, dot_self_cross, smul_zero]
  · have e1 : top o t up ⬝ᵥ up = side o t up ⬝ᵥ crossProduct up (aim o t) := by
      rw [top]; simp only [cross_apply, dot3]; simp; ring
    have e2 : crossProduct up (aim o t) = ((norm2 (t - o))⁻¹ * norm2 (crossProduct up (t - o))) • side o t up := by
      rw [side, aim, unit_eq, unit_eq, map_smul, smul_smul, mul_assoc, mul_inv_cancel₀ hc.ne', mul_one]
    rw [e1, e2, dotProduct_smul, s1]
    exact mul_pos (mul_pos (inv_pos.2 hw) hc) one_pos

theorem abs_dot_le {n : ℕ} (u v : Fin n → ℝ) : |u ⬝ᵥ v| ≤ norm2 u * norm2 v := by
  rw [← Real.sqrt_sq_eq_abs]
  unfold norm2
  rw [← Real.sqrt_mul (Finset.sum_nonneg fun i _ => sq_nonneg _)]
  exact Real.sqrt_le_sqrt (Finset.sum_mul_sq_le_sq_mul_sq _ _ _)

theorem dot_near {n : ℕ} {a b A B : Fin n → ℝ} {e : ℝ} (he : 0 ≤ e) (ha : norm2 (a - A) ≤ e) (hb : norm2 (b - B) ≤ e)
    (hA : norm2 A = 1) (hB : norm2 B = 1) : |a ⬝ᵥ b - A ⬝ᵥ B| ≤ 2 * e + e ^ 2 := by
  have e1 : a ⬝ᵥ b - A ⬝ᵥ B = (a - A) ⬝ᵥ (b - B) + (a - A) ⬝ᵥ B + A ⬝ᵥ (b - B) := by
    simp only [sub_dotProduct, dotProduct_sub]; ring
  rw [e1]
  refine (abs_add_three _ _ _).trans ?_
  have h1 := (abs_dot_le (a - A) (b - B)).trans (mul_le_mul ha hb (norm2_nonneg _) he)
  have h2 := abs_dot_le (a - A) B
  have h3 := abs_dot_le A (b - B)
  rw [hB, mul_one] at h2
  rw [hA, one_mul] at h3
  nlinarith

/-- **C76**: the three axes computed by `inverse_look_at` are orthonormal up to `318 u / sin θ`. -/
theorem C76_orthonormal (hS : Standard S) (o t : Point3 S) (up : Vector3 S)
    (h1 : IsFinite (Api.length (t - o))) (h2 : IsFinite (Api.length up))
    (n1 : 2 * minNormal S ≤ norm2 (t.toReal - o.toReal) ^ 2) (n2 : minNormal S ≤ norm2 up.toReal ^ 2)
    (hσ : 256 * uro S ≤ sinAngle up.toReal (t.toReal - o.toReal)) (i j : Fin 3) :
    |(∑ k : Fin 3, (Matrix4x4.inverseLookAt o t up).toReal k.castSucc i.castSucc *
        (Matrix4x4.inverseLookAt o t up).toReal k.castSucc j.castSucc) - (if i = j then 1 else 0)| ≤
      318 * uro S / sinAngle up.toReal (t.toReal - o.toReal) := by
  obtain ⟨⟨fd, ed⟩, ⟨fr, er⟩, ft, et⟩ := look_frame_near hS h1 h2 n1 n2 hσ
  have hu := uro_pos (S := S)
  have hσp : 0 < sinAngle up.toReal (t.toReal - o.toReal) := by linarith
  have hne : crossProduct up.toReal (t.toReal - o.toReal) ≠ 0 := by
    intro h0
    rw [sinAngle, h0] at hσp
    have : norm2 (0 : Fin 3 → ℝ) = 0 := by simp [norm2]
    rw [this, zero_div] at hσp
    exact lt_irrefl _ hσp
  obtain ⟨aa, ss, tt, as, at', st, -⟩ := C76_exact_frame _ _ _ hne
  have one_of : ∀ v : Fin 3 → ℝ, v ⬝ᵥ v = 1 → norm2 v = 1 := fun v hv => by
    rw [dot_self_norm2] at hv
    exact (pow_eq_one_iff_of_nonneg (norm2_nonneg _) two_ne_zero).1 hv
  set σ := sinAngle up.toReal (t.toReal - o.toReal)
  set d := (t - o).normalize with hd
  set r := (Api.cross up.normalize d : Vector3 S).normalize with hr
  set n := (Api.cross d r : Vector3 S) with hn
  have σ1 : σ ≤ 1 := sinAngle_le _ _
  have hM : Matrix4x4.inverseLookAt o t up = ⟨#v[r.x, n.x, d.x, o.x, r.y, n.y, d.y, o.y, r.z, n.z, d.z, o.z, zero, zero, zero, one]⟩ := rfl
  set e := 106 * uro S / σ with he
  have e0 : 0 ≤ e := by positivity
  have e1 : e ≤ 1 := by rw [he, div_le_one hσp]; linarith
  have ed' : norm2 (d.toReal - aim o.toReal t.toReal) ≤ e := ed.trans (by rw [he, le_div_iff₀ hσp]; nlinarith)
  have er' : norm2 (r.toReal - side o.toReal t.toReal up.toReal) ≤ e := er.trans (div_le_div_of_nonneg_right (by linarith) hσp.le)
  have bound : ∀ {a b A B : Fin 3 → ℝ} {c : ℝ}, norm2 (a - A) ≤ e → norm2 (b - B) ≤ e → A ⬝ᵥ A = 1 → B ⬝ᵥ B = 1 → A ⬝ᵥ B = c →
      |a ⬝ᵥ b - c| ≤ 318 * uro S / σ := by
    intro a b A B c ha hb hA hB hc
    have := dot_near e0 ha hb (one_of _ hA) (one_of _ hB)
    rw [hc] at this
    refine this.trans ?_
    have : 318 * uro S / σ = 3 * e := by rw [he]; ring
    rw [this]; nlinarith
  rw [hM]
  have key : ∀ (i j : Fin 3), (∑ k : Fin 3, (⟨#v[r.x, n.x, d.x, o.x, r.y, n.y, d.y, o.y, r.z, n.z, d.z, o.z, zero, zero, zero, one]⟩ : Matrix4x4 S).toReal k.castSucc i.castSucc *
        (⟨#v[r.x, n.x, d.x, o.x, r.y, n.y, d.y, o.y, r.z, n.z, d.z, o.z, zero, zero, zero, one]⟩ : Matrix4x4 S).toReal k.castSucc j.castSucc) =
      (![r.toReal, n.toReal, d.toReal] i) ⬝ᵥ (![r.toReal, n.toReal, d.toReal] j) := by
    intro i j
    refine Finset.sum_congr rfl fun k _ => ?_
    fin_cases i <;> fin_cases j <;> fin_cases k <;> rfl
  rw [key]
  fin_cases i <;> fin_cases j
  · exact bound er' er' ss ss ss
  · exact bound er' et ss tt st
  · exact bound er' ed' ss aa (by rw [dotProduct_comm]; exact as)
  · exact bound et er' tt ss (by rw [dotProduct_comm]; exact st)
  · exact bound et et tt tt tt
  · exact bound et ed' tt aa (by rw [dotProduct_comm]; exact at')
  · exact bound ed' er' aa ss as
  · exact bound ed' et aa tt at'
  · exact bound ed' ed' aa aa aa

end VecMath
