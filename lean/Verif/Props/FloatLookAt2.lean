import Verif.Props.FloatLookAt
import Verif.Props.FloatInverse
import Verif.Lemmas.Affine4
/-!
# Layer F: `look_at` succeeds in rounded arithmetic, and its forward matrix is accurate (C76)
-/

open Classical

namespace VecMath
open Scalar IEEE

theorem triple_cross {d r : Fin 3 → ℝ} (hd : d ⬝ᵥ d = 1) (hr : r ⬝ᵥ r = 1) (hdr : d ⬝ᵥ r = 0) :
    crossProduct (crossProduct d r) d = r ∧ crossProduct r (crossProduct d r) = d := by
  rw [dot3] at hd hr hdr
  constructor
  · ext i; fin_cases i <;> simp [cross_apply]
    · linear_combination (r 0) * hd - (d 0) * hdr
    · linear_combination (r 1) * hd - (d 1) * hdr
    · linear_combination (r 2) * hd - (d 2) * hdr
  · ext i; fin_cases i <;> simp [cross_apply]
    · linear_combination (d 0) * hr - (r 0) * hdr
    · linear_combination (d 1) * hr - (r 1) * hdr
    · linear_combination (d 2) * hr - (r 2) * hdr

theorem cameraToWorld_eq (o t up : Fin 3 → ℝ) : cameraToWorld o t up = cam (side o t up) (top o t up) (aim o t) o := rfl
theorem adj_exact (o t up : Fin 3 → ℝ) (h : crossProduct up (t - o) ≠ 0) :
    (cameraToWorld o t up).adjugate = worldToCamera o t up ∧ (cameraToWorld o t up).det = 1 := by
  obtain ⟨aa, ss, tt, as, at', st, e, -⟩ := C76_exact_frame o t up h
  obtain ⟨e1, e2⟩ := triple_cross aa ss as
  rw [e] at e1 e2
  rw [cameraToWorld_eq, det_cam, adj_cam, e1, e2, e, ss]
  exact ⟨rfl, rfl⟩
/-- **C76**, the yardstick: the two exact matrices are inverse to each other. -/
theorem C76_exact_inverse (o t up : Fin 3 → ℝ) (h : crossProduct up (t - o) ≠ 0) :
    cameraToWorld o t up * worldToCamera o t up = 1 ∧ worldToCamera o t up * cameraToWorld o t up = 1 := by
  obtain ⟨e1, e2⟩ := adj_exact o t up h
  constructor
  · rw [← e1, Matrix.mul_adjugate, e2, one_smul]
  · rw [← e1, Matrix.adjugate_mul, e2, one_smul]

section
variable {u e : ℝ}
theorem pow_bounds (h0 : 0 < u) (h1 : u ≤ 1 / 1024) : (1 + u) ^ 8 - 1 ≤ 81 / 10 * u ∧ (1 + u) ^ 11 - 1 ≤ 111 / 10 * u ∧
    (1 + u) ^ 7 ≤ 102 / 100 ∧ (1 + u) ^ 10 ≤ 102 / 100 := by
  have p2 : (1 + u) ^ 2 ≤ 1 + 2001 / 1000 * u := by nlinarith
  have q2 : 0 ≤ (1 + u) ^ 2 := by positivity
  have p4 : (1 + u) ^ 4 ≤ 1 + 4006 / 1000 * u := by
    have : (1 + u) ^ 4 = (1 + u) ^ 2 * (1 + u) ^ 2 := by ring
    rw [this]; nlinarith
  have q4 : 0 ≤ (1 + u) ^ 4 := by positivity
  have p8 : (1 + u) ^ 8 ≤ 1 + 803 / 100 * u := by
    have : (1 + u) ^ 8 = (1 + u) ^ 4 * (1 + u) ^ 4 := by ring
    rw [this]; nlinarith
  have p3 : (1 + u) ^ 3 ≤ 1 + 3004 / 1000 * u := by
    have : (1 + u) ^ 3 = (1 + u) ^ 2 * (1 + u) := by ring
    rw [this]; nlinarith
  have p11 : (1 + u) ^ 11 ≤ 1 + 1107 / 100 * u := by
    have : (1 + u) ^ 11 = (1 + u) ^ 8 * (1 + u) ^ 3 := by ring
    have q3 : 0 ≤ (1 + u) ^ 3 := by positivity
    have q8 : 0 ≤ (1 + u) ^ 8 := by positivity
    rw [this]; nlinarith
  have m7 : (1 + u) ^ 7 ≤ (1 + u) ^ 11 := pow_le_pow_right₀ (by linarith) (by norm_num)
  have m10 : (1 + u) ^ 10 ≤ (1 + u) ^ 11 := pow_le_pow_right₀ (by linarith) (by norm_num)
  refine ⟨by linarith, by linarith, by linarith, by linarith⟩

/-- The error of one entry. -/
theorem entry_core {r w a d E D B α w0 s : ℝ} (hu : 0 < u) (_ : u ≤ 1 / 1024) (hue : 106 * u ≤ e) (he : e ≤ 5 / 193)
    (h : |r * d - a| ≤ E) (hE : E ≤ 81 / 10 * u * B + s + |r| * D) (hs : s ≤ 3 * u ^ 2) (hD : D ≤ 76 * u) (hD0 : 0 ≤ D)
    (hα : |a - w| ≤ α) (hd : |d - 1| ≤ 309 / 100 * e) (hw : |w| ≤ w0) (hB : 0 ≤ B) :
    |r - w| ≤ 91 / 10 * u * B + 4 * u ^ 2 + 112 / 100 * α + 43 / 10 * e * w0 := by
  have e1 : r - w = (r * d - a) + (a - w) - r * (d - 1) := by ring
  have h1 : |r - w| ≤ |r * d - a| + |a - w| + |r| * |d - 1| := by
    calc |r - w| = |(r * d - a) + (a - w) - r * (d - 1)| := by rw [← e1]
      _ ≤ |(r * d - a) + (a - w)| + |r * (d - 1)| := abs_sub _ _
      _ ≤ _ := by rw [abs_mul]; have := abs_add_le (r * d - a) (a - w); linarith
  have h2 : |r| ≤ w0 + |r - w| := by
    have : |r| ≤ |w| + |r - w| := by
      have := abs_add_le w (r - w); rwa [add_sub_cancel] at this
    linarith
  have hα0 := (abs_nonneg _).trans hα
  have hw0 := (abs_nonneg _).trans hw
  have hx := abs_nonneg (r - w)
  have hr := abs_nonneg r
  have h3 : |r| * (D + |d - 1|) ≤ (w0 + |r - w|) * (381 / 100 * e) :=
    mul_le_mul h2 (by linarith) (by have := abs_nonneg (d - 1); linarith) (by linarith)
  have h4 : |r - w| * (381 / 100 * e) ≤ |r - w| * (1 / 10) := mul_le_mul_of_nonneg_left (by linarith) hx
  have h5 : 0 ≤ u * B := mul_nonneg hu.le hB
  have h6 : 0 ≤ e * w0 := mul_nonneg (by linarith) hw0
  nlinarith
end

theorem norm1_le (o : Fin 3 → ℝ) : |o 0| + |o 1| + |o 2| ≤ 7 / 4 * norm2 o := by
  have h := norm2_sq3 o
  have h0 := norm2_nonneg o
  refine abs_le_of_sq_le_sq' ?_ (by positivity) |>.2
  rw [← sq_abs (o 0), ← sq_abs (o 1), ← sq_abs (o 2)] at h
  nlinarith [sq_nonneg (|o 0| - |o 1|), sq_nonneg (|o 1| - |o 2|), sq_nonneg (|o 0| - |o 2|), sq_nonneg (norm2 o)]

/-- Perturbing an exact frame: determinant and adjugate. -/
theorem frame_perturb {r n d R N D o : Fin 3 → ℝ} {e : ℝ} (he0 : 0 ≤ e) (he : e ≤ 5 / 193) (hr : norm2 (r - R) ≤ e)
    (hn : norm2 (n - N) ≤ e) (hd : norm2 (d - D) ≤ e) (R1 : norm2 R = 1) (N1 : norm2 N = 1) (D1 : norm2 D = 1)
    (hC : (cam R N D o).det = 1) :
    |(cam r n d o).det - 1| ≤ 309 / 100 * e ∧ ∀ i j, |(cam r n d o).adjugate i j - (cam R N D o).adjugate i j| ≤
      rowsOf (fun _ => 203 / 100 * e) (fun _ => 203 / 100 * e) (fun _ => 203 / 100 * e)
        (fun _ => 203 / 100 * e * norm2 o) (309 / 100 * e) i j := by
  have big : ∀ {x X : Fin 3 → ℝ}, norm2 (x - X) ≤ e → norm2 X = 1 → norm2 x ≤ 1 + e := fun {x X} h h' => by
    have := norm2_le_add x X; linarith
  have cr : ∀ {x y X Y : Fin 3 → ℝ}, norm2 (x - X) ≤ e → norm2 (y - Y) ≤ e → norm2 X = 1 → norm2 Y = 1 →
      norm2 (crossProduct x y - crossProduct X Y) ≤ 203 / 100 * e := by
    intro x y X Y hx hy hX hY
    refine (cross_near).trans ?_
    have h1 := big hy hY
    have h2 := mul_le_mul hx h1 (norm2_nonneg _) he0
    rw [hX, one_mul]
    nlinarith
  have c1 := cr hn hd N1 D1
  have c2 := cr hd hr D1 R1
  have c3 := cr hr hn R1 N1
  have hdet : |(cam r n d o).det - 1| ≤ 309 / 100 * e := by
    rw [← hC, det_cam, det_cam]
    have e1 : crossProduct n d ⬝ᵥ r - crossProduct N D ⬝ᵥ R =
        (crossProduct n d - crossProduct N D) ⬝ᵥ r + crossProduct N D ⬝ᵥ (r - R) := by
      simp only [sub_dotProduct, dotProduct_sub]; ring
    rw [e1]
    refine (abs_add_le _ _).trans ?_
    have h1 := (abs_dot_le (crossProduct n d - crossProduct N D) r).trans
      (mul_le_mul c1 (big hr R1) (norm2_nonneg _) (by positivity))
    have h2 := (abs_dot_le (crossProduct N D) (r - R)).trans
      (mul_le_mul ((norm2_cross N D).trans (le_of_eq (by rw [N1, D1, one_mul]))) hr (norm2_nonneg _) zero_le_one)
    nlinarith
  refine ⟨hdet, ?_⟩
  rw [← hC, det_cam, det_cam] at hdet
  have off : ∀ {x X : Fin 3 → ℝ}, norm2 (x - X) ≤ 203 / 100 * e → |-(x ⬝ᵥ o) - -(X ⬝ᵥ o)| ≤ 203 / 100 * e * norm2 o := by
    intro x X h
    have : -(x ⬝ᵥ o) - -(X ⬝ᵥ o) = -((x - X) ⬝ᵥ o) := by rw [sub_dotProduct]; ring
    rw [this, abs_neg]
    exact (abs_dot_le _ _).trans (mul_le_mul_of_nonneg_right h (norm2_nonneg _))
  have ent : ∀ {x X : Fin 3 → ℝ}, norm2 (x - X) ≤ 203 / 100 * e → ∀ i, |x i - X i| ≤ 203 / 100 * e := fun h i =>
    (abs_le_norm2 _ i).trans h
  have z : |(0 : ℝ) - 0| ≤ 0 := by simp
  intro i j
  rw [adj_cam, adj_cam]
  fin_cases i <;> fin_cases j
  · exact ent c1 0
  · exact ent c1 1
  · exact ent c1 2
  · exact off c1
  · exact ent c2 0
  · exact ent c2 1
  · exact ent c2 2
  · exact off c2
  · exact ent c3 0
  · exact ent c3 1
  · exact ent c3 2
  · exact off c3
  · exact z
  · exact z
  · exact z
  · exact hdet

variable {S : Type} [Scalar S] [IEEE S] [Binary S]

set_option maxHeartbeats 2000000 in
/-- **C76**: in `f32`/`f64` `look_at` succeeds, its inverse matrix is the one of `C76_inverse_look_at`, and its forward
matrix is close to the exact world-to-camera matrix: within `900 u / sin θ` in the rotation part, within
`900 u (1 + |position|) / sin θ` in the offset, and with at most `4 u²` in place of the three zeros of the last row. Asked
for, beyond `C76_inverse_look_at`: `sin θ` at least `4096 u` and a position within `1 / (8 u)` of the origin. -/
theorem C76_look_at (hS : Standard S) (hO : 2 ≤ overflowAt S * uro S ^ 4) (o t : Point3 S) (up : Vector3 S) (ho : AllFinite o)
    (h1 : IsFinite (Api.length (t - o))) (h2 : IsFinite (Api.length up))
    (n1 : 2 * minNormal S ≤ norm2 (t.toReal - o.toReal) ^ 2) (n2 : minNormal S ≤ norm2 up.toReal ^ 2)
    (hσ : 4096 * uro S ≤ sinAngle up.toReal (t.toReal - o.toReal)) (hL : norm2 o.toReal * uro S ≤ 1 / 8) :
    ∃ f, Transform3.lookAt o t up = .ok ⟨f, Matrix4x4.inverseLookAt o t up⟩ ∧ AllFinite f ∧
      (∀ i j, j ≠ 3 → |f.toReal i j - worldToCamera o.toReal t.toReal up.toReal i j| ≤
        900 * uro S / sinAngle up.toReal (t.toReal - o.toReal)) ∧
      (∀ i, |f.toReal i 3 - worldToCamera o.toReal t.toReal up.toReal i 3| ≤
        900 * uro S * (1 + norm2 o.toReal) / sinAngle up.toReal (t.toReal - o.toReal)) ∧
      (∀ j, j ≠ 3 → |f.toReal 3 j| ≤ 4 * uro S ^ 2) := by
  have hu := uro_pos (S := S)
  obtain ⟨fm, -⟩ := C76_inverse_look_at hS o t up ho h1 h2 n1 n2 (by linarith)
  obtain ⟨⟨fd, ed⟩, ⟨fr, er⟩, ft, et⟩ := look_frame_near hS h1 h2 n1 n2 (by linarith)
  have hσp : 0 < sinAngle up.toReal (t.toReal - o.toReal) := by linarith
  have hne : crossProduct up.toReal (t.toReal - o.toReal) ≠ 0 := by
    intro h0
    rw [sinAngle, h0] at hσp
    have : norm2 (0 : Fin 3 → ℝ) = 0 := by simp [norm2]
    rw [this, zero_div] at hσp
    exact lt_irrefl _ hσp
  obtain ⟨aa, ss, tt, -⟩ := C76_exact_frame _ _ _ hne
  obtain ⟨eadj, edet⟩ := adj_exact _ _ _ hne
  have one_of : ∀ v : Fin 3 → ℝ, v ⬝ᵥ v = 1 → norm2 v = 1 := fun v hv => by
    rw [dot_self_norm2] at hv
    exact (pow_eq_one_iff_of_nonneg (norm2_nonneg _) two_ne_zero).1 hv
  set σ := sinAngle up.toReal (t.toReal - o.toReal) with hσd
  set m := Matrix4x4.inverseLookAt o t up with hmd
  set d := (t - o).normalize with hd
  set r := (Api.cross up.normalize d : Vector3 S).normalize with hr
  set n := (Api.cross d r : Vector3 S) with hn
  have σ1 : σ ≤ 1 := sinAngle_le _ _
  have hM : m.toReal = cam r.toReal n.toReal d.toReal o.toReal := by
    have : m = ⟨#v[r.x, n.x, d.x, o.x, r.y, n.y, d.y, o.y, r.z, n.z, d.z, o.z, zero, zero, zero, one]⟩ := rfl
    rw [this]
    ext i j
    fin_cases i <;> fin_cases j <;> first | rfl | exact real_zero | exact real_one
  set e := 106 * uro S / σ with he
  set u := uro S with hud
  have hu1 : u ≤ 1 / 1024 := hS.uro
  have e0 : 0 ≤ e := by positivity
  have e1 : e ≤ 5 / 193 := by rw [he, div_le_iff₀ hσp]; linarith
  have hue : 106 * u ≤ e := by rw [he, le_div_iff₀ hσp]; first | linarith | nlinarith
  have ed' : norm2 (d.toReal - aim o.toReal t.toReal) ≤ e := ed.trans (by rw [he, le_div_iff₀ hσp]; first | linarith | nlinarith)
  have er' : norm2 (r.toReal - side o.toReal t.toReal up.toReal) ≤ e := er.trans (div_le_div_of_nonneg_right (by linarith) hσp.le)
  have Rn := one_of _ ss
  have Nn := one_of _ tt
  have Dn := one_of _ aa
  rw [cameraToWorld_eq] at eadj edet
  obtain ⟨pd, pa⟩ := frame_perturb (o := o.toReal) e0 e1 er' et ed' Rn Nn Dn edet
  rw [eadj, ← hM] at pa
  rw [← hM] at pd
  have A0 : (0 : ℝ) ≤ 1027 / 1000 := by norm_num
  have bigE : ∀ {x X : Fin 3 → ℝ}, norm2 (x - X) ≤ e → norm2 X = 1 → ∀ i, |x i| ≤ 1027 / 1000 := fun {x X} h h' i => by
    have := norm2_le_add x X; have := abs_le_norm2 x i; linarith
  have br := bigE er' Rn
  have bn := bigE et Nn
  have bd := bigE ed' Dn
  set L := norm2 o.toReal with hLd
  have L0 : 0 ≤ L := norm2_nonneg _
  have bAdj := absAdj_cam A0 br bn bd (norm1_le o.toReal)
  have bDet := absDet_cam (o := o.toReal) A0 br bn bd
  rw [← hM] at bAdj bDet
  have ht := tiny_pos (S := S)
  have htu : tiny S ≤ u ^ 3 := by
    rw [← minNormal_eq]
    calc minNormal S * u ≤ u ^ 2 * u := mul_le_mul_of_nonneg_right hS.normal hu.le
      _ = u ^ 3 := by ring
  obtain ⟨g8, g11, p7, p10⟩ := pow_bounds hu hu1
  have hL3 : (3 + L) * u ≤ 1 / 4 := by first | linarith | nlinarith
  -- bounds on entries
  have hMb : ∀ i j, |m.toReal i j| ≤ 2 + L := by
    have bo : ∀ i, |o.toReal i| ≤ 2 + L := fun i => (abs_le_norm2 _ i).trans (by linarith)
    have b2 : ∀ {x : ℝ}, |x| ≤ 1027 / 1000 → |x| ≤ 2 + L := fun h => by linarith
    have z : |(0 : ℝ)| ≤ 2 + L := by rw [abs_zero]; linarith
    rw [hM]
    intro i j
    fin_cases i <;> fin_cases j
    · exact b2 (br 0)
    · exact b2 (bn 0)
    · exact b2 (bd 0)
    · exact bo 0
    · exact b2 (br 1)
    · exact b2 (bn 1)
    · exact b2 (bd 1)
    · exact bo 1
    · exact b2 (br 2)
    · exact b2 (bn 2)
    · exact b2 (bd 2)
    · exact bo 2
    · exact z
    · exact z
    · exact z
    · show |(1 : ℝ)| ≤ _; rw [abs_one]; linarith
  have sq16 : (3 + L) ^ 2 * u ^ 2 ≤ 1 / 16 := by
    have : (3 + L) ^ 2 * u ^ 2 = ((3 + L) * u) ^ 2 := by ring
    rw [this]
    have h0 : 0 ≤ (3 + L) * u := by positivity
    first | linarith | nlinarith
  have tM2 : (1 + (2 + L) + (2 + L) ^ 2) * tiny S ≤ u / 16 := by
    have a : (1 + (2 + L) + (2 + L) ^ 2) ≤ (3 + L) ^ 2 := by first | linarith | nlinarith
    calc (1 + (2 + L) + (2 + L) ^ 2) * tiny S ≤ (3 + L) ^ 2 * u ^ 3 := mul_le_mul a htu ht.le (by positivity)
      _ = (3 + L) ^ 2 * u ^ 2 * u := by ring
      _ ≤ 1 / 16 * u := mul_le_mul_of_nonneg_right sq16 hu.le
      _ = u / 16 := by ring
  have tM1 : (1 + (2 + L)) * tiny S ≤ u ^ 2 / 4 := by
    calc (1 + (2 + L)) * tiny S ≤ (1 + (2 + L)) * u ^ 3 := mul_le_mul_of_nonneg_left htu (by linarith)
      _ = (3 + L) * u * u ^ 2 := by ring
      _ ≤ 1 / 4 * u ^ 2 := mul_le_mul_of_nonneg_right hL3 (by positivity)
      _ = u ^ 2 / 4 := by ring
  have aD0 := absDet_nonneg m.toReal
  have g11' : 0 ≤ gam S 11 := by
    unfold gam; have := one_le_pow₀ (n := 11) (show (1 : ℝ) ≤ 1 + uro S by linarith); linarith
  have g8' : 0 ≤ gam S 8 := by
    unfold gam; have := one_le_pow₀ (n := 8) (show (1 : ℝ) ≤ 1 + uro S by linarith); linarith
  have D76 : detErr4 S m.toReal (2 + L) ≤ 76 * u := by
    unfold detErr4
    have a : gam S 11 * absDet m.toReal ≤ 111 / 10 * u * (6 * (1027 / 1000) ^ 3) := mul_le_mul g11 bDet aD0 (by positivity)
    have b : 24 * (1 + uro S) ^ 10 * (1 + (2 + L) + (2 + L) ^ 2) * tiny S ≤ 24 * (102 / 100) * (u / 16) := by
      rw [mul_assoc]
      exact mul_le_mul (by linarith) tM2 (by positivity) (by norm_num)
    first | linarith | nlinarith
  have D0 : 0 ≤ detErr4 S m.toReal (2 + L) := by
    unfold detErr4; positivity
  have det_lo : 9 / 10 ≤ m.toReal.det := by have := (abs_le.1 pd).1; linarith
  have det_hi : m.toReal.det ≤ 11 / 10 := by have := (abs_le.1 pd).2; linarith
  have habs : |m.toReal.det| = m.toReal.det := abs_of_nonneg (by linarith)
  have hOv : 512 * (2 + L) ^ 4 ≤ overflowAt S := by
    have h4 : ((3 + L) * u) ^ 4 ≤ (1 / 4) ^ 4 := pow_le_pow_left₀ (by positivity) hL3 4
    have h5 : (2 + L) ^ 4 ≤ (3 + L) ^ 4 := pow_le_pow_left₀ (by positivity) (by linarith) 4
    have h6 : 512 * (3 + L) ^ 4 * u ^ 4 ≤ overflowAt S * u ^ 4 := by
      have : 512 * (3 + L) ^ 4 * u ^ 4 = 512 * ((3 + L) * u) ^ 4 := by ring
      rw [this]; norm_num at h4; linarith
    have := le_of_mul_le_mul_right h6 (by positivity)
    linarith
  have hq : 64 * (2 + L) ^ 3 ≤ overflowAt S * (|m.toReal.det| - detErr4 S m.toReal (2 + L)) := by
    rw [habs]
    have h0 : (1 : ℝ) / 2 ≤ m.toReal.det - detErr4 S m.toReal (2 + L) := by linarith
    have h3 : (2 + L) ^ 3 * 1 ≤ (2 + L) ^ 3 * (2 + L) := mul_le_mul_of_nonneg_left (by linarith) (by positivity)
    have h5 : 0 ≤ overflowAt S := le_trans (by positivity) hOv
    have := mul_le_mul_of_nonneg_left h0 h5
    first | linarith | nlinarith
  obtain ⟨f, hf, ff, hb⟩ := C66_inRange4x4 m fm (2 + L) (by linarith) hMb hOv (by rw [habs]; linarith) hq
  have hE : ∀ i j (B : ℝ), absAdj m.toReal i j ≤ B → ∃ s, s ≤ 3 * u ^ 2 ∧
      invErr4 S m.toReal f.toReal (2 + L) i j ≤ 81 / 10 * u * B + s + |f.toReal i j| * detErr4 S m.toReal (2 + L) := by
    intro i j B hB
    refine ⟨3 * u ^ 2, le_rfl, ?_⟩
    unfold invErr4
    have a0 : 0 ≤ absAdj m.toReal i j := absDet_nonneg _
    have a : gam S 8 * absAdj m.toReal i j ≤ 81 / 10 * u * B := mul_le_mul g8 hB a0 (by positivity)
    have b : 6 * (1 + uro S) ^ 7 * (1 + (2 + L)) * tiny S ≤ 6 * (102 / 100) * (u ^ 2 / 4) := by
      rw [mul_assoc]
      exact mul_le_mul (by linarith) tM1 (by positivity) (by norm_num)
    have tu : tiny S ≤ u ^ 2 / 1024 := by
      refine htu.trans ?_
      have : u ^ 3 = u ^ 2 * u := by ring
      rw [this]
      have := mul_le_mul_of_nonneg_left hu1 (show 0 ≤ u ^ 2 by positivity)
      linarith
    have c : tiny S * detErr4 S m.toReal (2 + L) ≤ u ^ 2 / 1024 * 1 := mul_le_mul tu (by linarith) D0 (by positivity)
    have c' : tiny S * |m.toReal.det| ≤ u ^ 2 / 1024 * (11 / 10) := mul_le_mul tu (by rw [habs]; exact det_hi) (abs_nonneg _) (by positivity)
    have : 0 ≤ u ^ 2 := by positivity
    first | linarith | nlinarith
  have core : ∀ i j {B α w0 : ℝ}, absAdj m.toReal i j ≤ B → |m.toReal.adjugate i j - worldToCamera o.toReal t.toReal up.toReal i j| ≤ α →
      |worldToCamera o.toReal t.toReal up.toReal i j| ≤ w0 →
      |f.toReal i j - worldToCamera o.toReal t.toReal up.toReal i j| ≤ 91 / 10 * u * B + 4 * u ^ 2 + 112 / 100 * α + 43 / 10 * e * w0 := by
    intro i j B α w0 hB hα hw
    obtain ⟨s, hs, hE'⟩ := hE i j B hB
    exact entry_core hu hu1 hue e1 (hb i j) hE' hs D76 D0 hα pd hw ((absDet_nonneg _).trans hB)
  have u2 : 4 * u ^ 2 ≤ 1 / 1024 * (4 * u) := by first | linarith | nlinarith
  have e9 : 900 * u / σ = 900 / 106 * e := by rw [he]; ring
  have e9' : 900 * u * (1 + L) / σ = 900 / 106 * e * (1 + L) := by rw [he]; ring
  have wb : ∀ {x : Fin 3 → ℝ}, norm2 x = 1 → ∀ i, |x i| ≤ 1 := fun h i => (abs_le_norm2 _ i).trans h.le
  have wo : ∀ {x : Fin 3 → ℝ}, norm2 x = 1 → |-(x ⬝ᵥ o.toReal)| ≤ L := fun h => by
    rw [abs_neg]; refine (abs_dot_le _ _).trans ?_; rw [h, one_mul]
  have blk : ∀ i j, absAdj m.toReal i j ≤ 2 * (1027 / 1000) ^ 2 →
      |m.toReal.adjugate i j - worldToCamera o.toReal t.toReal up.toReal i j| ≤ 203 / 100 * e →
      |worldToCamera o.toReal t.toReal up.toReal i j| ≤ 1 →
      |f.toReal i j - worldToCamera o.toReal t.toReal up.toReal i j| ≤ 900 * u / σ := by
    intro i j hB hα hw
    have := core i j hB hα hw
    rw [e9]; first | linarith | nlinarith
  have off : ∀ i, absAdj m.toReal i 3 ≤ 2 * (1027 / 1000) ^ 2 * (7 / 4 * L) →
      |m.toReal.adjugate i 3 - worldToCamera o.toReal t.toReal up.toReal i 3| ≤ 203 / 100 * e * L →
      |worldToCamera o.toReal t.toReal up.toReal i 3| ≤ L →
      |f.toReal i 3 - worldToCamera o.toReal t.toReal up.toReal i 3| ≤ 900 * u * (1 + L) / σ := by
    intro i hB hα hw
    have := core i 3 hB hα hw
    rw [e9']
    have : u * L ≤ e / 106 * L := mul_le_mul_of_nonneg_right (by linarith) L0
    have : 0 ≤ e * L := mul_nonneg e0 L0
    first | linarith | nlinarith
  have low : ∀ j, absAdj m.toReal 3 j ≤ 0 → |m.toReal.adjugate 3 j - worldToCamera o.toReal t.toReal up.toReal 3 j| ≤ 0 →
      worldToCamera o.toReal t.toReal up.toReal 3 j = 0 →
      |f.toReal 3 j - worldToCamera o.toReal t.toReal up.toReal 3 j| ≤ 4 * u ^ 2 := by
    intro j hB hα hw
    have := core 3 j hB hα (w0 := 0) (by rw [hw, abs_zero])
    linarith
  have low0 := low 0 (bAdj 3 0) (pa 3 0) rfl
  have low1 := low 1 (bAdj 3 1) (pa 3 1) rfl
  have low2 := low 2 (bAdj 3 2) (pa 3 2) rfl
  have u2' : 4 * u ^ 2 ≤ 900 * u / σ := by rw [e9]; first | linarith | nlinarith
  refine ⟨f, ?_, ff, ?_, ?_, ?_⟩
  · show Transform3.lookAt o t up = _
    unfold Transform3.lookAt
    rw [← hmd]
    simp only [hf]
    rfl
  · intro i j hj
    fin_cases i <;> fin_cases j
    · exact blk _ _ (bAdj _ _) (pa _ _) (wb Rn 0)
    · exact blk _ _ (bAdj _ _) (pa _ _) (wb Rn 1)
    · exact blk _ _ (bAdj _ _) (pa _ _) (wb Rn 2)
    · exact absurd rfl hj
    · exact blk _ _ (bAdj _ _) (pa _ _) (wb Nn 0)
    · exact blk _ _ (bAdj _ _) (pa _ _) (wb Nn 1)
    · exact blk _ _ (bAdj _ _) (pa _ _) (wb Nn 2)
    · exact absurd rfl hj
    · exact blk _ _ (bAdj _ _) (pa _ _) (wb Dn 0)
    · exact blk _ _ (bAdj _ _) (pa _ _) (wb Dn 1)
    · exact blk _ _ (bAdj _ _) (pa _ _) (wb Dn 2)
    · exact absurd rfl hj
    · exact low0.trans u2'
    · exact low1.trans u2'
    · exact low2.trans u2'
    · exact absurd rfl hj
  · intro i
    fin_cases i
    · exact off _ (bAdj _ _) (pa _ _) (wo Rn)
    · exact off _ (bAdj _ _) (pa _ _) (wo Nn)
    · exact off _ (bAdj _ _) (pa _ _) (wo Dn)
    · have := core 3 3 (bAdj 3 3) (pa 3 3) (w0 := 1) (by show |(1 : ℝ)| ≤ 1; rw [abs_one])
      change _ ≤ 91 / 10 * u * (6 * (1027 / 1000) ^ 3) + 4 * u ^ 2 + 112 / 100 * (309 / 100 * e) + 43 / 10 * e * 1 at this
      refine le_trans this ?_
      rw [e9']
      have : 0 ≤ e * L := mul_nonneg e0 L0
      first | linarith | nlinarith
  · have z : ∀ {x : ℝ}, |x - 0| ≤ 4 * u ^ 2 → |x| ≤ 4 * u ^ 2 := fun h => by rwa [sub_zero] at h
    intro j hj
    fin_cases j
    · exact z low0
    · exact z low1
    · exact z low2
    · exact absurd rfl hj

end VecMath
