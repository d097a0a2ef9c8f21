import Verif.Props.RealFoot
import Verif.Props.RealMatrix
import Verif.Props.FloatCorners
import Verif.Props.RealTransform
/-!
# Perspective transforms in exact real arithmetic (layer R): C120

Matrices whose last row is not `0 .. 0 1`. (Generated by tools/gen/persp_real.py.)
-/

namespace VecMath
open Scalar IEEE

theorem proj_mix {n d w e s : ℝ} (h0 : w ≠ 0) (h1 : w + e ≠ 0) (h2 : w + s * e ≠ 0) :
    n / w + s * (w + e) / (w + s * e) * ((n + d) / (w + e) - n / w) = (n + s * d) / (w + s * e) := by
  field_simp; ring
theorem proj_pos {s a b : ℝ} (h0 : 0 ≤ s) (h1 : s ≤ 1) (ha : 0 < a) (hb : 0 < b) : 0 < (1 - s) * a + s * b := by
  rcases eq_or_lt_of_le h0 with h | h
  · rw [← h]; simpa using ha
  · have := mul_pos h hb
    have := mul_nonneg (sub_nonneg.2 h1) ha.le
    linarith
theorem lin_end {c l u x : ℝ} (h0 : l ≤ x) (h1 : x ≤ u) : c * l ≤ c * x ∨ c * u ≤ c * x := by
  rcases le_total 0 c with h | h
  · exact .inl (mul_le_mul_of_nonneg_left h0 h)
  · exact .inr (mul_le_mul_of_nonpos_left h1 h)
theorem proj_two {f g w α : ℝ} (hw : w ≠ 0)
    (h : ∀ s : ℝ, w + s * α ≠ 0 → (f + s * g) / (w + s * α) = f / w + s * g) : α * g = 0 ∧ g * (1 - w) = α * (f / w) := by
  have key : ∀ s : ℝ, s ≠ 0 → w + s * α ≠ 0 → g * (1 - w) = α * (f / w) + s * (α * g) := by
    intro s hs hq
    have e := h s hq
    rw [div_eq_iff hq] at e
    have e2 : s * (g * (1 - w)) = s * (α * (f / w) + s * (α * g)) := by
      have : f / w * w = f := div_mul_cancel₀ f hw
      linear_combination e + this
    exact mul_left_cancel₀ hs e2
  have ex : ∃ s t : ℝ, s ≠ 0 ∧ t ≠ 0 ∧ s ≠ t ∧ w + s * α ≠ 0 ∧ w + t * α ≠ 0 := by
    by_cases a1 : w + 1 * α = 0
    · have hα : α = -w := by linarith
      exact ⟨2, 3, by norm_num, by norm_num, by norm_num, by rw [hα]; intro h; apply hw; linarith, by rw [hα]; intro h; apply hw; linarith⟩
    · by_cases a2 : w + 2 * α = 0
      · have hα : w = -2 * α := by linarith
        have : α ≠ 0 := by intro h; apply hw; rw [hα, h]; ring
        exact ⟨1, 3, by norm_num, by norm_num, by norm_num, a1, by rw [hα]; intro h; apply this; linarith⟩
      · exact ⟨1, 2, by norm_num, by norm_num, by norm_num, a1, a2⟩
  obtain ⟨s, t, s0, t0, st, h1, h2⟩ := ex
  have k1 := key s s0 h1
  have k2 := key t t0 h2
  have : (s - t) * (α * g) = 0 := by linarith
  have z := (mul_eq_zero.1 this).resolve_left (sub_ne_zero.2 st)
  exact ⟨z, by rw [k1, z]; ring⟩
/-- A matrix that maps points projectively and vectors linearly, and rays consistently with that, has the last row `0 .. 0 1`. -/
theorem proj_ray {k : ℕ} (M : Matrix (Fin (k + 1)) (Fin (k + 1)) ℝ) (inj : ∀ x, M.mulVec x = 0 → x = 0)
    (h : ∀ (o v : Fin (k + 1) → ℝ) (s : ℝ), o (Fin.last k) = 1 → v (Fin.last k) = 0 → (M.mulVec o) (Fin.last k) ≠ 0 →
      (M.mulVec (o + s • v)) (Fin.last k) ≠ 0 → ∀ i : Fin k, (M.mulVec (o + s • v)) i.castSucc / (M.mulVec (o + s • v)) (Fin.last k) =
        (M.mulVec o) i.castSucc / (M.mulVec o) (Fin.last k) + s * (M.mulVec v) i.castSucc) (hl : ∃ j, M (Fin.last k) j ≠ 0) (j₀ : Fin k) :
    ∀ j, M (Fin.last k) j = if j = Fin.last k then 1 else 0 := by
  -- the value at a unit vector
  have unit : ∀ (i j : Fin (k + 1)), (M.mulVec (Pi.single j 1)) i = M i j := by
    intro i j; rw [Matrix.mulVec_single_one]; rfl
  -- a point of nonzero weight
  have hz : (Pi.single (Fin.last k) 1 : Fin (k + 1) → ℝ) (Fin.last k) = 1 := by simp
  obtain ⟨o, o1, ow⟩ : ∃ o : Fin (k + 1) → ℝ, o (Fin.last k) = 1 ∧ (M.mulVec o) (Fin.last k) ≠ 0 := by
    by_contra hc
    push Not at hc
    have d0 := hc _ hz
    obtain ⟨j, hj⟩ := hl
    refine Fin.lastCases (motive := fun j => M (Fin.last k) j ≠ 0 → False) (fun hj => ?_) (fun j hj => ?_) j hj
    · exact hj (by rw [← unit]; exact d0)
    · have := hc (Pi.single (Fin.last k) 1 + Pi.single j.castSucc 1) (by simp [(Fin.castSucc_lt_last j).ne'])
      rw [Matrix.mulVec_add, Pi.add_apply, d0, zero_add, unit] at this
      exact hj this
  have main : ∀ v : Fin (k + 1) → ℝ, v (Fin.last k) = 0 → v ≠ 0 → (M.mulVec v) (Fin.last k) = 0 ∧ (M.mulVec o) (Fin.last k) = 1 := by
    intro v v0 vn
    have K : ∀ i : Fin k, (M.mulVec v) (Fin.last k) * (M.mulVec v) i.castSucc = 0 ∧
        (M.mulVec v) i.castSucc * (1 - (M.mulVec o) (Fin.last k)) = (M.mulVec v) (Fin.last k) * ((M.mulVec o) i.castSucc / (M.mulVec o) (Fin.last k)) := by
      intro i
      refine proj_two ow (fun s hs => ?_)
      have := h o v s o1 v0 ow (by rw [Matrix.mulVec_add, Matrix.mulVec_smul]; exact hs) i
      rw [Matrix.mulVec_add, Matrix.mulVec_smul] at this
      exact this
    by_cases ha : (M.mulVec v) (Fin.last k) = 0
    · refine ⟨ha, ?_⟩
      by_contra hne
      apply vn
      apply inj
      funext i
      refine Fin.lastCases ha (fun i => ?_) i
      have := (K i).2
      rw [ha, zero_mul] at this
      exact (mul_eq_zero.1 this).resolve_right (sub_ne_zero.2 (Ne.symm hne))
    · exfalso
      have g0 : ∀ i : Fin k, (M.mulVec v) i.castSucc = 0 := fun i => (mul_eq_zero.1 (K i).1).resolve_left ha
      have f0 : ∀ i : Fin k, (M.mulVec o) i.castSucc = 0 := by
        intro i
        have := (K i).2
        rw [g0, zero_mul] at this
        have := (mul_eq_zero.1 this.symm).resolve_left ha
        exact (div_eq_zero_iff.1 this).resolve_right ow
      have z := inj ((M.mulVec v) (Fin.last k) • o - (M.mulVec o) (Fin.last k) • v) (by
        rw [Matrix.mulVec_sub, Matrix.mulVec_smul, Matrix.mulVec_smul]
        funext i
        refine Fin.lastCases ?_ (fun i => ?_) i
        · simp [mul_comm]
        · simp [f0, g0])
      have := congrFun z (Fin.last k)
      simp [o1, v0] at this
      exact ha this
  have col : ∀ j : Fin k, M (Fin.last k) j.castSucc = 0 ∧ (M.mulVec o) (Fin.last k) = 1 := by
    intro j
    have := main (Pi.single j.castSucc 1) (by simp [(Fin.castSucc_lt_last j).ne']) (by simp)
    rwa [unit] at this
  have dd : M (Fin.last k) (Fin.last k) = 1 := by
    rw [← (col j₀).2, Matrix.mulVec, dotProduct, Fin.sum_univ_castSucc, o1, mul_one, Finset.sum_eq_zero, zero_add]
    intro j _
    rw [(col j).1, zero_mul]
  intro j
  refine Fin.lastCases (by simpa using dd) (fun j => ?_) j
  rw [(col j).1, if_neg (Fin.castSucc_lt_last j).ne]

/-! ## Dimension 2 -/
section
variable {m : Matrix3x3 Ideal} {r : Ray2 Ideal} {s : Ideal} {p : Point2 Ideal}
theorem Ray2.hom_at (hr : AllFinite r) (hs : IsFinite s) : (r.at s).hom = r.origin.hom + real s • r.direction.hom := by
  have e := Ray2.toReal_at hr hs
  funext i
  fin_cases i
  · have := congrFun e 0; simpa [Point2.toReal, Vector2.toReal, Point2.hom, Vector2.hom] using this
  · have := congrFun e 1; simpa [Point2.toReal, Vector2.toReal, Point2.hom, Vector2.hom] using this
  · simp [Point2.hom, Vector2.hom]
theorem Matrix3x3.mulVec_at (hr : AllFinite r) (hs : IsFinite s) (i : Fin 3) :
    (m.toReal.mulVec (r.at s).hom) i = (m.toReal.mulVec r.origin.hom) i + real s * (m.toReal.mulVec r.direction.hom) i := by
  rw [Ray2.hom_at hr hs, Matrix.mulVec_add, Matrix.mulVec_smul]; rfl
theorem Matrix3x3.weight_at (hr : AllFinite r) (hs : IsFinite s) :
    m.weight (r.at s) = m.weight r.origin + real s * (m.toReal.mulVec r.direction.hom) (Fin.last 2) := Matrix3x3.mulVec_at hr hs _
end

/-- **C120** without rounding: a projective matrix maps lines to lines. The image of the point with parameter `s` is on the line
through the images of the points with the parameters 0 and 1, at the parameter `s * w(1) / w(s)`. -/
theorem C120_line2 (m : Matrix3x3 Ideal) (hm : AllFinite m) (r : Ray2 Ideal) (hr : AllFinite r) (s t : Ideal) (hs : IsFinite s) (ht : IsFinite t)
    (h0 : m.weight (r.at zero) ≠ 0) (h1 : m.weight (r.at one) ≠ 0) (h2 : m.weight (r.at s) ≠ 0)
    (e : real t = real s * m.weight (r.at one) / m.weight (r.at s)) :
    ((Ray2.new (m * r.at zero) ((m * r.at one) - (m * r.at zero)) : Ray2 Ideal).at t == m * r.at s) = true := by
  have f0 := Ray2.fin_at hr (finite_zero (S := Ideal))
  have f1 := Ray2.fin_at hr (finite_one (S := Ideal))
  have f2 := Ray2.fin_at hr hs
  obtain ⟨g0, k0⟩ := Matrix3x3.mulp_aux hm f0 h0
  obtain ⟨g1, k1⟩ := Matrix3x3.mulp_aux hm f1 h1
  obtain ⟨g2, k2⟩ := Matrix3x3.mulp_aux hm f2 h2
  have fr : AllFinite (Ray2.new (m * r.at zero) ((m * r.at one) - (m * r.at zero)) : Ray2 Ideal) :=
    Ray2.allFinite.2 ⟨g0, Vector2.fin_subp g1 g0⟩
  rw [Point2.beq_toReal (Ray2.fin_at fr ht) g2, Ray2.toReal_at fr ht]
  funext i
  change (m * r.at zero).toReal i + real t * ((m * r.at one) - (m * r.at zero)).toReal i = _
  rw [Vector2.toReal_subp g1 g0]
  change (m * r.at zero).toReal i + real t * ((m * r.at one).toReal i - (m * r.at zero).toReal i) = _
  rw [k0, k1, k2, e]
  rw [Matrix3x3.mulVec_at hr finite_zero, Matrix3x3.mulVec_at hr finite_one, Matrix3x3.mulVec_at hr hs]
  rw [Matrix3x3.weight_at hr finite_zero] at h0
  rw [Matrix3x3.weight_at hr finite_one] at h1
  rw [Matrix3x3.weight_at hr hs] at h2
  rw [Matrix3x3.weight_at hr finite_zero, Matrix3x3.weight_at hr finite_one, Matrix3x3.weight_at hr hs]
  simp only [real_zero, real_one, zero_mul, add_zero, one_mul] at h0 h1 h2 ⊢
  exact proj_mix h0 h1 h2
/-- **C120** without rounding: the image of a segment whose two ends have positive weight is, point by point, the segment between the
images of its ends: every point of it has positive weight, is mapped into that segment, and every point of that segment is reached. -/
theorem C120_segment2 (m : Matrix3x3 Ideal) (hm : AllFinite m) (r : Ray2 Ideal) (hr : AllFinite r)
    (h0 : 0 < m.weight (r.at zero)) (h1 : 0 < m.weight (r.at one)) :
    (∀ s : Ideal, IsFinite s → (zero ≤? s) = true → (s ≤? one) = true → 0 < m.weight (r.at s) ∧
      ∃ t : Ideal, IsFinite t ∧ (zero ≤? t) = true ∧ (t ≤? one) = true ∧
        ((Ray2.new (m * r.at zero) ((m * r.at one) - (m * r.at zero)) : Ray2 Ideal).at t == m * r.at s) = true) ∧
    (∀ t : Ideal, IsFinite t → (zero ≤? t) = true → (t ≤? one) = true →
      ∃ s : Ideal, IsFinite s ∧ (zero ≤? s) = true ∧ (s ≤? one) = true ∧
        ((Ray2.new (m * r.at zero) ((m * r.at one) - (m * r.at zero)) : Ray2 Ideal).at t == m * r.at s) = true) := by
  have W : ∀ s : Ideal, IsFinite s → m.weight (r.at s) = (1 - real s) * m.weight (r.at zero) + real s * m.weight (r.at one) := by
    intro s hs
    rw [Matrix3x3.weight_at hr finite_zero, Matrix3x3.weight_at hr finite_one, Matrix3x3.weight_at hr hs, real_zero, real_one]; ring
  constructor
  · intro s hs a b
    rw [Ideal.le_real finite_zero hs, real_zero] at a
    rw [Ideal.le_real hs finite_one, real_one] at b
    have w := proj_pos a b h0 h1
    rw [← W s hs] at w
    refine ⟨w, Ideal.of (real s * m.weight (r.at one) / m.weight (r.at s)), Ideal.finite_of _, ?_, ?_, ?_⟩
    · rw [Ideal.le_real finite_zero (Ideal.finite_of _), real_zero, Ideal.real_of]
      exact div_nonneg (mul_nonneg a h1.le) w.le
    · rw [Ideal.le_real (Ideal.finite_of _) finite_one, real_one, Ideal.real_of, div_le_one w, W s hs]
      nlinarith
    · exact C120_line2 m hm r hr s _ hs (Ideal.finite_of _) h0.ne' h1.ne' w.ne' (Ideal.real_of _)
  · intro t ht a b
    rw [Ideal.le_real finite_zero ht, real_zero] at a
    rw [Ideal.le_real ht finite_one, real_one] at b
    have d : 0 < (1 - real t) * m.weight (r.at one) + real t * m.weight (r.at zero) := proj_pos a b h1 h0
    have hs : IsFinite (Ideal.of (real t * m.weight (r.at zero) / ((1 - real t) * m.weight (r.at one) + real t * m.weight (r.at zero)))) := Ideal.finite_of _
    refine ⟨_, hs, ?_, ?_, ?_⟩
    · rw [Ideal.le_real finite_zero hs, real_zero, Ideal.real_of]
      exact div_nonneg (mul_nonneg a h0.le) d.le
    · rw [Ideal.le_real hs finite_one, real_one, Ideal.real_of, div_le_one d]
      nlinarith
    · have w := W _ hs
      rw [Ideal.real_of] at w
      have w' : m.weight (r.at (Ideal.of (real t * m.weight (r.at zero) / ((1 - real t) * m.weight (r.at one) + real t * m.weight (r.at zero))))) =
          m.weight (r.at zero) * m.weight (r.at one) / ((1 - real t) * m.weight (r.at one) + real t * m.weight (r.at zero)) := by
        rw [w]; field_simp; ring
      have wp : 0 < m.weight (r.at (Ideal.of (real t * m.weight (r.at zero) / ((1 - real t) * m.weight (r.at one) + real t * m.weight (r.at zero))))) := by
        rw [w']; positivity
      refine C120_line2 m hm r hr _ t hs ht h0.ne' h1.ne' wp.ne' ?_
      rw [w', Ideal.real_of]
      have := h0.ne'; have := h1.ne'; have := d.ne'
      field_simp
/-- **C120** without rounding: points in front of the eye (positive weight) keep their order along a ray: a larger parameter on the
ray is a larger parameter on the image of the ray. -/
theorem C120_order2 (m : Matrix3x3 Ideal) (r : Ray2 Ideal) (hr : AllFinite r) (s s' t t' : Ideal) (hs : IsFinite s) (hs' : IsFinite s')
    (ht : IsFinite t) (ht' : IsFinite t')
    (h0 : 0 < m.weight (r.at zero)) (h1 : 0 < m.weight (r.at one)) (h2 : 0 < m.weight (r.at s)) (h3 : 0 < m.weight (r.at s'))
    (e : real t = real s * m.weight (r.at one) / m.weight (r.at s)) (e' : real t' = real s' * m.weight (r.at one) / m.weight (r.at s')) :
    (t <? t') = (s <? s') := by
  rw [Bool.eq_iff_iff, Ideal.lt_real ht ht', Ideal.lt_real hs hs', e, e', div_lt_div_iff₀ h2 h3]
  have a := Matrix3x3.weight_at (m := m) hr finite_zero
  have c := Matrix3x3.weight_at (m := m) hr hs
  have d := Matrix3x3.weight_at (m := m) hr hs'
  rw [real_zero, zero_mul, add_zero] at a
  have key : real s' * m.weight (r.at one) * m.weight (r.at s) - real s * m.weight (r.at one) * m.weight (r.at s') =
      (real s' - real s) * (m.weight (r.at one) * m.weight (r.at zero)) := by
    rw [c, d, a]; ring
  have pp := mul_pos h1 h0
  constructor
  · intro h
    by_contra hh
    have := mul_nonneg (sub_nonneg.2 (not_lt.1 hh)) pp.le
    nlinarith
  · intro h
    have := mul_pos (sub_pos.2 h) pp
    nlinarith
/-- **C120** without rounding: a matrix and any multiple of it act alike on points: `(m * s) * p == m * p`. -/
theorem C120_scale2 (m : Matrix3x3 Ideal) (hm : AllFinite m) (p : Point2 Ideal) (hp : AllFinite p) (s : Ideal) (hs : IsFinite s) (h0 : real s ≠ 0)
    (hw : m.weight p ≠ 0) : (m * s).weight p ≠ 0 ∧ ((m * s) * p == m * p) = true := by
  have fm := Matrix3x3.fin_muls hm hs
  have w : ∀ i, ((m * s).toReal.mulVec p.hom) i = real s * (m.toReal.mulVec p.hom) i := by
    intro i
    rw [Matrix3x3.toReal_muls hm hs, Matrix.smul_mulVec]; rfl
  have hw' : (m * s).weight p ≠ 0 := by
    unfold Matrix3x3.weight; rw [w]; exact mul_ne_zero h0 hw
  obtain ⟨g0, k0⟩ := Matrix3x3.mulp_aux hm hp hw
  obtain ⟨g1, k1⟩ := Matrix3x3.mulp_aux fm hp hw'
  refine ⟨hw', ?_⟩
  rw [Point2.beq_toReal g1 g0]
  funext i
  rw [k0, k1, w, Matrix3x3.weight, w, mul_div_mul_left _ _ h0]; rfl

theorem aff_nonneg2 {c0 c1 c2 l0 u0 l1 u1 x y : ℝ} (hl0 : l0 ≤ x) (hu0 : x ≤ u0) (hl1 : l1 ≤ y) (hu1 : y ≤ u1)
    (h0 : 0 ≤ c0 * l0 + c1 * l1 + c2) (h1 : 0 ≤ c0 * u0 + c1 * l1 + c2) (h2 : 0 ≤ c0 * l0 + c1 * u1 + c2) (h3 : 0 ≤ c0 * u0 + c1 * u1 + c2) : 0 ≤ c0 * x + c1 * y + c2 := by
  have e0 : c0 * l0 ≤ c0 * x ∨ c0 * u0 ≤ c0 * x := lin_end hl0 hu0
  have e1 : c1 * l1 ≤ c1 * y ∨ c1 * u1 ≤ c1 * y := lin_end hl1 hu1
  rcases e0 with e0 | e0 <;> rcases e1 with e1 | e1 <;> linarith
theorem aff_pos2 {c0 c1 c2 l0 u0 l1 u1 x y : ℝ} (hl0 : l0 ≤ x) (hu0 : x ≤ u0) (hl1 : l1 ≤ y) (hu1 : y ≤ u1)
    (h0 : 0 < c0 * l0 + c1 * l1 + c2) (h1 : 0 < c0 * u0 + c1 * l1 + c2) (h2 : 0 < c0 * l0 + c1 * u1 + c2) (h3 : 0 < c0 * u0 + c1 * u1 + c2) : 0 < c0 * x + c1 * y + c2 := by
  have e0 : c0 * l0 ≤ c0 * x ∨ c0 * u0 ≤ c0 * x := lin_end hl0 hu0
  have e1 : c1 * l1 ≤ c1 * y ∨ c1 * u1 ≤ c1 * y := lin_end hl1 hu1
  rcases e0 with e0 | e0 <;> rcases e1 with e1 | e1 <;> linarith

theorem Matrix3x3.mulVec_lin (m : Matrix3x3 Ideal) (p : Point2 Ideal) (i : Fin 3) :
    (m.toReal.mulVec p.hom) i = m.toReal i 0 * real p.x + m.toReal i 1 * real p.y + m.toReal i 2 := by
  simp [Matrix.mulVec, dotProduct, Fin.sum_univ_succ, Point2.hom]; try ring
section
variable {b : BoundingBox2 Ideal} {p : Point2 Ideal}
theorem BoundingBox2.fin_inside (hb : AllFinite b) (hi : b.isInside p = true) : AllFinite p := by
  rw [isInside2_iff] at hi
  have fb := hb
  rw [BoundingBox2.allFinite, Point2.allFinite, Point2.allFinite] at fb
  exact Point2.allFinite.2 ⟨finite_btw fb.1.1 fb.2.1 hi.1.1 hi.1.2, finite_btw fb.1.2 fb.2.2 hi.2.1 hi.2.2⟩
/-- An affine function that is positive at the corners is positive in the box. -/
theorem BoundingBox2.aff_pos (hb : AllFinite b) (build : Build) (hi : b.isInside p = true) (A : Fin 3 → ℝ)
    (h : ∀ k : UInt32, k < 4 → ∀ q, b.corner build k = .ok q → 0 < A 0 * real q.x + A 1 * real q.y + A 2) :
    0 < A 0 * real p.x + A 1 * real p.y + A 2 := by
  have fp := Point2.allFinite.1 (BoundingBox2.fin_inside hb hi)
  rw [isInside2_iff] at hi
  have fb := hb
  rw [BoundingBox2.allFinite, Point2.allFinite, Point2.allFinite] at fb
  obtain ⟨c0, c1, c2, c3⟩ := corner_ok2 build b
  have r0 : real b.min.x ≤ real p.x ∧ real p.x ≤ real b.max.x := by
    have h := hi.1
    exact ⟨(Ideal.le_real fb.1.1 fp.1).1 h.1, (Ideal.le_real fp.1 fb.2.1).1 h.2⟩
  have r1 : real b.min.y ≤ real p.y ∧ real p.y ≤ real b.max.y := by
    have h := hi.2
    exact ⟨(Ideal.le_real fb.1.2 fp.2).1 h.1, (Ideal.le_real fp.2 fb.2.2).1 h.2⟩
  exact aff_pos2 r0.1 r0.2 r1.1 r1.2 (h 0 (by decide) _ c0) (h 1 (by decide) _ c1) (h 2 (by decide) _ c2) (h 3 (by decide) _ c3)
theorem BoundingBox2.aff_nonneg (hb : AllFinite b) (build : Build) (hi : b.isInside p = true) (A : Fin 3 → ℝ)
    (h : ∀ k : UInt32, k < 4 → ∀ q, b.corner build k = .ok q → 0 ≤ A 0 * real q.x + A 1 * real q.y + A 2) :
    0 ≤ A 0 * real p.x + A 1 * real p.y + A 2 := by
  have fp := Point2.allFinite.1 (BoundingBox2.fin_inside hb hi)
  rw [isInside2_iff] at hi
  have fb := hb
  rw [BoundingBox2.allFinite, Point2.allFinite, Point2.allFinite] at fb
  obtain ⟨c0, c1, c2, c3⟩ := corner_ok2 build b
  have r0 : real b.min.x ≤ real p.x ∧ real p.x ≤ real b.max.x := by
    have h := hi.1
    exact ⟨(Ideal.le_real fb.1.1 fp.1).1 h.1, (Ideal.le_real fp.1 fb.2.1).1 h.2⟩
  have r1 : real b.min.y ≤ real p.y ∧ real p.y ≤ real b.max.y := by
    have h := hi.2
    exact ⟨(Ideal.le_real fb.1.2 fp.2).1 h.1, (Ideal.le_real fp.2 fb.2.2).1 h.2⟩
  exact aff_nonneg2 r0.1 r0.2 r1.1 r1.2 (h 0 (by decide) _ c0) (h 1 (by decide) _ c1) (h 2 (by decide) _ c2) (h 3 (by decide) _ c3)
end
/-- **C120** without rounding: if the corners of a box have positive weight, then so have all its points, and the box around the
transformed corners contains the image of every point of the box; it is the smallest box that does. -/
theorem C120_box2 (t : Transform2 Ideal) (ht : AllFinite t.forward) (build : Build) (b : BoundingBox2 Ideal) (hb : AllFinite b) (wb : LeAll b.min b.max)
    (hw : ∀ k : UInt32, k < 4 → ∀ c, b.corner build k = .ok c → 0 < t.forward.weight c) :
    ∃ B : BoundingBox2 Ideal, t.around build b = .ok B ∧ AllFinite B ∧ LeAll B.min B.max ∧
      (∀ p, b.isInside p = true → 0 < t.forward.weight p ∧ B.isInside (Transform.transform t p : Point2 Ideal) = true) ∧
      (∀ C : BoundingBox2 Ideal, (∀ p, b.isInside p = true → C.isInside (Transform.transform t p : Point2 Ideal) = true) →
        ∀ r, B.isInside r = true → C.isInside r = true) := by
  have fc : ∀ k : UInt32, k < 4 → ∀ c, b.corner build k = .ok c → AllFinite (Transform.transform t c : Point2 Ideal) := fun k hk c hc =>
    (Matrix3x3.mulp_aux ht (BoundingBox2.fin_inside hb (corner_inside2 build b wb hk hc)) (hw k hk c hc).ne').1
  have hn' := (corners_iff2 t build b NoNaN).1 (fun k hk c hc => (fc k hk c hc).noNaN)
  obtain ⟨w, hin, hmin⟩ := C27_points2 (corners2 t b) (by simp [corners2]) hn'
  obtain ⟨B, e1, f1⟩ := C95_finite2 t build b fc
  have eB := Except.ok.inj (e1.symm.trans (around_eq2 t build b))
  rw [← eB] at w hin hmin
  have hin' := (corners_iff2 t build b (fun q => B.isInside q = true)).2 hin
  have PW : ∀ p, b.isInside p = true → 0 < t.forward.weight p := by
    intro p hi
    have := BoundingBox2.aff_pos hb build hi (t.forward.toReal (Fin.last 2)) (fun k hk q hq => by
      have := hw k hk q hq
      rw [Matrix3x3.weight, Matrix3x3.mulVec_lin] at this; exact this)
    rw [Matrix3x3.weight, Matrix3x3.mulVec_lin]; exact this
  have up : ∀ (C : ℝ) (i : Fin 2), (∀ k : UInt32, k < 4 → ∀ c, b.corner build k = .ok c → (Transform.transform t c : Point2 Ideal).toReal i ≤ C) →
      ∀ p, b.isInside p = true → (Transform.transform t p : Point2 Ideal).toReal i ≤ C := by
    intro C i hC p hi
    have := BoundingBox2.aff_nonneg hb build hi (fun j => C * t.forward.toReal (Fin.last 2) j - t.forward.toReal i.castSucc j) (fun k hk q hq => by
      have h1 := hC k hk q hq
      change (t.forward * q).toReal i ≤ C at h1
      rw [(Matrix3x3.mulp_aux ht (BoundingBox2.fin_inside hb (corner_inside2 build b wb hk hq)) (hw k hk q hq).ne').2,
        div_le_iff₀ (hw k hk q hq), Matrix3x3.weight, Matrix3x3.mulVec_lin, Matrix3x3.mulVec_lin] at h1
      linarith)
    change (t.forward * p).toReal i ≤ C
    rw [(Matrix3x3.mulp_aux ht (BoundingBox2.fin_inside hb hi) (PW p hi).ne').2, div_le_iff₀ (PW p hi), Matrix3x3.weight, Matrix3x3.mulVec_lin, Matrix3x3.mulVec_lin]
    linarith
  have low : ∀ (C : ℝ) (i : Fin 2), (∀ k : UInt32, k < 4 → ∀ c, b.corner build k = .ok c → C ≤ (Transform.transform t c : Point2 Ideal).toReal i) →
      ∀ p, b.isInside p = true → C ≤ (Transform.transform t p : Point2 Ideal).toReal i := by
    intro C i hC p hi
    have := BoundingBox2.aff_nonneg hb build hi (fun j => t.forward.toReal i.castSucc j - C * t.forward.toReal (Fin.last 2) j) (fun k hk q hq => by
      have h1 := hC k hk q hq
      change C ≤ (t.forward * q).toReal i at h1
      rw [(Matrix3x3.mulp_aux ht (BoundingBox2.fin_inside hb (corner_inside2 build b wb hk hq)) (hw k hk q hq).ne').2,
        le_div_iff₀ (hw k hk q hq), Matrix3x3.weight, Matrix3x3.mulVec_lin, Matrix3x3.mulVec_lin] at h1
      linarith)
    change C ≤ (t.forward * p).toReal i
    rw [(Matrix3x3.mulp_aux ht (BoundingBox2.fin_inside hb hi) (PW p hi).ne').2, le_div_iff₀ (PW p hi), Matrix3x3.weight, Matrix3x3.mulVec_lin, Matrix3x3.mulVec_lin]
    linarith
  have cin : ∀ k : UInt32, k < 4 → ∀ c, b.corner build k = .ok c → ∀ i : Fin 2,
      B.min.toReal i ≤ (Transform.transform t c : Point2 Ideal).toReal i ∧ (Transform.transform t c : Point2 Ideal).toReal i ≤ B.max.toReal i := by
    intro k hk c hc
    have h := hin' k hk c hc
    rw [BoundingBox2.inside_real f1 (fc k hk c hc)] at h
    exact h
  refine ⟨B, e1, f1, w, fun p hi => ⟨PW p hi, ?_⟩, fun C hC => ?_⟩
  · change B.isInside (t.forward * p) = true
    rw [BoundingBox2.inside_real f1 (Matrix3x3.mulp_aux ht (BoundingBox2.fin_inside hb hi) (PW p hi).ne').1]
    intro i
    exact ⟨low _ i (fun k hk c hc => (cin k hk c hc i).1) p hi, up _ i (fun k hk c hc => (cin k hk c hc i).2) p hi⟩
  · exact hmin C ((corners_iff2 t build b (fun q => C.isInside q = true)).1 fun k hk c hc => hC c (corner_inside2 build b wb hk hc))

/-! ## Dimension 3 -/
section
variable {m : Matrix4x4 Ideal} {r : Ray3 Ideal} {s : Ideal} {p : Point3 Ideal}
theorem Ray3.hom_at (hr : AllFinite r) (hs : IsFinite s) : (r.at s).hom = r.origin.hom + real s • r.direction.hom := by
  have e := Ray3.toReal_at hr hs
  funext i
  fin_cases i
  · have := congrFun e 0; simpa [Point3.toReal, Vector3.toReal, Point3.hom, Vector3.hom] using this
  · have := congrFun e 1; simpa [Point3.toReal, Vector3.toReal, Point3.hom, Vector3.hom] using this
  · have := congrFun e 2; simpa [Point3.toReal, Vector3.toReal, Point3.hom, Vector3.hom] using this
  · simp [Point3.hom, Vector3.hom]
theorem Matrix4x4.mulVec_at (hr : AllFinite r) (hs : IsFinite s) (i : Fin 4) :
    (m.toReal.mulVec (r.at s).hom) i = (m.toReal.mulVec r.origin.hom) i + real s * (m.toReal.mulVec r.direction.hom) i := by
  rw [Ray3.hom_at hr hs, Matrix.mulVec_add, Matrix.mulVec_smul]; rfl
theorem Matrix4x4.weight_at (hr : AllFinite r) (hs : IsFinite s) :
    m.weight (r.at s) = m.weight r.origin + real s * (m.toReal.mulVec r.direction.hom) (Fin.last 3) := Matrix4x4.mulVec_at hr hs _
end

/-- **C120** without rounding: a projective matrix maps lines to lines. The image of the point with parameter `s` is on the line
through the images of the points with the parameters 0 and 1, at the parameter `s * w(1) / w(s)`. -/
theorem C120_line3 (m : Matrix4x4 Ideal) (hm : AllFinite m) (r : Ray3 Ideal) (hr : AllFinite r) (s t : Ideal) (hs : IsFinite s) (ht : IsFinite t)
    (h0 : m.weight (r.at zero) ≠ 0) (h1 : m.weight (r.at one) ≠ 0) (h2 : m.weight (r.at s) ≠ 0)
    (e : real t = real s * m.weight (r.at one) / m.weight (r.at s)) :
    ((Ray3.new (m * r.at zero) ((m * r.at one) - (m * r.at zero)) : Ray3 Ideal).at t == m * r.at s) = true := by
  have f0 := Ray3.fin_at hr (finite_zero (S := Ideal))
  have f1 := Ray3.fin_at hr (finite_one (S := Ideal))
  have f2 := Ray3.fin_at hr hs
  obtain ⟨g0, k0⟩ := Matrix4x4.mulp_aux hm f0 h0
  obtain ⟨g1, k1⟩ := Matrix4x4.mulp_aux hm f1 h1
  obtain ⟨g2, k2⟩ := Matrix4x4.mulp_aux hm f2 h2
  have fr : AllFinite (Ray3.new (m * r.at zero) ((m * r.at one) - (m * r.at zero)) : Ray3 Ideal) :=
    Ray3.allFinite.2 ⟨g0, Vector3.fin_subp g1 g0⟩
  rw [Point3.beq_toReal (Ray3.fin_at fr ht) g2, Ray3.toReal_at fr ht]
  funext i
  change (m * r.at zero).toReal i + real t * ((m * r.at one) - (m * r.at zero)).toReal i = _
  rw [Vector3.toReal_subp g1 g0]
  change (m * r.at zero).toReal i + real t * ((m * r.at one).toReal i - (m * r.at zero).toReal i) = _
  rw [k0, k1, k2, e]
  rw [Matrix4x4.mulVec_at hr finite_zero, Matrix4x4.mulVec_at hr finite_one, Matrix4x4.mulVec_at hr hs]
  rw [Matrix4x4.weight_at hr finite_zero] at h0
  rw [Matrix4x4.weight_at hr finite_one] at h1
  rw [Matrix4x4.weight_at hr hs] at h2
  rw [Matrix4x4.weight_at hr finite_zero, Matrix4x4.weight_at hr finite_one, Matrix4x4.weight_at hr hs]
  simp only [real_zero, real_one, zero_mul, add_zero, one_mul] at h0 h1 h2 ⊢
  exact proj_mix h0 h1 h2
/-- **C120** without rounding: the image of a segment whose two ends have positive weight is, point by point, the segment between the
images of its ends: every point of it has positive weight, is mapped into that segment, and every point of that segment is reached. -/
theorem C120_segment3 (m : Matrix4x4 Ideal) (hm : AllFinite m) (r : Ray3 Ideal) (hr : AllFinite r)
    (h0 : 0 < m.weight (r.at zero)) (h1 : 0 < m.weight (r.at one)) :
    (∀ s : Ideal, IsFinite s → (zero ≤? s) = true → (s ≤? one) = true → 0 < m.weight (r.at s) ∧
      ∃ t : Ideal, IsFinite t ∧ (zero ≤? t) = true ∧ (t ≤? one) = true ∧
        ((Ray3.new (m * r.at zero) ((m * r.at one) - (m * r.at zero)) : Ray3 Ideal).at t == m * r.at s) = true) ∧
    (∀ t : Ideal, IsFinite t → (zero ≤? t) = true → (t ≤? one) = true →
      ∃ s : Ideal, IsFinite s ∧ (zero ≤? s) = true ∧ (s ≤? one) = true ∧
        ((Ray3.new (m * r.at zero) ((m * r.at one) - (m * r.at zero)) : Ray3 Ideal).at t == m * r.at s) = true) := by
  have W : ∀ s : Ideal, IsFinite s → m.weight (r.at s) = (1 - real s) * m.weight (r.at zero) + real s * m.weight (r.at one) := by
    intro s hs
    rw [Matrix4x4.weight_at hr finite_zero, Matrix4x4.weight_at hr finite_one, Matrix4x4.weight_at hr hs, real_zero, real_one]; ring
  constructor
  · intro s hs a b
    rw [Ideal.le_real finite_zero hs, real_zero] at a
    rw [Ideal.le_real hs finite_one, real_one] at b
    have w := proj_pos a b h0 h1
    rw [← W s hs] at w
    refine ⟨w, Ideal.of (real s * m.weight (r.at one) / m.weight (r.at s)), Ideal.finite_of _, ?_, ?_, ?_⟩
    · rw [Ideal.le_real finite_zero (Ideal.finite_of _), real_zero, Ideal.real_of]
      exact div_nonneg (mul_nonneg a h1.le) w.le
    · rw [Ideal.le_real (Ideal.finite_of _) finite_one, real_one, Ideal.real_of, div_le_one w, W s hs]
      nlinarith
    · exact C120_line3 m hm r hr s _ hs (Ideal.finite_of _) h0.ne' h1.ne' w.ne' (Ideal.real_of _)
  · intro t ht a b
    rw [Ideal.le_real finite_zero ht, real_zero] at a
    rw [Ideal.le_real ht finite_one, real_one] at b
    have d : 0 < (1 - real t) * m.weight (r.at one) + real t * m.weight (r.at zero) := proj_pos a b h1 h0
    have hs : IsFinite (Ideal.of (real t * m.weight (r.at zero) / ((1 - real t) * m.weight (r.at one) + real t * m.weight (r.at zero)))) := Ideal.finite_of _
    refine ⟨_, hs, ?_, ?_, ?_⟩
    · rw [Ideal.le_real finite_zero hs, real_zero, Ideal.real_of]
      exact div_nonneg (mul_nonneg a h0.le) d.le
    · rw [Ideal.le_real hs finite_one, real_one, Ideal.real_of, div_le_one d]
      nlinarith
    · have w := W _ hs
      rw [Ideal.real_of] at w
      have w' : m.weight (r.at (Ideal.of (real t * m.weight (r.at zero) / ((1 - real t) * m.weight (r.at one) + real t * m.weight (r.at zero))))) =
          m.weight (r.at zero) * m.weight (r.at one) / ((1 - real t) * m.weight (r.at one) + real t * m.weight (r.at zero)) := by
        rw [w]; field_simp; ring
      have wp : 0 < m.weight (r.at (Ideal.of (real t * m.weight (r.at zero) / ((1 - real t) * m.weight (r.at one) + real t * m.weight (r.at zero))))) := by
        rw [w']; positivity
      refine C120_line3 m hm r hr _ t hs ht h0.ne' h1.ne' wp.ne' ?_
      rw [w', Ideal.real_of]
      have := h0.ne'; have := h1.ne'; have := d.ne'
      field_simp
/-- **C120** without rounding: points in front of the eye (positive weight) keep their order along a ray: a larger parameter on the
ray is a larger parameter on the image of the ray. -/
theorem C120_order3 (m : Matrix4x4 Ideal) (r : Ray3 Ideal) (hr : AllFinite r) (s s' t t' : Ideal) (hs : IsFinite s) (hs' : IsFinite s')
    (ht : IsFinite t) (ht' : IsFinite t')
    (h0 : 0 < m.weight (r.at zero)) (h1 : 0 < m.weight (r.at one)) (h2 : 0 < m.weight (r.at s)) (h3 : 0 < m.weight (r.at s'))
    (e : real t = real s * m.weight (r.at one) / m.weight (r.at s)) (e' : real t' = real s' * m.weight (r.at one) / m.weight (r.at s')) :
    (t <? t') = (s <? s') := by
  rw [Bool.eq_iff_iff, Ideal.lt_real ht ht', Ideal.lt_real hs hs', e, e', div_lt_div_iff₀ h2 h3]
  have a := Matrix4x4.weight_at (m := m) hr finite_zero
  have c := Matrix4x4.weight_at (m := m) hr hs
  have d := Matrix4x4.weight_at (m := m) hr hs'
  rw [real_zero, zero_mul, add_zero] at a
  have key : real s' * m.weight (r.at one) * m.weight (r.at s) - real s * m.weight (r.at one) * m.weight (r.at s') =
      (real s' - real s) * (m.weight (r.at one) * m.weight (r.at zero)) := by
    rw [c, d, a]; ring
  have pp := mul_pos h1 h0
  constructor
  · intro h
    by_contra hh
    have := mul_nonneg (sub_nonneg.2 (not_lt.1 hh)) pp.le
    nlinarith
  · intro h
    have := mul_pos (sub_pos.2 h) pp
    nlinarith
/-- **C120** without rounding: a matrix and any multiple of it act alike on points: `(m * s) * p == m * p`. -/
theorem C120_scale3 (m : Matrix4x4 Ideal) (hm : AllFinite m) (p : Point3 Ideal) (hp : AllFinite p) (s : Ideal) (hs : IsFinite s) (h0 : real s ≠ 0)
    (hw : m.weight p ≠ 0) : (m * s).weight p ≠ 0 ∧ ((m * s) * p == m * p) = true := by
  have fm := Matrix4x4.fin_muls hm hs
  have w : ∀ i, ((m * s).toReal.mulVec p.hom) i = real s * (m.toReal.mulVec p.hom) i := by
    intro i
    rw [Matrix4x4.toReal_muls hm hs, Matrix.smul_mulVec]; rfl
  have hw' : (m * s).weight p ≠ 0 := by
    unfold Matrix4x4.weight; rw [w]; exact mul_ne_zero h0 hw
  obtain ⟨g0, k0⟩ := Matrix4x4.mulp_aux hm hp hw
  obtain ⟨g1, k1⟩ := Matrix4x4.mulp_aux fm hp hw'
  refine ⟨hw', ?_⟩
  rw [Point3.beq_toReal g1 g0]
  funext i
  rw [k0, k1, w, Matrix4x4.weight, w, mul_div_mul_left _ _ h0]; rfl

theorem aff_nonneg3 {c0 c1 c2 c3 l0 u0 l1 u1 l2 u2 x y z : ℝ} (hl0 : l0 ≤ x) (hu0 : x ≤ u0) (hl1 : l1 ≤ y) (hu1 : y ≤ u1) (hl2 : l2 ≤ z) (hu2 : z ≤ u2)
    (h0 : 0 ≤ c0 * l0 + c1 * l1 + c2 * l2 + c3) (h1 : 0 ≤ c0 * u0 + c1 * l1 + c2 * l2 + c3) (h2 : 0 ≤ c0 * l0 + c1 * u1 + c2 * l2 + c3) (h3 : 0 ≤ c0 * u0 + c1 * u1 + c2 * l2 + c3) (h4 : 0 ≤ c0 * l0 + c1 * l1 + c2 * u2 + c3) (h5 : 0 ≤ c0 * u0 + c1 * l1 + c2 * u2 + c3) (h6 : 0 ≤ c0 * l0 + c1 * u1 + c2 * u2 + c3) (h7 : 0 ≤ c0 * u0 + c1 * u1 + c2 * u2 + c3) : 0 ≤ c0 * x + c1 * y + c2 * z + c3 := by
  have e0 : c0 * l0 ≤ c0 * x ∨ c0 * u0 ≤ c0 * x := lin_end hl0 hu0
  have e1 : c1 * l1 ≤ c1 * y ∨ c1 * u1 ≤ c1 * y := lin_end hl1 hu1
  have e2 : c2 * l2 ≤ c2 * z ∨ c2 * u2 ≤ c2 * z := lin_end hl2 hu2
  rcases e0 with e0 | e0 <;> rcases e1 with e1 | e1 <;> rcases e2 with e2 | e2 <;> linarith
theorem aff_pos3 {c0 c1 c2 c3 l0 u0 l1 u1 l2 u2 x y z : ℝ} (hl0 : l0 ≤ x) (hu0 : x ≤ u0) (hl1 : l1 ≤ y) (hu1 : y ≤ u1) (hl2 : l2 ≤ z) (hu2 : z ≤ u2)
    (h0 : 0 < c0 * l0 + c1 * l1 + c2 * l2 + c3) (h1 : 0 < c0 * u0 + c1 * l1 + c2 * l2 + c3) (h2 : 0 < c0 * l0 + c1 * u1 + c2 * l2 + c3) (h3 : 0 < c0 * u0 + c1 * u1 + c2 * l2 + c3) (h4 : 0 < c0 * l0 + c1 * l1 + c2 * u2 + c3) (h5 : 0 < c0 * u0 + c1 * l1 + c2 * u2 + c3) (h6 : 0 < c0 * l0 + c1 * u1 + c2 * u2 + c3) (h7 : 0 < c0 * u0 + c1 * u1 + c2 * u2 + c3) : 0 < c0 * x + c1 * y + c2 * z + c3 := by
  have e0 : c0 * l0 ≤ c0 * x ∨ c0 * u0 ≤ c0 * x := lin_end hl0 hu0
  have e1 : c1 * l1 ≤ c1 * y ∨ c1 * u1 ≤ c1 * y := lin_end hl1 hu1
  have e2 : c2 * l2 ≤ c2 * z ∨ c2 * u2 ≤ c2 * z := lin_end hl2 hu2
  rcases e0 with e0 | e0 <;> rcases e1 with e1 | e1 <;> rcases e2 with e2 | e2 <;> linarith

theorem Matrix4x4.mulVec_lin (m : Matrix4x4 Ideal) (p : Point3 Ideal) (i : Fin 4) :
    (m.toReal.mulVec p.hom) i = m.toReal i 0 * real p.x + m.toReal i 1 * real p.y + m.toReal i 2 * real p.z + m.toReal i 3 := by
  simp [Matrix.mulVec, dotProduct, Fin.sum_univ_succ, Point3.hom]; try ring
section
variable {b : BoundingBox3 Ideal} {p : Point3 Ideal}
theorem BoundingBox3.fin_inside (hb : AllFinite b) (hi : b.isInside p = true) : AllFinite p := by
  rw [isInside3_iff] at hi
  have fb := hb
  rw [BoundingBox3.allFinite, Point3.allFinite, Point3.allFinite] at fb
  exact Point3.allFinite.2 ⟨finite_btw fb.1.1 fb.2.1 hi.1.1 hi.1.2, finite_btw fb.1.2.1 fb.2.2.1 hi.2.1.1 hi.2.1.2, finite_btw fb.1.2.2 fb.2.2.2 hi.2.2.1 hi.2.2.2⟩
/-- An affine function that is positive at the corners is positive in the box. -/
theorem BoundingBox3.aff_pos (hb : AllFinite b) (build : Build) (hi : b.isInside p = true) (A : Fin 4 → ℝ)
    (h : ∀ k : UInt32, k < 8 → ∀ q, b.corner build k = .ok q → 0 < A 0 * real q.x + A 1 * real q.y + A 2 * real q.z + A 3) :
    0 < A 0 * real p.x + A 1 * real p.y + A 2 * real p.z + A 3 := by
  have fp := Point3.allFinite.1 (BoundingBox3.fin_inside hb hi)
  rw [isInside3_iff] at hi
  have fb := hb
  rw [BoundingBox3.allFinite, Point3.allFinite, Point3.allFinite] at fb
  obtain ⟨c0, c1, c2, c3, c4, c5, c6, c7⟩ := corner_ok3 build b
  have r0 : real b.min.x ≤ real p.x ∧ real p.x ≤ real b.max.x := by
    have h := hi.1
    exact ⟨(Ideal.le_real fb.1.1 fp.1).1 h.1, (Ideal.le_real fp.1 fb.2.1).1 h.2⟩
  have r1 : real b.min.y ≤ real p.y ∧ real p.y ≤ real b.max.y := by
    have h := hi.2.1
    exact ⟨(Ideal.le_real fb.1.2.1 fp.2.1).1 h.1, (Ideal.le_real fp.2.1 fb.2.2.1).1 h.2⟩
  have r2 : real b.min.z ≤ real p.z ∧ real p.z ≤ real b.max.z := by
    have h := hi.2.2
    exact ⟨(Ideal.le_real fb.1.2.2 fp.2.2).1 h.1, (Ideal.le_real fp.2.2 fb.2.2.2).1 h.2⟩
  exact aff_pos3 r0.1 r0.2 r1.1 r1.2 r2.1 r2.2 (h 0 (by decide) _ c0) (h 1 (by decide) _ c1) (h 2 (by decide) _ c2) (h 3 (by decide) _ c3) (h 4 (by decide) _ c4) (h 5 (by decide) _ c5) (h 6 (by decide) _ c6) (h 7 (by decide) _ c7)
theorem BoundingBox3.aff_nonneg (hb : AllFinite b) (build : Build) (hi : b.isInside p = true) (A : Fin 4 → ℝ)
    (h : ∀ k : UInt32, k < 8 → ∀ q, b.corner build k = .ok q → 0 ≤ A 0 * real q.x + A 1 * real q.y + A 2 * real q.z + A 3) :
    0 ≤ A 0 * real p.x + A 1 * real p.y + A 2 * real p.z + A 3 := by
  have fp := Point3.allFinite.1 (BoundingBox3.fin_inside hb hi)
  rw [isInside3_iff] at hi
  have fb := hb
  rw [BoundingBox3.allFinite, Point3.allFinite, Point3.allFinite] at fb
  obtain ⟨c0, c1, c2, c3, c4, c5, c6, c7⟩ := corner_ok3 build b
  have r0 : real b.min.x ≤ real p.x ∧ real p.x ≤ real b.max.x := by
    have h := hi.1
    exact ⟨(Ideal.le_real fb.1.1 fp.1).1 h.1, (Ideal.le_real fp.1 fb.2.1).1 h.2⟩
  have r1 : real b.min.y ≤ real p.y ∧ real p.y ≤ real b.max.y := by
    have h := hi.2.1
    exact ⟨(Ideal.le_real fb.1.2.1 fp.2.1).1 h.1, (Ideal.le_real fp.2.1 fb.2.2.1).1 h.2⟩
  have r2 : real b.min.z ≤ real p.z ∧ real p.z ≤ real b.max.z := by
    have h := hi.2.2
    exact ⟨(Ideal.le_real fb.1.2.2 fp.2.2).1 h.1, (Ideal.le_real fp.2.2 fb.2.2.2).1 h.2⟩
  exact aff_nonneg3 r0.1 r0.2 r1.1 r1.2 r2.1 r2.2 (h 0 (by decide) _ c0) (h 1 (by decide) _ c1) (h 2 (by decide) _ c2) (h 3 (by decide) _ c3) (h 4 (by decide) _ c4) (h 5 (by decide) _ c5) (h 6 (by decide) _ c6) (h 7 (by decide) _ c7)
end
/-- **C120** without rounding: if the corners of a box have positive weight, then so have all its points, and the box around the
transformed corners contains the image of every point of the box; it is the smallest box that does. -/
theorem C120_box3 (t : Transform3 Ideal) (ht : AllFinite t.forward) (build : Build) (b : BoundingBox3 Ideal) (hb : AllFinite b) (wb : LeAll b.min b.max)
    (hw : ∀ k : UInt32, k < 8 → ∀ c, b.corner build k = .ok c → 0 < t.forward.weight c) :
    ∃ B : BoundingBox3 Ideal, t.around build b = .ok B ∧ AllFinite B ∧ LeAll B.min B.max ∧
      (∀ p, b.isInside p = true → 0 < t.forward.weight p ∧ B.isInside (Transform.transform t p : Point3 Ideal) = true) ∧
      (∀ C : BoundingBox3 Ideal, (∀ p, b.isInside p = true → C.isInside (Transform.transform t p : Point3 Ideal) = true) →
        ∀ r, B.isInside r = true → C.isInside r = true) := by
  have fc : ∀ k : UInt32, k < 8 → ∀ c, b.corner build k = .ok c → AllFinite (Transform.transform t c : Point3 Ideal) := fun k hk c hc =>
    (Matrix4x4.mulp_aux ht (BoundingBox3.fin_inside hb (corner_inside3 build b wb hk hc)) (hw k hk c hc).ne').1
  have hn' := (corners_iff3 t build b NoNaN).1 (fun k hk c hc => (fc k hk c hc).noNaN)
  obtain ⟨w, hin, hmin⟩ := C27_points3 (corners3 t b) (by simp [corners3]) hn'
  obtain ⟨B, e1, f1⟩ := C95_finite3 t build b fc
  have eB := Except.ok.inj (e1.symm.trans (around_eq3 t build b))
  rw [← eB] at w hin hmin
  have hin' := (corners_iff3 t build b (fun q => B.isInside q = true)).2 hin
  have PW : ∀ p, b.isInside p = true → 0 < t.forward.weight p := by
    intro p hi
    have := BoundingBox3.aff_pos hb build hi (t.forward.toReal (Fin.last 3)) (fun k hk q hq => by
      have := hw k hk q hq
      rw [Matrix4x4.weight, Matrix4x4.mulVec_lin] at this; exact this)
    rw [Matrix4x4.weight, Matrix4x4.mulVec_lin]; exact this
  have up : ∀ (C : ℝ) (i : Fin 3), (∀ k : UInt32, k < 8 → ∀ c, b.corner build k = .ok c → (Transform.transform t c : Point3 Ideal).toReal i ≤ C) →
      ∀ p, b.isInside p = true → (Transform.transform t p : Point3 Ideal).toReal i ≤ C := by
    intro C i hC p hi
    have := BoundingBox3.aff_nonneg hb build hi (fun j => C * t.forward.toReal (Fin.last 3) j - t.forward.toReal i.castSucc j) (fun k hk q hq => by
      have h1 := hC k hk q hq
      change (t.forward * q).toReal i ≤ C at h1
      rw [(Matrix4x4.mulp_aux ht (BoundingBox3.fin_inside hb (corner_inside3 build b wb hk hq)) (hw k hk q hq).ne').2,
        div_le_iff₀ (hw k hk q hq), Matrix4x4.weight, Matrix4x4.mulVec_lin, Matrix4x4.mulVec_lin] at h1
      linarith)
    change (t.forward * p).toReal i ≤ C
    rw [(Matrix4x4.mulp_aux ht (BoundingBox3.fin_inside hb hi) (PW p hi).ne').2, div_le_iff₀ (PW p hi), Matrix4x4.weight, Matrix4x4.mulVec_lin, Matrix4x4.mulVec_lin]
    linarith
  have low : ∀ (C : ℝ) (i : Fin 3), (∀ k : UInt32, k < 8 → ∀ c, b.corner build k = .ok c → C ≤ (Transform.transform t c : Point3 Ideal).toReal i) →
      ∀ p, b.isInside p = true → C ≤ (Transform.transform t p : Point3 Ideal).toReal i := by
    intro C i hC p hi
    have := BoundingBox3.aff_nonneg hb build hi (fun j => t.forward.toReal i.castSucc j - C * t.forward.toReal (Fin.last 3) j) (fun k hk q hq => by
      have h1 := hC k hk q hq
      change C ≤ (t.forward * q).toReal i at h1
      rw [(Matrix4x4.mulp_aux ht (BoundingBox3.fin_inside hb (corner_inside3 build b wb hk hq)) (hw k hk q hq).ne').2,
        le_div_iff₀ (hw k hk q hq), Matrix4x4.weight, Matrix4x4.mulVec_lin, Matrix4x4.mulVec_lin] at h1
      linarith)
    change C ≤ (t.forward * p).toReal i
    rw [(Matrix4x4.mulp_aux ht (BoundingBox3.fin_inside hb hi) (PW p hi).ne').2, le_div_iff₀ (PW p hi), Matrix4x4.weight, Matrix4x4.mulVec_lin, Matrix4x4.mulVec_lin]
    linarith
  have cin : ∀ k : UInt32, k < 8 → ∀ c, b.corner build k = .ok c → ∀ i : Fin 3,
      B.min.toReal i ≤ (Transform.transform t c : Point3 Ideal).toReal i ∧ (Transform.transform t c : Point3 Ideal).toReal i ≤ B.max.toReal i := by
    intro k hk c hc
    have h := hin' k hk c hc
    rw [BoundingBox3.inside_real f1 (fc k hk c hc)] at h
    exact h
  refine ⟨B, e1, f1, w, fun p hi => ⟨PW p hi, ?_⟩, fun C hC => ?_⟩
  · change B.isInside (t.forward * p) = true
    rw [BoundingBox3.inside_real f1 (Matrix4x4.mulp_aux ht (BoundingBox3.fin_inside hb hi) (PW p hi).ne').1]
    intro i
    exact ⟨low _ i (fun k hk c hc => (cin k hk c hc i).1) p hi, up _ i (fun k hk c hc => (cin k hk c hc i).2) p hi⟩
  · exact hmin C ((corners_iff3 t build b (fun q => C.isInside q = true)).1 fun k hk c hc => hC c (corner_inside3 build b wb hk hc))

/-- **C120** without rounding: transforming a ray by a pair of inverse matrices (as `try_from` gives) is right for every ray, i.e. it
commutes with evaluating the ray at points that have an image, exactly if the last row of the matrix is `0 .. 0 1`. So it is wrong for
every perspective matrix, and for every multiple of an affine matrix other than itself. -/
theorem C120_ray_iff2 (t : Transform2 Ideal) (ht : AllFinite t) (hp : t.Paired) :
    (∀ (r : Ray2 Ideal) (s : Ideal), AllFinite r → IsFinite s → t.forward.weight r.origin ≠ 0 → t.forward.weight (r.at s) ≠ 0 →
      ((Transform.transform t r : Ray2 Ideal).at s == (Transform.transform t (r.at s) : Point2 Ideal)) = true) ↔ t.forward.Affine := by
  obtain ⟨hf, hi⟩ := Transform2.allFinite.1 ht
  refine ⟨fun h => ?_, fun h r s hr hs _ _ => C55_real2 t hf h r hr s hs⟩
  have h1 := (Transform2.paired_iff hf hi).1 hp
  have h2 := mul_eq_one_comm.1 h1
  refine proj_ray t.forward.toReal (fun x hx => ?_) ?_ ?_ 0
  · have : t.inverse.toReal.mulVec (t.forward.toReal.mulVec x) = x := by rw [Matrix.mulVec_mulVec, h2, Matrix.one_mulVec]
    rw [← this, hx, Matrix.mulVec_zero]
  · intro o v s o1 v0 ow sw i
    have ho : (⟨Ideal.of (o 0), Ideal.of (o 1)⟩ : Point2 Ideal).hom = o := by
      funext i
      fin_cases i
      · simp [Point2.hom]
      · simp [Point2.hom]
      · simp [Point2.hom]; exact o1.symm
    have hv : (⟨Ideal.of (v 0), Ideal.of (v 1)⟩ : Vector2 Ideal).hom = v := by
      funext i
      fin_cases i
      · simp [Vector2.hom]
      · simp [Vector2.hom]
      · simp [Vector2.hom]; exact v0.symm
    have fo : AllFinite (⟨Ideal.of (o 0), Ideal.of (o 1)⟩ : Point2 Ideal) := Point2.allFinite.2 ⟨Ideal.finite_of _, Ideal.finite_of _⟩
    have fv : AllFinite (⟨Ideal.of (v 0), Ideal.of (v 1)⟩ : Vector2 Ideal) := Vector2.allFinite.2 ⟨Ideal.finite_of _, Ideal.finite_of _⟩
    generalize (⟨Ideal.of (o 0), Ideal.of (o 1)⟩ : Point2 Ideal) = O at ho fo
    generalize (⟨Ideal.of (v 0), Ideal.of (v 1)⟩ : Vector2 Ideal) = U at hv fv
    have fr : AllFinite (Ray2.new O U) := Ray2.allFinite.2 ⟨fo, fv⟩
    have hat : ((Ray2.new O U).at (Ideal.of s)).hom = o + s • v := by
      rw [Ray2.hom_at fr (Ideal.finite_of _), Ideal.real_of, ← ho, ← hv]; rfl
    have w0 : t.forward.weight O ≠ 0 := by unfold Matrix3x3.weight; rw [ho]; exact ow
    have w1 : t.forward.weight ((Ray2.new O U).at (Ideal.of s)) ≠ 0 := by unfold Matrix3x3.weight; rw [hat]; exact sw
    have e := h (Ray2.new O U) (Ideal.of s) fr (Ideal.finite_of _) w0 w1
    obtain ⟨g0, k0⟩ := Matrix3x3.mulp_aux hf fo w0
    obtain ⟨g1, k1⟩ := Matrix3x3.mulp_aux hf (Ray2.fin_at fr (Ideal.finite_of _)) w1
    have gv := Matrix3x3.fin_mulv hf fv
    have ftr : AllFinite (Ray2.new (t.forward * O) (t.forward * U)) := Ray2.allFinite.2 ⟨g0, gv⟩
    change ((Ray2.new (t.forward * O) (t.forward * U)).at (Ideal.of s) == t.forward * (Ray2.new O U).at (Ideal.of s)) = true at e
    rw [Point2.beq_toReal (Ray2.fin_at ftr (Ideal.finite_of _)) g1, Ray2.toReal_at ftr (Ideal.finite_of _)] at e
    have e' := congrFun e i
    change (t.forward * O).toReal i + real (Ideal.of s) * (t.forward * U).toReal i = _ at e'
    rw [k0, k1, Matrix3x3.toReal_mulv hf fv, Ideal.real_of, Matrix3x3.weight, Matrix3x3.weight, hat, ho, hv] at e'
    exact e'.symm
  · by_contra hc
    push Not at hc
    have := congrFun (congrFun h1 (Fin.last 2)) (Fin.last 2)
    rw [Matrix.mul_apply, Finset.sum_eq_zero (fun j _ => by rw [hc j, zero_mul])] at this
    simp at this

/-- **C120** without rounding: transforming a ray by a pair of inverse matrices (as `try_from` gives) is right for every ray, i.e. it
commutes with evaluating the ray at points that have an image, exactly if the last row of the matrix is `0 .. 0 1`. So it is wrong for
every perspective matrix, and for every multiple of an affine matrix other than itself. -/
theorem C120_ray_iff3 (t : Transform3 Ideal) (ht : AllFinite t) (hp : t.Paired) :
    (∀ (r : Ray3 Ideal) (s : Ideal), AllFinite r → IsFinite s → t.forward.weight r.origin ≠ 0 → t.forward.weight (r.at s) ≠ 0 →
      ((Transform.transform t r : Ray3 Ideal).at s == (Transform.transform t (r.at s) : Point3 Ideal)) = true) ↔ t.forward.Affine := by
  obtain ⟨hf, hi⟩ := Transform3.allFinite.1 ht
  refine ⟨fun h => ?_, fun h r s hr hs _ _ => C55_real3 t hf h r hr s hs⟩
  have h1 := (Transform3.paired_iff hf hi).1 hp
  have h2 := mul_eq_one_comm.1 h1
  refine proj_ray t.forward.toReal (fun x hx => ?_) ?_ ?_ 0
  · have : t.inverse.toReal.mulVec (t.forward.toReal.mulVec x) = x := by rw [Matrix.mulVec_mulVec, h2, Matrix.one_mulVec]
    rw [← this, hx, Matrix.mulVec_zero]
  · intro o v s o1 v0 ow sw i
    have ho : (⟨Ideal.of (o 0), Ideal.of (o 1), Ideal.of (o 2)⟩ : Point3 Ideal).hom = o := by
      funext i
      fin_cases i
      · simp [Point3.hom]
      · simp [Point3.hom]
      · simp [Point3.hom]
      · simp [Point3.hom]; exact o1.symm
    have hv : (⟨Ideal.of (v 0), Ideal.of (v 1), Ideal.of (v 2)⟩ : Vector3 Ideal).hom = v := by
      funext i
      fin_cases i
      · simp [Vector3.hom]
      · simp [Vector3.hom]
      · simp [Vector3.hom]
      · simp [Vector3.hom]; exact v0.symm
    have fo : AllFinite (⟨Ideal.of (o 0), Ideal.of (o 1), Ideal.of (o 2)⟩ : Point3 Ideal) := Point3.allFinite.2 ⟨Ideal.finite_of _, Ideal.finite_of _, Ideal.finite_of _⟩
    have fv : AllFinite (⟨Ideal.of (v 0), Ideal.of (v 1), Ideal.of (v 2)⟩ : Vector3 Ideal) := Vector3.allFinite.2 ⟨Ideal.finite_of _, Ideal.finite_of _, Ideal.finite_of _⟩
    generalize (⟨Ideal.of (o 0), Ideal.of (o 1), Ideal.of (o 2)⟩ : Point3 Ideal) = O at ho fo
    generalize (⟨Ideal.of (v 0), Ideal.of (v 1), Ideal.of (v 2)⟩ : Vector3 Ideal) = U at hv fv
    have fr : AllFinite (Ray3.new O U) := Ray3.allFinite.2 ⟨fo, fv⟩
    have hat : ((Ray3.new O U).at (Ideal.of s)).hom = o + s • v := by
      rw [Ray3.hom_at fr (Ideal.finite_of _), Ideal.real_of, ← ho, ← hv]; rfl
    have w0 : t.forward.weight O ≠ 0 := by unfold Matrix4x4.weight; rw [ho]; exact ow
    have w1 : t.forward.weight ((Ray3.new O U).at (Ideal.of s)) ≠ 0 := by unfold Matrix4x4.weight; rw [hat]; exact sw
    have e := h (Ray3.new O U) (Ideal.of s) fr (Ideal.finite_of _) w0 w1
    obtain ⟨g0, k0⟩ := Matrix4x4.mulp_aux hf fo w0
    obtain ⟨g1, k1⟩ := Matrix4x4.mulp_aux hf (Ray3.fin_at fr (Ideal.finite_of _)) w1
    have gv := Matrix4x4.fin_mulv hf fv
    have ftr : AllFinite (Ray3.new (t.forward * O) (t.forward * U)) := Ray3.allFinite.2 ⟨g0, gv⟩
    change ((Ray3.new (t.forward * O) (t.forward * U)).at (Ideal.of s) == t.forward * (Ray3.new O U).at (Ideal.of s)) = true at e
    rw [Point3.beq_toReal (Ray3.fin_at ftr (Ideal.finite_of _)) g1, Ray3.toReal_at ftr (Ideal.finite_of _)] at e
    have e' := congrFun e i
    change (t.forward * O).toReal i + real (Ideal.of s) * (t.forward * U).toReal i = _ at e'
    rw [k0, k1, Matrix4x4.toReal_mulv hf fv, Ideal.real_of, Matrix4x4.weight, Matrix4x4.weight, hat, ho, hv] at e'
    exact e'.symm
  · by_contra hc
    push Not at hc
    have := congrFun (congrFun h1 (Fin.last 3)) (Fin.last 3)
    rw [Matrix.mul_apply, Finset.sum_eq_zero (fun j _ => by rw [hc j, zero_mul])] at this
    simp at this

end VecMath
