import Verif.Spec.Foot
import Verif.Lemmas.Real
import Verif.Lemmas.RealTr
import Mathlib.LinearAlgebra.Matrix.DotProduct
/-!
# Nearest points of lines, half-lines and segments in exact real arithmetic (layer R): C112

(Generated by tools/gen.)
-/

namespace VecMath
open Scalar IEEE

section
variable {k : ℕ} (d w : Fin k → ℝ)
/-- The squared distance along the line is a parabola. -/
theorem foot_parabola (h : d ⬝ᵥ d ≠ 0) (s : ℝ) : (s • d - w) ⬝ᵥ (s • d - w) =
    ((d ⬝ᵥ w / (d ⬝ᵥ d)) • d - w) ⬝ᵥ ((d ⬝ᵥ w / (d ⬝ᵥ d)) • d - w) + (s - d ⬝ᵥ w / (d ⬝ᵥ d)) ^ 2 * (d ⬝ᵥ d) := by
  simp only [sub_dotProduct, dotProduct_sub, smul_dotProduct, dotProduct_smul, dotProduct_comm w d, smul_eq_mul]
  field_simp; ring
theorem foot_perp (h : d ⬝ᵥ d ≠ 0) : d ⬝ᵥ ((d ⬝ᵥ w / (d ⬝ᵥ d)) • d - w) = 0 := by
  simp only [dotProduct_sub, dotProduct_smul, smul_eq_mul]
  field_simp; ring
end

section
variable {S : Type} [Scalar S] [IEEE S]
theorem fmin_fin {a b : S} (ha : IsFinite a) (hb : IsFinite b) : IsFinite (fmin a b) ∧ real (fmin a b) = min (real a) (real b) := by
  rcases (den_fmin a b).2.2 ha.not_nan hb.not_nan with h | h
  · have h2 := h.2
    rw [show (den a).ereal = _ from ha.val, show (den b).ereal = _ from hb.val, EReal.coe_le_coe_iff] at h2
    refine ⟨by unfold IsFinite; rw [h.1]; exact ha, ?_⟩
    rw [min_eq_left h2]; unfold real; rw [h.1]
  · have h2 := h.2
    rw [show (den a).ereal = _ from ha.val, show (den b).ereal = _ from hb.val, EReal.coe_le_coe_iff] at h2
    refine ⟨by unfold IsFinite; rw [h.1]; exact hb, ?_⟩
    rw [min_eq_right h2]; unfold real; rw [h.1]
theorem fmax_fin {a b : S} (ha : IsFinite a) (hb : IsFinite b) : IsFinite (fmax a b) ∧ real (fmax a b) = max (real a) (real b) := by
  rcases (den_fmax a b).2.2 ha.not_nan hb.not_nan with h | h
  · have h2 := h.2
    rw [show (den a).ereal = _ from ha.val, show (den b).ereal = _ from hb.val, EReal.coe_le_coe_iff] at h2
    refine ⟨by unfold IsFinite; rw [h.1]; exact ha, ?_⟩
    rw [max_eq_left h2]; unfold real; rw [h.1]
  · have h2 := h.2
    rw [show (den a).ereal = _ from ha.val, show (den b).ereal = _ from hb.val, EReal.coe_le_coe_iff] at h2
    refine ⟨by unfold IsFinite; rw [h.1]; exact hb, ?_⟩
    rw [max_eq_right h2]; unfold real; rw [h.1]
end

/-- The nearest number of a half-line. -/
theorem half_line_near {t s : ℝ} (h : 0 ≤ s) : |max t 0 - t| ≤ |s - t| ∧ (|max t 0 - t| = |s - t| → s = max t 0) := by
  rcases le_total t 0 with a | a
  · rw [max_eq_right a, abs_of_nonneg (by linarith), abs_of_nonneg (by linarith)]; constructor <;> intros <;> linarith
  · rw [max_eq_left a]
    simp only [sub_self, abs_zero, abs_nonneg, true_and]
    intro e
    have := abs_eq_zero.1 e.symm
    linarith
/-- The nearest number of the unit interval. -/
theorem seg_near {t s : ℝ} (h : 0 ≤ s) (h' : s ≤ 1) :
    |min (max t 0) 1 - t| ≤ |s - t| ∧ (|min (max t 0) 1 - t| = |s - t| → s = min (max t 0) 1) := by
  rcases le_total (max t 0) 1 with a | a
  · rw [min_eq_left a]; exact half_line_near h
  · have b : 1 ≤ t := by
      rcases le_max_iff.1 a with b | b
      · exact b
      · linarith
    rw [min_eq_right a, abs_of_nonpos (by linarith), abs_of_nonpos (by linarith)]; constructor <;> intros <;> linarith
theorem seg_id {s : ℝ} (h : 0 ≤ s) (h' : s ≤ 1) : min (max s 0) 1 = s := by rw [max_eq_left h, min_eq_left h']

/-! ## Dimension 2 -/
section
variable {r : Ray2 Ideal} {p : Point2 Ideal}
theorem Ray2.fin_at (hr : AllFinite r) {s : Ideal} (hs : IsFinite s) : AllFinite (r.at s) := by
  rw [Ray2.allFinite] at hr
  exact Point2.fin_addv hr.1 (Vector2.fin_mul hr.2 hs)
theorem Ray2.toReal_at (hr : AllFinite r) {s : Ideal} (hs : IsFinite s) :
    (r.at s).toReal = r.origin.toReal + real s • r.direction.toReal := by
  rw [Ray2.allFinite] at hr
  exact (Point2.toReal_addv hr.1 (Vector2.fin_mul hr.2 hs)).trans (by rw [Vector2.toReal_mul hr.2 hs])
theorem Ray2.foot_den (hr : AllFinite r) (h0 : (r.direction == Vector2.zero) = false) : r.direction.toReal ⬝ᵥ r.direction.toReal ≠ 0 := by
  rw [Ray2.allFinite] at hr
  intro h
  have := dotProduct_self_eq_zero.1 h
  rw [← Vector2.toReal_zero, ← Vector2.beq_toReal hr.2 Vector2.fin_zero, h0] at this
  cases this
theorem Ray2.foot_param (hr : AllFinite r) (hp : AllFinite p) (h0 : (r.direction == Vector2.zero) = false) : IsFinite (r.footParam p) ∧
    real (r.footParam p) = r.direction.toReal ⬝ᵥ (p.toReal - r.origin.toReal) / (r.direction.toReal ⬝ᵥ r.direction.toReal) := by
  have h := Ray2.foot_den hr h0
  rw [Ray2.allFinite] at hr
  have f := Vector2.fin_subp hp hr.1
  have e := Vector2.real_dot hr.2 hr.2
  rw [← e] at h
  refine ⟨Ideal.finite_div (Vector2.fin_dot hr.2 f) (Vector2.fin_dot hr.2 hr.2) h, ?_⟩
  refine (Ideal.real_div (Vector2.fin_dot hr.2 f) (Vector2.fin_dot hr.2 hr.2) h).trans ?_
  rw [e, Vector2.real_dot hr.2 f, Vector2.toReal_subp hp hr.1]
theorem Ray2.foot_dist (hr : AllFinite r) (hp : AllFinite p) (h0 : (r.direction == Vector2.zero) = false) {u s : Ideal} (hu : IsFinite u) (hs : IsFinite s) :
    ((Api.distance p (r.at u) ≤? (Api.distance p (r.at s) : Ideal)) = true ↔ |real u - real (r.footParam p)| ≤ |real s - real (r.footParam p)|) ∧
    ((Api.distance p (r.at u) == (Api.distance p (r.at s) : Ideal)) = true ↔ |real u - real (r.footParam p)| = |real s - real (r.footParam p)|) := by
  have key : ∀ u : Ideal, IsFinite u → IsFinite (Api.distance p (r.at u) : Ideal) ∧ 0 ≤ real (Api.distance p (r.at u) : Ideal) ∧
      real (Api.distance p (r.at u) : Ideal) * real (Api.distance p (r.at u) : Ideal) =
      (real (r.footParam p) • r.direction.toReal - (p.toReal - r.origin.toReal)) ⬝ᵥ (real (r.footParam p) • r.direction.toReal - (p.toReal - r.origin.toReal)) +
        (real u - real (r.footParam p)) ^ 2 * (r.direction.toReal ⬝ᵥ r.direction.toReal) := by
    intro u hu
    have f := Ray2.fin_at hr hu
    refine ⟨Point2.fin_distance hp f, ?_, ?_⟩
    · rw [Point2.real_distance hp f]; exact dist_nonneg
    · rw [Point2.distance_def, Vector2.real_length_sq (Vector2.fin_subp f hp), Vector2.toReal_subp f hp, Ray2.toReal_at hr hu,
        show r.origin.toReal + real u • r.direction.toReal - p.toReal = real u • r.direction.toReal - (p.toReal - r.origin.toReal) by module,
        (Ray2.foot_param hr hp h0).2]
      exact foot_parabola _ _ (Ray2.foot_den hr h0) _
  obtain ⟨f1, n1, e1⟩ := key u hu
  obtain ⟨f2, n2, e2⟩ := key s hs
  have pos : 0 < r.direction.toReal ⬝ᵥ r.direction.toReal :=
    lt_of_le_of_ne (Finset.sum_nonneg fun i _ => mul_self_nonneg _) (Ne.symm (Ray2.foot_den hr h0))
  have a : real (Api.distance p (r.at u) : Ideal) ≤ real (Api.distance p (r.at s) : Ideal) ↔ |real u - real (r.footParam p)| ≤ |real s - real (r.footParam p)| := by
    rw [← sq_le_sq, mul_self_le_mul_self_iff n1 n2, e1, e2, add_le_add_iff_left, mul_le_mul_iff_left₀ pos]
  refine ⟨(Ideal.le_real f1 f2).trans a, (Ideal.beq_real f1 f2).trans ?_⟩
  rw [← sq_eq_sq_iff_abs_eq_abs, ← mul_self_inj n1 n2, e1, e2, add_right_inj, mul_left_inj' pos.ne']
theorem Ray2.foot_on (hr : AllFinite r) (h0 : (r.direction == Vector2.zero) = false) {s : Ideal} (hs : IsFinite s) :
    IsFinite (r.footParam (r.at s)) ∧ real (r.footParam (r.at s)) = real s := by
  have h := Ray2.foot_param hr (Ray2.fin_at hr hs) h0
  have d0 := Ray2.foot_den hr h0
  refine ⟨h.1, h.2.trans ?_⟩
  rw [Ray2.toReal_at hr hs, add_sub_cancel_left, dotProduct_smul, smul_eq_mul]
  field_simp
theorem Ray2.at_congr (hr : AllFinite r) {s u : Ideal} (hs : IsFinite s) (hu : IsFinite u) (h : real s = real u) : (r.at s == r.at u) = true := by
  rw [Point2.beq_toReal (Ray2.fin_at hr hs) (Ray2.fin_at hr hu), Ray2.toReal_at hr hs, Ray2.toReal_at hr hu, h]
end
/-- **C112** (2D): the nearest point of a line. The vector from the point to it is perpendicular to the line, no other point of the
line is as near, and the nearest point to a point of the line is the point itself. -/
theorem C112_line2 (r : Ray2 Ideal) (p : Point2 Ideal) (hr : AllFinite r) (hp : AllFinite p) (h0 : (r.direction == Vector2.zero) = false) :
    AllFinite (r.at (r.footParam p)) ∧
    (Api.dot r.direction (r.at (r.footParam p) - p : Vector2 Ideal) == (zero : Ideal)) = true ∧
    (∀ s, IsFinite s → (Api.distance p (r.at (r.footParam p)) ≤? (Api.distance p (r.at s) : Ideal)) = true ∧
      ((Api.distance p (r.at (r.footParam p)) == (Api.distance p (r.at s) : Ideal)) = true → (r.at s == r.at (r.footParam p)) = true)) ∧
    (∀ s, IsFinite s → (r.at (r.footParam (r.at s)) == r.at s) = true) := by
  have f := Ray2.foot_param hr hp h0
  have fa := Ray2.fin_at hr f.1
  have fd := (Ray2.allFinite.1 hr).2
  refine ⟨fa, ?_, fun s hs => ?_, fun s hs => ?_⟩
  · rw [Ideal.beq_real (Vector2.fin_dot fd (Vector2.fin_subp fa hp)) finite_zero, Vector2.real_dot fd (Vector2.fin_subp fa hp), Vector2.toReal_subp fa hp, Ray2.toReal_at hr f.1, f.2, real_zero,
      add_sub_right_comm, ← neg_sub p.toReal, neg_add_eq_sub]
    exact foot_perp _ _ (Ray2.foot_den hr h0)
  · have k := Ray2.foot_dist hr hp h0 f.1 hs
    rw [k.1, k.2]
    simp only [sub_self, abs_zero, abs_nonneg, true_and]
    intro e
    exact Ray2.at_congr hr hs f.1 (sub_eq_zero.1 (abs_eq_zero.1 e.symm))
  · have k := Ray2.foot_on hr h0 hs
    exact Ray2.at_congr hr k.1 hs k.2
/-- **C112** (2D): the nearest point of a half-line. -/
theorem C112_half2 (r : Ray2 Ideal) (p : Point2 Ideal) (hr : AllFinite r) (hp : AllFinite p) (h0 : (r.direction == Vector2.zero) = false) :
    (zero ≤? r.halfParam p) = true ∧
    (∀ s, IsFinite s → (zero ≤? s) = true → (Api.distance p (r.at (r.halfParam p)) ≤? (Api.distance p (r.at s) : Ideal)) = true ∧
      ((Api.distance p (r.at (r.halfParam p)) == (Api.distance p (r.at s) : Ideal)) = true → (r.at s == r.at (r.halfParam p)) = true)) ∧
    (∀ s, IsFinite s → (zero ≤? s) = true → (r.at (r.halfParam (r.at s)) == r.at s) = true) := by
  have f := Ray2.foot_param hr hp h0
  have g : IsFinite (r.halfParam p) ∧ real (r.halfParam p) = max (real (r.footParam p)) (real (zero : Ideal)) := fmax_fin f.1 finite_zero
  rw [real_zero] at g
  refine ⟨(Ideal.le_real finite_zero g.1).2 (by rw [g.2, real_zero]; exact le_max_right _ _), fun s hs h => ?_, fun s hs h => ?_⟩
  · rw [Ideal.le_real finite_zero hs, real_zero] at h
    have k := Ray2.foot_dist hr hp h0 g.1 hs
    rw [k.1, k.2, g.2]
    have q := half_line_near (t := real (r.footParam p)) h
    exact ⟨q.1, fun e => Ray2.at_congr hr hs g.1 (by rw [g.2]; exact q.2 e)⟩
  · rw [Ideal.le_real finite_zero hs, real_zero] at h
    have k := Ray2.foot_on hr h0 hs
    have g : IsFinite (r.halfParam (r.at s)) ∧ real (r.halfParam (r.at s)) = max (real (r.footParam (r.at s))) (real (zero : Ideal)) := fmax_fin k.1 finite_zero
    exact Ray2.at_congr hr g.1 hs (by rw [g.2, k.2, real_zero, max_eq_left h])
/-- **C112** (2D): the nearest point of a segment. -/
theorem C112_segment2 (r : Ray2 Ideal) (p : Point2 Ideal) (hr : AllFinite r) (hp : AllFinite p) (h0 : (r.direction == Vector2.zero) = false) :
    ((zero ≤? r.segParam p) = true ∧ (r.segParam p ≤? one) = true) ∧
    (∀ s, IsFinite s → (zero ≤? s) = true → (s ≤? one) = true → (Api.distance p (r.at (r.segParam p)) ≤? (Api.distance p (r.at s) : Ideal)) = true ∧
      ((Api.distance p (r.at (r.segParam p)) == (Api.distance p (r.at s) : Ideal)) = true → (r.at s == r.at (r.segParam p)) = true)) ∧
    (∀ s, IsFinite s → (zero ≤? s) = true → (s ≤? one) = true → (r.at (r.segParam (r.at s)) == r.at s) = true) := by
  have seg : ∀ p, IsFinite (r.footParam p) → IsFinite (r.segParam p) ∧ real (r.segParam p) = min (max (real (r.footParam p)) 0) 1 := by
    intro p h
    have g := fmax_fin h (finite_zero (S := Ideal))
    have e := fmin_fin g.1 (finite_one (S := Ideal))
    exact ⟨e.1, e.2.trans (by rw [g.2, real_zero, real_one])⟩
  have f := Ray2.foot_param hr hp h0
  have g := seg p f.1
  refine ⟨⟨(Ideal.le_real finite_zero g.1).2 (by rw [g.2, real_zero]; exact le_min (le_max_right _ _) zero_le_one),
    (Ideal.le_real g.1 finite_one).2 (by rw [g.2, real_one]; exact min_le_right _ _)⟩, fun s hs h h' => ?_, fun s hs h h' => ?_⟩
  · rw [Ideal.le_real finite_zero hs, real_zero] at h
    rw [Ideal.le_real hs finite_one, real_one] at h'
    have k := Ray2.foot_dist hr hp h0 g.1 hs
    rw [k.1, k.2, g.2]
    have q := seg_near (t := real (r.footParam p)) h h'
    exact ⟨q.1, fun e => Ray2.at_congr hr hs g.1 (by rw [g.2]; exact q.2 e)⟩
  · rw [Ideal.le_real finite_zero hs, real_zero] at h
    rw [Ideal.le_real hs finite_one, real_one] at h'
    have k := Ray2.foot_on hr h0 hs
    have g := seg _ k.1
    exact Ray2.at_congr hr g.1 hs (by rw [g.2, k.2, seg_id h h'])
/-- Non-vacuity: the point (3, 4) and the line through the origin along the first axis. -/
example : ∃ (r : Ray2 Ideal) (p : Point2 Ideal), AllFinite r ∧ AllFinite p ∧ (r.direction == Vector2.zero) = false ∧ real (r.footParam p) = 3 := by
  have hr : AllFinite (⟨⟨Ideal.of 0, Ideal.of 0⟩, ⟨Ideal.of 1, Ideal.of 0⟩⟩ : Ray2 Ideal) := by
    rw [Ray2.allFinite, Point2.allFinite, Vector2.allFinite]; exact ⟨⟨trivial, trivial⟩, trivial, trivial⟩
  have hp : AllFinite (⟨Ideal.of 3, Ideal.of 4⟩ : Point2 Ideal) := by
    rw [Point2.allFinite]; exact ⟨trivial, trivial⟩
  have h0 : ((⟨Ideal.of 1, Ideal.of 0⟩ : Vector2 Ideal) == Vector2.zero) = false := by
    rw [Bool.eq_false_iff, Ne, Vector2.beq_toReal (Ray2.allFinite.1 hr).2 Vector2.fin_zero, Vector2.toReal_zero]
    intro h
    exact one_ne_zero (congrFun h 0 : (1 : ℝ) = 0)
  refine ⟨_, _, hr, hp, h0, ?_⟩
  rw [(Ray2.foot_param hr hp h0).2]
  have e : ∀ x, real (Ideal.of x) = x := fun _ => rfl
  simp [dotProduct, Fin.sum_univ_succ, Vector2.toReal, Point2.toReal, e]
/-! ## Dimension 3 -/
section
variable {r : Ray3 Ideal} {p : Point3 Ideal}
theorem Ray3.fin_at (hr : AllFinite r) {s : Ideal} (hs : IsFinite s) : AllFinite (r.at s) := by
  rw [Ray3.allFinite] at hr
  exact Point3.fin_addv hr.1 (Vector3.fin_mul hr.2 hs)
theorem Ray3.toReal_at (hr : AllFinite r) {s : Ideal} (hs : IsFinite s) :
    (r.at s).toReal = r.origin.toReal + real s • r.direction.toReal := by
  rw [Ray3.allFinite] at hr
  exact (Point3.toReal_addv hr.1 (Vector3.fin_mul hr.2 hs)).trans (by rw [Vector3.toReal_mul hr.2 hs])
theorem Ray3.foot_den (hr : AllFinite r) (h0 : (r.direction == Vector3.zero) = false) : r.direction.toReal ⬝ᵥ r.direction.toReal ≠ 0 := by
  rw [Ray3.allFinite] at hr
  intro h
  have := dotProduct_self_eq_zero.1 h
  rw [← Vector3.toReal_zero, ← Vector3.beq_toReal hr.2 Vector3.fin_zero, h0] at this
  cases this
theorem Ray3.foot_param (hr : AllFinite r) (hp : AllFinite p) (h0 : (r.direction == Vector3.zero) = false) : IsFinite (r.footParam p) ∧
    real (r.footParam p) = r.direction.toReal ⬝ᵥ (p.toReal - r.origin.toReal) / (r.direction.toReal ⬝ᵥ r.direction.toReal) := by
  have h := Ray3.foot_den hr h0
  rw [Ray3.allFinite] at hr
  have f := Vector3.fin_subp hp hr.1
  have e := Vector3.real_dot hr.2 hr.2
  rw [← e] at h
  refine ⟨Ideal.finite_div (Vector3.fin_dot hr.2 f) (Vector3.fin_dot hr.2 hr.2) h, ?_⟩
  refine (Ideal.real_div (Vector3.fin_dot hr.2 f) (Vector3.fin_dot hr.2 hr.2) h).trans ?_
  rw [e, Vector3.real_dot hr.2 f, Vector3.toReal_subp hp hr.1]
theorem Ray3.foot_dist (hr : AllFinite r) (hp : AllFinite p) (h0 : (r.direction == Vector3.zero) = false) {u s : Ideal} (hu : IsFinite u) (hs : IsFinite s) :
    ((Api.distance p (r.at u) ≤? (Api.distance p (r.at s) : Ideal)) = true ↔ |real u - real (r.footParam p)| ≤ |real s - real (r.footParam p)|) ∧
    ((Api.distance p (r.at u) == (Api.distance p (r.at s) : Ideal)) = true ↔ |real u - real (r.footParam p)| = |real s - real (r.footParam p)|) := by
  have key : ∀ u : Ideal, IsFinite u → IsFinite (Api.distance p (r.at u) : Ideal) ∧ 0 ≤ real (Api.distance p (r.at u) : Ideal) ∧
      real (Api.distance p (r.at u) : Ideal) * real (Api.distance p (r.at u) : Ideal) =
      (real (r.footParam p) • r.direction.toReal - (p.toReal - r.origin.toReal)) ⬝ᵥ (real (r.footParam p) • r.direction.toReal - (p.toReal - r.origin.toReal)) +
        (real u - real (r.footParam p)) ^ 2 * (r.direction.toReal ⬝ᵥ r.direction.toReal) := by
    intro u hu
    have f := Ray3.fin_at hr hu
    refine ⟨Point3.fin_distance hp f, ?_, ?_⟩
    · rw [Point3.real_distance hp f]; exact dist_nonneg
    · rw [Point3.distance_def, Vector3.real_length_sq (Vector3.fin_subp f hp), Vector3.toReal_subp f hp, Ray3.toReal_at hr hu,
        show r.origin.toReal + real u • r.direction.toReal - p.toReal = real u • r.direction.toReal - (p.toReal - r.origin.toReal) by module,
        (Ray3.foot_param hr hp h0).2]
      exact foot_parabola _ _ (Ray3.foot_den hr h0) _
  obtain ⟨f1, n1, e1⟩ := key u hu
  obtain ⟨f2, n2, e2⟩ := key s hs
  have pos : 0 < r.direction.toReal ⬝ᵥ r.direction.toReal :=
    lt_of_le_of_ne (Finset.sum_nonneg fun i _ => mul_self_nonneg _) (Ne.symm (Ray3.foot_den hr h0))
  have a : real (Api.distance p (r.at u) : Ideal) ≤ real (Api.distance p (r.at s) : Ideal) ↔ |real u - real (r.footParam p)| ≤ |real s - real (r.footParam p)| := by
    rw [← sq_le_sq, mul_self_le_mul_self_iff n1 n2, e1, e2, add_le_add_iff_left, mul_le_mul_iff_left₀ pos]
  refine ⟨(Ideal.le_real f1 f2).trans a, (Ideal.beq_real f1 f2).trans ?_⟩
  rw [← sq_eq_sq_iff_abs_eq_abs, ← mul_self_inj n1 n2, e1, e2, add_right_inj, mul_left_inj' pos.ne']
theorem Ray3.foot_on (hr : AllFinite r) (h0 : (r.direction == Vector3.zero) = false) {s : Ideal} (hs : IsFinite s) :
    IsFinite (r.footParam (r.at s)) ∧ real (r.footParam (r.at s)) = real s := by
  have h := Ray3.foot_param hr (Ray3.fin_at hr hs) h0
  have d0 := Ray3.foot_den hr h0
  refine ⟨h.1, h.2.trans ?_⟩
  rw [Ray3.toReal_at hr hs, add_sub_cancel_left, dotProduct_smul, smul_eq_mul]
  field_simp
theorem Ray3.at_congr (hr : AllFinite r) {s u : Ideal} (hs : IsFinite s) (hu : IsFinite u) (h : real s = real u) : (r.at s == r.at u) = true := by
  rw [Point3.beq_toReal (Ray3.fin_at hr hs) (Ray3.fin_at hr hu), Ray3.toReal_at hr hs, Ray3.toReal_at hr hu, h]
end
/-- **C112** (3D): the nearest point of a line. The vector from the point to it is perpendicular to the line, no other point of the
line is as near, and the nearest point to a point of the line is the point itself. -/
theorem C112_line3 (r : Ray3 Ideal) (p : Point3 Ideal) (hr : AllFinite r) (hp : AllFinite p) (h0 : (r.direction == Vector3.zero) = false) :
    AllFinite (r.at (r.footParam p)) ∧
    (Api.dot r.direction (r.at (r.footParam p) - p : Vector3 Ideal) == (zero : Ideal)) = true ∧
    (∀ s, IsFinite s → (Api.distance p (r.at (r.footParam p)) ≤? (Api.distance p (r.at s) : Ideal)) = true ∧
      ((Api.distance p (r.at (r.footParam p)) == (Api.distance p (r.at s) : Ideal)) = true → (r.at s == r.at (r.footParam p)) = true)) ∧
    (∀ s, IsFinite s → (r.at (r.footParam (r.at s)) == r.at s) = true) := by
  have f := Ray3.foot_param hr hp h0
  have fa := Ray3.fin_at hr f.1
  have fd := (Ray3.allFinite.1 hr).2
  refine ⟨fa, ?_, fun s hs => ?_, fun s hs => ?_⟩
  · rw [Ideal.beq_real (Vector3.fin_dot fd (Vector3.fin_subp fa hp)) finite_zero, Vector3.real_dot fd (Vector3.fin_subp fa hp), Vector3.toReal_subp fa hp, Ray3.toReal_at hr f.1, f.2, real_zero,
      add_sub_right_comm, ← neg_sub p.toReal, neg_add_eq_sub]
    exact foot_perp _ _ (Ray3.foot_den hr h0)
  · have k := Ray3.foot_dist hr hp h0 f.1 hs
    rw [k.1, k.2]
    simp only [sub_self, abs_zero, abs_nonneg, true_and]
    intro e
    exact Ray3.at_congr hr hs f.1 (sub_eq_zero.1 (abs_eq_zero.1 e.symm))
  · have k := Ray3.foot_on hr h0 hs
    exact Ray3.at_congr hr k.1 hs k.2
/-- **C112** (3D): the nearest point of a half-line. -/
theorem C112_half3 (r : Ray3 Ideal) (p : Point3 Ideal) (hr : AllFinite r) (hp : AllFinite p) (h0 : (r.direction == Vector3.zero) = false) :
    (zero ≤? r.halfParam p) = true ∧
    (∀ s, IsFinite s → (zero ≤? s) = true → (Api.distance p (r.at (r.halfParam p)) ≤? (Api.distance p (r.at s) : Ideal)) = true ∧
      ((Api.distance p (r.at (r.halfParam p)) == (Api.distance p (r.at s) : Ideal)) = true → (r.at s == r.at (r.halfParam p)) = true)) ∧
    (∀ s, IsFinite s → (zero ≤? s) = true → (r.at (r.halfParam (r.at s)) == r.at s) = true) := by
  have f := Ray3.foot_param hr hp h0
  have g : IsFinite (r.halfParam p) ∧ real (r.halfParam p) = max (real (r.footParam p)) (real (zero : Ideal)) := fmax_fin f.1 finite_zero
  rw [real_zero] at g
  refine ⟨(Ideal.le_real finite_zero g.1).2 (by rw [g.2, real_zero]; exact le_max_right _ _), fun s hs h => ?_, fun s hs h => ?_⟩
  · rw [Ideal.le_real finite_zero hs, real_zero] at h
    have k := Ray3.foot_dist hr hp h0 g.1 hs
    rw [k.1, k.2, g.2]
    have q := half_line_near (t := real (r.footParam p)) h
    exact ⟨q.1, fun e => Ray3.at_congr hr hs g.1 (by rw [g.2]; exact q.2 e)⟩
  · rw [Ideal.le_real finite_zero hs, real_zero] at h
    have k := Ray3.foot_on hr h0 hs
    have g : IsFinite (r.halfParam (r.at s)) ∧ real (r.halfParam (r.at s)) = max (real (r.footParam (r.at s))) (real (zero : Ideal)) := fmax_fin k.1 finite_zero
    exact Ray3.at_congr hr g.1 hs (by rw [g.2, k.2, real_zero, max_eq_left h])
/-- **C112** (3D): the nearest point of a segment. -/
theorem C112_segment3 (r : Ray3 Ideal) (p : Point3 Ideal) (hr : AllFinite r) (hp : AllFinite p) (h0 : (r.direction == Vector3.zero) = false) :
    ((zero ≤? r.segParam p) = true ∧ (r.segParam p ≤? one) = true) ∧
    (∀ s, IsFinite s → (zero ≤? s) = true → (s ≤? one) = true → (Api.distance p (r.at (r.segParam p)) ≤? (Api.distance p (r.at s) : Ideal)) = true ∧
      ((Api.distance p (r.at (r.segParam p)) == (Api.distance p (r.at s) : Ideal)) = true → (r.at s == r.at (r.segParam p)) = true)) ∧
    (∀ s, IsFinite s → (zero ≤? s) = true → (s ≤? one) = true → (r.at (r.segParam (r.at s)) == r.at s) = true) := by
  have seg : ∀ p, IsFinite (r.footParam p) → IsFinite (r.segParam p) ∧ real (r.segParam p) = min (max (real (r.footParam p)) 0) 1 := by
    intro p h
    have g := fmax_fin h (finite_zero (S := Ideal))
    have e := fmin_fin g.1 (finite_one (S := Ideal))
    exact ⟨e.1, e.2.trans (by rw [g.2, real_zero, real_one])⟩
  have f := Ray3.foot_param hr hp h0
  have g := seg p f.1
  refine ⟨⟨(Ideal.le_real finite_zero g.1).2 (by rw [g.2, real_zero]; exact le_min (le_max_right _ _) zero_le_one),
    (Ideal.le_real g.1 finite_one).2 (by rw [g.2, real_one]; exact min_le_right _ _)⟩, fun s hs h h' => ?_, fun s hs h h' => ?_⟩
  · rw [Ideal.le_real finite_zero hs, real_zero] at h
    rw [Ideal.le_real hs finite_one, real_one] at h'
    have k := Ray3.foot_dist hr hp h0 g.1 hs
    rw [k.1, k.2, g.2]
    have q := seg_near (t := real (r.footParam p)) h h'
    exact ⟨q.1, fun e => Ray3.at_congr hr hs g.1 (by rw [g.2]; exact q.2 e)⟩
  · rw [Ideal.le_real finite_zero hs, real_zero] at h
    rw [Ideal.le_real hs finite_one, real_one] at h'
    have k := Ray3.foot_on hr h0 hs
    have g := seg _ k.1
    exact Ray3.at_congr hr g.1 hs (by rw [g.2, k.2, seg_id h h'])
/-- Non-vacuity: the point (3, 4, 0) and the line through the origin along the first axis. -/
example : ∃ (r : Ray3 Ideal) (p : Point3 Ideal), AllFinite r ∧ AllFinite p ∧ (r.direction == Vector3.zero) = false ∧ real (r.footParam p) = 3 := by
  have hr : AllFinite (⟨⟨Ideal.of 0, Ideal.of 0, Ideal.of 0⟩, ⟨Ideal.of 1, Ideal.of 0, Ideal.of 0⟩⟩ : Ray3 Ideal) := by
    rw [Ray3.allFinite, Point3.allFinite, Vector3.allFinite]; exact ⟨⟨trivial, trivial, trivial⟩, trivial, trivial, trivial⟩
  have hp : AllFinite (⟨Ideal.of 3, Ideal.of 4, Ideal.of 0⟩ : Point3 Ideal) := by
    rw [Point3.allFinite]; exact ⟨trivial, trivial, trivial⟩
  have h0 : ((⟨Ideal.of 1, Ideal.of 0, Ideal.of 0⟩ : Vector3 Ideal) == Vector3.zero) = false := by
    rw [Bool.eq_false_iff, Ne, Vector3.beq_toReal (Ray3.allFinite.1 hr).2 Vector3.fin_zero, Vector3.toReal_zero]
    intro h
    exact one_ne_zero (congrFun h 0 : (1 : ℝ) = 0)
  refine ⟨_, _, hr, hp, h0, ?_⟩
  rw [(Ray3.foot_param hr hp h0).2]
  have e : ∀ x, real (Ideal.of x) = x := fun _ => rfl
  simp [dotProduct, Fin.sum_univ_succ, Vector3.toReal, Point3.toReal, e]
end VecMath
