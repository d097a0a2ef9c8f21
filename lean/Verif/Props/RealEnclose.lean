import Verif.Spec.Ball
import Verif.Props.FloatEnclose
import Verif.Props.RealBox
import Verif.Props.RealTransform
import Mathlib.Analysis.Normed.Module.Ball.Pointwise
/-!
# Bounding balls in exact real arithmetic (layer R): C121

(Generated by tools/gen.)
-/

namespace VecMath
open Scalar IEEE

section
variable {E : Type} [NormedAddCommGroup E] [NormedSpace ℝ E]
/-- A ball inside a ball, from containment. -/
theorem ball_sub {a b : E} {r s : ℝ} (hr : 0 ≤ r) (u : E) (hu : ‖u‖ = 1) (h : ∀ p : E, dist a p ≤ r → dist b p ≤ s) : dist a b + r ≤ s := by
  by_cases e : a = b
  · subst e
    have := h (a + r • u) (by rw [dist_self_add_right, norm_smul, hu, Real.norm_of_nonneg hr, mul_one])
    rw [dist_self_add_right, norm_smul, hu, Real.norm_of_nonneg hr, mul_one] at this
    rw [dist_self]; linarith
  · have n : ‖a - b‖ ≠ 0 := norm_ne_zero_iff.2 (sub_ne_zero.2 e)
    have n' : 0 < ‖a - b‖ := lt_of_le_of_ne (norm_nonneg _) (Ne.symm n)
    have := h (a + (r / ‖a - b‖) • (a - b)) (by
      rw [dist_self_add_right, norm_smul, Real.norm_of_nonneg (by positivity), div_mul_cancel₀ _ n])
    rw [dist_comm, dist_eq_norm, show a + (r / ‖a - b‖) • (a - b) - b = (1 + r / ‖a - b‖) • (a - b) by rw [add_smul, one_smul]; abel,
      norm_smul, Real.norm_of_nonneg (by positivity), add_mul, one_mul, div_mul_cancel₀ _ n] at this
    rw [dist_eq_norm]; exact this
/-- The ball that touches two others from outside. -/
theorem ball_join {a b : E} {r s : ℝ} (h1 : s < dist a b + r) (h2 : r < dist a b + s) :
    dist a (a + (((dist a b + (r + s)) * (1 / 2) - r) / dist a b) • (b - a)) + r = (dist a b + (r + s)) * (1 / 2) ∧
    dist b (a + (((dist a b + (r + s)) * (1 / 2) - r) / dist a b) • (b - a)) + s = (dist a b + (r + s)) * (1 / 2) := by
  have d : 0 < dist a b := by linarith
  have e : ‖b - a‖ = dist a b := by rw [← dist_eq_norm, dist_comm]
  constructor
  · rw [dist_self_add_right, norm_smul, e, Real.norm_of_nonneg (div_nonneg (by linarith) d.le), div_mul_cancel₀ _ d.ne']; ring
  · rw [dist_eq_norm, show b - (a + (((dist a b + (r + s)) * (1 / 2) - r) / dist a b) • (b - a)) =
        (1 - ((dist a b + (r + s)) * (1 / 2) - r) / dist a b) • (b - a) by rw [sub_smul, one_smul]; abel, norm_smul, e]
    have : 1 - ((dist a b + (r + s)) * (1 / 2) - r) / dist a b = (dist a b + r - s) / 2 / dist a b := by field_simp; ring
    rw [this, Real.norm_of_nonneg (div_nonneg (by linarith) d.le), div_mul_cancel₀ _ d.ne']; ring
end

/-! ## Dimension 2 -/
/-- Every point of the plane or space is a point of the model. -/
theorem Point2.of_toE (e : EuclideanSpace ℝ (Fin 2)) : ∃ p : Point2 Ideal, AllFinite p ∧ p.toE = e := by
  refine ⟨⟨Ideal.of (e 0), Ideal.of (e 1)⟩, ?_, ?_⟩
  · rw [Point2.allFinite]; exact ⟨Ideal.finite_of _, Ideal.finite_of _⟩
  · ext i
    fin_cases i <;> simp [Point2.toE, Point2.toReal, Ideal.real_of]
theorem Ball2.has_real (a : Ball2 Ideal) (hc : AllFinite a.center) (hr : IsFinite a.radius) (p : Point2 Ideal) (hp : AllFinite p) :
    a.has p = true ↔ dist a.center.toE p.toE ≤ real a.radius := by
  unfold Ball2.has
  rw [Ideal.le_real (Point2.fin_distance hc hp) hr, Point2.real_distance hc hp]
theorem Ball2.meets_real (a b : Ball2 Ideal) (ha : AllFinite a.center) (ra : IsFinite a.radius) (hb : AllFinite b.center) (rb : IsFinite b.radius) :
    a.meets b = true ↔ dist a.center.toE b.center.toE ≤ real a.radius + real b.radius := by
  unfold Ball2.meets
  rw [Ideal.le_real (Point2.fin_distance ha hb) (Ideal.finite_add ra rb), Point2.real_distance ha hb, Ideal.real_add ra rb]
theorem Ball2.within_real (a b : Ball2 Ideal) (ha : AllFinite a.center) (ra : IsFinite a.radius) (hb : AllFinite b.center) (rb : IsFinite b.radius) :
    a.within b = true ↔ dist a.center.toE b.center.toE + real a.radius ≤ real b.radius := by
  unfold Ball2.within
  have hd := Point2.fin_distance ha hb
  rw [Ideal.le_real (Ideal.finite_add hd ra) rb, Ideal.real_add hd ra, Point2.real_distance ha hb]
/-- **C121**: in exact arithmetic two discs pass the overlap test exactly when they have a common point. -/
theorem C121_meets_iff2 (a b : Ball2 Ideal) (ha : AllFinite a.center) (ra : IsFinite a.radius) (hb : AllFinite b.center) (rb : IsFinite b.radius)
    (h1 : (zero ≤? a.radius) = true) (h2 : (zero ≤? b.radius) = true) :
    a.meets b = true ↔ ∃ p, AllFinite p ∧ a.has p = true ∧ b.has p = true := by
  rw [Ideal.le_real finite_zero ra, real_zero] at h1
  rw [Ideal.le_real finite_zero rb, real_zero] at h2
  rw [Ball2.meets_real a b ha ra hb rb]
  constructor
  · intro h
    obtain ⟨y, y1, y2⟩ := exists_dist_le_le h1 h2 (by linarith)
    obtain ⟨p, p1, rfl⟩ := Point2.of_toE y
    exact ⟨p, p1, (a.has_real ha ra p p1).2 y1, (b.has_real hb rb p p1).2 (by rwa [dist_comm])⟩
  · rintro ⟨p, p1, p2, p3⟩
    have p2 := (a.has_real ha ra p p1).1 p2
    have p3 := (b.has_real hb rb p p1).1 p3
    linarith [dist_triangle_right a.center.toE b.center.toE p.toE]
/-- **C121**: in exact arithmetic a disc passes the containment test exactly when all its points belong to the other. -/
theorem C121_within_iff2 (a b : Ball2 Ideal) (ha : AllFinite a.center) (ra : IsFinite a.radius) (hb : AllFinite b.center) (rb : IsFinite b.radius)
    (h1 : (zero ≤? a.radius) = true) :
    a.within b = true ↔ ∀ p, AllFinite p → a.has p = true → b.has p = true := by
  rw [Ideal.le_real finite_zero ra, real_zero] at h1
  rw [Ball2.within_real a b ha ra hb rb]
  constructor
  · intro h p hp h'
    have h' := (a.has_real ha ra p hp).1 h'
    rw [b.has_real hb rb p hp]
    linarith [dist_triangle_left b.center.toE p.toE a.center.toE, dist_comm a.center.toE b.center.toE]
  · intro h
    refine ball_sub h1 (EuclideanSpace.single 0 (1 : ℝ)) (by simp) fun y hy => ?_
    obtain ⟨p, p1, rfl⟩ := Point2.of_toE y
    exact (b.has_real hb rb p p1).1 (h p p1 ((a.has_real ha ra p p1).2 hy))
/-- **C121**: in exact arithmetic the disc around two discs has all points of both, and no disc that has all points of both has a smaller radius. -/
theorem C121_join2 (a b : Ball2 Ideal) (ha : AllFinite a.center) (ra : IsFinite a.radius) (hb : AllFinite b.center) (rb : IsFinite b.radius)
    (h1 : (zero ≤? a.radius) = true) (h2 : (zero ≤? b.radius) = true) :
    AllFinite (a.join b).center ∧ IsFinite (a.join b).radius ∧
    (∀ p, AllFinite p → (a.has p = true ∨ b.has p = true) → (a.join b).has p = true) ∧
    ∀ e : Ball2 Ideal, AllFinite e.center → IsFinite e.radius → (∀ p, AllFinite p → (a.has p = true ∨ b.has p = true) → e.has p = true) →
      ((a.join b).radius ≤? e.radius) = true := by
  have sub : ∀ {x y : Ball2 Ideal}, AllFinite x.center → IsFinite x.radius → AllFinite y.center → IsFinite y.radius → x.within y = true →
      ∀ p, AllFinite p → x.has p = true → y.has p = true := by
    intro x y hx rx hy ry h p hp h'
    have h := (x.within_real y hx rx hy ry).1 h
    have h' := (x.has_real hx rx p hp).1 h'
    rw [y.has_real hy ry p hp]
    linarith [dist_triangle_left y.center.toE p.toE x.center.toE, dist_comm x.center.toE y.center.toE]
  have big : ∀ {x y : Ball2 Ideal}, AllFinite x.center → IsFinite x.radius → AllFinite y.center → IsFinite y.radius → (zero ≤? x.radius) = true →
      (∀ p, AllFinite p → x.has p = true → y.has p = true) → dist x.center.toE y.center.toE + real x.radius ≤ real y.radius := by
    intro x y hx rx hy ry h0 h
    exact (x.within_real y hx rx hy ry).1 ((C121_within_iff2 x y hx rx hy ry h0).2 h)
  have last : ∀ j : Ball2 Ideal, AllFinite j.center → IsFinite j.radius →
      real j.radius = (dist a.center.toE b.center.toE + (real a.radius + real b.radius)) * (1 / 2) →
      dist a.center.toE j.center.toE + real a.radius = real j.radius → dist b.center.toE j.center.toE + real b.radius = real j.radius →
      AllFinite j.center ∧ IsFinite j.radius ∧
      (∀ p, AllFinite p → (a.has p = true ∨ b.has p = true) → j.has p = true) ∧
      ∀ e : Ball2 Ideal, AllFinite e.center → IsFinite e.radius → (∀ p, AllFinite p → (a.has p = true ∨ b.has p = true) → e.has p = true) →
        (j.radius ≤? e.radius) = true := by
    intro j fc fr er j1 j2
    refine ⟨fc, fr, ?_, ?_⟩
    · rintro p hp (h | h)
      · exact sub ha ra fc fr ((Ball2.within_real a j ha ra fc fr).2 j1.le) p hp h
      · exact sub hb rb fc fr ((Ball2.within_real b j hb rb fc fr).2 j2.le) p hp h
    · intro e he re h
      have b1 := big ha ra he re h1 fun p hp h' => h p hp (.inl h')
      have b2 := big hb rb he re h2 fun p hp h' => h p hp (.inr h')
      rw [Ideal.le_real fr re, er]
      linarith [dist_triangle_right a.center.toE b.center.toE e.center.toE]
  unfold Ball2.join
  split_ifs with w1 w2
  · refine ⟨hb, rb, ?_, ?_⟩
    · rintro p hp (h | h)
      · exact sub ha ra hb rb w1 p hp h
      · exact h
    · intro e he re h
      have := big hb rb he re h2 fun p hp h' => h p hp (.inr h')
      rw [Ideal.le_real rb re]; linarith [dist_nonneg (x := b.center.toE) (y := e.center.toE)]
  · refine ⟨ha, ra, ?_, ?_⟩
    · rintro p hp (h | h)
      · exact h
      · exact sub hb rb ha ra w2 p hp h
    · intro e he re h
      have := big ha ra he re h1 fun p hp h' => h p hp (.inl h')
      rw [Ideal.le_real ra re]; linarith [dist_nonneg (x := a.center.toE) (y := e.center.toE)]
  · rw [Ball2.within_real a b ha ra hb rb, not_le] at w1
    rw [Ball2.within_real b a hb rb ha ra, not_le, dist_comm] at w2
    have fd := Point2.fin_distance ha hb
    have ed := Point2.real_distance ha hb
    have fr := Ideal.finite_mul (Ideal.finite_add fd (Ideal.finite_add ra rb)) finite_half
    have er : real ((Api.distance a.center b.center + (a.radius + b.radius)) * half) =
        (dist a.center.toE b.center.toE + (real a.radius + real b.radius)) * (1 / 2) := by
      rw [Ideal.real_mul (Ideal.finite_add fd (Ideal.finite_add ra rb)) finite_half, Ideal.real_add fd (Ideal.finite_add ra rb),
        Ideal.real_add ra rb, ed, real_half]
    have d0 : real (Api.distance a.center b.center : Ideal) ≠ 0 := by rw [ed]; exact ne_of_gt (by linarith)
    have ft := Ideal.finite_div (Ideal.finite_sub fr ra) fd d0
    have et := Ideal.real_div (Ideal.finite_sub fr ra) fd d0
    rw [Ideal.real_sub fr ra, er, ed] at et
    have fv := Vector2.fin_subp hb ha
    have fm := Vector2.fin_mul fv ft
    have fc := Point2.fin_addv ha fm
    have ec : (a.center + (b.center - a.center) * (((Api.distance a.center b.center + (a.radius + b.radius)) * half - a.radius) /
        Api.distance a.center b.center)).toE = a.center.toE + (((dist a.center.toE b.center.toE + (real a.radius + real b.radius)) * (1 / 2) -
          real a.radius) / dist a.center.toE b.center.toE) • (b.center.toE - a.center.toE) := by
      rw [← et]
      unfold Point2.toE
      rw [Point2.toReal_addv ha fm, Vector2.toReal_mul fv ft, Vector2.toReal_subp hb ha]
      rfl
    obtain ⟨j1, j2⟩ := ball_join w1 w2
    rw [← ec, ← er] at j1 j2
    exact last ⟨_, _⟩ fc fr er j1 j2
/-- **C121**: in exact arithmetic the disc around the center of a box with half its diagonal as radius has the box, and no disc that has the box has a
smaller radius. -/
theorem C121_half2 (b : BoundingBox2 Ideal) (hb : AllFinite b) (wb : LeAll b.min b.max) :
    AllFinite b.ball.center ∧ IsFinite b.ball.radius ∧ (∀ p, b.isInside p = true → b.ball.has p = true) ∧
    ∀ e : Ball2 Ideal, AllFinite e.center → IsFinite e.radius → (∀ p, b.isInside p = true → e.has p = true) →
      (b.ball.radius ≤? e.radius) = true := by
  obtain ⟨fc, -, -, hk⟩ := C32_real2 b hb wb
  have fr : IsFinite b.ball.radius := Ideal.finite_mul (Vector2.fin_length (BoundingBox2.fin_diagonal hb)) finite_half
  refine ⟨fc, fr, ?_, ?_⟩
  · intro p hp
    obtain ⟨q, -, ⟨k, -, k2⟩, h, -⟩ := C121_corner2 .debug b hb wb b.center fc
    have e := beq_iff.1 (hk .debug k q k2)
    have h := h p hp
    exact le_trans' h (le_iff.2 ⟨e.1, e.2.1, e.2.2.le⟩)
  · intro e he re h
    have hb' := hb
    rw [BoundingBox2.allFinite] at hb'
    obtain ⟨c0, c1, c2, c3⟩ := corner_ok2 .debug b
    have h1 := (e.has_real he re _ hb'.1).1 (h _ (corner_inside2 .debug b wb (by decide : (0 : UInt32) < 4) c0))
    have h2 := (e.has_real he re _ hb'.2).1 (h _ (corner_inside2 .debug b wb (by decide : (3 : UInt32) < 4) c3))
    have h3 : real b.ball.radius = dist b.min.toE b.max.toE * (1 / 2) := by
      show real (Api.distance b.min b.max * half) = _
      rw [Ideal.real_mul (Point2.fin_distance hb'.1 hb'.2) finite_half, Point2.real_distance hb'.1 hb'.2, real_half]
    rw [Ideal.le_real fr re, h3]
    linarith [dist_triangle_left b.min.toE b.max.toE e.center.toE]
/-- **C121**: in exact arithmetic, moving a disc by any sequence of translations and rotations and their inverses moves its points and keeps which discs
overlap. -/
theorem C121_motion2 (t : Transform2 Ideal) (h : Motion2 t) (a b : Ball2 Ideal) (ha : AllFinite a.center) (hb : AllFinite b.center) :
    (∀ p, AllFinite p → (⟨Transform.transform t a.center, a.radius⟩ : Ball2 Ideal).has (Transform.transform t p) = a.has p) ∧
    (⟨Transform.transform t a.center, a.radius⟩ : Ball2 Ideal).meets ⟨Transform.transform t b.center, b.radius⟩ = a.meets b := by
  have k := (C52_rigid2 t h).1.distance
  have k' : ∀ (p q : Point2 Ideal) (r : Ideal), AllFinite p → AllFinite q →
      (Api.distance (Transform.transform t p) (Transform.transform t q) ≤? r) = (Api.distance p q ≤? r) := by
    intro p q r hp hq
    have e := beq_iff.1 (k p q hp hq)
    rw [Bool.eq_iff_iff, le_iff, le_iff, e.2.2]
    tauto
  exact ⟨fun p hp => k' _ _ _ ha hp, k' _ _ _ ha hb⟩

/-! ## Dimension 3 -/
/-- Every point of the plane or space is a point of the model. -/
theorem Point3.of_toE (e : EuclideanSpace ℝ (Fin 3)) : ∃ p : Point3 Ideal, AllFinite p ∧ p.toE = e := by
  refine ⟨⟨Ideal.of (e 0), Ideal.of (e 1), Ideal.of (e 2)⟩, ?_, ?_⟩
  · rw [Point3.allFinite]; exact ⟨Ideal.finite_of _, Ideal.finite_of _, Ideal.finite_of _⟩
  · ext i
    fin_cases i <;> simp [Point3.toE, Point3.toReal, Ideal.real_of]
theorem Ball3.has_real (a : Ball3 Ideal) (hc : AllFinite a.center) (hr : IsFinite a.radius) (p : Point3 Ideal) (hp : AllFinite p) :
    a.has p = true ↔ dist a.center.toE p.toE ≤ real a.radius := by
  unfold Ball3.has
  rw [Ideal.le_real (Point3.fin_distance hc hp) hr, Point3.real_distance hc hp]
theorem Ball3.meets_real (a b : Ball3 Ideal) (ha : AllFinite a.center) (ra : IsFinite a.radius) (hb : AllFinite b.center) (rb : IsFinite b.radius) :
    a.meets b = true ↔ dist a.center.toE b.center.toE ≤ real a.radius + real b.radius := by
  unfold Ball3.meets
  rw [Ideal.le_real (Point3.fin_distance ha hb) (Ideal.finite_add ra rb), Point3.real_distance ha hb, Ideal.real_add ra rb]
theorem Ball3.within_real (a b : Ball3 Ideal) (ha : AllFinite a.center) (ra : IsFinite a.radius) (hb : AllFinite b.center) (rb : IsFinite b.radius) :
    a.within b = true ↔ dist a.center.toE b.center.toE + real a.radius ≤ real b.radius := by
  unfold Ball3.within
  have hd := Point3.fin_distance ha hb
  rw [Ideal.le_real (Ideal.finite_add hd ra) rb, Ideal.real_add hd ra, Point3.real_distance ha hb]
/-- **C121**: in exact arithmetic two balls pass the overlap test exactly when they have a common point. -/
theorem C121_meets_iff3 (a b : Ball3 Ideal) (ha : AllFinite a.center) (ra : IsFinite a.radius) (hb : AllFinite b.center) (rb : IsFinite b.radius)
    (h1 : (zero ≤? a.radius) = true) (h2 : (zero ≤? b.radius) = true) :
    a.meets b = true ↔ ∃ p, AllFinite p ∧ a.has p = true ∧ b.has p = true := by
  rw [Ideal.le_real finite_zero ra, real_zero] at h1
  rw [Ideal.le_real finite_zero rb, real_zero] at h2
  rw [Ball3.meets_real a b ha ra hb rb]
  constructor
  · intro h
    obtain ⟨y, y1, y2⟩ := exists_dist_le_le h1 h2 (by linarith)
    obtain ⟨p, p1, rfl⟩ := Point3.of_toE y
    exact ⟨p, p1, (a.has_real ha ra p p1).2 y1, (b.has_real hb rb p p1).2 (by rwa [dist_comm])⟩
  · rintro ⟨p, p1, p2, p3⟩
    have p2 := (a.has_real ha ra p p1).1 p2
    have p3 := (b.has_real hb rb p p1).1 p3
    linarith [dist_triangle_right a.center.toE b.center.toE p.toE]
/-- **C121**: in exact arithmetic a ball passes the containment test exactly when all its points belong to the other. -/
theorem C121_within_iff3 (a b : Ball3 Ideal) (ha : AllFinite a.center) (ra : IsFinite a.radius) (hb : AllFinite b.center) (rb : IsFinite b.radius)
    (h1 : (zero ≤? a.radius) = true) :
    a.within b = true ↔ ∀ p, AllFinite p → a.has p = true → b.has p = true := by
  rw [Ideal.le_real finite_zero ra, real_zero] at h1
  rw [Ball3.within_real a b ha ra hb rb]
  constructor
  · intro h p hp h'
    have h' := (a.has_real ha ra p hp).1 h'
    rw [b.has_real hb rb p hp]
    linarith [dist_triangle_left b.center.toE p.toE a.center.toE, dist_comm a.center.toE b.center.toE]
  · intro h
    refine ball_sub h1 (EuclideanSpace.single 0 (1 : ℝ)) (by simp) fun y hy => ?_
    obtain ⟨p, p1, rfl⟩ := Point3.of_toE y
    exact (b.has_real hb rb p p1).1 (h p p1 ((a.has_real ha ra p p1).2 hy))
/-- **C121**: in exact arithmetic the ball around two balls has all points of both, and no ball that has all points of both has a smaller radius. -/
theorem C121_join3 (a b : Ball3 Ideal) (ha : AllFinite a.center) (ra : IsFinite a.radius) (hb : AllFinite b.center) (rb : IsFinite b.radius)
    (h1 : (zero ≤? a.radius) = true) (h2 : (zero ≤? b.radius) = true) :
    AllFinite (a.join b).center ∧ IsFinite (a.join b).radius ∧
    (∀ p, AllFinite p → (a.has p = true ∨ b.has p = true) → (a.join b).has p = true) ∧
    ∀ e : Ball3 Ideal, AllFinite e.center → IsFinite e.radius → (∀ p, AllFinite p → (a.has p = true ∨ b.has p = true) → e.has p = true) →
      ((a.join b).radius ≤? e.radius) = true := by
  have sub : ∀ {x y : Ball3 Ideal}, AllFinite x.center → IsFinite x.radius → AllFinite y.center → IsFinite y.radius → x.within y = true →
      ∀ p, AllFinite p → x.has p = true → y.has p = true := by
    intro x y hx rx hy ry h p hp h'
    have h := (x.within_real y hx rx hy ry).1 h
    have h' := (x.has_real hx rx p hp).1 h'
    rw [y.has_real hy ry p hp]
    linarith [dist_triangle_left y.center.toE p.toE x.center.toE, dist_comm x.center.toE y.center.toE]
  have big : ∀ {x y : Ball3 Ideal}, AllFinite x.center → IsFinite x.radius → AllFinite y.center → IsFinite y.radius → (zero ≤? x.radius) = true →
      (∀ p, AllFinite p → x.has p = true → y.has p = true) → dist x.center.toE y.center.toE + real x.radius ≤ real y.radius := by
    intro x y hx rx hy ry h0 h
    exact (x.within_real y hx rx hy ry).1 ((C121_within_iff3 x y hx rx hy ry h0).2 h)
  have last : ∀ j : Ball3 Ideal, AllFinite j.center → IsFinite j.radius →
      real j.radius = (dist a.center.toE b.center.toE + (real a.radius + real b.radius)) * (1 / 2) →
      dist a.center.toE j.center.toE + real a.radius = real j.radius → dist b.center.toE j.center.toE + real b.radius = real j.radius →
      AllFinite j.center ∧ IsFinite j.radius ∧
      (∀ p, AllFinite p → (a.has p = true ∨ b.has p = true) → j.has p = true) ∧
      ∀ e : Ball3 Ideal, AllFinite e.center → IsFinite e.radius → (∀ p, AllFinite p → (a.has p = true ∨ b.has p = true) → e.has p = true) →
        (j.radius ≤? e.radius) = true := by
    intro j fc fr er j1 j2
    refine ⟨fc, fr, ?_, ?_⟩
    · rintro p hp (h | h)
      · exact sub ha ra fc fr ((Ball3.within_real a j ha ra fc fr).2 j1.le) p hp h
      · exact sub hb rb fc fr ((Ball3.within_real b j hb rb fc fr).2 j2.le) p hp h
    · intro e he re h
      have b1 := big ha ra he re h1 fun p hp h' => h p hp (.inl h')
      have b2 := big hb rb he re h2 fun p hp h' => h p hp (.inr h')
      rw [Ideal.le_real fr re, er]
      linarith [dist_triangle_right a.center.toE b.center.toE e.center.toE]
  unfold Ball3.join
  split_ifs with w1 w2
  · refine ⟨hb, rb, ?_, ?_⟩
    · rintro p hp (h | h)
      · exact sub ha ra hb rb w1 p hp h
      · exact h
    · intro e he re h
      have := big hb rb he re h2 fun p hp h' => h p hp (.inr h')
      rw [Ideal.le_real rb re]; linarith [dist_nonneg (x := b.center.toE) (y := e.center.toE)]
  · refine ⟨ha, ra, ?_, ?_⟩
    · rintro p hp (h | h)
      · exact h
      · exact sub hb rb ha ra w2 p hp h
    · intro e he re h
      have := big ha ra he re h1 fun p hp h' => h p hp (.inl h')
      rw [Ideal.le_real ra re]; linarith [dist_nonneg (x := a.center.toE) (y := e.center.toE)]
  · rw [Ball3.within_real a b ha ra hb rb, not_le] at w1
    rw [Ball3.within_real b a hb rb ha ra, not_le, dist_comm] at w2
    have fd := Point3.fin_distance ha hb
    have ed := Point3.real_distance ha hb
    have fr := Ideal.finite_mul (Ideal.finite_add fd (Ideal.finite_add ra rb)) finite_half
    have er : real ((Api.distance a.center b.center + (a.radius + b.radius)) * half) =
        (dist a.center.toE b.center.toE + (real a.radius + real b.radius)) * (1 / 2) := by
      rw [Ideal.real_mul (Ideal.finite_add fd (Ideal.finite_add ra rb)) finite_half, Ideal.real_add fd (Ideal.finite_add ra rb),
        Ideal.real_add ra rb, ed, real_half]
    have d0 : real (Api.distance a.center b.center : Ideal) ≠ 0 := by rw [ed]; exact ne_of_gt (by linarith)
    have ft := Ideal.finite_div (Ideal.finite_sub fr ra) fd d0
    have et := Ideal.real_div (Ideal.finite_sub fr ra) fd d0
    rw [Ideal.real_sub fr ra, er, ed] at et
    have fv := Vector3.fin_subp hb ha
    have fm := Vector3.fin_mul fv ft
    have fc := Point3.fin_addv ha fm
    have ec : (a.center + (b.center - a.center) * (((Api.distance a.center b.center + (a.radius + b.radius)) * half - a.radius) /
        Api.distance a.center b.center)).toE = a.center.toE + (((dist a.center.toE b.center.toE + (real a.radius + real b.radius)) * (1 / 2) -
          real a.radius) / dist a.center.toE b.center.toE) • (b.center.toE - a.center.toE) := by
      rw [← et]
      unfold Point3.toE
      rw [Point3.toReal_addv ha fm, Vector3.toReal_mul fv ft, Vector3.toReal_subp hb ha]
      rfl
    obtain ⟨j1, j2⟩ := ball_join w1 w2
    rw [← ec, ← er] at j1 j2
    exact last ⟨_, _⟩ fc fr er j1 j2
/-- **C121**: in exact arithmetic the ball around the center of a box with half its diagonal as radius has the box, and no ball that has the box has a
smaller radius. -/
theorem C121_half3 (b : BoundingBox3 Ideal) (hb : AllFinite b) (wb : LeAll b.min b.max) :
    AllFinite b.ball.center ∧ IsFinite b.ball.radius ∧ (∀ p, b.isInside p = true → b.ball.has p = true) ∧
    ∀ e : Ball3 Ideal, AllFinite e.center → IsFinite e.radius → (∀ p, b.isInside p = true → e.has p = true) →
      (b.ball.radius ≤? e.radius) = true := by
  obtain ⟨fc, -, -, hk⟩ := C32_real3 b hb wb
  have fr : IsFinite b.ball.radius := Ideal.finite_mul (Vector3.fin_length (BoundingBox3.fin_diagonal hb)) finite_half
  refine ⟨fc, fr, ?_, ?_⟩
  · intro p hp
    obtain ⟨q, -, ⟨k, -, k2⟩, h, -⟩ := C121_corner3 .debug b hb wb b.center fc
    have e := beq_iff.1 (hk .debug k q k2)
    have h := h p hp
    exact le_trans' h (le_iff.2 ⟨e.1, e.2.1, e.2.2.le⟩)
  · intro e he re h
    have hb' := hb
    rw [BoundingBox3.allFinite] at hb'
    obtain ⟨c0, c1, c2, c3, c4, c5, c6, c7⟩ := corner_ok3 .debug b
    have h1 := (e.has_real he re _ hb'.1).1 (h _ (corner_inside3 .debug b wb (by decide : (0 : UInt32) < 8) c0))
    have h2 := (e.has_real he re _ hb'.2).1 (h _ (corner_inside3 .debug b wb (by decide : (7 : UInt32) < 8) c7))
    have h3 : real b.ball.radius = dist b.min.toE b.max.toE * (1 / 2) := by
      show real (Api.distance b.min b.max * half) = _
      rw [Ideal.real_mul (Point3.fin_distance hb'.1 hb'.2) finite_half, Point3.real_distance hb'.1 hb'.2, real_half]
    rw [Ideal.le_real fr re, h3]
    linarith [dist_triangle_left b.min.toE b.max.toE e.center.toE]
/-- **C121**: in exact arithmetic, moving a ball by any sequence of translations and rotations and their inverses moves its points and keeps which balls
overlap. -/
theorem C121_motion3 (t : Transform3 Ideal) (h : Motion3 t) (a b : Ball3 Ideal) (ha : AllFinite a.center) (hb : AllFinite b.center) :
    (∀ p, AllFinite p → (⟨Transform.transform t a.center, a.radius⟩ : Ball3 Ideal).has (Transform.transform t p) = a.has p) ∧
    (⟨Transform.transform t a.center, a.radius⟩ : Ball3 Ideal).meets ⟨Transform.transform t b.center, b.radius⟩ = a.meets b := by
  have k := (C52_rigid3 t h).1.distance
  have k' : ∀ (p q : Point3 Ideal) (r : Ideal), AllFinite p → AllFinite q →
      (Api.distance (Transform.transform t p) (Transform.transform t q) ≤? r) = (Api.distance p q ≤? r) := by
    intro p q r hp hq
    have e := beq_iff.1 (k p q hp hq)
    rw [Bool.eq_iff_iff, le_iff, le_iff, e.2.2]
    tauto
  exact ⟨fun p hp => k' _ _ _ ha hp, k' _ _ _ ha hb⟩

end VecMath
