out='''import Verif.Spec.Ball
import Verif.Props.FloatEnclose
import Verif.Props.RealBox
import Verif.Props.RealTransform
import Mathlib.Analysis.Normed.Module.Ball.Pointwise
/-!
# Bounding balls in exact real arithmetic (layer R): C121

(Generated by tools/gen.)
-/

namespace VecMath
open Scalar IEEE

section
variable {E : Type} [NormedAddCommGroup E] [NormedSpace ℝ E]
/-- A ball inside a ball, from containment. -/
theorem ball_sub {a b : E} {r s : ℝ} (hr : 0 ≤ r) (u : E) (hu : ‖u‖ = 1) (h : ∀ p : E, dist a p ≤ r → dist b p ≤ s) : dist a b + r ≤ s := by
  by_cases e : a = b
  · subst e
    have := h (a + r • u) (by rw [dist_self_add_right, norm_smul, hu, Real.norm_of_nonneg hr, mul_one])
    rw [dist_self_add_right, norm_smul, hu, Real.norm_of_nonneg hr, mul_one] at this
    rw [dist_self]; linarith
  · have n : ‖a - b‖ ≠ 0 := norm_ne_zero_iff.2 (sub_ne_zero.2 e)
    have n' : 0 < ‖a - b‖ := lt_of_le_of_ne (norm_nonneg _) (Ne.symm n)
    have := h (a + (r / ‖a - b‖) • (a - b)) (by
      rw [dist_self_add_right, norm_smul, Real.norm_of_nonneg (by positivity), div_mul_cancel₀ _ n])
    rw [dist_comm, dist_eq_norm, show a + (r / ‖a - b‖) • (a - b) - b = (1 + r / ‖a - b‖) • (a - b) by rw [add_smul, one_smul]; abel,
      norm_smul, Real.norm_of_nonneg (by positivity), add_mul, one_mul, div_mul_cancel₀ _ n] at this
    rw [dist_eq_norm]; exact this
/-- The ball that touches two others from outside. -/
theorem ball_join {a b : E} {r s : ℝ} (h1 : s < dist a b + r) (h2 : r < dist a b + s) :
    dist a (a + (((dist a b + (r + s)) * (1 / 2) - r) / dist a b) • (b - a)) + r = (dist a b + (r + s)) * (1 / 2) ∧
    dist b (a + (((dist a b + (r + s)) * (1 / 2) - r) / dist a b) • (b - a)) + s = (dist a b + (r + s)) * (1 / 2) := by
  have d : 0 < dist a b := by linarith
  have e : ‖b - a‖ = dist a b := by rw [← dist_eq_norm, dist_comm]
  constructor
  · rw [dist_self_add_right, norm_smul, e, Real.norm_of_nonneg (div_nonneg (by linarith) d.le), div_mul_cancel₀ _ d.ne']; ring
  · rw [dist_eq_norm, show b - (a + (((dist a b + (r + s)) * (1 / 2) - r) / dist a b) • (b - a)) =
        (1 - ((dist a b + (r + s)) * (1 / 2) - r) / dist a b) • (b - a) by rw [sub_smul, one_smul]; abel, norm_smul, e]
    have : 1 - ((dist a b + (r + s)) * (1 / 2) - r) / dist a b = (dist a b + r - s) / 2 / dist a b := by field_simp; ring
    rw [this, Real.norm_of_nonneg (div_nonneg (by linarith) d.le), div_mul_cancel₀ _ d.ne']; ring
end
'''
for n in (2,3):
    V=f'Vector{n}'; P=f'Point{n}'; B=f'Ball{n}'; BB=f'BoundingBox{n}'; w={2:'disc',3:'ball'}[n]; K=2**n; T=f'Transform{n}'
    cs='xyz'[:n]
    out+=f'''
/-! ## Dimension {n} -/
/-- Every point of the plane or space is a point of the model. -/
theorem {P}.of_toE (e : EuclideanSpace ℝ (Fin {n})) : ∃ p : {P} Ideal, AllFinite p ∧ p.toE = e := by
  refine ⟨⟨{', '.join(f'Ideal.of (e {i})' for i in range(n))}⟩, ?_, ?_⟩
  · rw [{P}.allFinite]; exact ⟨{', '.join(['Ideal.finite_of _']*n)}⟩
  · ext i
    fin_cases i <;> simp [{P}.toE, {P}.toReal, Ideal.real_of]
theorem {B}.has_real (a : {B} Ideal) (hc : AllFinite a.center) (hr : IsFinite a.radius) (p : {P} Ideal) (hp : AllFinite p) :
    a.has p = true ↔ dist a.center.toE p.toE ≤ real a.radius := by
  unfold {B}.has
  rw [Ideal.le_real ({P}.fin_distance hc hp) hr, {P}.real_distance hc hp]
theorem {B}.meets_real (a b : {B} Ideal) (ha : AllFinite a.center) (ra : IsFinite a.radius) (hb : AllFinite b.center) (rb : IsFinite b.radius) :
    a.meets b = true ↔ dist a.center.toE b.center.toE ≤ real a.radius + real b.radius := by
  unfold {B}.meets
  rw [Ideal.le_real ({P}.fin_distance ha hb) (Ideal.finite_add ra rb), {P}.real_distance ha hb, Ideal.real_add ra rb]
theorem {B}.within_real (a b : {B} Ideal) (ha : AllFinite a.center) (ra : IsFinite a.radius) (hb : AllFinite b.center) (rb : IsFinite b.radius) :
    a.within b = true ↔ dist a.center.toE b.center.toE + real a.radius ≤ real b.radius := by
  unfold {B}.within
  have hd := {P}.fin_distance ha hb
  rw [Ideal.le_real (Ideal.finite_add hd ra) rb, Ideal.real_add hd ra, {P}.real_distance ha hb]
/-- **C121**: in exact arithmetic two {w}s pass the overlap test exactly when they have a common point. -/
theorem C121_meets_iff{n} (a b : {B} Ideal) (ha : AllFinite a.center) (ra : IsFinite a.radius) (hb : AllFinite b.center) (rb : IsFinite b.radius)
    (h1 : (zero ≤? a.radius) = true) (h2 : (zero ≤? b.radius) = true) :
    a.meets b = true ↔ ∃ p, AllFinite p ∧ a.has p = true ∧ b.has p = true := by
  rw [Ideal.le_real finite_zero ra, real_zero] at h1
  rw [Ideal.le_real finite_zero rb, real_zero] at h2
  rw [{B}.meets_real a b ha ra hb rb]
  constructor
  · intro h
    obtain ⟨y, y1, y2⟩ := exists_dist_le_le h1 h2 (by linarith)
    obtain ⟨p, p1, rfl⟩ := {P}.of_toE y
    exact ⟨p, p1, (a.has_real ha ra p p1).2 y1, (b.has_real hb rb p p1).2 (by rwa [dist_comm])⟩
  · rintro ⟨p, p1, p2, p3⟩
    have p2 := (a.has_real ha ra p p1).1 p2
    have p3 := (b.has_real hb rb p p1).1 p3
    linarith [dist_triangle_right a.center.toE b.center.toE p.toE]
/-- **C121**: in exact arithmetic a {w} passes the containment test exactly when all its points belong to the other. -/
theorem C121_within_iff{n} (a b : {B} Ideal) (ha : AllFinite a.center) (ra : IsFinite a.radius) (hb : AllFinite b.center) (rb : IsFinite b.radius)
    (h1 : (zero ≤? a.radius) = true) :
    a.within b = true ↔ ∀ p, AllFinite p → a.has p = true → b.has p = true := by
  rw [Ideal.le_real finite_zero ra, real_zero] at h1
  rw [{B}.within_real a b ha ra hb rb]
  constructor
  · intro h p hp h'
    have h' := (a.has_real ha ra p hp).1 h'
    rw [b.has_real hb rb p hp]
    linarith [dist_triangle_left b.center.toE p.toE a.center.toE, dist_comm a.center.toE b.center.toE]
  · intro h
    refine ball_sub h1 (EuclideanSpace.single 0 (1 : ℝ)) (by simp) fun y hy => ?_
    obtain ⟨p, p1, rfl⟩ := {P}.of_toE y
    exact (b.has_real hb rb p p1).1 (h p p1 ((a.has_real ha ra p p1).2 hy))
/-- **C121**: in exact arithmetic the {w} around two {w}s has all points of both, and no {w} that has all points of both has a smaller radius. -/
theorem C121_join{n} (a b : {B} Ideal) (ha : AllFinite a.center) (ra : IsFinite a.radius) (hb : AllFinite b.center) (rb : IsFinite b.radius)
    (h1 : (zero ≤? a.radius) = true) (h2 : (zero ≤? b.radius) = true) :
    AllFinite (a.join b).center ∧ IsFinite (a.join b).radius ∧
    (∀ p, AllFinite p → (a.has p = true ∨ b.has p = true) → (a.join b).has p = true) ∧
    ∀ e : {B} Ideal, AllFinite e.center → IsFinite e.radius → (∀ p, AllFinite p → (a.has p = true ∨ b.has p = true) → e.has p = true) →
      ((a.join b).radius ≤? e.radius) = true := by
  have sub : ∀ {{x y : {B} Ideal}}, AllFinite x.center → IsFinite x.radius → AllFinite y.center → IsFinite y.radius → x.within y = true →
      ∀ p, AllFinite p → x.has p = true → y.has p = true := by
    intro x y hx rx hy ry h p hp h'
    have h := (x.within_real y hx rx hy ry).1 h
    have h' := (x.has_real hx rx p hp).1 h'
    rw [y.has_real hy ry p hp]
    linarith [dist_triangle_left y.center.toE p.toE x.center.toE, dist_comm x.center.toE y.center.toE]
  have big : ∀ {{x y : {B} Ideal}}, AllFinite x.center → IsFinite x.radius → AllFinite y.center → IsFinite y.radius → (zero ≤? x.radius) = true →
      (∀ p, AllFinite p → x.has p = true → y.has p = true) → dist x.center.toE y.center.toE + real x.radius ≤ real y.radius := by
    intro x y hx rx hy ry h0 h
    exact (x.within_real y hx rx hy ry).1 ((C121_within_iff{n} x y hx rx hy ry h0).2 h)
  have last : ∀ j : {B} Ideal, AllFinite j.center → IsFinite j.radius →
      real j.radius = (dist a.center.toE b.center.toE + (real a.radius + real b.radius)) * (1 / 2) →
      dist a.center.toE j.center.toE + real a.radius = real j.radius → dist b.center.toE j.center.toE + real b.radius = real j.radius →
      AllFinite j.center ∧ IsFinite j.radius ∧
      (∀ p, AllFinite p → (a.has p = true ∨ b.has p = true) → j.has p = true) ∧
      ∀ e : {B} Ideal, AllFinite e.center → IsFinite e.radius → (∀ p, AllFinite p → (a.has p = true ∨ b.has p = true) → e.has p = true) →
        (j.radius ≤? e.radius) = true := by
    intro j fc fr er j1 j2
    refine ⟨fc, fr, ?_, ?_⟩
    · rintro p hp (h | h)
      · exact sub ha ra fc fr (({B}.within_real a j ha ra fc fr).2 j1.le) p hp h
      · exact sub hb rb fc fr (({B}.within_real b j hb rb fc fr).2 j2.le) p hp h
    · intro e he re h
      have b1 := big ha ra he re h1 fun p hp h' => h p hp (.inl h')
      have b2 := big hb rb he re h2 fun p hp h' => h p hp (.inr h')
      rw [Ideal.le_real fr re, er]
      linarith [dist_triangle_right a.center.toE b.center.toE e.center.toE]
  unfold {B}.join
  split_ifs with w1 w2
  · refine ⟨hb, rb, ?_, ?_⟩
    · rintro p hp (h | h)
      · exact sub ha ra hb rb w1 p hp h
      · exact h
    · intro e he re h
      have := big hb rb he re h2 fun p hp h' => h p hp (.inr h')
      rw [Ideal.le_real rb re]; linarith [dist_nonneg (x := b.center.toE) (y := e.center.toE)]
  · refine ⟨ha, ra, ?_, ?_⟩
    · rintro p hp (h | h)
      · exact h
      · exact sub hb rb ha ra w2 p hp h
    · intro e he re h
      have := big ha ra he re h1 fun p hp h' => h p hp (.inl h')
      rw [Ideal.le_real ra re]; linarith [dist_nonneg (x := a.center.toE) (y := e.center.toE)]
  · rw [{B}.within_real a b ha ra hb rb, not_le] at w1
    rw [{B}.within_real b a hb rb ha ra, not_le, dist_comm] at w2
    have fd := {P}.fin_distance ha hb
    have ed := {P}.real_distance ha hb
    have fr := Ideal.finite_mul (Ideal.finite_add fd (Ideal.finite_add ra rb)) finite_half
    have er : real ((Api.distance a.center b.center + (a.radius + b.radius)) * half) =
        (dist a.center.toE b.center.toE + (real a.radius + real b.radius)) * (1 / 2) := by
      rw [Ideal.real_mul (Ideal.finite_add fd (Ideal.finite_add ra rb)) finite_half, Ideal.real_add fd (Ideal.finite_add ra rb),
        Ideal.real_add ra rb, ed, real_half]
    have d0 : real (Api.distance a.center b.center : Ideal) ≠ 0 := by rw [ed]; exact ne_of_gt (by linarith)
    have ft := Ideal.finite_div (Ideal.finite_sub fr ra) fd d0
    have et := Ideal.real_div (Ideal.finite_sub fr ra) fd d0
    rw [Ideal.real_sub fr ra, er, ed] at et
    have fv := {V}.fin_subp hb ha
    have fm := {V}.fin_mul fv ft
    have fc := {P}.fin_addv ha fm
    have ec : (a.center + (b.center - a.center) * (((Api.distance a.center b.center + (a.radius + b.radius)) * half - a.radius) /
        Api.distance a.center b.center)).toE = a.center.toE + (((dist a.center.toE b.center.toE + (real a.radius + real b.radius)) * (1 / 2) -
          real a.radius) / dist a.center.toE b.center.toE) • (b.center.toE - a.center.toE) := by
      rw [← et]
      unfold {P}.toE
      rw [{P}.toReal_addv ha fm, {V}.toReal_mul fv ft, {V}.toReal_subp hb ha]
      rfl
    obtain ⟨j1, j2⟩ := ball_join w1 w2
    rw [← ec, ← er] at j1 j2
    exact last ⟨_, _⟩ fc fr er j1 j2
/-- **C121**: in exact arithmetic the {w} around the center of a box with half its diagonal as radius has the box, and no {w} that has the box has a
smaller radius. -/
theorem C121_half{n} (b : {BB} Ideal) (hb : AllFinite b) (wb : LeAll b.min b.max) :
    AllFinite b.ball.center ∧ IsFinite b.ball.radius ∧ (∀ p, b.isInside p = true → b.ball.has p = true) ∧
    ∀ e : {B} Ideal, AllFinite e.center → IsFinite e.radius → (∀ p, b.isInside p = true → e.has p = true) →
      (b.ball.radius ≤? e.radius) = true := by
  obtain ⟨fc, -, -, hk⟩ := C32_real{n} b hb wb
  have fr : IsFinite b.ball.radius := Ideal.finite_mul ({V}.fin_length ({BB}.fin_diagonal hb)) finite_half
  refine ⟨fc, fr, ?_, ?_⟩
  · intro p hp
    obtain ⟨q, -, ⟨k, -, k2⟩, h, -⟩ := C121_corner{n} .debug b hb wb b.center fc
    have e := beq_iff.1 (hk .debug k q k2)
    have h := h p hp
    exact le_trans' h (le_iff.2 ⟨e.1, e.2.1, e.2.2.le⟩)
  · intro e he re h
    have hb' := hb
    rw [{BB}.allFinite] at hb'
    obtain ⟨{', '.join(f'c{k}' for k in range(K))}⟩ := corner_ok{n} .debug b
    have h1 := (e.has_real he re _ hb'.1).1 (h _ (corner_inside{n} .debug b wb (by decide : (0 : UInt32) < {K}) c0))
    have h2 := (e.has_real he re _ hb'.2).1 (h _ (corner_inside{n} .debug b wb (by decide : ({K-1} : UInt32) < {K}) c{K-1}))
    have h3 : real b.ball.radius = dist b.min.toE b.max.toE * (1 / 2) := by
      show real (Api.distance b.min b.max * half) = _
      rw [Ideal.real_mul ({P}.fin_distance hb'.1 hb'.2) finite_half, {P}.real_distance hb'.1 hb'.2, real_half]
    rw [Ideal.le_real fr re, h3]
    linarith [dist_triangle_left b.min.toE b.max.toE e.center.toE]
/-- **C121**: in exact arithmetic, moving a {w} by any sequence of translations and rotations and their inverses moves its points and keeps which {w}s
overlap. -/
theorem C121_motion{n} (t : {T} Ideal) (h : Motion{n} t) (a b : {B} Ideal) (ha : AllFinite a.center) (hb : AllFinite b.center) :
    (∀ p, AllFinite p → (⟨Transform.transform t a.center, a.radius⟩ : {B} Ideal).has (Transform.transform t p) = a.has p) ∧
    (⟨Transform.transform t a.center, a.radius⟩ : {B} Ideal).meets ⟨Transform.transform t b.center, b.radius⟩ = a.meets b := by
  have k := (C52_rigid{n} t h).1.distance
  have k' : ∀ (p q : {P} Ideal) (r : Ideal), AllFinite p → AllFinite q →
      (Api.distance (Transform.transform t p) (Transform.transform t q) ≤? r) = (Api.distance p q ≤? r) := by
    intro p q r hp hq
    have e := beq_iff.1 (k p q hp hq)
    rw [Bool.eq_iff_iff, le_iff, le_iff, e.2.2]
    tauto
  exact ⟨fun p hp => k' _ _ _ ha hp, k' _ _ _ ha hb⟩
'''
out+='\nend VecMath\n'
open('/verif/lean/Verif/Props/RealEnclose.lean','w').write(out)
