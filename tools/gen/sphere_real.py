import sys
out='''import Verif.Spec.Sphere
import Verif.Props.RealFoot
import Verif.Props.RealTransform
import Verif.Props.RealBox
/-!
# Rays and balls in exact real arithmetic (layer R): C119

(Generated by tools/gen.)
-/

namespace VecMath
open Scalar IEEE

/-- Where a quadratic polynomial is not positive. -/
theorem quad_iff {a h k t : ℝ} (h0 : 0 < a) : a * t ^ 2 + 2 * h * t + k ≤ 0 ↔
    0 ≤ h * h - a * k ∧ (-h - √(h * h - a * k)) / a ≤ t ∧ t ≤ (-h + √(h * h - a * k)) / a := by
  rw [div_le_iff₀ h0, le_div_iff₀ h0]
  have e : a * (a * t ^ 2 + 2 * h * t + k) = (a * t + h) ^ 2 - (h * h - a * k) := by ring
  constructor
  · intro H
    have s : (a * t + h) ^ 2 ≤ h * h - a * k := by nlinarith
    have s' := abs_le.1 (Real.abs_le_sqrt s)
    exact ⟨(sq_nonneg _).trans s, by nlinarith, by nlinarith⟩
  · rintro ⟨d, l, r⟩
    have s : |a * t + h| ≤ √(h * h - a * k) := abs_le.2 ⟨by nlinarith, by nlinarith⟩
    have := sq_le_sq' (by linarith [(abs_le.1 s).1]) (abs_le.1 s).2
    rw [Real.sq_sqrt d] at this
    by_contra c
    push Not at c
    nlinarith [mul_pos h0 c]
/-- The ends of that interval are zeros. -/
theorem quad_roots {a h k : ℝ} (h0 : 0 < a) (d : 0 ≤ h * h - a * k) :
    a * ((-h - √(h * h - a * k)) / a) ^ 2 + 2 * h * ((-h - √(h * h - a * k)) / a) + k = 0 ∧
    a * ((-h + √(h * h - a * k)) / a) ^ 2 + 2 * h * ((-h + √(h * h - a * k)) / a) + k = 0 := by
  have s := Real.sq_sqrt d
  generalize √(h * h - a * k) = q at *
  constructor
  · field_simp
    nlinarith
  · field_simp
    nlinarith

theorem in_around {c p ρ : Ideal} (hc : IsFinite c) (hp : IsFinite p) (hρ : IsFinite ρ) (h : |real p - real c| ≤ real ρ) :
    In1 (fmin (c - ρ) (c + ρ)) (fmax (c - ρ) (c + ρ)) p := by
  have f1 := Ideal.finite_sub hc hρ
  have f2 := Ideal.finite_add hc hρ
  have h' := abs_le.1 h
  refine ⟨(Ideal.le_real (Ideal.finite_min f1 f2) hp).2 ?_, (Ideal.le_real hp (Ideal.finite_max f1 f2)).2 ?_⟩
  · rw [Ideal.real_min f1 f2, Ideal.real_sub hc hρ]
    exact (min_le_left _ _).trans (by linarith)
  · rw [Ideal.real_max f1 f2, Ideal.real_add hc hρ]
    exact le_trans (by linarith) (le_max_right _ _)

theorem le_around {c ρ : Ideal} (hc : IsFinite c) (hρ : IsFinite ρ) : (fmin (c - ρ) (c + ρ) ≤? fmax (c - ρ) (c + ρ)) = true := by
  have f1 := Ideal.finite_sub hc hρ
  have f2 := Ideal.finite_add hc hρ
  rw [Ideal.le_real (Ideal.finite_min f1 f2) (Ideal.finite_max f1 f2), Ideal.real_min f1 f2, Ideal.real_max f1 f2]
  exact (min_le_left _ _).trans (le_max_left _ _)

section
variable {a h k a' h' k' : Ideal}
theorem rootRange_ideal (ha : IsFinite a) (hh : IsFinite h) (hk : IsFinite k) (h0 : 0 < real a) :
    (0 ≤ real h * real h - real a * real k ∧ ∃ R, rootRange a h k = some R ∧ IsFinite R.start ∧ IsFinite R.stop ∧
      real R.start = (-real h - √(real h * real h - real a * real k)) / real a ∧
      real R.stop = (-real h + √(real h * real h - real a * real k)) / real a) ∨
    (real h * real h - real a * real k < 0 ∧ rootRange a h k = none) := by
  have m1 := Ideal.finite_mul hh hh
  have m2 := Ideal.finite_mul ha hk
  have d := Ideal.finite_sub m1 m2
  have e : real (h * h - a * k) = real h * real h - real a * real k := by
    rw [Ideal.real_sub m1 m2, Ideal.real_mul hh hh, Ideal.real_mul ha hk]
  have l : (zero ≤? (h * h - a * k)) = true ↔ 0 ≤ real h * real h - real a * real k := by
    rw [Ideal.le_real finite_zero d, real_zero, e]
  rcases le_or_gt 0 (real h * real h - real a * real k) with c | c
  · have c' := c
    rw [← e] at c'
    have n := finite_neg.2 hh
    have s := Ideal.finite_sqrt d c'
    refine .inl ⟨c, _, if_pos (l.2 c), Ideal.finite_div (Ideal.finite_sub n s) ha h0.ne', Ideal.finite_div (Ideal.finite_add n s) ha h0.ne', ?_, ?_⟩
    · rw [Ideal.real_div (Ideal.finite_sub n s) ha h0.ne', Ideal.real_sub n s, real_neg, Ideal.real_sqrt d c', e]
    · rw [Ideal.real_div (Ideal.finite_add n s) ha h0.ne', Ideal.real_add n s, real_neg, Ideal.real_sqrt d c', e]
  · exact .inr ⟨c, if_neg (fun H => absurd (l.1 H) (not_le.2 c))⟩
theorem rootRange_ideal_congr (ha : IsFinite a) (hh : IsFinite h) (hk : IsFinite k) (h0 : 0 < real a) (ha' : IsFinite a') (hh' : IsFinite h')
    (hk' : IsFinite k') (ea : real a' = real a) (eh : real h' = real h) (ek : real k' = real k) :
    (rootRange a h k = none ∧ rootRange a' h' k' = none) ∨
    ∃ R R', rootRange a h k = some R ∧ rootRange a' h' k' = some R' ∧ (R'.start == R.start) = true ∧ (R'.stop == R.stop) = true := by
  have A := rootRange_ideal ha hh hk h0
  have B := rootRange_ideal ha' hh' hk' (by rw [ea]; exact h0)
  rw [ea, eh, ek] at B
  rcases A with ⟨c, R, e, f1, f2, v1, v2⟩ | ⟨c, e⟩
  · rcases B with ⟨-, R', e', f1', f2', v1', v2'⟩ | ⟨c', e'⟩
    · exact .inr ⟨R, R', e, e', (Ideal.beq_real f1' f1).2 (by rw [v1, v1']), (Ideal.beq_real f2' f2).2 (by rw [v2, v2'])⟩
    · exact absurd c (not_le.2 c')
  · rcases B with ⟨c', -⟩ | ⟨-, e'⟩
    · exact absurd c' (not_le.2 c)
    · exact .inl ⟨e, e'⟩
end
'''
for n,w,W in [(2,'disc','Matrix3x3'),(3,'ball','Matrix4x4')]:
    P=f'Point{n}'; V=f'Vector{n}'; R=f'Ray{n}'; T=f'Transform{n}'
    args=' '.join(['ρ']*n)
    ax=['x','y','z'][:n]
    pr=lambda h,i: h+'.2'*i+('.1' if i<n-1 else '')
    SPLIT='exact isInside%d_iff.2 ⟨'%n+', '.join(f'in_around {pr("hc",i)} {pr("hp",i)} hρ (d {i})' for i in range(n))+'⟩'
    pf=lambda i: pr("hc'",i)
    MN=', '.join(f'Ideal.finite_min (Ideal.finite_sub {pf(i)} hρ) (Ideal.finite_add {pf(i)} hρ)' for i in range(n))
    MX=', '.join(f'Ideal.finite_max (Ideal.finite_sub {pf(i)} hρ) (Ideal.finite_add {pf(i)} hρ)' for i in range(n))
    FB=f'rw [BoundingBox{n}.allFinite, {P}.allFinite, {P}.allFinite]; exact ⟨⟨{MN}⟩, ⟨{MX}⟩⟩'
    WB=f'rw [{P}.leAll]; exact ⟨'+', '.join(f'le_around {pf(i)} hρ' for i in range(n))+'⟩'
    out+=f'''
/-! ## Dimension {n} -/
section
variable {{r : {R} Ideal}} {{c : {P} Ideal}} {{ρ : Ideal}}
theorem {R}.ball_coeff (hr : AllFinite r) (hc : AllFinite c) (hρ : IsFinite ρ) (h0 : (r.direction == {V}.zero) = false) :
    IsFinite (Api.dot r.direction r.direction) ∧ IsFinite (Api.dot r.direction (r.origin - c : {V} Ideal)) ∧
    IsFinite (Api.dot (r.origin - c : {V} Ideal) (r.origin - c : {V} Ideal) - ρ * ρ) ∧ 0 < real (Api.dot r.direction r.direction) ∧
    real (Api.dot r.direction r.direction) = r.direction.toReal ⬝ᵥ r.direction.toReal ∧
    real (Api.dot r.direction (r.origin - c : {V} Ideal)) = r.direction.toReal ⬝ᵥ (r.origin.toReal - c.toReal) ∧
    real (Api.dot (r.origin - c : {V} Ideal) (r.origin - c : {V} Ideal) - ρ * ρ) =
      (r.origin.toReal - c.toReal) ⬝ᵥ (r.origin.toReal - c.toReal) - real ρ * real ρ := by
  have h := {R}.foot_den hr h0
  rw [{R}.allFinite] at hr
  have fo := {V}.fin_subp hr.1 hc
  have e := {V}.real_dot hr.2 hr.2
  refine ⟨{V}.fin_dot hr.2 hr.2, {V}.fin_dot hr.2 fo, Ideal.finite_sub ({V}.fin_dot fo fo) (Ideal.finite_mul hρ hρ), ?_, e, ?_, ?_⟩
  · exact lt_of_le_of_ne ({V}.real_dot_self_nonneg hr.2) (fun H => h (by rw [← e, ← H]))
  · rw [{V}.real_dot hr.2 fo, {V}.toReal_subp hr.1 hc]
  · rw [Ideal.real_sub ({V}.fin_dot fo fo) (Ideal.finite_mul hρ hρ), Ideal.real_mul hρ hρ, {V}.real_dot fo fo, {V}.toReal_subp hr.1 hc]
theorem {R}.ball_dist (hr : AllFinite r) (hc : AllFinite c) {{t : Ideal}} (ht : IsFinite t) :
    real (Api.distance c (r.at t)) * real (Api.distance c (r.at t)) =
      r.direction.toReal ⬝ᵥ r.direction.toReal * real t ^ 2 + 2 * (r.direction.toReal ⬝ᵥ (r.origin.toReal - c.toReal)) * real t +
        (r.origin.toReal - c.toReal) ⬝ᵥ (r.origin.toReal - c.toReal) := by
  have fa := {R}.fin_at hr ht
  rw [{P}.distance_def, {V}.real_length_sq ({V}.fin_subp fa hc), {V}.toReal_subp fa hc, {R}.toReal_at hr ht]
  rw [show r.origin.toReal + real t • r.direction.toReal - c.toReal = (r.origin.toReal - c.toReal) + real t • r.direction.toReal by abel]
  generalize r.origin.toReal - c.toReal = o
  simp only [add_dotProduct, dotProduct_add, smul_dotProduct, dotProduct_smul, dotProduct_comm o r.direction.toReal, smul_eq_mul]
  ring
theorem {R}.ball_dist_nonneg (hr : AllFinite r) (hc : AllFinite c) {{t : Ideal}} (ht : IsFinite t) : 0 ≤ real (Api.distance c (r.at t)) := by
  rw [{P}.real_distance hc ({R}.fin_at hr ht)]
  exact dist_nonneg
/-- **C119** without rounding: the reported range is exactly the set of parameters at which the line of the ray is in the {w}; nothing
is reported exactly when it never is. -/
theorem C119_exact{n} (r : {R} Ideal) (c : {P} Ideal) (ρ : Ideal) (hr : AllFinite r) (hc : AllFinite c) (hρ : IsFinite ρ)
    (h0 : (r.direction == {V}.zero) = false) (hn : (zero ≤? ρ) = true) :
    (∀ R, r.ball c ρ = some R → IsFinite R.start ∧ IsFinite R.stop ∧ ∀ t : Ideal, IsFinite t →
      ((Api.distance c (r.at t) ≤? ρ) = true ↔ (R.start ≤? t) = true ∧ (t ≤? R.stop) = true)) ∧
    (r.ball c ρ = none ↔ ∀ t : Ideal, IsFinite t → (Api.distance c (r.at t) ≤? ρ) = false) := by
  obtain ⟨fa, fh, fk, pa, ea, eh, ek⟩ := {R}.ball_coeff hr hc hρ h0
  rw [Ideal.le_real finite_zero hρ, real_zero] at hn
  have key : ∀ t : Ideal, IsFinite t → ((Api.distance c (r.at t) ≤? ρ) = true ↔
      real (Api.dot r.direction r.direction) * real t ^ 2 + 2 * real (Api.dot r.direction (r.origin - c : {V} Ideal)) * real t +
        real (Api.dot (r.origin - c : {V} Ideal) (r.origin - c : {V} Ideal) - ρ * ρ) ≤ 0) := by
    intro t ht
    have d := {R}.ball_dist hr hc ht
    rw [Ideal.le_real ({P}.fin_distance hc ({R}.fin_at hr ht)) hρ, ea, eh, ek]
    have n := {R}.ball_dist_nonneg hr hc ht
    constructor
    · intro H; nlinarith
    · intro H
      by_contra H'
      push Not at H'
      nlinarith
  show (∀ R, rootRange _ _ _ = some R → _) ∧ (rootRange _ _ _ = none ↔ _)
  rcases rootRange_ideal fa fh fk pa with ⟨dd, R, e, f1, f2, v1, v2⟩ | ⟨dd, e⟩
  · rw [e]
    have main : ∀ t : Ideal, IsFinite t →
        ((Api.distance c (r.at t) ≤? ρ) = true ↔ (R.start ≤? t) = true ∧ (t ≤? R.stop) = true) := by
      intro t ht
      rw [key t ht, quad_iff pa, Ideal.le_real f1 ht, Ideal.le_real ht f2, v1, v2]
      exact ⟨fun H => H.2, fun H => ⟨dd, H⟩⟩
    refine ⟨?_, ?_⟩
    · rintro R' ⟨⟩
      exact ⟨f1, f2, main⟩
    · refine ⟨fun H => (by cases H), fun H => ?_⟩
      have := (main R.start f1).2 ⟨(Ideal.le_real f1 f1).2 le_rfl, (Ideal.le_real f1 f2).2 (by
        rw [v1, v2]; gcongr; linarith [Real.sqrt_nonneg (real (Api.dot r.direction (r.origin - c : {V} Ideal)) * real (Api.dot r.direction (r.origin - c : {V} Ideal)) -
          real (Api.dot r.direction r.direction) * real (Api.dot (r.origin - c : {V} Ideal) (r.origin - c : {V} Ideal) - ρ * ρ))])⟩
      rw [H _ f1] at this
      cases this
  · rw [e]
    refine ⟨fun R' H => (by cases H), fun _ t ht => ?_, fun _ => rfl⟩
    rw [Bool.eq_false_iff]
    intro H
    exact absurd ((quad_iff pa).1 ((key t ht).1 H)).1 (not_le.2 dd)
/-- **C119** without rounding: at both ends of the reported range the point of the ray is on the boundary. -/
theorem C119_on{n} (r : {R} Ideal) (c : {P} Ideal) (ρ : Ideal) (hr : AllFinite r) (hc : AllFinite c) (hρ : IsFinite ρ)
    (h0 : (r.direction == {V}.zero) = false) (hn : (zero ≤? ρ) = true) (R : Range Ideal) (e : r.ball c ρ = some R) :
    (Api.distance c (r.at R.start) == ρ) = true ∧ (Api.distance c (r.at R.stop) == ρ) = true := by
  obtain ⟨fa, fh, fk, pa, ea, eh, ek⟩ := {R}.ball_coeff hr hc hρ h0
  rw [Ideal.le_real finite_zero hρ, real_zero] at hn
  change rootRange _ _ _ = some R at e
  rcases rootRange_ideal fa fh fk pa with ⟨dd, R', e', f1, f2, v1, v2⟩ | ⟨dd, e'⟩
  · rw [e] at e'
    cases e'
    have q := quad_roots pa dd
    rw [← v1, ← v2] at q
    rw [ea, eh, ek] at q
    have d1 := {R}.ball_dist hr hc f1
    have d2 := {R}.ball_dist hr hc f2
    refine ⟨(Ideal.beq_real ({P}.fin_distance hc ({R}.fin_at hr f1)) hρ).2 ?_, (Ideal.beq_real ({P}.fin_distance hc ({R}.fin_at hr f2)) hρ).2 ?_⟩
    · exact (mul_self_inj ({R}.ball_dist_nonneg hr hc f1) hn).1 (by linarith [q.1])
    · exact (mul_self_inj ({R}.ball_dist_nonneg hr hc f2) hn).1 (by linarith [q.2])
  · rw [e] at e'; cases e'
/-- **C119** without rounding: a motion (translations, rotations, their inverses and compositions) applied to ray and center changes nothing. -/
theorem C119_motion{n} (t : {T} Ideal) (h : Motion{n} t) (r : {R} Ideal) (c : {P} Ideal) (ρ : Ideal) (hr : AllFinite r) (hc : AllFinite c) (hρ : IsFinite ρ)
    (h0 : (r.direction == {V}.zero) = false) :
    (r.ball c ρ = none ∧ (Transform.transform t r : {R} Ideal).ball (Transform.transform t c : {P} Ideal) ρ = none) ∨
    ∃ R R', r.ball c ρ = some R ∧ (Transform.transform t r : {R} Ideal).ball (Transform.transform t c : {P} Ideal) ρ = some R' ∧
      (R'.start == R.start) = true ∧ (R'.stop == R.stop) = true := by
  obtain ⟨fa, fh, fk, pa, ea, eh, ek⟩ := {R}.ball_coeff hr hc hρ h0
  obtain ⟨b, o, -⟩ := motion_inv{n} t h
  have fm := (built_inv{n} (fun m hm => hm.1) t b).1
  have af := (built_affine{n} t b).1
  have hr' := hr
  rw [{R}.allFinite] at hr'
  have fd := {W}.fin_mulv fm hr'.2
  have fp := af.fin_mulp fm hr'.1
  have fc := af.fin_mulp fm hc
  have fo := {V}.fin_subp fp fc
  have eo := af.sub_mulp fm hr'.1 hc
  have ed := {W}.toReal_mulv' fm hr'.2
  refine rootRange_ideal_congr fa fh fk pa ({V}.fin_dot fd fd) ({V}.fin_dot fd fo) (Ideal.finite_sub ({V}.fin_dot fo fo) (Ideal.finite_mul hρ hρ)) ?_ ?_ ?_
  · refine ({V}.real_dot fd fd).trans ?_
    rw [ed, Transform2.dot_mulVec _ o, ea]
  · refine ({V}.real_dot fd fo).trans ?_
    rw [ed, eo, Transform2.dot_mulVec _ o, eh]
  · refine (Ideal.real_sub ({V}.fin_dot fo fo) (Ideal.finite_mul hρ hρ)).trans ?_
    rw [Ideal.real_mul hρ hρ, {V}.real_dot fo fo, eo, Transform2.dot_mulVec _ o, ek]
/-- **C119** without rounding: the box around the {w} contains it, and is well-formed. -/
theorem C119_box{n} (c p : {P} Ideal) (ρ : Ideal) (hc : AllFinite c) (hp : AllFinite p) (hρ : IsFinite ρ)
    (h : (Api.distance c p ≤? ρ) = true) : (c.boxAround ρ).isInside p = true := by
  rw [Ideal.le_real ({P}.fin_distance hc hp) hρ] at h
  have d : ∀ i, |p.toReal i - c.toReal i| ≤ real ρ := by
    intro i
    refine le_trans ?_ h
    rw [{P}.distance_def, {V}.real_length' ({V}.fin_subp hp hc), {V}.toReal_subp hp hc]
    refine Real.abs_le_sqrt ?_
    rw [dotProduct]
    refine le_trans (le_of_eq ?_) (Finset.single_le_sum (f := fun j => (p.toReal - c.toReal) j * (p.toReal - c.toReal) j) (fun j _ => mul_self_nonneg _) (Finset.mem_univ i))
    simp [sq]
  rw [{P}.allFinite] at hc hp
  {SPLIT}
/-- **C119** without rounding: a ray that is in the {w} at some parameter is in the box around it then, and the box test reports that
parameter; so testing the box first loses no hit. -/
theorem C119_box_hit{n} (r : {R} Ideal) (c : {P} Ideal) (ρ : Ideal) (hr : AllFinite r) (hc : AllFinite c) (hρ : IsFinite ρ)
    (h0 : (r.direction == {V}.zero) = false) (hn : (zero ≤? ρ) = true) (hf : FaceFree{n} (c.boxAround ρ) r)
    (R : Range Ideal) (e : r.ball c ρ = some R) (he : (zero ≤? R.stop) = true) :
    ∃ B : Range Ideal, Api.intersect (c.boxAround ρ) r = some B ∧
      ∀ t : Ideal, IsFinite t → (zero ≤? t) = true → (R.start ≤? t) = true → (t ≤? R.stop) = true → (B.start ≤? t) = true ∧ (t ≤? B.stop) = true := by
  obtain ⟨f1, f2, H⟩ := (C119_exact{n} r c ρ hr hc hρ h0 hn).1 R e
  have fb : AllFinite (c.boxAround ρ) ∧ LeAll (c.boxAround ρ).min (c.boxAround ρ).max := by
    have hc' := hc
    rw [{P}.allFinite] at hc'
    refine ⟨?_, ?_⟩
    · {FB}
    · {WB}
  have hd : r.direction.toReal ≠ 0 := by
    intro z
    have := {R}.foot_den hr h0
    rw [z] at this
    simp at this
  obtain ⟨A, B⟩ := C35_real{n} _ fb.1 fb.2 r hr hd hf
  have inb : ∀ t : Ideal, IsFinite t → (R.start ≤? t) = true → (t ≤? R.stop) = true → (c.boxAround ρ).isInside (r.at t) = true := fun t ht l u =>
    C119_box{n} c _ ρ hc ({R}.fin_at hr ht) hρ ((H t ht).2 ⟨l, u⟩)
  rcases hB : Api.intersect (c.boxAround ρ) r with _ | B'
  · have st : (R.start ≤? R.stop) = true := by
      by_contra c'
      have := ((C119_exact{n} r c ρ hr hc hρ h0 hn).1 R e).2.2
      have on := (C119_on{n} r c ρ hr hc hρ h0 hn R e).1
      rw [Ideal.beq_real ({P}.fin_distance hc ({R}.fin_at hr f1)) hρ] at on
      exact c' ((this R.start f1).1 ((Ideal.le_real ({P}.fin_distance hc ({R}.fin_at hr f1)) hρ).2 on.le)).2
    have := B.1 hB R.stop f2 he
    rw [inb _ f2 st ((Ideal.le_real f2 f2).2 le_rfl)] at this
    cases this
  · refine ⟨B', rfl, fun t ht z l u => ?_⟩
    exact ((A B' hB).2.2 t ht).1 ⟨z, inb t ht l u⟩
end
'''
out+='\nend VecMath\n'
open(sys.argv[1],'w').write(out)
