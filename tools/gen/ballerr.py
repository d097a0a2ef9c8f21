head='''import Verif.Props.FloatBall
import Verif.Props.FloatTriangle
/-! # C119: how far from tangency the decision about a ray and a ball is right

(Generated by tools/gen.) -/

open Classical

namespace VecMath
open Scalar IEEE Matrix

variable {S : Type} [Scalar S] [IEEE S] [Binary S]

/-- Few roundings amount to little. -/
theorem pow_few {u : ℝ} (h0 : 0 ≤ u) (h1 : u ≤ 1 / 1024) : ∀ k : ℕ, k ≤ 11 → (1 + u) ^ k ≤ 1 + 1.01 * k * u
  | 0, _ => by simp
  | k + 1, hk => by
    have ih := pow_few h0 h1 k (by omega)
    have k11 : (k : ℝ) ≤ 10 := by exact_mod_cast (by omega : k ≤ 10)
    have k0 : (0 : ℝ) ≤ k := Nat.cast_nonneg k
    rw [pow_succ]
    have := mul_le_mul_of_nonneg_right ih (by linarith : (0 : ℝ) ≤ 1 + u)
    refine this.trans ?_
    push_cast
    have ku : (k : ℝ) * u ≤ 10 / 1024 := by nlinarith
    nlinarith [mul_nonneg k0 h0]
/-- The discriminant of a quadratic from approximate coefficients. -/
theorem quad_approx {a h k : S} {x y z X Y Z t : ℝ} {p q r m : ℕ} (ha : Approx p t a x X) (hh : Approx q t h y Y) (hk : Approx r t k z Z)
    (f : IsFinite (h * h - a * k)) (h1 : 2 * q ≤ m) (h2 : p + r ≤ m) :
    Approx (m + 2) ((1 + uro S) * (((1 + uro S) * ((1 + uro S) ^ q * Y * t + (1 + uro S) ^ q * Y * t + t * t) + tiny S) +
      ((1 + uro S) * ((1 + uro S) ^ p * X * t + (1 + uro S) ^ r * Z * t + t * t) + tiny S))) (h * h - a * k) (y * y - x * z) (Y * Y + X * Z) :=
  ((hh.mul hh (finite_of_sub f).1).mono (l := m + 1) (by omega) le_rfl).sub
    ((ha.mul hk (finite_of_sub f).2).mono (l := m + 1) (by omega) le_rfl) f
/-- The discriminant is right up to `ballErr`. -/
theorem quad_err {a h k : S} {y Y D O P : ℝ} {p q r m : ℕ} (hS : Standard S) (ha : Approx p (5 * tiny S) a D D) (hh : Approx q (5 * tiny S) h y Y)
    (hk : Approx r (5 * tiny S) k (O - P) (O + P)) (f : IsFinite (h * h - a * k)) (h1 : 2 * q ≤ m) (h2 : p + r ≤ m) (hm : m ≤ 9) (hO : 0 ≤ O) (hP : 0 ≤ P)
    (hY : Y * Y ≤ D * O) : |real (h * h - a * k) - (y * y - D * (O - P))| ≤ ballErr S D O P := by
  have A := (quad_approx ha hh hk f h1 h2).2
  have hu := uro_pos (S := S)
  have ht := tiny_pos (S := S)
  have tu := tiny_le_uro (S := S)
  have hs := hS.uro
  have hD := ha.nonneg
  have hY0 := hh.nonneg
  have b : ∀ j : ℕ, j ≤ 11 → (1 + uro S) ^ j ≤ 1 + 1 / 64 := fun j hj => by
    have := pow_few hu.le hs j hj
    have j11 : (j : ℝ) ≤ 11 := by exact_mod_cast hj
    nlinarith
  have g : (1 + uro S) ^ (m + 2) - 1 ≤ 12 * uro S := by
    have := pow_few hu.le hs (m + 2) (by omega)
    have j11 : ((m + 2 : ℕ) : ℝ) ≤ 11 := by exact_mod_cast (by omega : m + 2 ≤ 11)
    nlinarith
  have wp := b p (by omega)
  have wq := b q (by omega)
  have wr := b r (by omega)
  have w1 : 1 + uro S ≤ 1 + 1 / 64 := by linarith
  have w0 : 0 ≤ 1 + uro S := by linarith
  have Yb : 2 * Y ≤ D + O := by
    by_contra c
    nlinarith [sq_nonneg (D - O)]
  have main : Y * Y + D * (O + P) ≤ D * (2 * O + P) := by nlinarith
  have r0 : 0 ≤ Y * Y + D * (O + P) := by positivity
  have s1 : ((1 + uro S) ^ (m + 2) - 1) * (Y * Y + D * (O + P)) ≤ 12 * uro S * (D * (2 * O + P)) :=
    mul_le_mul g main r0 (by positivity)
  set t := 5 * tiny S with et
  have t0 : 0 ≤ t := by positivity
  have t1 : t ≤ 5 / 1024 := by linarith
  have e1 : (1 + uro S) ^ q * Y * t ≤ (1 + 1 / 64) * Y * t := by gcongr
  have e2 : (1 + uro S) ^ p * D * t ≤ (1 + 1 / 64) * D * t := by gcongr
  have e3 : (1 + uro S) ^ r * (O + P) * t ≤ (1 + 1 / 64) * (O + P) * t := by gcongr
  have tt : t * t ≤ 5 / 1024 * t := by gcongr
  have e4 : (1 + uro S) * ((1 + uro S) ^ q * Y * t + (1 + uro S) ^ q * Y * t + t * t) ≤ (1 + 1 / 64) * ((1 + 1 / 64) * (2 * Y) * t + 5 / 1024 * t) :=
    mul_le_mul w1 (by linarith) (by positivity) (by norm_num)
  have e5 : (1 + uro S) * ((1 + uro S) ^ p * D * t + (1 + uro S) ^ r * (O + P) * t + t * t) ≤ (1 + 1 / 64) * ((1 + 1 / 64) * (D + (O + P)) * t + 5 / 1024 * t) :=
    mul_le_mul w1 (by linarith) (by positivity) (by norm_num)
  have e6 : (1 + uro S) * (((1 + uro S) * ((1 + uro S) ^ q * Y * t + (1 + uro S) ^ q * Y * t + t * t) + tiny S) +
      ((1 + uro S) * ((1 + uro S) ^ p * D * t + (1 + uro S) ^ r * (O + P) * t + t * t) + tiny S)) ≤
      (1 + 1 / 64) * ((1 + 1 / 64) * ((1 + 1 / 64) * (2 * Y) * t + 5 / 1024 * t) + tiny S + ((1 + 1 / 64) * ((1 + 1 / 64) * (D + (O + P)) * t + 5 / 1024 * t) + tiny S)) :=
    mul_le_mul w1 (by linarith) (by positivity) (by norm_num)
  have e7 : (2 * Y) * t ≤ (D + O) * t := by gcongr
  have s2 : (1 + 1 / 64) * ((1 + 1 / 64) * ((1 + 1 / 64) * (2 * Y) * t + 5 / 1024 * t) + tiny S + ((1 + 1 / 64) * ((1 + 1 / 64) * (D + (O + P)) * t + 5 / 1024 * t) + tiny S)) ≤
      12 * tiny S * (D + O + P + 1) := by
    have p1 := mul_nonneg hD ht.le
    have p2 := mul_nonneg hO ht.le
    have p3 := mul_nonneg hP ht.le
    rw [et] at e7 ⊢
    nlinarith
  unfold ballErr
  linarith
theorem rootRange_none {a h k : S} (f : IsFinite (h * h - a * k)) : rootRange a h k = none ↔ real (h * h - a * k) < 0 := by
  have l : (Scalar.zero ≤? (h * h - a * k)) = true ↔ 0 ≤ real (h * h - a * k) := by rw [ole_real finite_zero f, real_zero]
  unfold rootRange
  simp only
  constructor
  · intro e
    by_contra c
    rw [if_pos (l.2 (not_lt.1 c))] at e
    cases e
  · intro c
    exact if_neg (fun H => absurd (l.1 H) (not_le.2 c))
theorem approx_sq {a : S} (h : IsFinite (a * a)) : Approx 1 (tiny S) (a * a) (real a * real a) (real a * real a) :=
  (Approx.prod h).congr rfl (abs_mul_abs_self _)
theorem approx_diff_sq {a b : S} (h : IsFinite ((a - b) * (a - b))) :
    Approx 3 (tiny S) ((a - b) * (a - b)) ((real a - real b) * (real a - real b)) ((real a - real b) * (real a - real b)) :=
  (((approx_diff (finite_of_mul h).1).mul (approx_diff (finite_of_mul h).1) h).mono le_rfl (by simp)).congr rfl (abs_mul_abs_self _)
theorem tiny_few {n j : ℕ} (hS : Standard S) (hn : n ≤ 4) (hj : j ≤ 11) : (n : ℝ) * (1 + uro S) ^ j * tiny S ≤ 5 * tiny S := by
  have hu := uro_pos (S := S)
  have ht := tiny_pos (S := S)
  have := pow_few hu.le hS.uro j hj
  have j11 : (j : ℝ) ≤ 11 := by exact_mod_cast hj
  have n4 : (n : ℝ) ≤ 4 := by exact_mod_cast hn
  have hs := hS.uro
  have w : (1 + uro S) ^ j ≤ 1 + 1 / 64 := by nlinarith
  have w' : 0 ≤ (1 + uro S) ^ j := by positivity
  refine mul_le_mul_of_nonneg_right ?_ ht.le
  nlinarith
'''
out=head
for n in (2,3):
    cs='xyz'[:n]; V=f'Vector{n}'; P=f'Point{n}'; R=f'Ray{n}'
    word={2:'disc',3:'ball'}[n]
    o=f'(r.origin - c : {V} S)'
    H=f'Api.dot r.direction {o}'; A=f'Api.dot r.direction r.direction'; OO=f'Api.dot {o} {o}'
    disc=f'{H} * {H} - {A} * ({OO} - ρ * ρ)'
    d='r.direction.toReal'; oR='(r.origin.toReal - c.toReal)'
    def chain(f,hyps,tot):
        # finite hyps names s0.. ; f term function
        s=f'({f} {hyps[0]}).start'
        if n==2: return f'{s}.acc tiny_pos.le (by norm_num) ({f} {hyps[1]}) {tot[0]}'
        return f'({s}.acc tiny_pos.le (by norm_num) ({f} {hyps[1]}) {tot[0]}).acc tiny_pos.le (by norm_num) ({f} {hyps[2]}) {tot[1]}'
    def split(h,p):
        if n==2: return f'  obtain ⟨{p}0, {p}1⟩ := finite_of_add {h}\n'
        return f'  obtain ⟨{p}01, {p}2⟩ := finite_of_add {h}\n  obtain ⟨{p}0, {p}1⟩ := finite_of_add {p}01\n'
    def tot(h,p): return [h] if n==2 else [p+'01',h]
    ex=lambda f: ' + '.join(f(c) for c in cs)
    idx={'x':0,'y':1,'z':2}
    out+=f'''
/-! ## Dimension {n} -/
theorem approx_len{n} (v : {V} S) (hS : Standard S) (h : IsFinite (Api.dot v v)) : Approx {n} (5 * tiny S) (Api.dot v v) (v.toReal ⬝ᵥ v.toReal) (v.toReal ⬝ᵥ v.toReal) := by
  have h : IsFinite ({ex(lambda c: f"v.{c} * v.{c}")}) := h
{split('h','s')}  have k := {chain('approx_sq',[f's{i}' for i in range(n)],tot('h','s'))}
  have e : v.toReal ⬝ᵥ v.toReal = {ex(lambda c: f"real v.{c} * real v.{c}")} := by
    simp [dotProduct, Fin.sum_univ_succ, {V}.toReal]{"; try ring" if n==3 else ""}
  exact (k.mono (by omega) (tiny_few hS (by norm_num) (by norm_num))).congr e.symm e.symm
theorem approx_gap{n} (p q : {P} S) (hS : Standard S) (h : IsFinite (Api.dot (p - q : {V} S) (p - q : {V} S))) :
    Approx {n+2} (5 * tiny S) (Api.dot (p - q : {V} S) (p - q : {V} S)) ((p.toReal - q.toReal) ⬝ᵥ (p.toReal - q.toReal)) ((p.toReal - q.toReal) ⬝ᵥ (p.toReal - q.toReal)) := by
  have h : IsFinite ({ex(lambda c: f"(p.{c} - q.{c}) * (p.{c} - q.{c})")}) := h
{split('h','s')}  have k := {chain('approx_diff_sq',[f's{i}' for i in range(n)],tot('h','s'))}
  have e : (p.toReal - q.toReal) ⬝ᵥ (p.toReal - q.toReal) = {ex(lambda c: f"(real p.{c} - real q.{c}) * (real p.{c} - real q.{c})")} := by
    simp [dotProduct, Fin.sum_univ_succ, {P}.toReal]{"; try ring" if n==3 else ""}
  exact (k.mono (by omega) (tiny_few hS (by norm_num) (by norm_num))).congr e.symm e.symm
/-- **C119**: the computed discriminant differs from the exact one by at most `ballErr`. -/
theorem C119_disc{n} (hS : Standard S) (r : {R} S) (c : {P} S) (ρ : S)
    (f : IsFinite ({disc})) :
    |real ({disc}) -
      (({d} ⬝ᵥ {oR}) ^ 2 - {d} ⬝ᵥ {d} * ({oR} ⬝ᵥ {oR} - real ρ ^ 2))| ≤
      ballErr S ({d} ⬝ᵥ {d}) ({oR} ⬝ᵥ {oR}) (real ρ ^ 2) := by
  obtain ⟨f1, f2⟩ := finite_of_sub f
  have fh := (finite_of_mul f1).1
  obtain ⟨fa, fk⟩ := finite_of_mul f2
  obtain ⟨fo, fρ⟩ := finite_of_sub fk
  have a := approx_len{n} r.direction hS fa
  have h := (approx_side{n} r.direction c r.origin fh).mono le_rfl (tiny_few hS (by norm_num) (by norm_num))
  have o : IsFinite ({OO}) := fo
  have oo : Approx {n+2} ((({n} : ℕ) : ℝ) * (1 + uro S) ^ {n-1} * tiny S) ({OO}) ({oR} ⬝ᵥ {oR}) ({oR} ⬝ᵥ {oR}) := by
    have o : IsFinite ({ex(lambda k: f"(r.origin.{k} - c.{k}) * (r.origin.{k} - c.{k})")}) := o
{split('o','s').replace('  obtain','    obtain')}    have k := {chain('approx_diff_sq',[f's{i}' for i in range(n)],tot('o','s'))}
    have e : {oR} ⬝ᵥ {oR} = {ex(lambda k: f"(real r.origin.{k} - real c.{k}) * (real r.origin.{k} - real c.{k})")} := by
      simp [dotProduct, Fin.sum_univ_succ, {P}.toReal]{"; try ring" if n==3 else ""}
    exact (k.mono (by omega) le_rfl).congr e.symm e.symm
  have k : Approx {n+3} (5 * tiny S) ({OO} - ρ * ρ) ({oR} ⬝ᵥ {oR} - real ρ ^ 2) ({oR} ⬝ᵥ {oR} + real ρ ^ 2) :=
    ((oo.acc_sub tiny_pos.le (by norm_num) (approx_sq fρ) fk).mono le_rfl (tiny_few hS (by norm_num) (by norm_num))).congr (by rw [pow_two]) (by rw [pow_two])
  have O0 : 0 ≤ {oR} ⬝ᵥ {oR} := by rw [dotProduct]; exact Finset.sum_nonneg (fun i _ => mul_self_nonneg _)
  have e : planeSide {d} c.toReal r.origin.toReal = {d} ⬝ᵥ {oR} := rfl
  have cs : planeAbs {d} c.toReal r.origin.toReal * planeAbs {d} c.toReal r.origin.toReal ≤ {d} ⬝ᵥ {d} * ({oR} ⬝ᵥ {oR}) := by
    have := Finset.sum_mul_sq_le_sq_mul_sq Finset.univ (fun i => |{d} i|) (fun i => |r.origin.toReal i - c.toReal i|)
    simp only [sq_abs] at this
    rw [← pow_two]
    refine this.trans (le_of_eq ?_)
    simp only [dotProduct, Pi.sub_apply, pow_two]
  rw [e] at h
  have := quad_err (m := {2*n+3}) hS a h k f (by norm_num) (by norm_num) (by norm_num) O0 (sq_nonneg _) cs
  rw [← pow_two] at this
  exact this
/-- **C119**: the decision is right about every line that is not within the error bound of touching the {word}. -/
theorem C119_clear{n} (hS : Standard S) (r : {R} S) (c : {P} S) (ρ : S) (h0 : {d} ≠ 0)
    (f : IsFinite ({disc}))
    (h : ballErr S ({d} ⬝ᵥ {d}) ({oR} ⬝ᵥ {oR}) (real ρ ^ 2) <
      |({d} ⬝ᵥ {oR}) ^ 2 - {d} ⬝ᵥ {d} * ({oR} ⬝ᵥ {oR} - real ρ ^ 2)|) :
    r.ball c ρ = none ↔ ∀ t : ℝ, ¬ InBall {d} r.origin.toReal c.toReal (real ρ) t := by
  have hD : 0 < {d} ⬝ᵥ {d} := lt_of_le_of_ne (by rw [dotProduct]; exact Finset.sum_nonneg (fun i _ => mul_self_nonneg _))
    (fun H => h0 (dotProduct_self_eq_zero.1 H.symm))
  have s := (sign_keep (C119_disc{n} hS r c ρ f) h).2.1
  refine (rootRange_none f).trans (s.trans ?_)
  rw [pow_two, ← no_root_iff hD]
  refine forall_congr' fun t => not_congr ?_
  unfold InBall
  simp only [dotProduct, {'Fin.sum_univ_two' if n==2 else 'Fin.sum_univ_three'}, Pi.sub_apply]
  constructor <;> intro H <;> nlinarith
/-- **C119**: hence always: a reported hit comes within the radius up to the error of the real line, and a reported miss does not come closer than
the radius up to the error. -/
theorem C119_near{n} (hS : Standard S) (r : {R} S) (c : {P} S) (ρ : S) (h0 : {d} ≠ 0)
    (f : IsFinite ({disc})) :
    (r.ball c ρ ≠ none → ∃ t : ℝ, ∑ i, (r.origin.toReal i + t * {d} i - c.toReal i) ^ 2 ≤
      real ρ ^ 2 + ballErr S ({d} ⬝ᵥ {d}) ({oR} ⬝ᵥ {oR}) (real ρ ^ 2) / ({d} ⬝ᵥ {d})) ∧
    (r.ball c ρ = none → ∀ t : ℝ, real ρ ^ 2 - ballErr S ({d} ⬝ᵥ {d}) ({oR} ⬝ᵥ {oR}) (real ρ ^ 2) / ({d} ⬝ᵥ {d}) ≤
      ∑ i, (r.origin.toReal i + t * {d} i - c.toReal i) ^ 2) := by
  have hD : 0 < {d} ⬝ᵥ {d} := lt_of_le_of_ne (by rw [dotProduct]; exact Finset.sum_nonneg (fun i _ => mul_self_nonneg _))
    (fun H => h0 (dotProduct_self_eq_zero.1 H.symm))
  have s := abs_le.1 (C119_disc{n} hS r c ρ f)
  have b : ∀ t : ℝ, ∑ i, (r.origin.toReal i + t * {d} i - c.toReal i) ^ 2 =
      {d} ⬝ᵥ {d} * t ^ 2 + 2 * ({d} ⬝ᵥ {oR}) * t + {oR} ⬝ᵥ {oR} := by
    intro t
    simp only [dotProduct, {'Fin.sum_univ_two' if n==2 else 'Fin.sum_univ_three'}, Pi.sub_apply]
    ring
  have e := rootRange_none f
  set E := ballErr S ({d} ⬝ᵥ {d}) ({oR} ⬝ᵥ {oR}) (real ρ ^ 2)
  set D := {d} ⬝ᵥ {d}
  set H := {d} ⬝ᵥ {oR}
  set O := {oR} ⬝ᵥ {oR}
  refine ⟨fun h => ⟨-H / D, ?_⟩, fun h t => ?_⟩
  · have := not_lt.1 (mt e.2 h)
    rw [b, ← sub_le_iff_le_add', le_div_iff₀ hD]
    have q : (D * (-H / D) ^ 2 + 2 * H * (-H / D) + O - real ρ ^ 2) * D = -(H ^ 2 - D * (O - real ρ ^ 2)) := by
      field_simp; ring
    rw [q]; linarith
  · have := e.1 h
    rw [b, sub_le_iff_le_add', ← sub_le_iff_le_add, le_div_iff₀ hD]
    have q : (real ρ ^ 2 - (D * t ^ 2 + 2 * H * t + O)) * D = (H ^ 2 - D * (O - real ρ ^ 2)) - (D * t + H) ^ 2 := by ring
    rw [q]
    nlinarith [sq_nonneg (D * t + H)]
'''
out+='\nend VecMath\n'
open('/verif/lean/Verif/Props/FloatBallErr.lean','w').write(out)
