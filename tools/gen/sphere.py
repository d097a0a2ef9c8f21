import sys
out='''import Verif.Props.FloatSphere
import Verif.Props.RealSphere
import Verif.Props.FloatSide
import Verif.Props.FloatReflect
import Verif.Props.FloatInvAffine
import Verif.Props.FloatCorners
/-! # C119: rays and balls in floating point

(Generated by tools/gen.) -/

open Classical

namespace VecMath
open Scalar IEEE

section
variable {S : Type} [Scalar S] [IEEE S]
theorem beq_of_num_nn {a b : S} (na : ¬ IsNaN a) (h : num a = num b) : (a == b) = true := by
  have nb : ¬ IsNaN b := fun c => na (by rw [isNaN_num, h, ← isNaN_num]; exact c)
  exact beq_iff.2 ⟨na, nb, by rw [val_num, h, ← val_num]⟩
theorem nan_fin_sub {a b : S} (ha : IsFinite a) (hb : ¬ IsNaN b) : ¬ IsNaN (a - b) := fun c => isNaN_sub_finite ha hb (isNaN_sub_comm.1 c)
theorem ordered_nn {a h k : S} {R : Range S} (e : rootRange a h k = some R) (ha : IsFinite a) (h0 : 0 < real a) (hh : IsFinite h) :
    ¬ IsNaN R.start ∧ ¬ IsNaN R.stop := by
  have := le_iff.1 (rootRange_ordered e ha h0 hh)
  exact ⟨this.1, this.2.1⟩
end
section
variable {S : Type} [Scalar S] [IEEE S] [Binary S]
theorem Fits.twice0 {N : ℕ} (h : Fits S 0 N) : Fits S (0 + 0) N := by simpa using h
theorem no_root_iff {a h k : ℝ} (h0 : 0 < a) : (∀ t : ℝ, ¬ (a * t ^ 2 + 2 * h * t + k ≤ 0)) ↔ h * h - a * k < 0 := by
  simp only [quad_iff h0]
  constructor
  · intro H
    by_contra c
    refine H _ ⟨not_lt.1 c, le_rfl, ?_⟩
    gcongr
    linarith [Real.sqrt_nonneg (h * h - a * k)]
  · intro H t H'
    exact absurd H'.1 (not_le.2 H)
/-- Whole-number coefficients: the discriminant is exact. -/
theorem rootRange_exact {a h k : S} {x y z : ℝ} {A H K : ℕ} (ga : G 0 A a x) (gh : G 0 H h y) (gk : G 0 K k z) (fd : Fits S 0 (H * H + A * K)) :
    rootRange a h k = none ↔ y * y - x * z < 0 := by
  have hh : G 0 (H * H) (h * h) (y * y) := (gh.mul gh (Fits.twice0 (fd.mono (by omega)))).exp (by norm_num)
  have ak : G 0 (A * K) (a * k) (x * z) := (ga.mul gk (Fits.twice0 (fd.mono (by omega)))).exp (by norm_num)
  have d := (hh.sub ak fd).ex
  have l : (zero ≤? (h * h - a * k)) = true ↔ 0 ≤ y * y - x * z := by rw [ole_real finite_zero d.1, real_zero, d.2]
  unfold rootRange
  simp only
  constructor
  · intro e
    by_contra c
    rw [if_pos (l.2 (not_lt.1 c))] at e
    cases e
  · intro c
    exact if_neg (fun H => absurd (l.1 H) (not_le.2 c))
end
'''
for n,w in [(2,'disc'),(3,'ball')]:
    P=f'Point{n}'; V=f'Vector{n}'; R=f'Ray{n}'
    K=n*(8*n+1)
    ax=['x','y','z'][:n]
    pr=lambda h,i: h+'.2'*i+('.1' if i<n-1 else '')
    A='Api.dot r.direction r.direction'; H=f'Api.dot r.direction (r.origin - c : {V} S)'; O=f'Api.dot (r.origin - c : {V} S) (r.origin - c : {V} S)'
    hyp=f'(fa : IsFinite ({A})) (pa : 0 < real ({A}))\n    (fh : IsFinite ({H}))'
    out+=f'''
/-! ## Dimension {n} -/
section
variable {{S : Type}} [Scalar S] [IEEE S]
theorem {R}.ball_def (r : {R} S) (c : {P} S) (ρ : S) : r.ball c ρ = rootRange ({A}) ({H}) ({O} - ρ * ρ) := rfl
/-- **C119**: entry and exit are reported in this order. -/
theorem C119_ordered{n} (r : {R} S) (c : {P} S) (ρ : S) (R : Range S) (e : r.ball c ρ = some R) {hyp} :
    (R.start ≤? R.stop) = true := rootRange_ordered e fa pa fh
/-- **C119**: the ray looking backwards finds the same {w}, with opposite parameters. -/
theorem C119_back{n} (r : {R} S) (c : {P} S) (ρ : S) {hyp} :
    (r.ball c ρ = none ∧ r.back.ball c ρ = none) ∨ ∃ R R', r.ball c ρ = some R ∧ r.back.ball c ρ = some R' ∧
      (R'.start == -R.stop) = true ∧ (R'.stop == -R.start) = true := by
  show (_ ∧ rootRange (Api.dot (-r.direction) (-r.direction)) (Api.dot (-r.direction) (r.origin - c : {V} S)) ({O} - ρ * ρ) = none) ∨ ∃ R R', _ ∧
    rootRange (Api.dot (-r.direction) (-r.direction)) (Api.dot (-r.direction) (r.origin - c : {V} S)) ({O} - ρ * ρ) = some R' ∧ _
  have na : num (Api.dot (-r.direction) (-r.direction)) = num ({A}) := 
    ({V}.num_dot_neg_left _ _).trans ((num_neg_congr ({V}.num_dot_neg_right _ _)).trans (same_neg_neg _).num)
  have nh : num (Api.dot (-r.direction) (r.origin - c : {V} S)) = num (-{H}) := {V}.num_dot_neg_left _ _
  have v0 : val ({A}) ≠ 0 := by rw [fa.val]; exact_mod_cast pa.ne'
  have fa' : IsFinite (Api.dot (-r.direction) (-r.direction)) := finite_of_num na fa
  have pa' : 0 < real (Api.dot (-r.direction) (-r.direction)) := by rw [real_of_num fa' fa na]; exact pa
  have fh' : IsFinite (Api.dot (-r.direction) (r.origin - c : {V} S)) := finite_of_num nh (finite_neg.2 fh)
  have v0' : val (Api.dot (-r.direction) (-r.direction)) ≠ 0 := by rw [fa'.val]; exact_mod_cast pa'.ne'
  rcases rootRange_back (a := {A}) (k := {O} - ρ * ρ) nh fa pa fh with ⟨e1, e2⟩ | ⟨R, R1, e1, e2, n1, n2⟩ <;>
  rcases rootRange_congr (h := Api.dot (-r.direction) (r.origin - c : {V} S)) (k := {O} - ρ * ρ) na rfl rfl v0' with ⟨e3, e4⟩ | ⟨R2, R3, e3, e4, n3, n4⟩
  · exact .inl ⟨e1, e3⟩
  · rw [e2] at e4; cases e4
  · rw [e2] at e4; cases e4
  · rw [e2] at e4
    cases e4
    have nn := ordered_nn e3 fa' pa' fh'
    exact .inr ⟨R, R2, e1, e3, beq_of_num_nn nn.1 (n3.trans n1), beq_of_num_nn nn.2 (n4.trans n2)⟩
/-- **C119**: the sign of the radius plays no role. -/
theorem C119_radius{n} (r : {R} S) (c : {P} S) (ρ : S) {hyp} :
    (r.ball c ρ = none ∧ r.ball c (-ρ) = none) ∨ ∃ R R', r.ball c ρ = some R ∧ r.ball c (-ρ) = some R' ∧
      (R'.start == R.start) = true ∧ (R'.stop == R.stop) = true := by
  have q : num ({O} - -ρ * -ρ) = num ({O} - ρ * ρ) :=
    num_sub_congr rfl ((same_neg_mul ρ (-ρ)).trans ((same_mul_neg ρ ρ).neg.trans (same_neg_neg _))).num
  have v0 : val ({A}) ≠ 0 := by rw [fa.val]; exact_mod_cast pa.ne'
  rcases rootRange_congr (a := {A}) (h := {H}) rfl rfl q v0 with ⟨e1, e2⟩ | ⟨R, R', e1, e2, n1, n2⟩
  · exact .inl ⟨e2, e1⟩
  · have nn := ordered_nn e1 fa pa fh
    exact .inr ⟨R', R, e2, e1, beq_of_num_nn nn.1 n1, beq_of_num_nn nn.2 n2⟩
/-- **C119**: a larger {w} around the same center is entered no later and left no earlier; in particular it is hit whenever the smaller one
is. -/
theorem C119_grow{n} (r : {R} S) (c : {P} S) (ρ ρ' : S) {hyp}
    (fo : IsFinite ({O})) (h0 : (zero ≤? ρ) = true) (hρ : (ρ ≤? ρ') = true) (R : Range S) (e : r.ball c ρ = some R) :
    ∃ R', r.ball c ρ' = some R' ∧ (R'.start ≤? R.start) = true ∧ (R.stop ≤? R'.stop) = true := by
  obtain ⟨-, n1, v1⟩ := le_iff.1 h0
  obtain ⟨-, n2, v2⟩ := le_iff.1 hρ
  rw [val_zero] at v1
  have m1 : ¬ IsNaN (ρ * ρ) := fun c => n1 (isNaN_mul_self.1 c)
  have m2 : ¬ IsNaN (ρ' * ρ') := fun c => n2 (isNaN_mul_self.1 c)
  have lm := val_mul_mono v1 v1 v2 v2 m1 m2
  have k1 : ¬ IsNaN ({O} - ρ * ρ) := nan_fin_sub fo m1
  have k2 : ¬ IsNaN ({O} - ρ' * ρ') := nan_fin_sub fo m2
  exact rootRange_mono e fa pa fh k1 k2 (val_sub_mono le_rfl lm k2 k1)
end
section
variable {{S : Type}} [Scalar S] [IEEE S] [Binary S]
/-- **C119**: a ray starting inside (as far as the computed distance tells) always hits, with the start between entry and exit. -/
theorem C119_inside{n} (r : {R} S) (c : {P} S) (ρ : S) {hyp}
    (hn : Normal S (real ({H}) ^ 2)) (fo : IsFinite ({O})) (hi : ({O} ≤? ρ * ρ) = true) :
    ∃ R, r.ball c ρ = some R ∧ (R.start ≤? zero) = true ∧ (zero ≤? R.stop) = true := by
  obtain ⟨-, n2, v⟩ := le_iff.1 hi
  refine rootRange_inside fa pa fh hn (nan_fin_sub fo n2) ?_
  rw [← val_self_sub fo]
  exact val_sub_mono le_rfl v (nan_fin_sub fo n2) (nan_fin_sub fo fo.not_nan)
/-- **C119**: a ray starting outside and looking away has left the {w} before its start; one looking towards it enters after its start. -/
theorem C119_outside{n} (r : {R} S) (c : {P} S) (ρ : S) {hyp}
    (hn : Normal S (real ({H}) ^ 2)) (ho : real ({H}) ^ 2 < overflowAt S) (fo : IsFinite ({O}))
    (hi : (ρ * ρ ≤? {O}) = true) (R : Range S) (e : r.ball c ρ = some R) :
    ((zero ≤? {H}) = true → (R.stop ≤? zero) = true) ∧ (({H} ≤? zero) = true → (zero ≤? R.start) = true) := by
  obtain ⟨n2, -, v⟩ := le_iff.1 hi
  have := rootRange_outside e fa pa fh hn ho (nan_fin_sub fo n2) (by
    rw [← val_self_sub fo]
    exact val_sub_mono le_rfl v (nan_fin_sub fo fo.not_nan) (nan_fin_sub fo n2))
  rw [ole_real finite_zero fh, ole_real fh finite_zero, real_zero]
  exact this
/-- **C119**: for whole numbers that are not too large nothing is lost: nothing is reported exactly when the real line misses the real {w}. -/
theorem C119_whole{n} {{M N : ℕ}} (r : {R} S) (c : {P} S) (ρ : S) (hr : AllFinite r) (hc : AllFinite c) (hρ : IsFinite ρ) (h0 : r.direction.toReal ≠ 0)
    (gd : ∀ i, OnGrid 0 M (r.direction.toReal i)) (go : ∀ i, OnGrid 0 N (r.origin.toReal i)) (gc : ∀ i, OnGrid 0 N (c.toReal i)) (gρ : OnGrid 0 N (real ρ))
    (hM : 1 ≤ M) (hN : 1 ≤ N) (hF : Fits S 0 ({K} * (M * N) ^ 2)) :
    r.ball c ρ = none ↔ ∀ t : ℝ, ¬ InBall r.direction.toReal r.origin.toReal c.toReal (real ρ) t := by
  have q1 : M ≤ M * N := Nat.le_mul_of_pos_right _ hN
  have q2 : N ≤ M * N := Nat.le_mul_of_pos_left _ hM
  have q3 : M * N ≤ (M * N) ^ 2 := by rw [pow_two]; exact Nat.le_mul_of_pos_left _ (by positivity)
  have q4 : M * M ≤ (M * N) ^ 2 := by rw [pow_two]; exact Nat.mul_le_mul q1 q1
  have q5 : N * N ≤ (M * N) ^ 2 := by rw [pow_two]; exact Nat.mul_le_mul q2 q2
  have h5 : (2 * N) * (2 * N) = 4 * (N * N) := by ring
  have h6 : M * (2 * N) = 2 * (M * N) := by ring
  rw [{R}.allFinite, {P}.allFinite, {V}.allFinite] at hr
  rw [{P}.allFinite] at hc
'''
    for i in range(n):
        out+=f'''  have d{i} := G.of {pr('hr.2',i)} (gd {i})
  have o{i} := (G.of {pr('hr.1',i)} (go {i})).sub (G.of {pr('hc',i)} (gc {i})) (hF.mono (by omega))
  have o{i}' := o{i}.mono (show N + N ≤ 2 * N by omega)
'''
    ds=' '.join(f'd{i}' for i in range(n)); os=' '.join(f"o{i}'" for i in range(n))
    sq=lambda v: ' + '.join(f'{v} {i} * {v} {i}' for i in range(n))
    out+=f'''  have ga := (G.dot{n} {ds} {ds} (Fits.twice0 (hF.mono (by omega)))).exp (show (0 : ℤ) + 0 = 0 by norm_num)
  have gh := (G.dot{n} {ds} {os} (Fits.twice0 (hF.mono (by omega)))).exp (show (0 : ℤ) + 0 = 0 by norm_num)
  have goo := (G.dot{n} {os} {os} (Fits.twice0 (hF.mono (by omega)))).exp (show (0 : ℤ) + 0 = 0 by norm_num)
  have gr := (G.of hρ gρ)
  have gρρ := (gr.mul gr (Fits.twice0 (hF.mono (by omega)))).exp (show (0 : ℤ) + 0 = 0 by norm_num)
  have gk := goo.sub gρρ (hF.mono (by omega))
  have main := rootRange_exact ga gh gk (hF.mono (le_of_eq (by ring)))
  have hD : 0 < r.direction.toReal ⬝ᵥ r.direction.toReal := lt_of_le_of_ne (by rw [dotProduct]; exact Finset.sum_nonneg (fun i _ => mul_self_nonneg _))
    (fun H => h0 (dotProduct_self_eq_zero.1 H.symm))
  have eD : r.direction.toReal ⬝ᵥ r.direction.toReal = {' + '.join(f'real r.direction.{x} * real r.direction.{x}' for x in ax)} := by
    simp [dotProduct, Fin.sum_univ_succ, {V}.toReal]; try ring
  rw [eD] at hD
  refine main.trans ((no_root_iff hD).symm.trans (forall_congr' fun t => not_congr ?_))
  unfold InBall
  rw [Fin.sum_univ_{['','','two','three'][n]}]
  simp only [{V}.toReal, {P}.toReal, Matrix.cons_val_zero, Matrix.cons_val_one, Matrix.cons_val]
  constructor <;> intro H <;> nlinarith
end
'''
out+='\nend VecMath\n'
open(sys.argv[1],'w').write(out)
