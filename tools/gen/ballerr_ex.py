out='''import Verif.Props.FloatBallErr
import Verif.Props.FloatBallEx
import Verif.Props.FloatExamples8
/-! # C119: rays clear of tangency

(Generated by tools/gen.) -/

namespace VecMath
open Scalar IEEE Matrix

theorem err32 {D O P : ℝ} (h : |D * (2 * O + P)| + |D + O + P + 1| ≤ 1000000) : ballErr F32 D O P < 1 := by
  have hu : uro F32 = 1 / 16777216 := by
    have : uro F32 = 2 ^ (-24 : ℤ) := by show (2 : ℝ) ^ (_ : ℤ) = _; congr 1
    rw [this]; norm_num
  have ht : tiny F32 = 2 ^ (-150 : ℤ) := by show (2 : ℝ) ^ (_ : ℤ) = _; congr 1
  have ht' : tiny F32 ≤ 1 / 16777216 := by rw [ht]; norm_num
  have t0 := tiny_pos (S := F32)
  have a := le_abs_self (D * (2 * O + P))
  have b := le_abs_self (D + O + P + 1)
  have b' := abs_nonneg (D + O + P + 1)
  unfold ballErr
  rw [hu]
  have : 12 * tiny F32 * (D + O + P + 1) ≤ 12 * (1 / 16777216) * |D + O + P + 1| :=
    (mul_le_mul_of_nonneg_left b (by positivity)).trans (mul_le_mul_of_nonneg_right (by linarith) b')
  linarith
'''
for n,o,dd,cc,rho,a,h,oo in ((2,(-6,-8),(3,4),(0,0),5,25,-50,100),(3,(-3,-6,-6),(1,2,2),(0,0,0),3,9,-27,81),(2,(1,2),(3,4),(5,0),3,25,-4,20),(3,(1,0,0),(0,3,4),(3,1,1),1,25,-7,6)):
    hit = h*h-a*(oo-rho*rho) >= 0
    nm=f"{'hit' if hit else 'off'}{n}"
    V=f'Vector{n}'
    f=lambda x: f'({x})' if x<0 else str(x)
    ray=f'⟨pt{n} '+' '.join(f(x) for x in o)+', ⟨'+', '.join(f'int32 {f(x)}' for x in dd)+'⟩⟩'
    c=f'(pt{n} '+' '.join(f(x) for x in cc)+')'
    sub='(int_sub32\' exi exi (by norm_num))'
    def dot(x,y):
        t=f'(int_mul32 {x} {y} (by norm_num))'
        r=t
        for i in range(n-1): r=f"(int_add32' {r} {t} (by norm_num))"
        return r
    out+=f'''
noncomputable def ray_{nm} : Ray{n} F32 := {ray}
noncomputable def mid_{nm} : Point{n} F32 := {c[1:-1]}
theorem exact_{nm} : Exactly (Api.dot ray_{nm}.direction (ray_{nm}.origin - mid_{nm} : {V} F32) * Api.dot ray_{nm}.direction (ray_{nm}.origin - mid_{nm} : {V} F32) -
    Api.dot ray_{nm}.direction ray_{nm}.direction * (Api.dot (ray_{nm}.origin - mid_{nm} : {V} F32) (ray_{nm}.origin - mid_{nm} : {V} F32) - int32 {rho} * int32 {rho})) (({h*h-a*(oo-rho*rho)} : ℤ) : ℝ) := by
  have a : Exactly (Api.dot ray_{nm}.direction ray_{nm}.direction) (({a} : ℤ) : ℝ) := ex_int {dot('exi','exi')} (by norm_num)
  have h : Exactly (Api.dot ray_{nm}.direction (ray_{nm}.origin - mid_{nm} : {V} F32)) (({h} : ℤ) : ℝ) := ex_int {dot('exi',sub)} (by norm_num)
  have o : Exactly (Api.dot (ray_{nm}.origin - mid_{nm} : {V} F32) (ray_{nm}.origin - mid_{nm} : {V} F32)) (({oo} : ℤ) : ℝ) := ex_int {dot(sub,sub)} (by norm_num)
  have r := ex_int (int_mul32 (exi (n := {rho})) (exi (n := {rho})) (by norm_num)) (show _ = ({rho*rho} : ℤ) by norm_num)
  have k := ex_int (int_sub32' o r (by norm_num)) (show _ = ({oo-rho*rho} : ℤ) by norm_num)
  exact ex_int (int_sub32' (int_mul32 h h (by norm_num)) (int_mul32 a k (by norm_num)) (by norm_num)) (by norm_num)
theorem dir_{nm} : ray_{nm}.direction.toReal ≠ 0 := by
  intro h
  have := congrFun h {n-1}
  change real (int32 {f(dd[n-1])}) = 0 at this
  rw [real_int32] at this
  norm_num at this
theorem sums_{nm} : ray_{nm}.direction.toReal ⬝ᵥ ray_{nm}.direction.toReal = {a} ∧ ray_{nm}.direction.toReal ⬝ᵥ (ray_{nm}.origin.toReal - mid_{nm}.toReal) = {h} ∧
    (ray_{nm}.origin.toReal - mid_{nm}.toReal) ⬝ᵥ (ray_{nm}.origin.toReal - mid_{nm}.toReal) = {oo} := by
  simp only [dotProduct, {'Fin.sum_univ_two' if n==2 else 'Fin.sum_univ_three'}, Pi.sub_apply]
  simp only [ray_{nm}, mid_{nm}, pt{n}, Vector{n}.toReal, Point{n}.toReal, Matrix.cons_val_zero, Matrix.cons_val_one, Matrix.cons_val, real_int32]
  norm_num
example : ray_{nm}.ball mid_{nm} (int32 {rho}) = none ↔ ∀ t : ℝ, ¬ InBall ray_{nm}.direction.toReal ray_{nm}.origin.toReal mid_{nm}.toReal (real (int32 {rho})) t := by
  obtain ⟨a, h, o⟩ := sums_{nm}
  refine C119_clear{n} standard_f32 _ _ _ dir_{nm} exact_{nm}.1 ?_
  rw [a, h, o, real_int32]
  refine lt_of_lt_of_le (err32 ?_) ?_ <;> norm_num [abs_of_nonneg, abs_of_nonpos]
'''
    if hit: out+=f'''example : ∃ t : ℝ, ∑ i, (ray_{nm}.origin.toReal i + t * ray_{nm}.direction.toReal i - mid_{nm}.toReal i) ^ 2 ≤ {rho*rho} + 1 / {a} := by
  obtain ⟨a, h, o⟩ := sums_{nm}
  have n := (C119_near{n} standard_f32 ray_{nm} mid_{nm} (int32 {rho}) dir_{nm} exact_{nm}.1).1 (fun c => by
    have := (rootRange_none exact_{nm}.1).1 c
    rw [exact_{nm}.2] at this
    norm_num at this)
  obtain ⟨t, ht⟩ := n
  refine ⟨t, ht.trans ?_⟩
  rw [a, o, real_int32]
  have := (err32 (D := {a}) (O := {oo}) (P := (({rho} : ℤ) : ℝ) ^ 2) (by norm_num [abs_of_nonneg])).le
  have := div_le_div_of_nonneg_right this (show (0 : ℝ) ≤ {a} by norm_num)
  norm_num at this ⊢
  linarith
'''
    else: out+=f'''example : ∀ t : ℝ, {rho*rho} - 1 / {a} ≤ ∑ i, (ray_{nm}.origin.toReal i + t * ray_{nm}.direction.toReal i - mid_{nm}.toReal i) ^ 2 := by
  obtain ⟨a, h, o⟩ := sums_{nm}
  have n := (C119_near{n} standard_f32 ray_{nm} mid_{nm} (int32 {rho}) dir_{nm} exact_{nm}.1).2 ((rootRange_none exact_{nm}.1).2 (by
    rw [exact_{nm}.2]
    norm_num))
  intro t
  refine le_trans ?_ (n t)
  rw [a, o, real_int32]
  have := (err32 (D := {a}) (O := {oo}) (P := (({rho} : ℤ) : ℝ) ^ 2) (by norm_num [abs_of_nonneg])).le
  have := div_le_div_of_nonneg_right this (show (0 : ℝ) ≤ {a} by norm_num)
  norm_num at this ⊢
  linarith
'''
out+='\nend VecMath\n'
open('/verif/lean/Verif/Props/FloatBallErrEx.lean','w').write(out)
