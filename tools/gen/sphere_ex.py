import sys
out='''import Verif.Props.FloatBall
import Verif.Props.FloatSideEx
import Verif.Props.FloatPlaneEx
import Verif.Props.FloatInvAffineEx
import Verif.Props.FloatChain2Ex
/-! # C119: the hypotheses are met; the misses

(Generated by tools/gen.) -/

namespace VecMath
open Scalar IEEE

theorem ex_int {x : F32} {a b : ℤ} (h : Exactly x (a : ℝ)) (e : a = b) : Exactly x (b : ℝ) := e ▸ h
theorem exi {n : ℤ} (h : |n| ≤ 16777216 := by norm_num) : Exactly (int32 n h) (n : ℝ) := exactly_int
theorem big32' {x : ℝ} (h : |x| ≤ 2 ^ 50) : |x| < overflowAt F32 := by
  refine lt_of_le_of_lt h ((?_ : (2 : ℝ) ^ 50 ≤ _).trans_lt (half_le_overflow (S := F32)))
  show (2 : ℝ) ^ 50 ≤ 2 ^ ((128 : ℤ) - 1)
  norm_num
/-- A difference that is a short integer times a power of two is exact. -/
theorem wide_sub {x y : F32} {a b m : ℤ} {e : ℕ} (hx : Exactly x (a : ℝ)) (hy : Exactly y (b : ℝ)) (h : a - b = m * 2 ^ e) (hm : |m| ≤ 16777216)
    (hb : |((a : ℝ) - (b : ℝ))| ≤ 2 ^ 50) : Exactly (x - y) ((a - b : ℤ) : ℝ) := by
  have c := correct_sub hx.1 hy.1
  rw [hx.2, hy.2] at c
  have c' := c.exact ⟨⟨m, e, (show (-149 : ℤ) ≤ (e : ℤ) by omega), (show |m| ≤ 2 ^ 24 by omega), by
    rw [← Int.cast_sub, h]; push_cast; rw [zpow_natCast]⟩, (show |((a : ℝ) - (b : ℝ))| < 2 ^ (128 : ℤ) by
      refine lt_of_le_of_lt hb ?_
      norm_num)⟩ (big32' hb)
  rw [Int.cast_sub]; exact c'
theorem sq_normal {x : F32} {a : ℤ} (h : Exactly x (a : ℝ)) : Normal F32 (real x ^ 2) := by
  rw [h.2, ← Int.cast_pow]; exact normal_int _
'''
data={2:dict(d=[3,4],o=[-6,-8],c=[0,0],rho=5,rho2=7,i=[1,2]),3:dict(d=[1,2,2],o=[-3,-6,-6],c=[0,0,0],rho=3,rho2=4,i=[1,1,1])}
def lit(k): return f'({k})' if k<0 else f'{k}'
for n,w in [(2,'disc'),(3,'ball')]:
    P=f'Point{n}'; V=f'Vector{n}'; R=f'Ray{n}'
    D=data[n]; ax='xyz'[:n]
    pt=lambda v: f'pt{n} '+' '.join(lit(k) for k in v)
    vec=lambda v: '⟨'+', '.join(f'int32 {lit(k)}' for k in v)+'⟩'
    tv=lambda t: '⟨'+', '.join([t]*n)+'⟩'
    dot=lambda u,v: sum(a*b for a,b in zip(u,v))
    def dotpf(us,vs): # proofs of factors
        s=f'int_mul32 {us[0]} {vs[0]} (by norm_num)'
        for i in range(1,n): s=f'int_add32\' ({s}) (int_mul32 {us[i]} {vs[i]} (by norm_num)) (by norm_num)'
        return s
    E='exi'
    sub=lambda i:f'(int_sub32\' exi exi (by norm_num))'
    dd=[E]*n; oo=[sub(i) for i in range(n)]
    out+=f'''
/-! ### Dimension {n}: from outside towards the {w}, hitting it; from inside -/
noncomputable def aim{n} : {R} F32 := ⟨{pt(D['o'])}, {vec(D['d'])}⟩
noncomputable def from{n} : {R} F32 := ⟨{pt(D['i'])}, {vec(D['d'])}⟩
noncomputable def mid{n} : {P} F32 := {pt(D['c'])}
'''
    for nm,o in [('aim',D['o']),('from',D['i'])]:
        a=dot(D['d'],D['d']); h=dot(D['d'],o); q=dot(o,o)
        out+=f'''theorem {nm}{n}_fin : AllFinite {nm}{n} := {R}.allFinite.2 ⟨{P}.allFinite.2 {tv('trivial')}, {V}.allFinite.2 {tv('trivial')}⟩
theorem {nm}{n}_a : Exactly (Api.dot {nm}{n}.direction {nm}{n}.direction) (({a} : ℤ) : ℝ) :=
  ex_int ({dotpf(dd,dd)}) (by norm_num)
theorem {nm}{n}_h : Exactly (Api.dot {nm}{n}.direction ({nm}{n}.origin - mid{n} : {V} F32)) (({h} : ℤ) : ℝ) :=
  ex_int ({dotpf(dd,oo)}) (by norm_num)
theorem {nm}{n}_o : Exactly (Api.dot ({nm}{n}.origin - mid{n} : {V} F32) ({nm}{n}.origin - mid{n} : {V} F32)) (({q} : ℤ) : ℝ) :=
  ex_int ({dotpf(oo,oo)}) (by norm_num)
theorem {nm}{n}_pos : 0 < real (Api.dot {nm}{n}.direction {nm}{n}.direction) := by rw [{nm}{n}_a.2]; norm_num
'''
    a=dot(D['d'],D['d']); h=dot(D['d'],D['o']); q=dot(D['o'],D['o']); k=q-D['rho']**2; disc=h*h-a*k
    rho=D['rho']; rho2=D['rho2']
    out+=f'''theorem aim{n}_hit : ∃ R, aim{n}.ball mid{n} (int32 {rho}) = some R := by
  have r : Exactly ((int32 {rho} : F32) * int32 {rho}) (({rho*rho} : ℤ) : ℝ) := ex_int (int_mul32 exi exi (by norm_num)) (by norm_num)
  have k := ex_int (int_sub32' aim{n}_o r (by norm_num)) (show _ = ({k} : ℤ) by norm_num)
  have d := ex_int (int_sub32' (int_mul32 aim{n}_h aim{n}_h (by norm_num)) (int_mul32 aim{n}_a k (by norm_num)) (by norm_num)) (show _ = ({disc} : ℤ) by norm_num)
  exact ⟨_, rootRange_of (le_exact int_zero32 d (by norm_num))⟩
example : ∃ R, aim{n}.ball mid{n} (int32 {rho}) = some R ∧ (R.start ≤? R.stop) = true := by
  obtain ⟨R, e⟩ := aim{n}_hit
  exact ⟨R, e, C119_ordered{n} _ _ _ R e aim{n}_a.1 aim{n}_pos aim{n}_h.1⟩
example : ∃ R', aim{n}.back.ball mid{n} (int32 {rho}) = some R' := by
  obtain ⟨R, e⟩ := aim{n}_hit
  rcases C119_back{n} aim{n} mid{n} (int32 {rho}) aim{n}_a.1 aim{n}_pos aim{n}_h.1 with ⟨h, -⟩ | ⟨R, R', -, h, -⟩
  · rw [e] at h; cases h
  · exact ⟨R', h⟩
example : ∃ R', aim{n}.ball mid{n} (-int32 {rho}) = some R' := by
  obtain ⟨R, e⟩ := aim{n}_hit
  rcases C119_radius{n} aim{n} mid{n} (int32 {rho}) aim{n}_a.1 aim{n}_pos aim{n}_h.1 with ⟨h, -⟩ | ⟨R, R', -, h, -⟩
  · rw [e] at h; cases h
  · exact ⟨R', h⟩
example : ∃ R', aim{n}.ball mid{n} (int32 {rho2}) = some R' := by
  obtain ⟨R, e⟩ := aim{n}_hit
  obtain ⟨R', h, -⟩ := C119_grow{n} aim{n} mid{n} (int32 {rho}) (int32 {rho2}) aim{n}_a.1 aim{n}_pos aim{n}_h.1 aim{n}_o.1
    (le_exact int_zero32 exi (by norm_num)) (le_exact exi exi (by norm_num)) R e
  exact ⟨R', h⟩
example : ∃ R, from{n}.ball mid{n} (int32 {rho}) = some R ∧ (R.start ≤? zero) = true ∧ (zero ≤? R.stop) = true :=
  C119_inside{n} _ _ _ from{n}_a.1 from{n}_pos from{n}_h.1 (sq_normal from{n}_h) from{n}_o.1
    (le_exact from{n}_o (int_mul32 exi exi (by norm_num)) (by norm_num))
example : ∃ R, aim{n}.ball mid{n} (int32 {rho}) = some R ∧ (zero ≤? R.start) = true := by
  obtain ⟨R, e⟩ := aim{n}_hit
  exact ⟨R, e, (C119_outside{n} _ _ _ aim{n}_a.1 aim{n}_pos aim{n}_h.1 (sq_normal aim{n}_h)
    (by rw [aim{n}_h.2]; exact lt_of_abs_lt (big32 (by norm_num))) aim{n}_o.1
    (le_exact (int_mul32 exi exi (by norm_num)) aim{n}_o (by norm_num)) R e).2 (le_exact aim{n}_h int_zero32 (by norm_num))⟩
example : aim{n}.ball mid{n} (int32 {rho}) = none ↔ ∀ t : ℝ, ¬ InBall aim{n}.direction.toReal aim{n}.origin.toReal mid{n}.toReal (real (int32 {rho})) t := by
  refine C119_whole{n} (M := 4) (N := 8) aim{n} mid{n} (int32 {rho}) aim{n}_fin ({P}.allFinite.2 {tv('trivial')}) trivial ?_ ?_ ?_ ?_ ?_ (by norm_num) (by norm_num)
    (fits_f32 (by norm_num))
  · intro h
    have := congrFun h 0
    change real (int32 {D['d'][0]}) = 0 at this
    rw [real_int32] at this
    norm_num at this
  · intro i
    fin_cases i <;> exact (OnGrid.int (by norm_num)).congr (exi).2.symm
  · exact fun i => grid_pt{n} {' '.join(['(by norm_num)']*n)} i
  · exact fun i => grid_pt{n} {' '.join(['(by norm_num)']*n)} i
  · exact (OnGrid.int (by norm_num)).congr real_int32.symm

/-! Without rounding -/
noncomputable def aimI{n} : {R} Ideal := ⟨⟨{', '.join(f'Ideal.of ({k})' for k in D['o'])}⟩, ⟨{', '.join(f'Ideal.of {k}' for k in D['d'])}⟩⟩
noncomputable def midI{n} : {P} Ideal := ⟨{', '.join(f'Ideal.of 0' for k in D['o'])}⟩
theorem aimI{n}_fin : AllFinite aimI{n} := {R}.allFinite.2 ⟨{P}.allFinite.2 {tv('Ideal.finite_of _')}, {V}.allFinite.2 {tv('Ideal.finite_of _')}⟩
theorem midI{n}_fin : AllFinite midI{n} := {P}.allFinite.2 {tv('Ideal.finite_of _')}
theorem aimI{n}_dir : (aimI{n}.direction == {V}.zero) = false := by
  rw [Bool.eq_false_iff]
  intro h
  rw [{V}.beq_toReal ({R}.allFinite.1 aimI{n}_fin).2 {V}.fin_zero] at h
  have := congrFun h 0
  change real (Ideal.of {D['d'][0]}) = real (zero : Ideal) at this
  rw [Ideal.real_of, real_zero] at this
  norm_num at this
theorem aimI{n}_nn : (zero ≤? Ideal.of {rho}) = true := by rw [Ideal.le_real finite_zero (Ideal.finite_of _), real_zero, Ideal.real_of]; norm_num
theorem aimI{n}_hit : ∃ R, aimI{n}.ball midI{n} (Ideal.of {rho}) = some R ∧ real R.stop = {(-h+int(disc**.5))//a} := by
  obtain ⟨fa, fh, fk, pa, ea, eh, ek⟩ := {R}.ball_coeff aimI{n}_fin midI{n}_fin (Ideal.finite_of {rho}) aimI{n}_dir
  have va : aimI{n}.direction.toReal ⬝ᵥ aimI{n}.direction.toReal = {a} := by
    simp [aimI{n}, {V}.toReal, dotProduct, Fin.sum_univ_succ]; norm_num
  have vh : aimI{n}.direction.toReal ⬝ᵥ (aimI{n}.origin.toReal - midI{n}.toReal) = {h} := by
    simp [aimI{n}, midI{n}, {V}.toReal, {P}.toReal, dotProduct, Fin.sum_univ_succ]; norm_num
  have vo : (aimI{n}.origin.toReal - midI{n}.toReal) ⬝ᵥ (aimI{n}.origin.toReal - midI{n}.toReal) = {q} := by
    simp [aimI{n}, midI{n}, {P}.toReal, dotProduct, Fin.sum_univ_succ]; norm_num
  rw [va] at ea
  rw [vh] at eh
  rw [vo, Ideal.real_of] at ek
  rcases rootRange_ideal fa fh fk pa with ⟨-, R, e, -, -, -, v⟩ | ⟨d, -⟩
  · refine ⟨R, e, ?_⟩
    rw [v, ea, eh, ek, show ({h} : ℝ) * {h} - {a} * ({q} - {rho} * {rho}) = {int(disc**.5)} ^ 2 by norm_num, Real.sqrt_sq (by norm_num)]
    norm_num
  · rw [ea, eh, ek] at d
    norm_num at d
example : ∃ R : Range Ideal, ∀ t : Ideal, IsFinite t →
    ((Api.distance midI{n} (aimI{n}.at t) ≤? Ideal.of {rho}) = true ↔ (R.start ≤? t) = true ∧ (t ≤? R.stop) = true) := by
  obtain ⟨R, e, -⟩ := aimI{n}_hit
  exact ⟨R, ((C119_exact{n} _ _ _ aimI{n}_fin midI{n}_fin (Ideal.finite_of {rho}) aimI{n}_dir aimI{n}_nn).1 R e).2.2⟩
example : ∃ R, aimI{n}.ball midI{n} (Ideal.of {rho}) = some R ∧ (Api.distance midI{n} (aimI{n}.at R.start) == Ideal.of {rho}) = true := by
  obtain ⟨R, e, -⟩ := aimI{n}_hit
  exact ⟨R, e, (C119_on{n} _ _ _ aimI{n}_fin midI{n}_fin (Ideal.finite_of {rho}) aimI{n}_dir aimI{n}_nn R e).1⟩
example : ∃ B : Range Ideal, Api.intersect (midI{n}.boxAround (Ideal.of {rho})) aimI{n} = some B := by
  obtain ⟨R, e, v⟩ := aimI{n}_hit
  have f := ((C119_exact{n} _ _ _ aimI{n}_fin midI{n}_fin (Ideal.finite_of {rho}) aimI{n}_dir aimI{n}_nn).1 R e).2.1
  obtain ⟨B, h, -⟩ := C119_box_hit{n} _ _ _ aimI{n}_fin midI{n}_fin (Ideal.finite_of {rho}) aimI{n}_dir aimI{n}_nn (by
    intro i h
    fin_cases i
    all_goals
      simp [aimI{n}, {V}.toReal] at h) R e ((Ideal.le_real finite_zero f).2 (by rw [real_zero, v]; norm_num))
  exact ⟨B, h⟩
example (t : Transform{n} Ideal) (h : Motion{n} t) : ∃ R', (Transform.transform t aimI{n} : {R} Ideal).ball (Transform.transform t midI{n} : {P} Ideal) (Ideal.of {rho}) = some R' := by
  obtain ⟨R, e, -⟩ := aimI{n}_hit
  rcases C119_motion{n} t h _ _ _ aimI{n}_fin midI{n}_fin (Ideal.finite_of {rho}) aimI{n}_dir with ⟨h, -⟩ | ⟨-, R', -, h, -⟩
  · rw [e] at h; cases h
  · exact ⟨R', h⟩
'''
out+='''
/-! ### Witnesses -/
noncomputable def farAim : Ray2 F32 := ⟨pt2 6957 9276, ⟨int32 3, int32 4⟩⟩
/-- **C119**: a line straight through the center of a disc of radius 1 that is reported to miss it: `h * h` and `a * k` are rounded
separately, and their difference is negative. -/
theorem C119_miss : ∃ (r : Ray2 F32) (c : Point2 F32), AllFinite r ∧ AllFinite c ∧
    (∃ t : ℝ, ∀ i, r.origin.toReal i + t * r.direction.toReal i = c.toReal i) ∧
    (∃ t, InBall r.direction.toReal r.origin.toReal c.toReal (real (one : F32)) t) ∧ r.ball c one = none := by
  have line : ∀ i, farAim.origin.toReal i + (-2319) * farAim.direction.toReal i = (pt2 0 0).toReal i := by
    intro i
    fin_cases i
    · show real (int32 6957) + (-2319) * real (int32 3) = real (int32 0)
      simp only [real_int32]; norm_num
    · show real (int32 9276) + (-2319) * real (int32 4) = real (int32 0)
      simp only [real_int32]; norm_num
  refine ⟨farAim, pt2 0 0, Ray2.allFinite.2 ⟨Point2.allFinite.2 ⟨trivial, trivial⟩, Vector2.allFinite.2 ⟨trivial, trivial⟩⟩, Point2.allFinite.2 ⟨trivial, trivial⟩,
    ⟨-2319, line⟩, ⟨-2319, ?_⟩, ?_⟩
  · unfold InBall
    simp only [line, sub_self]
    rw [real_one]; norm_num
  have ox : Exactly ((int32 6957 : F32) - int32 0) ((6957 : ℤ) : ℝ) := ex_int (int_sub32' exi exi (by norm_num)) (by norm_num)
  have oy : Exactly ((int32 9276 : F32) - int32 0) ((9276 : ℤ) : ℝ) := ex_int (int_sub32' exi exi (by norm_num)) (by norm_num)
  have a : Exactly (Api.dot farAim.direction farAim.direction) ((25 : ℤ) : ℝ) :=
    ex_int (int_add32' (int_mul32 exi exi (by norm_num)) (int_mul32 exi exi (by norm_num)) (by norm_num)) (by norm_num)
  have h : Exactly (Api.dot farAim.direction (farAim.origin - pt2 0 0 : Vector2 F32)) ((57975 : ℤ) : ℝ) :=
    ex_int (int_add32' (int_mul32 exi ox (by norm_num)) (int_mul32 exi oy (by norm_num)) (by norm_num)) (by norm_num)
  have xx : Exactly (((int32 6957 : F32) - int32 0) * (int32 6957 - int32 0)) ((48399848 : ℤ) : ℝ) := by
    refine exec_mul ox ox ?_ (big32' (by norm_num))
    have := Fmt.rnd_lit binary32 (x := ((6957 : ℤ) : ℝ) * ((6957 : ℤ) : ℝ)) 25 2 12099962 (by decide) (by norm_num) (by norm_num) (by norm_num) (by norm_num)
    exact this.trans (by norm_num)
  have yy : Exactly (((int32 9276 : F32) - int32 0) * (int32 9276 - int32 0)) ((86044176 : ℤ) : ℝ) := by
    refine exec_mul oy oy ?_ (big32' (by norm_num))
    have := Fmt.rnd_lit binary32 (x := ((9276 : ℤ) : ℝ) * ((9276 : ℤ) : ℝ)) 26 3 10755522 (by decide) (by norm_num) (by norm_num) (by norm_num) (by norm_num)
    exact this.trans (by norm_num)
  have oo : Exactly (Api.dot (farAim.origin - pt2 0 0 : Vector2 F32) (farAim.origin - pt2 0 0 : Vector2 F32)) ((134444032 : ℤ) : ℝ) := by
    refine exec_add xx yy ?_ (big32' (by norm_num))
    have := Fmt.rnd_lit_even binary32 (x := ((48399848 : ℤ) : ℝ) + ((86044176 : ℤ) : ℝ)) 27 4 8402752 (by decide) (by decide) (by norm_num) (by norm_num) (by norm_num) (by norm_num)
    exact this.trans (by norm_num)
  have one1 : Exactly (one : F32) ((1 : ℤ) : ℝ) := ⟨finite_one, by rw [real_one]; norm_num⟩
  have rr : Exactly ((one : F32) * one) ((1 : ℤ) : ℝ) := ex_int (int_mul32 one1 one1 (by norm_num)) (by norm_num)
  have k : Exactly (Api.dot (farAim.origin - pt2 0 0 : Vector2 F32) (farAim.origin - pt2 0 0 : Vector2 F32) - one * one) ((134444032 : ℤ) : ℝ) := by
    refine exec_sub oo rr ?_ (big32' (by norm_num))
    have := Fmt.rnd_lit binary32 (x := ((134444032 : ℤ) : ℝ) - ((1 : ℤ) : ℝ)) 27 4 8402752 (by decide) (by norm_num) (by norm_num) (by norm_num) (by norm_num)
    exact this.trans (by norm_num)
  have hh : Exactly (Api.dot farAim.direction (farAim.origin - pt2 0 0 : Vector2 F32) * Api.dot farAim.direction (farAim.origin - pt2 0 0 : Vector2 F32)) ((3361100544 : ℤ) : ℝ) := by
    refine exec_mul h h ?_ (big32' (by norm_num))
    have := Fmt.rnd_lit binary32 (x := ((57975 : ℤ) : ℝ) * ((57975 : ℤ) : ℝ)) 31 8 13129299 (by decide) (by norm_num) (by norm_num) (by norm_num) (by norm_num)
    exact this.trans (by norm_num)
  have ak : Exactly (Api.dot farAim.direction farAim.direction * (Api.dot (farAim.origin - pt2 0 0 : Vector2 F32) (farAim.origin - pt2 0 0 : Vector2 F32) - one * one)) ((3361100800 : ℤ) : ℝ) := by
    refine exec_mul a k ?_ (big32' (by norm_num))
    have := Fmt.rnd_lit binary32 (x := ((25 : ℤ) : ℝ) * ((134444032 : ℤ) : ℝ)) 31 8 13129300 (by decide) (by norm_num) (by norm_num) (by norm_num) (by norm_num)
    exact this.trans (by norm_num)
  have d := ex_int (wide_sub hh ak (m := -1) (e := 8) (by norm_num) (by norm_num) (by norm_num)) (show _ = (-256 : ℤ) by norm_num)
  refine if_neg ?_
  rw [ole_real finite_zero d.1, real_zero, d.2]
  norm_num
/-- **C119**: the computed distance puts a point into a disc that is outside the box around it: the box test would lose it. -/
theorem C119_box_lost : ∃ (c p : Point2 F32) (ρ : F32), AllFinite c ∧ AllFinite p ∧ IsFinite ρ ∧ (Api.distance c p ≤? ρ) = true ∧
    (c.boxAround ρ).isInside p = false := by
  refine ⟨pt2 (-16777216) 0, pt2 1 0, int32 16777216, Point2.allFinite.2 ⟨trivial, trivial⟩, Point2.allFinite.2 ⟨trivial, trivial⟩, trivial, ?_, ?_⟩
  · have dx : Exactly ((int32 1 : F32) - int32 (-16777216)) ((16777216 : ℤ) : ℝ) := by
      refine exec_sub exi exi ?_ (big32' (by norm_num [abs_of_pos]))
      have := Fmt.rnd_lit_even binary32 (x := ((1 : ℤ) : ℝ) - ((-16777216 : ℤ) : ℝ)) 24 1 8388608 (by decide) (by decide) (by norm_num) (by norm_num) (by norm_num) (by norm_num)
      exact this.trans (by norm_num)
    have dy : Exactly ((int32 0 : F32) - int32 0) ((0 : ℤ) : ℝ) := ex_int (int_sub32' exi exi (by norm_num)) (by norm_num)
    have xx : Exactly (((int32 1 : F32) - int32 (-16777216)) * (int32 1 - int32 (-16777216))) ((281474976710656 : ℤ) : ℝ) := by
      refine exec_mul dx dx ?_ (big32' (by norm_num))
      have := Fmt.rnd_lit binary32 (x := ((16777216 : ℤ) : ℝ) * ((16777216 : ℤ) : ℝ)) 48 25 8388608 (by decide) (by norm_num) (by norm_num) (by norm_num) (by norm_num)
      exact this.trans (by norm_num)
    have yy : Exactly (((int32 0 : F32) - int32 0) * (int32 0 - int32 0)) ((0 : ℤ) : ℝ) := ex_int (int_mul32 dy dy (by norm_num)) (by norm_num)
    have s : Exactly (Api.dot (pt2 1 0 - pt2 (-16777216) 0 : Vector2 F32) (pt2 1 0 - pt2 (-16777216) 0 : Vector2 F32)) ((281474976710656 : ℤ) : ℝ) := by
      refine exec_add xx yy ?_ (big32' (by norm_num))
      have := Fmt.rnd_lit binary32 (x := ((281474976710656 : ℤ) : ℝ) + ((0 : ℤ) : ℝ)) 48 25 8388608 (by decide) (by norm_num) (by norm_num) (by norm_num) (by norm_num)
      exact this.trans (by norm_num)
    have q : √((281474976710656 : ℤ) : ℝ) = 16777216 := by
      rw [show ((281474976710656 : ℤ) : ℝ) = 16777216 ^ 2 by norm_num, Real.sqrt_sq (by norm_num)]
    have l : Exactly (Api.distance (pt2 (-16777216) 0) (pt2 1 0)) ((16777216 : ℤ) : ℝ) := by
      refine exec_sqrt s (by norm_num) ?_ (by rw [q]; exact big32' (by norm_num))
      rw [q]
      have := rnd_int32 (n := 16777216) (by norm_num)
      exact_mod_cast this
    exact le_exact l exi (by norm_num)
  · have lo : Exactly ((int32 (-16777216) : F32) - int32 16777216) ((-33554432 : ℤ) : ℝ) := by
      exact ex_int (wide_sub exi exi (m := -8388608) (e := 2) (by norm_num) (by norm_num) (by norm_num)) (by norm_num)
    have hi : Exactly ((int32 (-16777216) : F32) + int32 16777216) ((0 : ℤ) : ℝ) := ex_int (int_add32' exi exi (by norm_num)) (by norm_num)
    rw [Bool.eq_false_iff]
    intro h
    have := ((isInside2_iff.1 h).1).2
    change (int32 1 ≤? fmax ((int32 (-16777216) : F32) - int32 16777216) (int32 (-16777216) + int32 16777216)) = true at this
    have f := fmax_fin lo.1 hi.1
    rw [ole_real (exi (n := 1)).1 f.1, f.2, lo.2, hi.2, real_int32] at this
    norm_num at this

end VecMath
'''
open(sys.argv[1],'w').write(out)
