exec(open('/tmp/w/fl.py').read().split('for name')[0])
rnd,sq=mk(24,-149)
def lg(x):
    k=0
    while Fr(2)**k> x: k-=1
    while Fr(2)**(k+1)<=x: k+=1
    return k
def lit(name,expr,x,z,sqrt=None):
    k=lg(x if sqrt is None else z); q=max(k-23,-149); n=z/Fr(2)**q; assert n.denominator==1
    if sqrt is None:
        ex = x==z or abs(x-z)==Fr(2)**q/2
        return f'''theorem {name} : binary32.rnd ({expr}) = ({z} : ℝ) := by
  rw [binary32.rnd_lit ({k}) ({q}) {n} (by decide)]
  · norm_num
  all_goals norm_num
'''
    return f'''theorem {name} : binary32.rnd ({expr}) = ({z} : ℝ) := by
  rw [binary32.rnd_lit ({k}) ({q}) {n} (by decide)]
  · norm_num
  · rw [Real.le_sqrt (by norm_num) (by norm_num)]; norm_num
  · rw [Real.sqrt_lt' (by norm_num)]; norm_num
  · rw [Real.lt_sqrt (by norm_num)]; norm_num
  · rw [Real.sqrt_lt' (by norm_num)]; norm_num
'''
L=Fr(4448731,1048576); q=Fr(2965821,4194304)
w=rnd(q*3); s=rnd(w*w); L2=sq(2*s); u=rnd(w/L2); w2=rnd(u*3)
out='''import Verif.Props.FloatStep
import Verif.Props.RealStep
import Verif.Props.EncloseEx
import Verif.Props.FloatCosine
import Verif.Props.PathEx
/-! # C123: the hypotheses are met; limiting twice; the walk that does not arrive

(Generated by tools/gen.) -/

namespace VecMath
open Scalar IEEE

section
variable {S : Type} [Scalar S] [IEEE S] [Binary S]
theorem zero_scaled {x m : S} (h : (x == zero) = true) (hm : IsFinite m) : (x * m == zero) = true := by
  have fx : IsFinite x := (finite_num (num_of_beq h)).2 finite_zero
  have rx : real x = 0 := (real_num (num_of_beq h)).trans real_zero
  have := exec_mul (z := 0) (x := 0) (y := real m) ⟨fx, rx⟩ ⟨hm, rfl⟩ (by rw [zero_mul]; exact Fmt.rnd_zero _) (by
    rw [zero_mul, abs_zero]; exact (zpow_pos two_pos _).trans (half_le_overflow (S := S)))
  exact (obeq_real this.1 finite_zero).2 (this.2.trans real_zero.symm)
theorem below_infinity {m x : S} (hm : IsFinite m) (h : (x == infinity) = true) : (m <? x) = true := by
  rw [beq_iff] at h
  rw [lt_iff, hm.val, h.2.2]
  exact ⟨hm.not_nan, h.1, by simp⟩
/-- **C123**, where it fails in floating point: a finite vector whose length overflows is not limited but lost, whatever the limit is. -/
theorem C123_huge2 (v : Vector2 S) (m : S) (hv : AllFinite v) (hm : IsFinite m) (h : overflowAt S ≤ real v.x ^ 2 ∨ overflowAt S ≤ real v.y ^ 2) :
    (v.limit m == Vector2.zero) = true := by
  have k := C13_float_huge2 v hv h
  unfold Vector2.limit
  rw [below_infinity hm k.1]
  have e := Vector2.beq_iff.1 k.2
  exact Vector2.beq_iff.2 ⟨zero_scaled e.1 hm, zero_scaled e.2 hm⟩
/-- **C123**, where it fails in floating point: a finite vector whose length overflows is not limited but lost, whatever the limit is. -/
theorem C123_huge3 (v : Vector3 S) (m : S) (hv : AllFinite v) (hm : IsFinite m)
    (h : overflowAt S ≤ real v.x ^ 2 ∨ overflowAt S ≤ real v.y ^ 2 ∨ overflowAt S ≤ real v.z ^ 2) :
    (v.limit m == Vector3.zero) = true := by
  have k := C13_float_huge3 v hv h
  unfold Vector3.limit
  rw [below_infinity hm k.1]
  have e := Vector3.beq_iff.1 k.2
  exact Vector3.beq_iff.2 ⟨zero_scaled e.1 hm, zero_scaled e.2.1 hm, zero_scaled e.2.2 hm⟩
end

/-! ## Limiting twice: the values in `f32` -/
'''
out+=lit('limit_scale',f'({q} : ℝ) * 3',q*3,w)
out+=lit('limit_square',f'({w} : ℝ) * ({w} : ℝ)',w*w,s)
out+=lit('limit_sum',f'({s} : ℝ) + ({s} : ℝ)',2*s,2*s)
out+=lit('limit_sum0',f'({2*s} : ℝ) + 0',2*s,2*s)
out+=lit('limit_root',f'√({2*s} : ℝ)',2*s,L2,1)
out+=lit('limit_quot',f'({w} : ℝ) / ({L2} : ℝ)',w/L2,u)
out+=lit('limit_scale2',f'({u} : ℝ) * 3',u*3,w2)
out+=lit('limit_35','((3 : ℤ) : ℝ) / ((5 : ℤ) : ℝ)',Fr(3,5),rnd(Fr(3,5)))
out+=lit('limit_45','((4 : ℤ) : ℝ) / ((5 : ℤ) : ℝ)',Fr(4,5),rnd(Fr(4,5)))
out+=lit('limit_18',f'(18 : ℝ) + 0',Fr(18),Fr(18))
out+=f'''theorem three_ex : Exactly (int32 3 : F32) 3 := by have := exi (n := 3); rwa [show ((3 : ℤ) : ℝ) = 3 by norm_num] at this
theorem zero_ex : Exactly (int32 0 : F32) 0 := by have := exi (n := 0); rwa [Int.cast_zero] at this
theorem nine_ex : Exactly (int32 3 * int32 3 : F32) 9 := exec_mul three_ex three_ex sq9_32 (big32' (by norm_num))
theorem farFlat : Exactly (int32 0 - int32 0 : F32) 0 := by
  have := ex_int (b := 0) (int_sub32' (exi (n := 0)) (exi (n := 0)) (by norm_num)) (by norm_num); rwa [Int.cast_zero] at this
theorem zero_zero : Exactly (int32 0 * int32 0 : F32) 0 :=
  exec_mul zero_ex zero_ex (by rw [zero_mul]; exact Fmt.rnd_zero _) (big32' (by norm_num))
theorem zero_over {{a b : F32}} {{y : ℝ}} (ha : Exactly a 0) (hb : Exactly b y) (h0 : y ≠ 0) : Exactly (a / b) 0 :=
  exec_div ha hb h0 (by rw [zero_div]; exact Fmt.rnd_zero _) (big32' (by norm_num))
theorem zero_by {{a b : F32}} {{y : ℝ}} (ha : Exactly a 0) (hb : Exactly b y) : Exactly (a * b) 0 :=
  exec_mul ha hb (by rw [zero_mul]; exact Fmt.rnd_zero _) (big32' (by norm_num))
theorem sqrt_small {{x : ℝ}} (h : x ≤ 100) : |√x| < overflowAt F32 := by
  refine big32' ?_
  rw [abs_of_nonneg (Real.sqrt_nonneg _), Real.sqrt_le_left (by norm_num)]
  linarith
/-- The limited component. -/
theorem limit_once {{l : F32}} (hl : Exactly l ({L} : ℝ)) : Exactly (int32 3 / l * int32 3) ({w} : ℝ) :=
  exec_mul (exec_div three_ex hl (by norm_num) quot_32 (big32' (by norm_num))) three_ex limit_scale (big32' (by norm_num))
theorem limit_twice {{x l : F32}} (hx : Exactly x ({w} : ℝ)) (hl : Exactly l ({L2} : ℝ)) : Exactly (x / l * int32 3) ({w2} : ℝ) :=
  exec_mul (exec_div hx hl (by norm_num) limit_quot (big32' (by norm_num))) three_ex limit_scale2 (big32' (by norm_num))
theorem lt_reals {{x y : F32}} {{a b : ℝ}} (hx : Exactly x a) (hy : Exactly y b) (h : a < b) : (x <? y) = true := by
  rw [olt_real hx.1 hy.1, hx.2, hy.2]; exact h
'''
for n in (2,3):
    P=f'Point{n}'; V=f'Vector{n}'; cs='xyz'[:n]
    z3=', int32 0' if n==3 else ''
    Z='''
  · left; show real (int32 0 / Api.length short3) * _ = _; rw [(zero_over zero_ex short3_length (by norm_num)).2, zero_mul]''' if n==3 else ''
    A=['1','2'] if n==2 else ['1','2.1','2.2']
    out+=f'''
/-! ## Dimension {n} -/
noncomputable def diag{n} : {V} F32 := ⟨int32 3, int32 3{z3}⟩
theorem diag{n}_length : Exactly (Api.length diag{n}) ({L} : ℝ) := by
  have h18 : Exactly (int32 3 * int32 3 + int32 3 * int32 3 : F32) 18 := exec_add nine_ex nine_ex sum18_32 (big32' (by norm_num))
'''
    if n==3: out+='''  have h18 := exec_add h18 zero_zero limit_18 (big32' (by norm_num))
'''
    out+=f'''  exact exec_sqrt h18 (by norm_num) root_32 (sqrt_small (by norm_num))
theorem diag{n}_limit : diag{n}.limit (int32 3) = diag{n}.normalize * int32 3 := by
  have h : (int32 3 <? Api.length diag{n}) = true := lt_reals three_ex diag{n}_length (by norm_num)
  unfold {V}.limit; rw [h]; simp
theorem diag{n}_x : Exactly (diag{n}.limit (int32 3)).x ({w} : ℝ) := by rw [diag{n}_limit]; exact limit_once diag{n}_length
theorem diag{n}_y : Exactly (diag{n}.limit (int32 3)).y ({w} : ℝ) := by rw [diag{n}_limit]; exact limit_once diag{n}_length
'''
    if n==3: out+=f'''theorem diag3_z : Exactly (diag3.limit (int32 3)).z 0 := by
  rw [diag3_limit]; exact zero_by (zero_over zero_ex diag3_length (by norm_num)) three_ex
'''
    out+=f'''theorem diag{n}_length2 : Exactly (Api.length (diag{n}.limit (int32 3))) ({L2} : ℝ) := by
  have h (a : F32) (ha : Exactly a ({w} : ℝ)) := exec_mul ha ha limit_square (big32' (by norm_num))
  have s := exec_add (h _ diag{n}_x) (h _ diag{n}_y) limit_sum (big32' (by norm_num))
'''
    if n==3: out+='''  have s := exec_add s (zero_by diag3_z diag3_z) limit_sum0 (big32' (by norm_num))
'''
    out+=f'''  exact exec_sqrt s (by norm_num) limit_root (sqrt_small (by norm_num))
/-- **C123**, where it fails in floating point: a limited vector can still be longer than the limit, and then limiting it again changes it. In
`f32`, the vector `(3, 3{', 0' if n==3 else ''})` limited to 3. -/
theorem C123_not_idempotent{n} : ∃ (v : {V} F32) (m : F32), AllFinite v ∧ (zero <? m) = true ∧ (m <? Api.length (v.limit m)) = true ∧
    ((v.limit m).limit m == v.limit m) = false := by
  refine ⟨diag{n}, int32 3, {V}.allFinite.2 ⟨{', '.join(['trivial']*n)}⟩, lt_exact int_zero32 exi (by norm_num), lt_reals three_ex diag{n}_length2 (by norm_num), ?_⟩
  have e : (diag{n}.limit (int32 3)).limit (int32 3) = (diag{n}.limit (int32 3)).normalize * int32 3 := by
    have h : (int32 3 <? Api.length (diag{n}.limit (int32 3))) = true := lt_reals three_ex diag{n}_length2 (by norm_num)
    generalize diag{n}.limit (int32 3) = v at h ⊢
    unfold {V}.limit; rw [h]; simp
  rw [Bool.eq_false_iff]
  intro k
  rw [e] at k
  have k := ({V}.beq_iff.1 k).1
  have a : Exactly ((diag{n}.limit (int32 3)).normalize * int32 3).x ({w2} : ℝ) := limit_twice diag{n}_x diag{n}_length2
  have := (exactly_ne a diag{n}_x (by norm_num)).symm.trans k
  exact Bool.noConfusion this

/-! ### The walk that does not arrive -/
noncomputable def farGoal{n} : {P} F32 := ⟨int32 16777216 + int32 2, int32 0{z3}⟩
noncomputable def farStart{n} : {P} F32 := ⟨int32 16777216, int32 0{z3}⟩
theorem farGoal{n}_x : Exactly farGoal{n}.x ((16777218 : ℤ) : ℝ) := by
  refine exec_add (exi (n := 16777216)) (exi (n := 2)) ?_ (big32' ?_)
  · have := Fmt.rnd_lit binary32 (x := ((16777216 : ℤ) : ℝ) + ((2 : ℤ) : ℝ)) 24 1 8388609 (by decide) (by norm_num) (by norm_num) (by norm_num) (by norm_num)
    exact this.trans (by norm_num)
  · rw [abs_of_pos] <;> norm_num
theorem farGoal{n}_fin : AllFinite farGoal{n} := {P}.allFinite.2 ⟨farGoal{n}_x.1{', trivial'*(n-1)}⟩
/-- Where the walk is. -/
def Stuck{n} (p : {P} F32) : Prop := Exactly p.x ((16777216 : ℤ) : ℝ) ∧ {' ∧ '.join(f'Exactly p.{c} ((0 : ℤ) : ℝ)' for c in cs[1:])}
theorem stuck{n}_start : Stuck{n} farStart{n} := ⟨{', '.join(['exi']*n)}⟩
theorem stuck{n}_distance {{p : {P} F32}} (h : Stuck{n} p) : Exactly (Api.distance p farGoal{n}) ((2 : ℤ) : ℝ) := by
  have z {{a : F32}} (ha : Exactly a ((0 : ℤ) : ℝ)) : (int32 0 - a == zero) = true :=
    beq_exact' (ex_int (int_sub32' exi ha (by norm_num)) (show _ = (0 : ℤ) by norm_num)) (ex_int int_zero32 (by norm_num))
  exact axis_dist{n} (ex_int (int_sub32' farGoal{n}_x h.1 (by norm_num)) (by norm_num)) {'(z h.2)' if n==2 else '(z h.2.1) (z h.2.2)'} (by norm_num) (by norm_num)
theorem stuck{n}_step {{p : {P} F32}} (h : Stuck{n} p) : Stuck{n} ({P}.towards farGoal{n} (int32 1) p) := by
  have d := stuck{n}_distance h
  have c : (Api.distance p farGoal{n} ≤? int32 1) = false := by
    rw [Bool.eq_false_iff, Ne, ole_real d.1 (exi (n := 1)).1, d.2, (exi (n := 1)).2]; norm_num
  have e : {P}.towards farGoal{n} (int32 1) p = p + ((farGoal{n} - p : {V} F32).normalize * int32 1 : {V} F32) := by
    unfold {P}.towards; rw [c]; simp
  rw [e]
  have sx : Exactly (farGoal{n}.x - p.x) ((2 : ℤ) : ℝ) := ex_int (int_sub32' farGoal{n}_x h.1 (by norm_num)) (by norm_num)
  have ux : Exactly ((farGoal{n}.x - p.x) / Api.distance p farGoal{n}) ((1 : ℤ) : ℝ) := by
    refine exec_div sx d (by norm_num) ?_ (big32' (by norm_num))
    have := Fmt.rnd_lit binary32 (x := ((2 : ℤ) : ℝ) / ((2 : ℤ) : ℝ)) 0 (-23) 8388608 (by decide) (by norm_num) (by norm_num) (by norm_num) (by norm_num)
    exact this.trans (by norm_num)
  have mx : Exactly ((farGoal{n}.x - p.x) / Api.distance p farGoal{n} * int32 1) ((1 : ℤ) : ℝ) := ex_int (int_mul32 ux exi (by norm_num)) (by norm_num)
  have z {{a : F32}} (ha : Exactly a ((0 : ℤ) : ℝ)) : Exactly (a + (int32 0 - a) / Api.distance p farGoal{n} * int32 1) ((0 : ℤ) : ℝ) := by
    have sa : Exactly (int32 0 - a) 0 := by
      have := ex_int (b := 0) (int_sub32' (exi (n := 0)) ha (by norm_num)) (by norm_num); rwa [Int.cast_zero] at this
    have m := zero_by (zero_over sa d (by norm_num)) (exi (n := 1))
    have m' : Exactly ((int32 0 - a) / Api.distance p farGoal{n} * int32 1) ((0 : ℤ) : ℝ) := by rw [Int.cast_zero]; exact m
    exact ex_int (int_add32' ha m' (by norm_num)) (by norm_num)
  exact ⟨lose_one h.1 mx, {'z h.2' if n==2 else 'z h.2.1, z h.2.2'}⟩
theorem stuck{n}_always (k : ℕ) : Stuck{n} (repeated ({P}.towards farGoal{n} (int32 1)) k farStart{n}) := by
  induction k with
  | zero => exact stuck{n}_start
  | succ k ih => rw [repeated_succ]; exact stuck{n}_step ih
/-- **C123**, where it fails in floating point: a walk need not arrive, however long. In `f32`, from `(2^24, 0{', 0' if n==3 else ''})` with steps of length 1 towards
`(2^24 + 2, 0{', 0' if n==3 else ''})`: in exact arithmetic two steps suffice, but every step is rounded away. -/
theorem C123_stuck{n} : ∃ (t p : {P} F32) (s : F32), AllFinite t ∧ AllFinite p ∧ IsFinite s ∧ (zero <? s) = true ∧
    (Api.distance p t ≤? s + s) = true ∧ ∀ k, (repeated ({P}.towards t s) k p == t) = false ∧ (Api.distance (repeated ({P}.towards t s) k p) t == s + s) = true := by
  have two : Exactly (int32 1 + int32 1 : F32) ((2 : ℤ) : ℝ) := ex_int (int_add32' exi exi (by norm_num)) (by norm_num)
  refine ⟨farGoal{n}, farStart{n}, int32 1, farGoal{n}_fin, {P}.allFinite.2 ⟨{', '.join(['trivial']*n)}⟩, trivial, lt_exact int_zero32 exi (by norm_num),
    le_exact (stuck{n}_distance stuck{n}_start) two le_rfl, fun k => ⟨?_, beq_exact' (stuck{n}_distance (stuck{n}_always k)) two⟩⟩
  rw [Bool.eq_false_iff]
  intro h
  have h := ({P}.beq_iff.1 h).1
  have := (exactly_ne (stuck{n}_always k).1 farGoal{n}_x (by norm_num)).symm.trans h
  exact Bool.noConfusion this

/-! ### The hypotheses are met -/
theorem farGap{n} : Exactly (farGoal{n}.x - farStart{n}.x) ((2 : ℤ) : ℝ) := ex_int (int_sub32' farGoal{n}_x (exi (n := 16777216)) (by norm_num)) (by norm_num)
theorem farGap{n}_no : (Api.distance farStart{n} farGoal{n} ≤? int32 1) = false := by
  have d := stuck{n}_distance stuck{n}_start
  rw [Bool.eq_false_iff, Ne, ole_real d.1 (exi (n := 1)).1, d.2, (exi (n := 1)).2]; norm_num
theorem farUnit{n} : Exactly ((farGoal{n}.x - farStart{n}.x) / Api.distance farStart{n} farGoal{n}) 1 := by
  refine exec_div farGap{n} (stuck{n}_distance stuck{n}_start) (by norm_num) ?_ (big32' (by norm_num))
  have := Fmt.rnd_lit binary32 (x := ((2 : ℤ) : ℝ) / ((2 : ℤ) : ℝ)) 0 (-23) 8388608 (by decide) (by norm_num) (by norm_num) (by norm_num) (by norm_num)
  exact this.trans (by norm_num)
noncomputable def short{n} : {V} F32 := ⟨int32 3, int32 4{z3}⟩
theorem short{n}_length : Exactly (Api.length short{n}) ((5 : ℤ) : ℝ) := by
  have s : Exactly (int32 3 * int32 3 + int32 4 * int32 4 : F32) ((25 : ℤ) : ℝ) :=
    ex_int (int_add32' (int_mul32 exi exi (by norm_num)) (int_mul32 exi exi (by norm_num)) (by norm_num)) (by norm_num)
'''
    if n==3: out+='''  have s := ex_int (b := 25) (int_add32' s (int_mul32 (exi (n := 0)) (exi (n := 0)) (by norm_num)) (by norm_num)) (by norm_num)
'''
    out+=f'''  have e : √((25 : ℤ) : ℝ) = 5 := by rw [show ((25 : ℤ) : ℝ) = 5 ^ 2 by norm_num, Real.sqrt_sq (by norm_num)]
  refine exec_sqrt s (by norm_num) ?_ (by rw [e]; exact big32' (by norm_num))
  rw [e]
  have := Fmt.rnd_lit binary32 (x := 5) 2 (-21) 10485760 (by decide) (by norm_num) (by norm_num) (by norm_num) (by norm_num)
  exact this.trans (by norm_num)
theorem short{n}_unit : short{n}.UnitNormal ∧ AllFinite short{n}.normalize := by
  have h {{a : ℤ}} {{x : F32}} (hx : Exactly x (a : ℝ)) (ha : 0 ≤ a) (hb : a ≤ 4) : Normal F32 (real x / real (Api.length short{n})) ∧ IsFinite (x / Api.length short{n}) := by
    rw [hx.2, short{n}_length.2]
    have a0 : (0 : ℝ) ≤ a := by exact_mod_cast ha
    have a4 : (a : ℝ) ≤ 4 := by exact_mod_cast hb
    constructor
    · rcases ha.eq_or_lt with rfl | h
      · left; norm_num
      · right
        have : (1 : ℝ) ≤ a := by exact_mod_cast h
        rw [abs_of_nonneg (by positivity)]
        show (2 : ℝ) ^ ((-149 : ℤ) + 24 - 1) ≤ _
        refine le_trans (b := 1 / 5) (by norm_num) ?_
        push_cast; linarith
    · refine (correct_div hx.1 short{n}_length.1 (by rw [short{n}_length.2]; norm_num)).1.2 ?_
      rw [hx.2, short{n}_length.2]
      refine big32' ?_
      rw [abs_of_nonneg (by positivity)]
      push_cast
      linarith [show (4 : ℝ) / 5 ≤ 2 ^ 50 by norm_num]
  exact ⟨⟨{', '.join(f'(h (exi (n := {v})) (by norm_num) (by norm_num)).1' for v in [3,4,0][:n])}⟩, {V}.allFinite.2 ⟨{', '.join(f'(h (exi (n := {v})) (by norm_num) (by norm_num)).2' for v in [3,4,0][:n])}⟩⟩
example := C123_shrink{n} short{n} (int32 2) (le_exact int_zero32 exi (by norm_num)) ({V}.allFinite.2 ⟨{', '.join(['trivial']*n)}⟩) short{n}_length.1 short{n}_unit.2 short{n}_unit.1
example := C123_length{n} short{n} (int32 2) (le_exact int_zero32 exi (by norm_num)) (lt_exact exi short{n}_length (by norm_num)) ({V}.allFinite.2 ⟨{', '.join(['trivial']*n)}⟩)
    short{n}_length.1 short{n}_unit.2 short{n}_unit.1 {' '.join(['(sq_normal exi)']*n)} (by
  have b (x : ℝ) (h : 1 ≤ x) : Normal F32 x := by
    right; rw [abs_of_nonneg (by linarith)]; show (2 : ℝ) ^ ((-149 : ℤ) + 24 - 1) ≤ _; exact le_trans (by norm_num) h
  have ux := exec_div (exi (n := 3)) short{n}_length (by norm_num) limit_35 (big32' (by norm_num))
  have uy := exec_div (exi (n := 4)) short{n}_length (by norm_num) limit_45 (big32' (by norm_num))
  intro i
  rw [(exi (n := 2)).2]
  fin_cases i
  · exact b _ (by show _ ≤ real (int32 3 / Api.length short{n}) * _; rw [ux.2]; norm_num)
  · exact b _ (by show _ ≤ real (int32 4 / Api.length short{n}) * _; rw [uy.2]; norm_num){Z})
example := C123_between{n} farGoal{n} farStart{n} (int32 1) (le_exact int_zero32 exi (by norm_num)) ({P}.allFinite.2 ⟨{', '.join(['trivial']*n)}⟩)
    ({V}.allFinite.2 ⟨farGap{n}.1, {', '.join(['farFlat.1']*(n-1))}⟩) farGap{n}_no (stuck{n}_distance stuck{n}_start).1
    ({V}.allFinite.2 ⟨farUnit{n}.1, {', '.join([f'(zero_over farFlat (stuck{n}_distance stuck{n}_start) (by norm_num)).1']*(n-1))}⟩) (by
  have d := (stuck{n}_distance stuck{n}_start).2
  refine ⟨?_, {', '.join(['?_']*(n-1))}⟩
  · right
    show _ ≤ |real (farGoal{n}.x - farStart{n}.x) / real (Api.distance farStart{n} farGoal{n})|
    rw [d, farGap{n}.2]
    show (2 : ℝ) ^ ((-149 : ℤ) + 24 - 1) ≤ _
    norm_num
  all_goals
    left
    show real (int32 0 - int32 0 : F32) / _ = 0
    rw [farFlat.2, zero_div])
example : repeated ({P}.towards farGoal{n} (int32 2)) 1 farStart{n} = farGoal{n} :=
  C123_arrive{n} _ _ _ farGoal{n}_fin (le_exact int_zero32 exi (by norm_num)) (le_exact (stuck{n}_distance stuck{n}_start) exi (by norm_num)) 0
example (v : {V} Ideal) (hv : AllFinite v) := C123_exact_limit{n} v (Ideal.of 2) hv (Ideal.finite_of _) (ideal_nonneg (by norm_num))
example (t p : {P} Ideal) (ht : AllFinite t) (hp : AllFinite p) (k : ℕ) :=
  C123_exact_walk{n} t p (Ideal.of (1 / 2)) ht hp (Ideal.finite_of _) (ideal_nonneg (by norm_num)) k
'''
out+='\nend VecMath\n'
open('/tmp/d/StepEx.lean','w').write(out)
