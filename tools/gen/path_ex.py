out='''import Verif.Props.FloatPath
import Verif.Props.RealPath
import Verif.Props.EncloseEx
/-! # C122: the hypotheses are met; the computed length of a path can be less than the distance of its ends, and depends on the direction

(Generated by tools/gen.) -/

namespace VecMath
open Scalar IEEE

theorem tie24' : (Binary.F F32).rnd (((16777216 : ℤ) : ℝ) + ((1 : ℤ) : ℝ)) = ((16777216 : ℤ) : ℝ) := by
  have e : ((16777216 : ℤ) : ℝ) + ((1 : ℤ) : ℝ) = ((16777216 : ℤ) : ℝ) - ((-1 : ℤ) : ℝ) := by norm_num
  rw [e]; exact tie24
theorem zero_plus {x : F32} {a : ℤ} (h : Exactly x (a : ℝ)) : Exactly (zero + x) (a : ℝ) :=
  ⟨(finite_num (num_zero_add x)).2 h.1, (real_num (num_zero_add x)).trans h.2⟩
theorem lose_one {x y : F32} (hx : Exactly x ((16777216 : ℤ) : ℝ)) (hy : Exactly y ((1 : ℤ) : ℝ)) : Exactly (x + y) ((16777216 : ℤ) : ℝ) := by
  refine exec_add hx hy tie24' (big32' ?_)
  rw [abs_of_pos] <;> norm_num
theorem keep_two {x y : F32} (hx : Exactly x ((2 : ℤ) : ℝ)) (hy : Exactly y ((16777216 : ℤ) : ℝ)) : Exactly (x + y) ((16777218 : ℤ) : ℝ) := by
  refine exec_add hx hy ?_ (big32' ?_)
  · have := Fmt.rnd_lit binary32 (x := ((2 : ℤ) : ℝ) + ((16777216 : ℤ) : ℝ)) 24 1 8388609 (by decide) (by norm_num) (by norm_num) (by norm_num) (by norm_num)
    exact this.trans (by norm_num)
  · rw [abs_of_pos] <;> norm_num
'''
for n in (2,3):
    P=f'Point{n}'; V=f'Vector{n}'; T=f'Transform{n}'
    z=', '.join(['int32 0']*(n-1)); K=n+1
    pt=lambda x: f'(⟨int32 ({x}), {z}⟩ : {P} F32)'
    t3=', '.join(['trivial']*n)
    zr=' '.join(['zero_gap']*(n-1))
    idp=lambda x: '(⟨'+', '.join([f'Ideal.of {x}']+['Ideal.of 0']*(n-1))+f'⟩ : {P} Ideal)'
    A,B,C,D='-16777216','0','1','2'
    def leg(name,p,q,m):
        return f'''theorem {name}{n} : Exactly (Api.distance {pt(p)} {pt(q)}) (({m} : ℤ) : ℝ) :=
  axis_dist{n} (ex_int (int_sub32' (exi (n := {q})) (exi (n := {p})) (by norm_num)) (by norm_num)) {zr} (by norm_num) (by norm_num)
'''
    out+=f'''
/-! ## Dimension {n} -/
'''+leg('legA',A,B,16777216)+leg('legB',B,C,1)+leg('legC',C,D,1)+f'''theorem legAll{n} : Exactly (Api.distance {pt(A)} {pt(D)}) ((16777218 : ℤ) : ℝ) := by
  refine axis_dist{n} (ex_int (wide_sub (exi (n := 2)) (exi (n := -16777216)) (m := 8388609) (e := 1) (by norm_num) (by norm_num) ?_) (by norm_num)) {zr} (by norm_num) (by norm_num)
  rw [abs_of_pos] <;> norm_num
theorem distBack{n} {{p q : {P} F32}} {{a : ℝ}} (h : Exactly (Api.distance p q) a) : Exactly (Api.distance q p) a := by
  have s := C15_float_symmetric{n} q p
  exact exactly_beq (s.beq (mt s.isNaN.1 h.1.not_nan)) h
noncomputable def path{n} : List ({P} F32) := [{pt(A)}, {pt(B)}, {pt(C)}, {pt(D)}]
theorem path{n}_fin : ∀ p ∈ path{n}, AllFinite p := by
  simp only [path{n}, List.forall_mem_cons, List.not_mem_nil, IsEmpty.forall_iff, implies_true, and_true, {P}.allFinite]
  exact ⟨⟨{t3}⟩, ⟨{t3}⟩, ⟨{t3}⟩, {t3}⟩
theorem path{n}_length : Exactly ({P}.pathLength path{n}) ((16777216 : ℤ) : ℝ) :=
  lose_one (lose_one (zero_plus legA{n}) legB{n}) legC{n}
theorem pathBack{n} : Exactly ({P}.pathLength path{n}.reverse) ((16777218 : ℤ) : ℝ) :=
  keep_two (ex_int (int_add32' (zero_plus (distBack{n} legC{n})) (distBack{n} legB{n}) (by norm_num)) (by norm_num)) (distBack{n} legA{n})
/-- **C122**, where it fails in floating point: the computed length of a path can be less than the computed distance of its ends. In `f32`, for the path
along the first axis through `-2^24`, `0`, `1` and `2` the two legs of length 1 are lost one after the other. -/
theorem C122_shorter{n} : ∃ (p q : {P} F32) (ps : List ({P} F32)), (∀ r ∈ p :: (ps ++ [q]), AllFinite r) ∧
    ({P}.pathLength (p :: (ps ++ [q])) <? Api.distance p q) = true :=
  ⟨{pt(A)}, {pt(D)}, [{pt(B)}, {pt(C)}], path{n}_fin, lt_exact path{n}_length legAll{n} (by norm_num)⟩
/-- **C122**, where it fails in floating point: the computed length of a path depends on the direction in which it is walked. -/
theorem C122_back_differs{n} : ∃ ps : List ({P} F32), (∀ r ∈ ps, AllFinite r) ∧ ({P}.pathLength ps <? {P}.pathLength ps.reverse) = true :=
  ⟨path{n}, path{n}_fin, lt_exact path{n}_length pathBack{n} (by norm_num)⟩
/-- **C122**, where it fails in floating point: a detour can make the computed length of a path smaller. -/
theorem C122_detour{n} : ∃ (as bs : List ({P} F32)) (q : {P} F32), (∀ r ∈ as ++ q :: bs, AllFinite r) ∧
    ({P}.pathLength (as ++ q :: bs) <? {P}.pathLength (as ++ bs)) = true := by
  have l : Exactly (Api.distance {pt(B)} {pt(D)}) ((2 : ℤ) : ℝ) :=
    axis_dist{n} (ex_int (int_sub32' (exi (n := 2)) (exi (n := 0)) (by norm_num)) (by norm_num)) {zr} (by norm_num) (by norm_num)
  refine ⟨[{pt(A)}, {pt(B)}], [{pt(D)}], {pt(C)}, path{n}_fin, lt_exact path{n}_length (b := 16777218) ?_ (by norm_num)⟩
  have s := keep_two l (zero_plus legA{n})
  have e : ((zero + Api.distance {pt(A)} {pt(B)}) + Api.distance {pt(B)} {pt(D)} : F32) = Api.distance {pt(B)} {pt(D)} + (zero + Api.distance {pt(A)} {pt(B)}) := add_comm_lemma
  show Exactly ((zero + Api.distance {pt(A)} {pt(B)}) + Api.distance {pt(B)} {pt(D)} : F32) _
  rw [e]; exact s

/-! ### The hypotheses are met -/
example : (Api.distance {pt(A)} {pt(B)} ≤? {P}.pathLength path{n}) = true :=
  (C122_grow{n} path{n} [] (by rw [List.append_nil]; exact path{n}_fin)).2.2.1 _ (by simp [path{n}, legs])
example : ({P}.pathLength (path{n}.take 2) ≤? {P}.pathLength path{n}) = true := by
  have := (C122_grow{n} (path{n}.take 2) (path{n}.drop 2) (by rw [List.take_append_drop]; exact path{n}_fin)).2.2.2
  rwa [List.take_append_drop] at this
theorem path{n}_normal : ∀ u ∈ legs {P}.NoUnderflow path{n}, u := by
  have z : Exactly (int32 0 - int32 0 : F32) ((0 : ℤ) : ℝ) := ex_int (int_sub32' exi exi (by norm_num)) (by norm_num)
  have s : ∀ {{a b : ℤ}} (ha : |a| ≤ 16777216) (hb : |b| ≤ 16777216) (h : |b - a| ≤ 16777216), (⟨int32 a ha, {z}⟩ : {P} F32).NoUnderflow (⟨int32 b hb, {z}⟩ : {P} F32) :=
    fun ha hb h => ⟨sq_normal (int_sub32' (exi hb) (exi ha) h), {', '.join(['sq_normal z']*(n-1))}⟩
  simp only [path{n}, legs, List.tail_cons, List.zipWith_cons_cons, List.zipWith_nil_right, List.forall_mem_cons, List.not_mem_nil, IsEmpty.forall_iff, implies_true, and_true]
  exact ⟨s _ _ (by norm_num), s _ _ (by norm_num), s _ _ (by norm_num)⟩
example : Within F32 {K+3} (real ({P}.pathLength path{n})) (legs (fun p q => euclid p.toReal q.toReal) path{n}).sum :=
  C122_error{n} path{n} path{n}_length.1 path{n}_normal
example : (1 - uro F32) ^ {K+3} * real (Api.distance {pt(A)} {pt(D)} : F32) ≤ (1 + uro F32) ^ {K} * real ({P}.pathLength path{n}) :=
  C122_float_direct{n} {pt(A)} {pt(D)} [{pt(B)}, {pt(C)}] path{n}_length.1 legAll{n}.1 path{n}_normal ⟨by
    refine sq_normal (ex_int (wide_sub (exi (n := 2)) (exi (n := -16777216)) (m := 8388609) (e := 1) (by norm_num) (by norm_num) ?_) (b := 16777218) (by norm_num))
    rw [abs_of_pos] <;> norm_num, {', '.join(["sq_normal (int_sub32' (exi (n := 0)) (exi (n := 0)) (by norm_num))"]*(n-1))}⟩
/-- Three points: the lengths of the legs are 1 and 1. -/
example : Exactly ({P}.pathLength (path{n}.tail)) 2 := by
  have := C122_exact{n} (e := 0) (N := 16777216) (⟨show (-149 : ℤ) ≤ 0 by norm_num, show 16777216 ≤ 2 ^ 24 by norm_num, show (0 : ℤ) + (24 : ℕ) < 128 by norm_num⟩ : Fits F32 0 16777216)
    path{n}.tail (fun p hp => path{n}_fin p (List.mem_of_mem_tail hp)) (by
      simp only [path{n}, legs, List.tail_cons, List.zipWith_cons_cons, List.zipWith_nil_right, List.forall_mem_cons, List.not_mem_nil, IsEmpty.forall_iff, implies_true, and_true]
      exact ⟨⟨legB{n}.1, 1, 1, by norm_num, by rw [legB{n}.2]; norm_num⟩, legC{n}.1, 1, 1, by norm_num, by rw [legC{n}.2]; norm_num⟩)
    (by simp [path{n}, legs, legB{n}.2, legC{n}.2]; norm_num)
  have e : ((legs (Api.distance : {P} F32 → {P} F32 → F32) path{n}.tail).map real).sum = 2 := by
    simp [path{n}, legs, legB{n}.2, legC{n}.2]; norm_num
  rwa [e] at this
example : (Api.distance {idp('0')} {idp('3')} ≤? {P}.pathLength [{idp('0')}, {idp('7')}, {idp('3')}]) = true :=
  C122_direct{n} _ _ [{idp('7')}] (discI{n}_fin 0) (discI{n}_fin 3) (by simpa using discI{n}_fin 7)
theorem pathI{n}_fin : ∀ r ∈ [{idp('0')}, {idp('7')}, {idp('3')}], AllFinite r := by
  simp only [List.forall_mem_cons, List.not_mem_nil, IsEmpty.forall_iff, implies_true, and_true]
  exact ⟨discI{n}_fin 0, discI{n}_fin 7, discI{n}_fin 3⟩
example : ({P}.pathLength [{idp('0')}, {idp('3')}] ≤? {P}.pathLength [{idp('0')}, {idp('7')}, {idp('3')}]) = true :=
  C122_insert{n} [{idp('0')}] [{idp('3')}] {idp('7')} pathI{n}_fin
example : ({P}.pathLength [{idp('0')}, {idp('7')}, {idp('3')}] == {P}.pathLength [{idp('0')}, {idp('7')}] + {P}.pathLength [{idp('7')}, {idp('3')}]) = true :=
  C122_split{n} [{idp('0')}] [{idp('3')}] {idp('7')} pathI{n}_fin
example : ({P}.pathLength [{idp('3')}, {idp('7')}, {idp('0')}] == {P}.pathLength [{idp('0')}, {idp('7')}, {idp('3')}]) = true :=
  C122_reverse{n} [{idp('0')}, {idp('7')}, {idp('3')}] pathI{n}_fin
example (v : {V} Ideal) (h : AllFinite v) :
    ({P}.pathLength ([{idp('0')}, {idp('7')}, {idp('3')}].map fun p => (Transform.transform ({T}.translate v) p : {P} Ideal)) == {P}.pathLength [{idp('0')}, {idp('7')}, {idp('3')}]) = true :=
  C122_motion{n} _ (.translate v h) _ pathI{n}_fin
'''
out=out.replace('''  have e : ((zero +''','''  have e0 : ((zero +''') if False else out
import re
# detour: compute the sum directly
out=re.sub(r"  have s := keep_two l .*?exact s\n", lambda m: "  exact keep_two' (zero_plus LEGA) l\n", out, flags=re.S)
out=out.replace('LEGA','legA2',1).replace('LEGA','legA3',1)
out=out.replace('''
/-! ## Dimension 2 -/''','''theorem keep_two' {x y : F32} (hx : Exactly x ((16777216 : ℤ) : ℝ)) (hy : Exactly y ((2 : ℤ) : ℝ)) : Exactly (x + y) ((16777218 : ℤ) : ℝ) := by
  refine exec_add hx hy ?_ (big32' ?_)
  · have := Fmt.rnd_lit binary32 (x := ((16777216 : ℤ) : ℝ) + ((2 : ℤ) : ℝ)) 24 1 8388609 (by decide) (by norm_num) (by norm_num) (by norm_num) (by norm_num)
    exact this.trans (by norm_num)
  · rw [abs_of_pos] <;> norm_num

/-! ## Dimension 2 -/''',1)
out+='\nend VecMath\n'
open('/verif/lean/Verif/Props/PathEx.lean','w').write(out)
