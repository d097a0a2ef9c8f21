from fractions import Fraction as Fr
exec(open('/tmp/w/fl.py').read().split('for name')[0])
out='''import Verif.Lemmas.Walk
import Verif.Props.FloatCosine
import Verif.Props.FloatBox
import Verif.Props.FloatExamples
/-!
# Histories of additions and subtractions (layer F): C91

Points and vectors changed step by step with `+=` and `-=`, any number of times, and means of any number of vectors.
Generated by tools/gen/walk.py.
-/

open Classical
set_option linter.unusedSectionVars false

namespace VecMath
open Scalar IEEE
variable {S : Type} [Scalar S] [IEEE S] [Binary S]

'''
for D,X in ((2,'xy'),(3,'xyz')):
  for T in ('Point','Vector'):
    t=T.lower()
    U=f'{T}{D}'; V=f'Vector{D}'
    R=f"List (Step ({V} S))"
    def allc(fmt): return '\n    '.join('· '+fmt.replace('@c',c).replace('@i',str(i)) for i,c in enumerate(X))
    acc=[('h.1','h.2') if D==2 else ('h.1','h.2.1','h.2.2')][0]
    out+=f'''/-- the coordinates of a walk -/
theorem {U}.walk_coords (p : {U} S) (l : {R}) :
    {' ∧ '.join(f"(walk p l).{c} = walk p.{c} (l.map (Step.map (·.{c})))" for c in X)} :=
  ⟨{', '.join(f"walk_coord (fun p : {U} S => p.{c}) (fun v : {V} S => v.{c}) (fun _ _ => rfl) (fun _ _ => rfl) p l" for c in X)}⟩
/-- **C91**: executing the steps in place (`+=`, `-=`) is the same. -/
theorem C91_in_place_{t}{D} (p : {U} S) (l : {R}) :
    l.foldl (fun q s => match s with | .plus v => q.addAssign v | .minus v => q.subAssign v) p = walk p l := by
  unfold walk
  congr 1
  funext q s
  cases s <;> rfl
/-- **C91**: after any number `n` of additions and subtractions, each coordinate is within `((1+u)^n - 1)` of the exact
one, relative to where it started plus the total way. Nothing is lost to underflow. -/
theorem C91_walk_{t}{D} (p : {U} S) (l : {R}) (h : AllFinite (walk p l)) (i : Fin {D}) :
    |(walk p l).toReal i - (p.toReal i + moved (fun v => v.toReal i) l)| ≤
      ((1 + uro S) ^ l.length - 1) * (|p.toReal i| + travelled (fun v => v.toReal i) l) := by
  rw [{U}.allFinite] at h
  obtain ⟨{', '.join('e'+c for c in X)}⟩ := {U}.walk_coords p l
  fin_cases i
'''
    for i,c in enumerate(X):
        out+=f'''  · have := walk_err (e{c} ▸ {acc[i]})
    rw [moved_map, travelled_map, List.length_map, ← e{c}] at this
    exact this
'''
    out+=f'''/-- **C91**: on a grid (integers, multiples of a power of two) with room for the whole way every history is exact. -/
theorem C91_exact_{t}{D} {{e : ℤ}} {{N : ℕ}} (p : {U} S) (l : {R}) (hp : AllFinite p) (hl : ∀ s ∈ l, AllFinite s.vec) (hF : Fits S e N)
    (gp : ∀ i, ∃ M, OnGrid e M (p.toReal i)) (gl : ∀ s ∈ l, ∀ i, ∃ M, OnGrid e M (s.vec.toReal i))
    (hN : ∀ i, |p.toReal i| + travelled (fun v => v.toReal i) l ≤ N * 2 ^ e) :
    AllFinite (walk p l) ∧ ∀ i, (walk p l).toReal i = p.toReal i + moved (fun v => v.toReal i) l := by
  rw [{U}.allFinite] at hp ⊢
  have hl' : ∀ s ∈ l, {' ∧ '.join(f'IsFinite s.vec.{c}' for c in X)} := fun s hs => {V}.allFinite.1 (hl s hs)
  obtain ⟨{', '.join('e'+c for c in X)}⟩ := {U}.walk_coords p l
  have vm : ∀ (f : {V} S → S) (s : Step ({V} S)), (s.map f).vec = f s.vec := fun f s => by cases s <;> rfl
'''
    for i,c in enumerate(X):
        sel={2:['.1','.2'],3:['.1','.2.1','.2.2']}[D][i]
        out+=f'''  have k{c} : Exactly (walk p.{c} (l.map (Step.map (·.{c})))) (real p.{c} + moved (fun v => v.toReal {i}) l) := by
    have := walk_grid (l := l.map (Step.map (fun v : {V} S => v.{c}))) hp{sel}
      (by intro s hs; obtain ⟨s, h, rfl⟩ := List.mem_map.1 hs; rw [vm]; exact (hl' s h){sel})
      (gp {i}) (by intro s hs; obtain ⟨s, h, rfl⟩ := List.mem_map.1 hs; rw [vm]; exact gl s h {i}) hF
      (by rw [travelled_map]; exact hN {i})
    rw [moved_map] at this
    exact this
'''
    out+=f'''  rw [{', '.join(f'← e{c}' for c in X)}] at {' '.join('k'+c for c in X)}
  refine ⟨⟨{', '.join(f'k{c}.1' for c in X)}⟩, fun i => ?_⟩
  fin_cases i
''' .replace(f"  rw [{', '.join(f'← e{c}' for c in X)}] at {' '.join('k'+c for c in X)}\n", ''.join(f"  rw [← e{c}] at k{c}\n" for c in X))
    for c in X: out+=f'  · exact k{c}.2\n'
    out+=f'''/-- **C91**: if no step moves a coordinate down (up), the coordinate never ends up lower (higher) than it started. -/
theorem C91_monotone_{t}{D} (p : {U} S) (l : {R}) (h : AllFinite (walk p l)) (i : Fin {D}) :
    ((∀ s ∈ l, 0 ≤ s.signed fun v => v.toReal i) → p.toReal i ≤ (walk p l).toReal i) ∧
    ((∀ s ∈ l, (s.signed fun v => v.toReal i) ≤ 0) → (walk p l).toReal i ≤ p.toReal i) := by
  rw [{U}.allFinite] at h
  obtain ⟨{', '.join('e'+c for c in X)}⟩ := {U}.walk_coords p l
  have sm : ∀ (f : {V} S → S) (s : Step ({V} S)), (s.map f).signed real = s.signed fun v => real (f v) := fun f s => by cases s <;> rfl
  fin_cases i
'''
    for i,c in enumerate(X):
        out+=f'''  · have hf := e{c} ▸ {acc[i]}
    refine ⟨fun hl => ?_, fun hl => ?_⟩
    · have := walk_mono hf (by intro s hs; obtain ⟨s, h, rfl⟩ := List.mem_map.1 hs; rw [sm]; exact hl s h)
      rw [← e{c}] at this; exact this
    · have := walk_anti hf (by intro s hs; obtain ⟨s, h, rfl⟩ := List.mem_map.1 hs; rw [sm]; exact hl s h)
      rw [← e{c}] at this; exact this
'''
    out+=f'''/-- **C91**: a step that is too small to move the value never moves it, however often it is repeated. -/
theorem C91_stuck_{t}{D} (p : {U} S) (v : {V} S) (h : (p + v == p) = true) (n : ℕ) :
    (walk p (List.replicate n (Step.plus v)) == p) = true := by
  obtain ⟨{', '.join('e'+c for c in X)}⟩ := {U}.walk_coords p (List.replicate n (Step.plus v))
  simp only [List.map_replicate, Step.map] at {' '.join('e'+c for c in X)}
  have hb : {' ∧ '.join(f'(p.{c} + v.{c} == p.{c}) = true' for c in X)} := {{BEQ1}}
  refine {{BEQ2}}
'''.replace('{BEQ1}',f'{U}.beq_iff.1 h').replace('{BEQ2}',f'{U}.beq_iff.2 ⟨'+', '.join(f"by rw [e{c}]; exact walk_stuck hb{s} n" for c,s in zip(X,{2:['.1','.2'],3:['.1','.2.1','.2.2']}[D]))+'⟩')
    if T=='Vector':
        out+=f'''/-- **C91**: the mean of any number of vectors (added up, then divided by their number) is within `((1+u)^n - 1)` of the
exact mean, relative to the mean magnitude, plus one underflow. -/
theorem C91_mean{D} (v : {V} S) (l : List ({V} S)) (n : S) (hn : Exactly n (l.length + 1)) (h : AllFinite (l.foldl (· + ·) v))
    (hq : AllFinite (l.foldl (· + ·) v / n)) (i : Fin {D}) :
    |(l.foldl (· + ·) v / n).toReal i - ((v :: l).map fun w => w.toReal i).sum / (l.length + 1)| ≤
      ((1 + uro S) ^ (l.length + 1) - 1) * (((v :: l).map fun w => |w.toReal i|).sum / (l.length + 1)) + tiny S := by
  have ew : l.foldl (· + ·) v = walk v (l.map Step.plus) := by unfold walk; rw [List.foldl_map]; rfl
  have em : ∀ f : {V} S → ℝ, moved f (l.map Step.plus) = (l.map f).sum := fun f => by unfold moved; rw [List.map_map]; rfl
  have et : ∀ f : {V} S → ℝ, travelled f (l.map Step.plus) = (l.map fun w => |f w|).sum := fun f => by
    unfold travelled; rw [List.map_map]; rfl
  rw [ew] at h hq ⊢
  rw [{V}.allFinite] at h hq
  obtain ⟨{', '.join('e'+c for c in X)}⟩ := {V}.walk_coords v (l.map Step.plus)
  simp only [List.map_cons, List.sum_cons, ← em fun w => w.toReal i, ← et fun w => w.toReal i]
  fin_cases i
'''
        for i,c in enumerate(X):
            out+=f'''  · have q : IsFinite ((walk v (l.map Step.plus)).{c} / n) := {acc[i].replace('h.','hq.')}
    have k := mean_err (a := v.{c}) (n := n) (l := (l.map Step.plus).map (Step.map (·.{c}))) (by simpa using hn)
      (e{c} ▸ {acc[i]}) (e{c} ▸ q)
    rw [moved_map, travelled_map, ← e{c}] at k
    simp only [List.length_map] at k
    exact k
'''
    out+='\n'
def q(x): return f'({x.numerator} / {x.denominator} : ℝ)' if x.denominator>1 else f'({x.numerator} : ℝ)'
def lit(x,p,emin):
    x=Fr(x); e=x.numerator.bit_length()-x.denominator.bit_length()
    if Fr(2)**e> x: e-=1
    return e
out+='''/-! ### What fails -/

'''
for N,p,emin,emax,x in (('32',24,-149,128,Fr(7549747,8388608)),('64',53,-1074,1024,Fr(3602879701896397,36028797018963968))):
    rnd,_=mk(p,emin)
    F=f'binary{N}'
    s2=rnd(x+x); s3=rnd(s2+x); m=rnd(s3/3)
    assert m!=x
    k,r=x,x
    ex=x.denominator.bit_length()-1
    def step(name,expr,val,res):
        e=lit(val,p,emin); qq=max(e-p+1,emin); n=res/Fr(2)**qq; assert n.denominator==1
        ev=abs(val/Fr(2)**qq-n)==Fr(1,2)
        return f'''theorem {name} : {F}.rnd {expr} = {q(res)} := by
  rw [{F}.rnd_lit{'_even' if ev else ''} ({e}) ({qq}) {n.numerator} {'(by decide) ' if ev else ''}(by decide)]
  · norm_num
  all_goals norm_num
'''
    out+=f'''/-- A number near {'0.9' if N=='32' else '0.1'} in `f{N}`. -/
noncomputable def tenth{N} : Fl {F} := Fl.of (F := {F}) {q(x)} ⟨{x.numerator}, {-ex}, by decide, by decide, by norm_num⟩ (by
  show |{q(x)}| < 2 ^ ({emax} : ℤ)
  rw [abs_of_pos (by norm_num)]
  exact lt_of_lt_of_le (by norm_num : {q(x)} < 2 ^ (2 : ℤ)) (Fmt.z_le (by norm_num)))
'''
    out+=step(f'tenth_two_{N}',f'({q(x)} + {q(x)})',x+x,s2)
    out+=step(f'tenth_three_{N}',f'({q(s2)} + {q(x)})',s2+x,s3)
    out+=step(f'tenth_mean_{N}',f'({q(s3)} / 3)',s3/3,m)
    cmp='lt' if m<x else 'gt'
    out+=f'''/-- **C91**: in `f{N}` the mean of three equal vectors can differ from them: it lies outside their bounding box. -/
theorem C91_mean_outside_{N} : AllFinite ((Vector2.new tenth{N} tenth{N} + Vector2.new tenth{N} tenth{N} + Vector2.new tenth{N} tenth{N}) / three{N}) ∧
    (BoundingBox2.new (Point2.new tenth{N} tenth{N}) (Point2.new tenth{N} tenth{N})).isInside
      (Point2.fromVector ((Vector2.new tenth{N} tenth{N} + Vector2.new tenth{N} tenth{N} + Vector2.new tenth{N} tenth{N}) / three{N})) = false := by
  have ho := overflow{N}
  have h1 : Exactly tenth{N} {q(x)} := ⟨trivial, rfl⟩
  have h2 : Exactly three{N} 3 := ⟨trivial, rfl⟩
  have a := exec_add h1 h1 tenth_two_{N} (by rw [abs_of_pos (by norm_num)]; norm_num at ho ⊢; linarith)
  have b := exec_add a h1 tenth_three_{N} (by rw [abs_of_pos (by norm_num)]; norm_num at ho ⊢; linarith)
  have c : Exactly ((tenth{N} + tenth{N} + tenth{N}) / three{N}) _ := exec_div b h2 (by norm_num) tenth_mean_{N} (by rw [abs_of_pos (by norm_num)]; norm_num at ho ⊢; linarith)
  refine ⟨Vector2.allFinite.2 ⟨c.1, c.1⟩, ?_⟩
  rw [Bool.eq_false_iff]
  intro hin
  have nt : ¬ IsNaN tenth{N} := h1.1.not_nan
  have nn : NoNaN (Point2.new tenth{N} tenth{N}) := Point2.noNaN.2 ⟨nt, nt⟩
  have one : (BoundingBox2.mk (Point2.new tenth{N} tenth{N}) (Point2.new tenth{N} tenth{N})).isInside (Point2.new tenth{N} tenth{N}) = true :=
    isInside2_iff.2 ⟨⟨le_self nt, le_self nt⟩, ⟨le_self nt, le_self nt⟩⟩
  obtain ⟨⟨h3, h4⟩, -⟩ := isInside2_iff.1 ((C24_new2 _ _ nn nn).2.2.2.1 _ one one _ hin)
  have r3 : val tenth{N} ≤ val ((tenth{N} + tenth{N} + tenth{N}) / three{N}) := (le_iff.1 h3).2.2
  have r4 : val ((tenth{N} + tenth{N} + tenth{N}) / three{N}) ≤ val tenth{N} := (le_iff.1 h4).2.2
  rw [c.1.val, h1.1.val, EReal.coe_le_coe_iff] at r3 r4
  rw [h1.2, c.2] at r3
  rw [h1.2, c.2] at r4
  norm_num at {'r3' if m<x else 'r4'}
'''
out+='''/-! ### The hypotheses are met -/

/-- `2^24` (`2^53`) -/
noncomputable def far32 : F32 := Fl.of (F := binary32) (2 ^ 24) ⟨1, 24, by decide, by decide, by norm_num⟩ (by
  show |(2 ^ 24 : ℝ)| < 2 ^ (128 : ℤ)
  norm_num)
noncomputable def far64 : F64 := Fl.of (F := binary64) (2 ^ 53) ⟨1, 53, by decide, by decide, by norm_num⟩ (by
  show |(2 ^ 53 : ℝ)| < 2 ^ (1024 : ℤ)
  exact lt_of_lt_of_le (by norm_num : |(2 ^ 53 : ℝ)| < 2 ^ (54 : ℤ)) (Fmt.z_le (by norm_num)))
theorem far_add_32 : (far32 + one == far32) = true := by
  have h1 : Exactly far32 (2 ^ 24) := ⟨trivial, rfl⟩
  have k := exec_add h1 ⟨finite_one, real_one⟩ (z := 2 ^ 24) (by
    show binary32.rnd _ = _
    rw [binary32.rnd_lit_even 24 1 8388608 (by decide) (by decide)] <;> norm_num) (by
    show |(2 ^ 24 + 1 : ℝ)| < 2 ^ (128 : ℤ) - 2 ^ (103 : ℤ)
    norm_num)
  exact beq_iff.2 ⟨k.1.not_nan, h1.1.not_nan, by rw [k.1.val, h1.1.val, k.2, h1.2]⟩
theorem far_add_64 : (far64 + one == far64) = true := by
  have h1 : Exactly far64 (2 ^ 53) := ⟨trivial, rfl⟩
  have k := exec_add h1 ⟨finite_one, real_one⟩ (z := 2 ^ 53) (by
    show binary64.rnd _ = _
    rw [binary64.rnd_lit_even 53 1 4503599627370496 (by decide) (by decide)] <;> norm_num) (by
    show |(2 ^ 53 + 1 : ℝ)| < 2 ^ (1024 : ℤ) - 2 ^ (970 : ℤ)
    have h2 : (2 : ℝ) ^ (1024 : ℤ) = 2 ^ (970 : ℤ) * 2 ^ (54 : ℤ) := by rw [← zpow_add₀ (by norm_num)]; norm_num
    have h3 : (1 : ℝ) ≤ 2 ^ (970 : ℤ) := one_le_zpow₀ (by norm_num) (by norm_num)
    rw [h2, abs_of_pos (by norm_num)]
    generalize (2 : ℝ) ^ (970 : ℤ) = z at h3 ⊢
    norm_num
    linarith)
  exact beq_iff.2 ⟨k.1.not_nan, h1.1.not_nan, by rw [k.1.val, h1.1.val, k.2, h1.2]⟩
/-- **C91**: far from the origin (`2^24` in `f32`, `2^53` in `f64`) steps of length 1 never move a point, however many. -/
theorem C91_stuck_32 (n : ℕ) :
    (walk (Point2.new far32 far32) (List.replicate n (Step.plus (Vector2.new (one : F32) one))) == Point2.new far32 far32) = true :=
  C91_stuck_point2 _ _ (Point2.beq_iff.2 ⟨far_add_32, far_add_32⟩) n
theorem C91_stuck_64 (n : ℕ) :
    (walk (Point2.new far64 far64) (List.replicate n (Step.plus (Vector2.new (one : F64) one))) == Point2.new far64 far64) = true :=
  C91_stuck_point2 _ _ (Point2.beq_iff.2 ⟨far_add_64, far_add_64⟩) n

/-- there, back, and there again -/
noncomputable def back2 : List (Step (Vector2 F32)) := [.plus v34, .minus v34, .plus v34]
noncomputable def back3 : List (Step (Vector3 F32)) := [.plus v236, .minus v236, .plus v236]
theorem walk_back2 : AllFinite (walk p11 back2) ∧ ∀ i, (walk p11 back2).toReal i = p11.toReal i + moved (fun v => v.toReal i) back2 :=
  C91_exact_point2 (e := 0) (N := 100) p11 back2 finite_p11 (by simp [back2, Step.vec, finite_v34]) (fits_f32 (by norm_num))
    (fun i => ⟨_, grid_p11 i⟩) (by intro s hs i; refine ⟨4, ?_⟩; simp only [back2, List.mem_cons, List.not_mem_nil, or_false] at hs; rcases hs with rfl | rfl | rfl <;> exact grid_v34 i)
    (fun i => by
      simp only [travelled, back2, List.map_cons, List.map_nil, Step.signed, abs_neg, List.sum_cons, List.sum_nil]
      fin_cases i
      · show |((1 : ℤ) : ℝ)| + (|((3 : ℤ) : ℝ)| + (|((3 : ℤ) : ℝ)| + (|((3 : ℤ) : ℝ)| + 0))) ≤ _; norm_num
      · show |((1 : ℤ) : ℝ)| + (|((4 : ℤ) : ℝ)| + (|((4 : ℤ) : ℝ)| + (|((4 : ℤ) : ℝ)| + 0))) ≤ _; norm_num)
theorem walk_back3 : AllFinite (walk v236 back3) ∧ ∀ i, (walk v236 back3).toReal i = v236.toReal i + moved (fun v => v.toReal i) back3 :=
  C91_exact_vector3 (e := 0) (N := 100) v236 back3 finite_v236 (by simp [back3, Step.vec, finite_v236]) (fits_f32 (by norm_num))
    (fun i => ⟨_, grid_v236 i⟩) (by intro s hs i; refine ⟨6, ?_⟩; simp only [back3, List.mem_cons, List.not_mem_nil, or_false] at hs; rcases hs with rfl | rfl | rfl <;> exact grid_v236 i)
    (fun i => by
      simp only [travelled, back3, List.map_cons, List.map_nil, Step.signed, abs_neg, List.sum_cons, List.sum_nil]
      fin_cases i
      · show |((2 : ℤ) : ℝ)| + (|((2 : ℤ) : ℝ)| + (|((2 : ℤ) : ℝ)| + (|((2 : ℤ) : ℝ)| + 0))) ≤ _; norm_num
      · show |((3 : ℤ) : ℝ)| + (|((3 : ℤ) : ℝ)| + (|((3 : ℤ) : ℝ)| + (|((3 : ℤ) : ℝ)| + 0))) ≤ _; norm_num
      · show |((6 : ℤ) : ℝ)| + (|((6 : ℤ) : ℝ)| + (|((6 : ℤ) : ℝ)| + (|((6 : ℤ) : ℝ)| + 0))) ≤ _; norm_num)
example := C91_walk_point2 p11 back2 walk_back2.1
example := C91_walk_vector3 v236 back3 walk_back3.1
example : p11.toReal 0 ≤ (walk p11 [.plus v34, .plus v34]).toReal 0 := by
  have hf := (C91_exact_point2 (e := 0) (N := 100) p11 [.plus v34, .plus v34] finite_p11 (by simp [Step.vec, finite_v34]) (fits_f32 (by norm_num))
    (fun i => ⟨_, grid_p11 i⟩) (by intro s hs i; refine ⟨4, ?_⟩; simp only [List.mem_cons, List.not_mem_nil, or_false] at hs; rcases hs with rfl | rfl <;> exact grid_v34 i)
    (fun i => by
      simp only [travelled, List.map_cons, List.map_nil, Step.signed, abs_neg, List.sum_cons, List.sum_nil]
      fin_cases i
      · show |((1 : ℤ) : ℝ)| + (|((3 : ℤ) : ℝ)| + (|((3 : ℤ) : ℝ)| + 0)) ≤ _; norm_num
      · show |((1 : ℤ) : ℝ)| + (|((4 : ℤ) : ℝ)| + (|((4 : ℤ) : ℝ)| + 0)) ≤ _; norm_num)).1
  refine (C91_monotone_point2 p11 [.plus v34, .plus v34] hf 0).1 ?_
  have : (0 : ℝ) ≤ v34.toReal 0 := by show (0 : ℝ) ≤ ((3 : ℤ) : ℝ); norm_num
  simp [Step.signed, this]
/-- the mean above also instantiates the error bound for means -/
example := C91_mean2 (Vector2.new tenth32 tenth32) [Vector2.new tenth32 tenth32, Vector2.new tenth32 tenth32] three32
  ⟨trivial, by show (3 : ℝ) = _; norm_num⟩ (by
    have ho := overflow32
    have h1 : Exactly tenth32 (7549747 / 8388608) := ⟨trivial, rfl⟩
    have a := exec_add h1 h1 tenth_two_32 (by rw [abs_of_pos (by norm_num)]; norm_num at ho ⊢; linarith)
    have b := exec_add a h1 tenth_three_32 (by rw [abs_of_pos (by norm_num)]; norm_num at ho ⊢; linarith)
    exact Vector2.allFinite.2 ⟨b.1, b.1⟩) C91_mean_outside_32.1

end VecMath
'''
open('/verif/lean/Verif/Props/FloatWalk.lean','w').write(out)
