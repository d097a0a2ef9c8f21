exec(open('/tmp/w/fl.py').read().split("for name")[0])
def lit(p,emin,x):
    # x exact Fraction or ('sqrt',y); returns k,q,n
    rnd,sq=mk(p,emin)
    if isinstance(x,tuple): r=sq(x[1]); lo=r
    else: r=rnd(x); lo=x
    # binade from exact
    v=lo if not isinstance(x,tuple) else r
    k=v.numerator.bit_length()-v.denominator.bit_length()
    if Fr(2)**k>v: k-=1
    q=max(k-p+1,emin)
    n=r/Fr(2)**q
    assert n.denominator==1
    return k,q,n.numerator,r
def show(x): return f"({x.numerator} / {x.denominator} : ℝ)" if x.denominator!=1 else f"({x.numerator} : ℝ)"
out='''import Verif.Lemmas.Exec
import Verif.Props.FloatExamples
/-!
# The computed cosine of an angle can exceed 1 (layer F, concrete `f32` and `f64` numbers): C89

`Vector2::new(3, 3).normalize()` has, with itself, an inner product greater than 1, in `f32` and in `f64`: code that
takes the arc cosine of `dot(u.normalize(), v.normalize())` gets NaN for it. Generated by tools/gen/cosx.py.
-/
open Classical

namespace VecMath
open Scalar IEEE

'''
for nm,bits,p,emin in (("binary32",32,24,-149),("binary64",64,53,-1074)):
    rnd,sq=mk(p,emin)
    L=lit(p,emin,('sqrt',Fr(18)))
    N=lit(p,emin,Fr(3)/L[3])
    Q=lit(p,emin,N[3]*N[3])
    D=lit(p,emin,Q[3]+Q[3])
    assert D[3]>1
    def rl(name,expr,l):
        return f'''theorem {name}_{bits} : {nm}.rnd {expr} = {show(l[3])} := by
  rw [{nm}.rnd_lit ({l[0]}) ({l[1]}) {l[2]} (by decide)]
  · norm_num
  all_goals norm_num
'''
    def ex(name,x,k,n,q):  # exact representable
        return f'''theorem {name}_{bits} : {nm}.rnd {x} = {x} := {nm}.rnd_of_has ⟨{n}, {q}, by decide, by decide, by norm_num⟩
'''
    # sqrt
    lo=(Fr(2*L[2]-1,2))*Fr(2)**L[1]; hi=(Fr(2*L[2]+1,2))*Fr(2)**L[1]
    out+=f'''theorem sq9_{bits} : {nm}.rnd (3 * 3) = 9 := by
  rw [show (3 * 3 : ℝ) = 9 by norm_num]; exact {nm}.rnd_of_has ⟨9, 0, by decide, by decide, by norm_num⟩
theorem sum18_{bits} : {nm}.rnd (9 + 9) = 18 := by
  rw [show (9 + 9 : ℝ) = 18 by norm_num]; exact {nm}.rnd_of_has ⟨18, 0, by decide, by decide, by norm_num⟩
theorem root_{bits} : {nm}.rnd √18 = {show(L[3])} := by
  rw [{nm}.rnd_lit ({L[0]}) ({L[1]}) {L[2]} (by decide)]
  · norm_num
  · rw [Real.le_sqrt (by norm_num) (by norm_num)]; norm_num
  · rw [Real.sqrt_lt' (by norm_num)]; norm_num
  · rw [Real.lt_sqrt (by norm_num)]; norm_num
  · rw [Real.sqrt_lt' (by norm_num)]; norm_num
'''
    out+=rl('quot',f'(3 / {show(L[3])})',N)+rl('square',f'({show(N[3])} * {show(N[3])})',Q)+rl('total',f'({show(Q[3])} + {show(Q[3])})',D)
    out+=f'''/-- The number 3 in `f{bits}`. -/
noncomputable def three{bits} : Fl {nm} := Fl.of (F := {nm}) 3 ⟨3, 0, by decide, by decide, by norm_num⟩ (by
  show |(3 : ℝ)| < 2 ^ ({'128' if bits==32 else '1024'} : ℤ)
  rw [abs_of_pos (by norm_num)]
  exact lt_of_lt_of_le (by norm_num : (3 : ℝ) < 2 ^ (2 : ℤ)) (Fmt.z_le (by norm_num)))
/-- **C89** cannot be improved to `≤ 1`: in `f{bits}` the vector `(3, 3)`, normalized, has inner product `1 + 2^-{p-1} > 1`
with itself. -/
theorem C89_cosine_exceeds_{bits} : Exactly (Api.dot (Vector2.new three{bits} three{bits}).normalize
    (Vector2.new three{bits} three{bits}).normalize) (1 + 2 ^ (-{p-1} : ℤ)) := by
  have ho := overflow{bits}
  have h3 : Exactly three{bits} 3 := ⟨trivial, rfl⟩
  have h9 : Exactly (three{bits} * three{bits}) 9 := exec_mul h3 h3 sq9_{bits} (by rw [abs_of_pos (by norm_num)]; linarith)
  have h18 : Exactly (three{bits} * three{bits} + three{bits} * three{bits}) 18 :=
    exec_add h9 h9 sum18_{bits} (by rw [abs_of_pos (by norm_num)]; linarith)
  have hl : Exactly (Api.length (Vector2.new three{bits} three{bits})) {show(L[3])} :=
    exec_sqrt h18 (by norm_num) root_{bits} (by
      rw [abs_of_nonneg (Real.sqrt_nonneg _)]
      have : √18 < 5 := by rw [Real.sqrt_lt' (by norm_num)]; norm_num
      linarith)
  have hq : Exactly (three{bits} / Api.length (Vector2.new three{bits} three{bits})) {show(N[3])} :=
    exec_div h3 hl (by norm_num) quot_{bits} (by rw [abs_of_pos (by norm_num)]; norm_num at ho ⊢; linarith)
  have hs := exec_mul hq hq square_{bits} (by rw [abs_of_pos (by norm_num)]; norm_num at ho ⊢; linarith)
  have hd := exec_add hs hs total_{bits} (by rw [abs_of_pos (by norm_num)]; norm_num at ho ⊢; linarith)
  have e : {show(D[3])} = 1 + 2 ^ (-{p-1} : ℤ) := by norm_num
  rw [e] at hd
  exact hd

'''
out+='end VecMath\n'
open('/verif/lean/Verif/Props/FloatCosine.lean','w').write(out)
