out=[]; HK="hk'"
A=out.append
A('''import Verif.Props.FloatRange
import Verif.Props.FloatError
/-!
# C86: on data of moderate size the accuracy bounds hold without further conditions
-/

namespace VecMath
open Scalar IEEE

variable {S : Type} [Scalar S] [IEEE S] [Binary S] {k : ℕ}

/-- products of moderate numbers do not underflow -/
theorem normal_mul {x y : ℝ} (hk : (Binary.F S).emin + (Binary.F S).p - 1 ≤ -(2 * k : ℤ))
    (hx : x = 0 ∨ 2 ^ (-k : ℤ) ≤ |x|) (hy : y = 0 ∨ 2 ^ (-k : ℤ) ≤ |y|) : Normal S (x * y) := by
  rcases hx with rfl | hx
  · left; simp
  rcases hy with rfl | hy
  · left; simp
  right
  rw [abs_mul]
  refine le_trans ?_ (mul_le_mul hx hy (Fmt.z_pos _).le (abs_nonneg _))
  rw [← Fmt.z_add]
  exact Fmt.z_le (by omega)
theorem normal_sq {x : ℝ} (hk : (Binary.F S).emin + (Binary.F S).p - 1 ≤ -(2 * k : ℤ))
    (hx : x = 0 ∨ 2 ^ (-k : ℤ) ≤ |x|) : Normal S (x ^ 2) := by
  rw [sq]; exact normal_mul hk hx hx
/-- quotients of moderate numbers do not underflow -/
theorem normal_quot {x l : ℝ} (hk : (Binary.F S).emin + (Binary.F S).p - 1 ≤ -(2 * k + 1 : ℤ))
    (hx : x = 0 ∨ 2 ^ (-k : ℤ) ≤ |x|) (hl : 0 < l) (hl' : l ≤ 2 * 2 ^ (k : ℤ)) : Normal S (x / l) := by
  rcases hx with rfl | hx
  · left; simp
  right
  rw [abs_div, abs_of_pos hl, le_div_iff₀ hl]
  refine le_trans ?_ hx
  calc minNormal S * l ≤ 2 ^ (-(2 * k + 1 : ℤ)) * (2 * 2 ^ (k : ℤ)) :=
        mul_le_mul (Fmt.z_le hk) hl' hl.le (Fmt.z_pos _).le
    _ = 2 ^ (-k : ℤ) := by
      rw [show (2 : ℝ) * 2 ^ (k : ℤ) = 2 ^ ((k : ℤ) + 1) by rw [zpow_add_one₀ (by norm_num)]; ring, ← Fmt.z_add]
      congr 1; ring
/-- the computed difference of moderate numbers is zero or not too small -/
theorem sub_large {x y : S} (hx : IsFinite x) (hy : IsFinite y) (ax : real x = 0 ∨ 2 ^ (-k : ℤ) ≤ |real x|)
    (ay : real y = 0 ∨ 2 ^ (-k : ℤ) ≤ |real y|) (hk : (Binary.F S).emin ≤ -(k + (Binary.F S).p : ℤ)) (hf : IsFinite (x - y)) :
    real (x - y) = 0 ∨ 2 ^ (-(k + (Binary.F S).p : ℕ) : ℤ) ≤ |real (x - y)| := by
  have grid : ∀ {z : S}, IsFinite z → (real z = 0 ∨ 2 ^ (-k : ℤ) ≤ |real z|) → ∃ n : ℤ, real z = n * 2 ^ (-(k + (Binary.F S).p : ℕ) : ℤ) := by
    intro z hz az
    rcases az with h0 | h1
    · exact ⟨0, by simp [h0]⟩
    obtain ⟨⟨m, e, he, hm, hz'⟩, -⟩ := inFormat hz
    have hm' : |(m : ℝ)| ≤ 2 ^ ((Binary.F S).p : ℤ) := by rw [zpow_natCast]; exact_mod_cast hm
    have h2 : (2 : ℝ) ^ (-k : ℤ) ≤ 2 ^ ((Binary.F S).p + e : ℤ) := by
      rw [hz', abs_mul, abs_of_pos (Fmt.z_pos e)] at h1
      rw [Fmt.z_add]
      exact h1.trans (mul_le_mul_of_nonneg_right hm' (Fmt.z_pos e).le)
    have h3 := (zpow_le_zpow_iff_right₀ (by norm_num : (1 : ℝ) < 2)).1 h2
    obtain ⟨n, hn⟩ : ∃ n : ℕ, e = -(k + (Binary.F S).p : ℕ) + (n : ℤ) := ⟨(e + (k + (Binary.F S).p : ℕ)).toNat, by push_cast at *; omega⟩
    refine ⟨m * 2 ^ n, ?_⟩
    rw [hz', hn, Fmt.z_add, zpow_natCast]
    push_cast
    ring
  obtain ⟨m, hm⟩ := grid hx ax
  obtain ⟨n, hn⟩ := grid hy ay
  have hc := correct_sub hx hy
  have e : real x - real y = ((m - n : ℤ) : ℝ) * 2 ^ (-(k + (Binary.F S).p : ℕ) : ℤ) := by rw [hm, hn]; push_cast; ring
  rw [e] at hc
  by_cases h : m - n = 0
  · left
    rw [h] at hc
    have h2 := (hc.2 hf).2 0 ⟨⟨0, (Binary.F S).emin, le_rfl, by simp, by simp⟩, by simp [Fmt.z_pos]⟩
    simpa using h2
  right
  have h1 : (1 : ℝ) ≤ |((m - n : ℤ) : ℝ)| := by exact_mod_cast Int.one_le_abs h
  have hp := Fmt.z_pos (-(k + (Binary.F S).p : ℕ) : ℤ)
  have hF : ∀ s : ℤ, |s| = 1 → InFormat S (s * 2 ^ (-(k + (Binary.F S).p : ℕ) : ℤ)) := fun s hs => by
    refine ⟨⟨s, _, by push_cast; exact hk, by rw [hs]; exact one_le_pow₀ (by norm_num), rfl⟩, ?_⟩
    rw [abs_mul, abs_of_pos hp]
    have : |(s : ℝ)| = 1 := by exact_mod_cast hs
    rw [this, one_mul]
    exact zpow_lt_zpow_right₀ (by norm_num) (by have := (Binary.F S).hmax; have := (Binary.F S).hp; push_cast; omega)
  generalize hg : (2 : ℝ) ^ (-(k + (Binary.F S).p : ℕ) : ℤ) = g at *
  by_contra hcon
  push Not at hcon
  rw [abs_lt] at hcon
  rcases le_or_gt 0 (m - n) with hs | hs
  · have h2 := (hc.2 hf).2 g (by simpa using hF 1 (by norm_num))
    have h3 : (1 : ℝ) ≤ ((m - n : ℤ) : ℝ) := by exact_mod_cast (by omega : (1 : ℤ) ≤ m - n)
    have h4 : g ≤ ((m - n : ℤ) : ℝ) * g := by nlinarith
    rw [abs_of_neg (by linarith), abs_of_nonpos (by linarith)] at h2
    linarith
  · have h2 := (hc.2 hf).2 (-g) (by simpa using hF (-1) (by norm_num))
    have h3 : ((m - n : ℤ) : ℝ) ≤ -1 := by exact_mod_cast (by omega : m - n ≤ -1)
    have h4 : ((m - n : ℤ) : ℝ) * g ≤ -g := by nlinarith
    rw [abs_of_pos (by linarith), abs_of_nonneg (by linarith)] at h2
    linarith
''')
C={2:['x','y'],3:['x','y','z']}
def anon(l): return '⟨'+', '.join(l)+'⟩'
for n in (2,3):
    V=f'Vector{n}';P=f'Point{n}'
    co=C[n]
    sq=' + '.join(f'real v.{c} ^ 2' for c in co)
    dsq=' + '.join(f'(real q.{c} - real p.{c}) ^ 2' for c in co)
    dots=' + '.join(f'real u.{c} * real v.{c}' for c in co)
    adots=' + '.join(f'|real u.{c} * real v.{c}|' for c in co)
    pj=lambda h:[h+'.1',h+'.2'] if n==2 else [h+'.1',h+'.2.1',h+'.2.2']
    A(f'''/-! ### {n}D -/

omit [Binary S] in
theorem Moderate.comps{n} {{v : {V} S}} (h : Moderate k v) :
    {' ∧ '.join(f'(real v.{c} = 0 ∨ 2 ^ (-k : ℤ) ≤ |real v.{c}|)' for c in co)} := by
  have := fun x hx => (h x hx).2.imp_right And.left
  simpa [Comps.comps] using this
omit [Binary S] in
theorem Moderate.comps{n}p {{v : {P} S}} (h : Moderate k v) :
    {' ∧ '.join(f'(real v.{c} = 0 ∨ 2 ^ (-k : ℤ) ≤ |real v.{c}|)' for c in co)} := by
  have := fun x hx => (h x hx).2.imp_right And.left
  simpa [Comps.comps] using this
/-- **C86**: the inner product of moderate vectors is finite and accurate to {n} roundings of its terms. -/
theorem C86_dot_accurate{n} (u v : {V} S) (hu : Moderate k u) (hv : Moderate k v) (hR : Room S (2 * k) {n})
    (hk : (Binary.F S).emin + (Binary.F S).p - 1 ≤ -(2 * k : ℤ)) :
    IsFinite (Api.dot u v) ∧ |real (Api.dot u v) - ({dots})| ≤ ((1 + uro S) ^ {n} - 1) * ({adots}) := by
  have hf := (C86_dot{n} u v hu.upToAll hv.upToAll (by rw [← two_mul]; exact hR)).1
  have a := hu.comps{n}
  have b := hv.comps{n}
  exact ⟨hf, C59_dot_normal{n} u v hf {' '.join(f'(normal_mul hk {x} {y})' for x,y in zip(pj('a'),pj('b')))}⟩
/-- **C86**: the length of a moderate vector is finite and within {n} roundings of the Euclidean length. -/
theorem C86_length_accurate{n} (v : {V} S) (hv : Moderate k v) (hR : Room S (2 * k) {n}) (hR' : Room S k 2)
    (hk : (Binary.F S).emin + (Binary.F S).p - 1 ≤ -(2 * k : ℤ)) :
    IsFinite (Api.length v) ∧ Within S {n} (real (Api.length v)) √({sq}) := by
  have hf := (C86_length{n} v hv.upToAll hR hR').1
  have a := hv.comps{n}
  exact ⟨hf, C59_length{n} v hf {' '.join(f'(normal_sq hk {x})' for x in pj('a'))}⟩
/-- **C86**: a moderate vector that is not zero is normalized accurately: finite result, signs kept, length one up to a few
roundings, each coordinate right up to the same factor. -/
theorem C86_normalize_accurate{n} (v : {V} S) (hv : Moderate k v) (h0 : v.toReal ≠ 0) (hR : Room S (2 * k) {n}) (hR' : Room S k 2)
    (hk : (Binary.F S).emin + (Binary.F S).p - 1 ≤ -(2 * k + 1 : ℤ)) :
    AllFinite v.normalize ∧ (∀ i, 0 ≤ v.normalize.toReal i * v.toReal i) ∧
    (1 - uro S) ^ 2 / (1 + uro S) ^ {n+2} ≤ ∑ i, v.normalize.toReal i ^ 2 ∧
    ∑ i, v.normalize.toReal i ^ 2 ≤ (1 + uro S) ^ 2 / (1 - uro S) ^ {n+2} ∧
    ∀ i, (1 - uro S) ^ 2 / (1 + uro S) ^ {n+2} * (v.toReal i ^ 2 / ∑ j, v.toReal j ^ 2) ≤ v.normalize.toReal i ^ 2 ∧
      v.normalize.toReal i ^ 2 ≤ (1 + uro S) ^ 2 / (1 - uro S) ^ {n+2} * (v.toReal i ^ 2 / ∑ j, v.toReal j ^ 2) := by
  have hB := C86_length{n} v hv.upToAll hR hR'
  have a := hv.comps{n}
  have hk' : (Binary.F S).emin + (Binary.F S).p - 1 ≤ -(2 * k : ℤ) := by omega
  have hp : 0 < {sq} := by
    by_contra hc
    push Not at hc
    apply h0
    have {', '.join(f'z{c} := sq_nonneg (real v.{c})' for c in co[:1])}
''' + '\n'.join(f'    have z{c} := sq_nonneg (real v.{c})' for c in co[1:]) + f'''
    funext i
    fin_cases i
''' + '\n'.join(f'    · exact pow_eq_zero_iff (two_ne_zero) |>.1 (by linarith : real v.{c} ^ 2 = 0)' for c in co) + f'''
  have hl := C59_length{n} v hB.1 {' '.join(f'(normal_sq {HK} {x})' for x in pj('a'))}
  have hl0 : 0 < real (Api.length v) := by
    refine lt_of_lt_of_le ?_ hl.1
    exact mul_pos (pow_pos (by linarith [uro_le (S := S)]) _) (Real.sqrt_pos.2 hp)
  have hl1 : real (Api.length v) ≤ 2 * 2 ^ (k : ℤ) := (le_abs_self _).trans hB.2
  obtain ⟨f, {', '.join('s'+c for c in co)}, l1, l2, l3⟩ := C62_normalize{n} v hB.1 hp {' '.join(f'(normal_sq {HK} {x})' for x in pj('a'))}
    {' '.join(f'(normal_quot hk {x} hl0 hl1)' for x in pj('a'))}
  have es : ∑ i, v.toReal i ^ 2 = {sq} := by rw [Fin.sum_univ_{'two' if n==2 else 'three'}]; rfl
  have en : ∑ i, v.normalize.toReal i ^ 2 = {sq.replace('v.','v.normalize.')} := by rw [Fin.sum_univ_{'two' if n==2 else 'three'}]; rfl
  rw [es, en]
  refine ⟨f, fun i => ?_, l1, l2, fun i => ?_⟩
  · fin_cases i
''' + '\n'.join(f'    · exact s{c}' for c in co)+f'''
  · fin_cases i
''' + '\n'.join(f'    · exact l3 (v.{c}, v.normalize.{c}) (by simp)' for c in co)+'\n')
    A(f'''/-- **C86**: the distance of two moderate points is finite and within {n+1} roundings of the Euclidean distance, however
close together they are. -/
theorem C86_distance_accurate{n} (p q : {P} S) (hp : Moderate k p) (hq : Moderate k q) (hR : Room S (2 * k) {4*n}) (hR' : Room S k 4)
    (hk : (Binary.F S).emin + (Binary.F S).p - 1 ≤ -(2 * (k + (Binary.F S).p : ℕ) : ℤ)) :
    IsFinite (Api.distance p q) ∧ Within S {n+1} (real (Api.distance p q)) √({dsq}) := by
  have hf := (C86_distance{n} p q hp.upToAll hq.upToAll hR hR').1
  have a := hp.comps{n}p
  have b := hq.comps{n}p
  have fp := {P}.allFinite.1 hp.upToAll.allFinite
  have fq := {P}.allFinite.1 hq.upToAll.allFinite
  have hs := C86_sum{n} {V}.zero {V}.zero q p ({V}.upToAll.2 {anon(['upTo_zero (Fmt.z_pos k).le']*n)})
    ({V}.upToAll.2 {anon(['upTo_zero (Fmt.z_pos k).le']*n)}) hq.upToAll hp.upToAll (hR'.mono (by norm_num))
  have fd := {V}.allFinite.1 hs.2.2.2.2.allFinite
  have hk' : (Binary.F S).emin ≤ -(k + (Binary.F S).p : ℤ) := by push_cast at hk; have := (Binary.F S).hp; omega
  exact ⟨hf, C60_distance{n} p q hf {' '.join(f'(normal_sq hk (sub_large {x} {y} {z} {w} {HK} {d}))' for x,y,z,w,d in zip(pj('fq'),pj('fp'),pj('b'),pj('a'),pj('fd')))}⟩
''')
A('end VecMath')
open('/verif/lean/Verif/Props/FloatRangeAcc.lean','w').write('\n'.join(out)+'\n')
