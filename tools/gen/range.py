out=[]
A=out.append
A('''import Verif.Lemmas.Range
import Verif.Spec.Ray
import Verif.Props.FloatErrorMat
import Verif.Props.FloatMeasure
import Verif.Props.FloatVector
/-!
# C86: data of moderate size never overflows, and loses nothing to underflow

`Room S e N` says that the format holds `N · 2^e`; a bound that holds for the exact result then holds for the computed
one, since rounding does not cross a number of the format.
-/

namespace VecMath
open Scalar IEEE

variable {S : Type} [Scalar S] [IEEE S] [Binary S] {k a b : ℤ}

omit [Binary S] in
theorem UpTo.eq {B C : ℝ} {x : S} (h : UpTo B x) (e : B = C) : UpTo C x := e ▸ h
omit [Binary S] in
theorem UpTo.num {B : ℝ} {x y : S} (h : UpTo B x) (e : num y = num x) : UpTo B y :=
  ⟨(finite_num e).2 h.1, by rw [real_num e]; exact h.2⟩
omit [Binary S] in
theorem upTo_two : UpTo ((2 : ℕ) * 2 ^ (0 : ℤ)) (two : S) := ⟨finite_two, by rw [real_two]; norm_num⟩
omit [Binary S] in
theorem upTo_half : UpTo ((1 : ℕ) * 2 ^ (-1 : ℤ)) (half : S) := ⟨finite_half, by rw [real_half]; norm_num⟩
omit [Binary S] in
theorem upTo_zero {B : ℝ} (h : 0 ≤ B) : UpTo B (zero : S) := ⟨finite_zero, by rw [real_zero, abs_zero]; exact h⟩
omit [Binary S] in
theorem real_sq_nonneg2 {x y : S} (h : IsFinite (x * x + y * y)) : 0 ≤ real (x * x + y * y) := by
  have hn : NoNaN (Vector2.new x y) := by
    by_contra hc
    exact h.not_nan (((C09_diagonal2 (Vector2.new x y)).1).2 hc)
  have := (le_iff.1 ((C09_diagonal2 (Vector2.new x y)).2 hn)).2.2
  rw [val_zero] at this
  have e : val (x * x + y * y) = ((real (x * x + y * y) : ℝ) : EReal) := h.val
  have t : (0 : EReal) ≤ val (x * x + y * y) := this
  rw [e] at t
  exact_mod_cast t
omit [Binary S] in
theorem real_sq_nonneg3 {x y z : S} (h : IsFinite (x * x + y * y + z * z)) : 0 ≤ real (x * x + y * y + z * z) := by
  have hn : NoNaN (Vector3.new x y z) := by
    by_contra hc
    exact h.not_nan (((C09_diagonal3 (Vector3.new x y z)).1).2 hc)
  have := (le_iff.1 ((C09_diagonal3 (Vector3.new x y z)).2 hn)).2.2
  rw [val_zero] at this
  have e : val (x * x + y * y + z * z) = ((real (x * x + y * y + z * z) : ℝ) : EReal) := h.val
  have t : (0 : EReal) ≤ val (x * x + y * y + z * z) := this
  rw [e] at t
  exact_mod_cast t
omit [Binary S] in
theorem UpTo.min {B : ℝ} {x y : S} (hx : UpTo B x) (hy : UpTo B y) : UpTo B (Api.min x y) := by
  rcases min_same (a := x) (b := y) with h | h
  · exact hx.num h.num
  · exact hy.num h.num
omit [Binary S] in
theorem UpTo.max {B : ℝ} {x y : S} (hx : UpTo B x) (hy : UpTo B y) : UpTo B (Api.max x y) := by
  rcases max_same (a := x) (b := y) with h | h
  · exact hx.num h.num
  · exact hy.num h.num
''')
C={2:['x','y'],3:['x','y','z']}
def anon(l): return '⟨'+', '.join(l)+'⟩'
def proj(h,n):
    return [h+'.1',h+'.2'] if n==2 else [h+'.1',h+'.2.1',h+'.2.2']
for n in (2,3):
    V=f'Vector{n}';P=f'Point{n}';B=f'BoundingBox{n}'
    co=C[n]
    A(f'/-! ### {n}D -/\n')
    # sums
    A(f'''/-- **C86**: sums and differences. -/
theorem C86_sum{n} (u v : {V} S) (p q : {P} S) (hu : UpToAll (2 ^ k) u) (hv : UpToAll (2 ^ k) v) (hp : UpToAll (2 ^ k) p)
    (hq : UpToAll (2 ^ k) q) (hR : Room S k 2) :
    UpToAll (2 * 2 ^ k) (u + v) ∧ UpToAll (2 * 2 ^ k) (u - v) ∧ UpToAll (2 * 2 ^ k) (p + v) ∧ UpToAll (2 * 2 ^ k) (p - v) ∧
    UpToAll (2 * 2 ^ k) (p - q : {V} S) := by
  rw [{V}.upToAll] at hu hv
  rw [{P}.upToAll] at hp hq
  have ad : ∀ {{x y : S}}, UpTo (2 ^ k) x → UpTo (2 ^ k) y → UpTo (2 * 2 ^ k) (x + y) :=
    fun hx hy => (hx.pow.add hy.pow hR).eq (by norm_num)
  have su : ∀ {{x y : S}}, UpTo (2 ^ k) x → UpTo (2 ^ k) y → UpTo (2 * 2 ^ k) (x - y) :=
    fun hx hy => (hx.pow.sub hy.pow hR).eq (by norm_num)
  exact ⟨{V}.upToAll.2 {anon([f'ad {x} {y}' for x,y in zip(proj('hu',n),proj('hv',n))])},
    {V}.upToAll.2 {anon([f'su {x} {y}' for x,y in zip(proj('hu',n),proj('hv',n))])},
    {P}.upToAll.2 {anon([f'ad {x} {y}' for x,y in zip(proj('hp',n),proj('hv',n))])},
    {P}.upToAll.2 {anon([f'su {x} {y}' for x,y in zip(proj('hp',n),proj('hv',n))])},
    {V}.upToAll.2 {anon([f'su {x} {y}' for x,y in zip(proj('hp',n),proj('hq',n))])}⟩
''')
    A(f'''/-- **C86**: multiples and quotients. -/
theorem C86_multiple{n} (v : {V} S) (s : S) (hv : UpToAll (2 ^ a) v) (hR : Room S (a + b) 1) :
    (UpTo (2 ^ b) s → UpToAll (2 ^ (a + b)) (v * s)) ∧
    (IsFinite s → 2 ^ (-b) ≤ |real s| → UpToAll (2 ^ (a + b)) (v / s)) := by
  rw [{V}.upToAll] at hv
  refine ⟨fun hs => {V}.upToAll.2 ?_, fun hs h0 => {V}.upToAll.2 ?_⟩
  · have mu : ∀ {{x : S}}, UpTo (2 ^ a) x → UpTo (2 ^ (a + b)) (x * s) :=
      fun hx => (hx.pow.mul hs.pow hR).eq (by norm_num)
    exact {anon([f'mu {x}' for x in proj('hv',n)])}
  · have di : ∀ {{x : S}}, UpTo (2 ^ a) x → UpTo (2 ^ (a + b)) (x / s) :=
      fun hx => (hx.pow.div hs h0 hR).eq (by norm_num)
    exact {anon([f'di {x}' for x in proj('hv',n)])}
''')
    A(f'''/-- **C86**: inner products. -/
theorem C86_dot{n} (u v : {V} S) (hu : UpToAll (2 ^ a) u) (hv : UpToAll (2 ^ b) v) (hR : Room S (a + b) {n}) :
    UpTo ({n} * 2 ^ (a + b)) (Api.dot u v) := by
  rw [{V}.upToAll] at hu hv
  exact (UpTo.dot{n} {' '.join(h+'.pow' for h in proj('hu',n))} {' '.join(h+'.pow' for h in proj('hv',n))} hR).eq (by norm_num)
/-- the length of components up to `M · 2^k` -/
theorem length_upTo{n} {{M : ℕ}} (v : {V} S) ({' '.join('h'+c for c in co)} : True) : True := trivial
/-- **C86**: lengths. -/
theorem C86_length{n} (v : {V} S) (hv : UpToAll (2 ^ k) v) (hR : Room S (2 * k) {n}) (hR' : Room S k 2) :
    UpTo (2 * 2 ^ k) (Api.length v) := by
  rw [{V}.upToAll] at hv
  rw [two_mul] at hR
  have := UpTo.dot{n} {' '.join(h+'.pow' for h in proj('hv',n))} {' '.join(h+'.pow' for h in proj('hv',n))} hR
  rw [← two_mul k] at this
  exact (this.sqrt (N := 2) (real_sq_nonneg{n} this.1) (by norm_num) hR').eq (by norm_num)
/-- **C86**: distances. -/
theorem C86_distance{n} (p q : {P} S) (hp : UpToAll (2 ^ k) p) (hq : UpToAll (2 ^ k) q) (hR : Room S (2 * k) {4*n})
    (hR' : Room S k 4) : UpTo (4 * 2 ^ k) (Api.distance p q) := by
  have hv := {V}.upToAll.1 (C86_sum{n} {V}.zero {V}.zero q p ({V}.upToAll.2 {anon(['upTo_zero (Fmt.z_pos k).le']*n)}) ({V}.upToAll.2 {anon(['upTo_zero (Fmt.z_pos k).le']*n)}) hq hp (hR'.mono (by norm_num))).2.2.2.2
  rw [two_mul] at hR
  have e : ∀ {{x : S}}, UpTo (2 * 2 ^ k) x → UpTo ((2 : ℕ) * 2 ^ k) x := fun h => h.eq (by norm_num)
  have := UpTo.dot{n} {' '.join('(e '+h+')' for h in proj('hv',n))} {' '.join('(e '+h+')' for h in proj('hv',n))} (hR.mono (by norm_num))
  rw [← two_mul k] at this
  exact (this.sqrt (N := 4) (real_sq_nonneg{n} this.1) (by norm_num) hR').eq (by norm_num)
''')
    out[-1]=out[-1].replace(f'''/-- the length of components up to `M · 2^k` -/
theorem length_upTo{n} {{M : ℕ}} (v : {V} S) ({' '.join('h'+c for c in co)} : True) : True := trivial
''','')
    if n==3:
        A('''/-- **C86**: cross products. -/
theorem C86_cross3 (u v : Vector3 S) (hu : UpToAll (2 ^ a) u) (hv : UpToAll (2 ^ b) v) (hR : Room S (a + b) 2) :
    UpToAll (2 * 2 ^ (a + b)) (Api.cross u v : Vector3 S) := by
  rw [Vector3.upToAll] at hu hv
  have tw : ∀ {p q r s : S}, UpTo (2 ^ a) p → UpTo (2 ^ b) q → UpTo (2 ^ a) r → UpTo (2 ^ b) s → UpTo (2 * 2 ^ (a + b)) (p * q - r * s) :=
    fun hp hq hr hs => (UpTo.two hp.pow hr.pow hq.pow hs.pow hR).eq (by norm_num)
  exact Vector3.upToAll.2 ⟨tw hu.2.1 hv.2.2 hu.2.2 hv.2.1, tw hu.2.2 hv.1 hu.1 hv.2.2, tw hu.1 hv.2.1 hu.2.1 hv.1⟩
''')
    A(f'''/-- **C86**: points of a ray. -/
theorem C86_at{n} (r : Ray{n} S) (s : S) (ho : UpToAll (2 ^ (a + b)) r.origin) (hd : UpToAll (2 ^ a) r.direction)
    (hs : UpTo (2 ^ b) s) (hR : Room S (a + b) 2) : UpToAll (2 * 2 ^ (a + b)) (r.at s) := by
  rw [{P}.upToAll] at ho
  rw [{V}.upToAll] at hd
  have key : ∀ {{x y : S}}, UpTo (2 ^ (a + b)) x → UpTo (2 ^ a) y → UpTo (2 * 2 ^ (a + b)) (x + y * s) := fun hx hy =>
    (hx.pow.add (((hy.pow.mul hs.pow (hR.mono (by norm_num)))).eq (by norm_num)).pow hR).eq (by norm_num)
  exact {P}.upToAll.2 {anon([f'key {x} {y}' for x,y in zip(proj('ho',n),proj('hd',n))])}
''')
    # boxes
    ext={2:['width','height'],3:['width','height','depth']}[n]
    pr=lambda h: proj(h,n)
    A(f'''/-- **C86**: extents, {'area' if n==2 else 'surface area, volume'} and center of a box. -/
theorem C86_box{n} (b : {B} S) (hb : UpToAll (2 ^ k) b) (hR : Room S k 2)'''+('' if n==2 else '')+f''' :
    {' ∧ '.join(f'UpTo (2 * 2 ^ k) b.{e}' for e in ext)} ∧
    UpToAll (2 * 2 ^ k) b.diagonal ∧ (Room S (k - 1) 2 → UpToAll (2 * 2 ^ k) b.center) ∧
''' + ('''    (Room S (2 * k) 4 → UpTo (4 * 2 ^ (2 * k)) b.area) := by
''' if n==2 else '''    (Room S (2 * k) 24 → UpTo (24 * 2 ^ (2 * k)) b.surfaceArea) ∧
    (Room S (2 * k) 4 → Room S (3 * k) 8 → UpTo (8 * 2 ^ (3 * k)) b.volume) := by
''')+f'''  rw [{B}.upToAll, {P}.upToAll, {P}.upToAll] at hb
  obtain ⟨hm, hM⟩ := hb
  have su : ∀ {{x y : S}}, UpTo (2 ^ k) x → UpTo (2 ^ k) y → UpTo (2 * 2 ^ k) (x - y) :=
    fun hx hy => (hx.pow.sub hy.pow hR).eq (by norm_num)
  have ce : ∀ {{x y : S}}, Room S (k - 1) 2 → UpTo (2 ^ k) x → UpTo (2 * 2 ^ k) y → UpTo (2 * 2 ^ k) (x + y * half) := fun hR' hx hy => by
    have h1 := UpTo.mul (M := 2) (e := k) (hy.eq (by norm_num)) upTo_half hR'
    have h2 : UpTo ((1 : ℕ) * 2 ^ k) (_ * half) := h1.eq (by
      rw [Fmt.z_add]; push_cast; rw [zpow_neg_one]; ring)
    exact (hx.pow.add h2 hR).eq (by norm_num)
  have n2 : ∀ {{x : S}}, UpTo (2 * 2 ^ k) x → UpTo ((2 : ℕ) * 2 ^ k) x := fun h => h.eq (by norm_num)
''' + '\n'.join(f'  have w{i} : UpTo (2 * 2 ^ k) b.{e} := su {M} {m}' for i,(e,M,m) in enumerate(zip(ext,pr('hM'),pr('hm')))) + f'''
  refine ⟨{', '.join(f'w{i}' for i in range(n))}, {V}.upToAll.2 {anon([f'w{i}' for i in range(n)])}, fun h => {P}.upToAll.2 {anon([f'ce h {m} w{i}' for i,m in enumerate(pr('hm'))])}, '''
+ ('''fun h => ?_⟩
  rw [two_mul] at h ⊢
  exact ((n2 w0).mul (n2 w1) h).eq (by norm_num)
''' if n==2 else '''fun h => ?_, fun h h' => ?_⟩
  · rw [two_mul] at h
    have pr : ∀ {x y : S}, UpTo (2 * 2 ^ k) x → UpTo (2 * 2 ^ k) y → UpTo ((4 : ℕ) * 2 ^ (k + k)) (x * y) :=
      fun hx hy => ((n2 hx).mul (n2 hy) (h.mono (by norm_num))).eq (by norm_num)
    have h1 := ((pr w0 w1).add (pr w0 w2) (h.mono (by norm_num))).add (pr w1 w2) (h.mono (by norm_num))
    exact (upTo_two.mul h1 (by rw [zero_add]; exact h.mono (by norm_num))).eq (by rw [zero_add, show k + k = 2 * k by ring]; norm_num)
  · rw [two_mul] at h
    exact (((n2 w0).mul (n2 w1) h).mul (n2 w2) (by rw [show k + k + k = 3 * k by ring]; exact h')).eq
      (by rw [show k + k + k = 3 * k by ring]; norm_num)
'''))
    mm=lambda f,h1,h2:[f'UpTo.{f} {x} {y}' for x,y in zip(pr(h1),pr(h2))]
    A(f'''omit [Binary S] in
theorem {B}.new_upTo {{B : ℝ}} {{p q : {P} S}} (hp : UpToAll B p) (hq : UpToAll B q) : UpToAll B ({B}.new p q) := by
  rw [{P}.upToAll] at hp hq
  exact {B}.upToAll.2 ⟨{P}.upToAll.2 {anon(mm('min','hp','hq'))}, {P}.upToAll.2 {anon(mm('max','hp','hq'))}⟩
omit [Binary S] in
/-- **C86**: bounding boxes, unions and intersections have no coordinates but those they are made of. -/
theorem C86_union{n} {{B : ℝ}} (b c : {B} S) (p q : {P} S) (hb : UpToAll B b) (hc : UpToAll B c) (hp : UpToAll B p)
    (hq : UpToAll B q) : UpToAll B ({B}.new p q) ∧ UpToAll B (Api.union b c : {B} S) ∧ UpToAll B (Api.union b p : {B} S) ∧
    ∀ r, Api.intersect b c = some r → UpToAll B (r : {B} S) := by
  rw [{B}.upToAll] at hb hc
  have mi : ∀ {{p q : {P} S}}, UpToAll B p → UpToAll B q → UpToAll B (Api.min p q) := fun hp hq => ({B}.upToAll.1 ({B}.new_upTo hp hq)).1
  have ma : ∀ {{p q : {P} S}}, UpToAll B p → UpToAll B q → UpToAll B (Api.max p q) := fun hp hq => ({B}.upToAll.1 ({B}.new_upTo hp hq)).2
  refine ⟨{B}.new_upTo hp hq, {B}.new_upTo (mi hb.1 hc.1) (ma hb.2 hc.2), {B}.new_upTo (mi hb.1 hp) (ma hb.2 hp), fun r h => ?_⟩
  simp only [Api.intersect, BoxIntersection.intersect] at h
  split at h
  · cases h
    exact {B}.new_upTo (ma hb.1 hc.1) (mi hb.2 hc.2)
  · cases h
''')
    A(f'''/-- **C86**: if box and ray origin are at most `2^a` in size and each direction coordinate is zero or at least `2^-b`,
nothing overflows in the slab test, which is what C65 and C83 ask. -/
theorem C86_ray{n} (box : {B} S) (r : Ray{n} S) (hb : UpToAll (2 ^ a) box) (ho : UpToAll (2 ^ a) r.origin) (hd : AllFinite r.direction)
    (h0 : ∀ i, r.direction.toReal i = 0 ∨ 2 ^ (-b) ≤ |r.direction.toReal i|) (hR : Room S a 2) (hR' : Room S (a + b) 2) :
    RayFinite{n} box r := by
  rw [{B}.upToAll, {P}.upToAll, {P}.upToAll] at hb
  rw [{P}.upToAll] at ho
  rw [{V}.allFinite] at hd
  have su : ∀ {{x y : S}}, UpTo (2 ^ a) x → UpTo (2 ^ a) y → UpTo ((2 : ℕ) * 2 ^ a) (x - y) :=
    fun hx hy => (hx.pow.sub hy.pow hR).eq (by norm_num)
  have key : ∀ {{lo hi o d : S}}, UpTo (2 ^ a) lo → UpTo (2 ^ a) hi → UpTo (2 ^ a) o → IsFinite d → (real d = 0 ∨ 2 ^ (-b) ≤ |real d|) →
      SlabFinite lo hi o d := fun hl hh ho hd h => ⟨(su hl ho).1, (su hh ho).1, hd, fun hn =>
    have h := h.resolve_left hn
    ⟨((su hl ho).div hd h hR').1, ((su hh ho).div hd h hR').1⟩⟩
  exact {anon([f'key {m} {M} {o} {d} (h0 {i})' for i,(m,M,o,d) in enumerate(zip(pr('hb.1'),pr('hb.2'),pr('ho'),pr('hd')))])}
''')
    # matrices
    m=n+1; MM=f'Matrix{m}x{m}'
    hs=[f'h{i}' for i in range(m*m)]; gs=[f'g{i}' for i in range(m*m)]
    ents=[]
    for i in range(m):
        for j in range(m):
            ents.append('d '+' '.join(f'h{m*i+k}' for k in range(m))+' '+' '.join(f'g{m*k+j}' for k in range(m)))
    vs=[chr(ord('p')+i) for i in range(m)]; ws=['w'+str(i) for i in range(m)]
    A(f'''/-- **C86**: products of matrices. -/
theorem C86_product{m}x{m} (A B : {MM} S) (hA : UpToAll (2 ^ a) A) (hB : UpToAll (2 ^ b) B) (hR : Room S (a + b) {m}) :
    UpToAll ({m} * 2 ^ (a + b)) (A * B) := by
  rw [{MM}.upToAll, forall_lt_{m*m}] at hA hB ⊢
  obtain {anon(hs)} := hA
  obtain {anon(gs)} := hB
  have d : ∀ {{{' '.join(vs+ws)} : S}}, {' → '.join(f'UpTo (2 ^ a) {v}' for v in vs)} → {' → '.join(f'UpTo (2 ^ b) {v}' for v in ws)} →
      UpTo ({m} * 2 ^ (a + b)) ({' + '.join(f'{v} * {w}' for v,w in zip(vs,ws))}) :=
    fun {' '.join('h'+v for v in vs)} {' '.join('h'+v for v in ws)} => (UpTo.dot{m} {' '.join('h'+v+'.pow' for v in vs)} {' '.join('h'+v+'.pow' for v in ws)} hR).eq (by norm_num)
  exact {anon(ents)}
''')
    lin=[[f'h{m*i+j}' for j in range(n)] for i in range(n)]
    pv=pr('hv')
    dt=f'''  have d : ∀ {{{' '.join(vs[:n]+ws[:n])} : S}}, {' → '.join(f'UpTo (2 ^ a) {v}' for v in vs[:n])} → {' → '.join(f'UpTo (2 ^ b) {v}' for v in ws[:n])} →
      UpTo (({n} : ℕ) * 2 ^ (a + b)) ({' + '.join(f'{v} * {w}' for v,w in zip(vs[:n],ws[:n]))}) :=
    fun {' '.join('h'+v for v in vs[:n])} {' '.join('h'+v for v in ws[:n])} => (UpTo.dot{n} {' '.join('h'+v+'.pow' for v in vs[:n])} {' '.join('h'+v+'.pow' for v in ws[:n])} (hR.mono (by norm_num))).eq (by norm_num)
'''
    A(f'''/-- **C86**: transformed vectors. -/
theorem C86_vector{n} (t : Transform{n} S) (v : {V} S) (hA : ∀ i j : Fin {n}, UpTo (2 ^ a) (t.forward.m[{m} * i.val + j.val]))
    (hv : UpToAll (2 ^ b) v) (hR : Room S (a + b) {n}) : UpToAll ({n} * 2 ^ (a + b)) (Transform.transform t v : {V} S) := by
  rw [{V}.upToAll] at hv ⊢
{dt}  refine {anon(['?_']*n)}
'''+''.join(f'''  · exact (d {' '.join(f'(hA {i} {j})' for j in range(n))} {' '.join(pv)}).eq (by norm_num)
''' for i in range(n)))
    row0=', '.join(['0']*n)
    A(f'''/-- **C86**: transformed points. -/
theorem C86_point{n} (t : Transform{n} S) (p : {P} S) (hF : AllFinite t.forward) (haff : t.forward.toReal {n} = ![{row0}, 1])
    (hA : ∀ i j : Fin {n}, UpTo (2 ^ a) (t.forward.m[{m} * i.val + j.val]))
    (ho : ∀ i : Fin {n}, UpTo (2 ^ (a + b)) (t.forward.m[{m} * i.val + {n}]))
    (hv : UpToAll (2 ^ b) p) (hR : Room S (a + b) {m}) : UpToAll ({m} * 2 ^ (a + b)) (Transform.transform t p : {P} S) := by
  rw [{P}.upToAll] at hv ⊢
  rw [{MM}.allFinite, forall_lt_{m*m}] at hF
  obtain {anon(hs)} := hF
  have hw := weight_one{n} {' '.join(f'h{m*n+i}' for i in range(m))} {' '.join(h+'.1' for h in pv)} {' '.join(f'(congrFun haff {i})' for i in range(m))}
{dt}  have e : ∀ {{x y : S}}, UpTo (({n} : ℕ) * 2 ^ (a + b)) x → UpTo (2 ^ (a + b)) y → UpTo ({m} * 2 ^ (a + b)) (x + y) :=
    fun hx hy => (hx.add hy.pow (hR.mono (by norm_num))).eq (by norm_num)
  refine {anon(['?_']*n)}
'''+''.join(f'''  · exact (e (d {' '.join(f'(hA {i} {j})' for j in range(n))} {' '.join(pv)}) (ho {i})).num (div_weight hw)
''' for i in range(n)))
A('end VecMath')
open('/verif/lean/Verif/Props/FloatRange.lean','w').write('\n'.join(out)+'\n')
