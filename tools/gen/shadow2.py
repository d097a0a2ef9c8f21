import re
C={'2x':'.1','2y':'.2','3x':'.1','3y':'.2.1','3z':'.2.2'}
src=open('/verif/lean/Verif/Props/FloatShadow.lean').read() if False else open('/tmp/d/FloatShadow.lean').read()
for d in '23':
    i=src.index(f'  have k : ∀ p, p ∈ ps ∨ p ∈ qs → Exactly (n.along p) (n.toReal ⬝ᵥ p.toReal) := fun p hm =>\n    C68_dot{d}')
    j=src.index('  rw [n.separates_iff hp hq (fun p h => (k p',i)
    e=src.index('\nend\n',j)
    body=src[j:e]
    src=src[:j]+'  exact n.separates_hull ps qs hp hq k'+src[e:]
    lem=f'''/-- If the projections are computed exactly, the answer is right about the convex hulls. -/
theorem Vector{d}.separates_hull (n : Vector{d} S) (ps qs : List (Point{d} S)) (hp : ps ≠ []) (hq : qs ≠ [])
    (k : ∀ p, p ∈ ps ∨ p ∈ qs → Exactly (n.along p) (n.toReal ⬝ᵥ p.toReal)) :
    n.separates ps qs = true ↔ (∀ x ∈ Point{d}.hull ps, ∀ y ∈ Point{d}.hull qs, n.toReal ⬝ᵥ x < n.toReal ⬝ᵥ y) ∨
      (∀ x ∈ Point{d}.hull ps, ∀ y ∈ Point{d}.hull qs, n.toReal ⬝ᵥ y < n.toReal ⬝ᵥ x) := by
{body}
'''
    ax = ['x','y','z'][:int(d)]
    hi = {'2':'4','3':'8'}[d]; top={'2':'3','3':'7'}[d]
    for i,a in enumerate(ax):
        lem+=f'''theorem Vector{d}.along_{a} {{p : Point{d} S}} (h : AllFinite p) : IsFinite (({a}Axis : Vector{d} S).along p) ∧ real (({a}Axis : Vector{d} S).along p) = real p.{a} := by
  have h := Point{d}.allFinite.1 h
  have e : num (({a}Axis : Vector{d} S).along p) = num p.{a} := by
    show num ({' + '.join(('(one : S)' if b==a else '(Scalar.zero : S)')+' * p.'+b for b in ax)}) = _
    AXIS{d}{a}
  exact ⟨(finite_num e).2 (by tauto), real_num e⟩
'''.replace(f'({a}Axis','(Vector%s.%sAxis'%(d,a))
    lem+=f'''/-- **C125**: two boxes do not overlap if and only if an axis of the coordinate system separates their corners. -/
theorem C125_boxes{d} (a b : BoundingBox{d} S) (build : Build) (cs ds : List (Point{d} S)) (ha : AllFinite a.min ∧ AllFinite a.max) (hb : AllFinite b.min ∧ AllFinite b.max)
    (la : LeAll a.min a.max) (lb : LeAll b.min b.max) (hc : ∀ p, p ∈ cs ↔ ∃ k : UInt32, k < {hi} ∧ a.corner build k = .ok p)
    (hd : ∀ p, p ∈ ds ↔ ∃ k : UInt32, k < {hi} ∧ b.corner build k = .ok p) :
    a.overlaps b = false ↔ {' ∨ '.join(f'(Vector{d}.{x}Axis : Vector{d} S).separates cs ds = true' for x in ax)} := by
  have cmin : a.min ∈ cs := (hc _).2 ⟨0, by decide, by cases build <;> rfl⟩
  have cmax : a.max ∈ cs := (hc _).2 ⟨{top}, by decide, by cases build <;> rfl⟩
  have dmin : b.min ∈ ds := (hd _).2 ⟨0, by decide, by cases build <;> rfl⟩
  have dmax : b.max ∈ ds := (hd _).2 ⟨{top}, by decide, by cases build <;> rfl⟩
  have ia : ∀ p ∈ cs, AllFinite p ∧ ({' ∧ '.join(f'(real a.min.{x} ≤ real p.{x} ∧ real p.{x} ≤ real a.max.{x})' for x in ax)}) := by
    intro p hp
    obtain ⟨k, -, hk⟩ := (hc p).1 hp
    exact inside{d}_real a ha (C33_inside{d} a la build k p hk)
  have ib : ∀ p ∈ ds, AllFinite p ∧ ({' ∧ '.join(f'(real b.min.{x} ≤ real p.{x} ∧ real p.{x} ≤ real b.max.{x})' for x in ax)}) := by
    intro p hp
    obtain ⟨k, -, hk⟩ := (hd p).1 hp
    exact inside{d}_real b hb (C33_inside{d} b lb build k p hk)
'''
    for x in ax:
        lem+=f'''  have s{x} : (Vector{d}.{x}Axis : Vector{d} S).separates cs ds = true ↔ real a.max.{x} < real b.min.{x} ∨ real b.max.{x} < real a.min.{x} := by
    rw [Vector{d}.separates_iff _ (List.ne_nil_of_mem cmin) (List.ne_nil_of_mem dmin) (fun p h => (Vector{d}.along_{x} (ia p h).1).1) (fun p h => (Vector{d}.along_{x} (ib p h).1).1)]
    refine or_congr ⟨fun h => ?_, fun h p hp q hq => ?_⟩ ⟨fun h => ?_, fun h p hp q hq => ?_⟩
    · have := h _ cmax _ dmin
      rwa [(Vector{d}.along_{x} ha.2).2, (Vector{d}.along_{x} hb.1).2] at this
    · rw [(Vector{d}.along_{x} (ia p hp).1).2, (Vector{d}.along_{x} (ib q hq).1).2]
      exact lt_of_le_of_lt (ia p hp).2{C[d+x]}.2 (lt_of_lt_of_le h (ib q hq).2{C[d+x]}.1)
    · have := h _ cmin _ dmax
      rwa [(Vector{d}.along_{x} ha.1).2, (Vector{d}.along_{x} hb.2).2] at this
    · rw [(Vector{d}.along_{x} (ia p hp).1).2, (Vector{d}.along_{x} (ib q hq).1).2]
      exact lt_of_le_of_lt (ib q hq).2{C[d+x]}.2 (lt_of_lt_of_le h (ia p hp).2{C[d+x]}.1)
'''
    rws=', '.join(f's{x}' for x in ax)
    fa='; '.join(f'obtain ⟨{n}⟩ := Point{d}.allFinite.1 {h}' for n,h in [(', '.join('a1'+x for x in ax),'ha.1'),(', '.join('a2'+x for x in ax),'ha.2'),(', '.join('b1'+x for x in ax),'hb.1'),(', '.join('b2'+x for x in ax),'hb.2')])
    les=', '.join(f'ole_real\' b1{x} a2{x}, ole_real\' a1{x} b2{x}' for x in ax)
    lem+=f'''  rw [{rws}, ← Bool.not_eq_true, overlaps{d}_iff]
  {fa}
  rw [{les}]
  simp only [not_and_or, not_le]
'''
    hyps=''.join(f'  obtain ⟨f{x}1, g{x}1⟩ := le_finite w1{x} w2{x} (by tauto) (by tauto)\n' for x in ax)
    pre=f'''theorem inside{d}_real (a : BoundingBox{d} S) (ha : AllFinite a.min ∧ AllFinite a.max) {{p : Point{d} S}} (h : a.isInside p = true) :
    AllFinite p ∧ ({' ∧ '.join(f'(real a.min.{x} ≤ real p.{x} ∧ real p.{x} ≤ real a.max.{x})' for x in ax)}) := by
  obtain ⟨{', '.join(f'⟨w1{x}, w2{x}⟩' for x in ax)}⟩ := isInside{d}_iff.1 h
  have h1 := Point{d}.allFinite.1 ha.1
  have h2 := Point{d}.allFinite.1 ha.2
{hyps}  rw [Point{d}.allFinite]
  tauto
'''
    lem=pre+lem if False else lem.replace('/-- **C125**: two boxes',pre+'/-- **C125**: two boxes')
    k=src.index(f'theorem Vector{d}.along_neg ')
    src=src[:k]+lem+src[k:]
gen='''theorem ole_real' {a b : S} (ha : IsFinite a) (hb : IsFinite b) : (a ≤? b) = true ↔ real a ≤ real b := by
  rw [le_iff, ha.val, hb.val, EReal.coe_le_coe_iff]
  exact ⟨fun h => h.2.2, fun h => ⟨ha.not_nan, hb.not_nan, h⟩⟩
theorem le_finite {a b x : S} (h : (a ≤? x) = true) (h' : (x ≤? b) = true) (ha : IsFinite a) (hb : IsFinite b) :
    IsFinite x ∧ (real a ≤ real x ∧ real x ≤ real b) := by
  have f : IsFinite x := by
    rw [le_iff] at h h'
    have h3 := h.2.2; have h4 := h'.2.2
    rw [ha.val] at h3
    rw [hb.val] at h4
    LEFIN
  exact ⟨f, (ole_real' ha f).1 h, (ole_real' f hb).1 h'⟩
'''
i=src.index('theorem max_both')
src=src[:i]+gen+src[i:]
A={'2x':'rw [num_add_congr rfl (IEEE.num_zero_mul h.2), num_add_zero]; exact num_one_mul _',
'2y':'rw [num_add_congr (IEEE.num_zero_mul h.1) rfl, num_zero_add]; exact num_one_mul _',
'3x':'rw [num_add_congr rfl (IEEE.num_zero_mul h.2.2), num_add_zero, num_add_congr rfl (IEEE.num_zero_mul h.2.1), num_add_zero]; exact num_one_mul _',
'3y':'rw [num_add_congr rfl (IEEE.num_zero_mul h.2.2), num_add_zero, num_add_congr (IEEE.num_zero_mul h.1) rfl, num_zero_add]; exact num_one_mul _',
'3z':'rw [num_add_congr (num_add_congr (IEEE.num_zero_mul h.1) (IEEE.num_zero_mul h.2.1)) rfl, num_add_congr (num_add_zero _) rfl, num_zero_add]; exact num_one_mul _'}
for k,v in A.items(): src=src.replace('AXIS'+k,v)
LEFIN=open('/tmp/w/lefin.txt').read().strip()
src=src.replace('LEFIN',LEFIN)
src=src.replace('import Verif.Props.FloatExact\n','import Verif.Props.FloatExact\nimport Verif.Props.FloatBoxMeasure\n')
open('/verif/lean/Verif/Props/FloatShadow.lean','w').write(src)
