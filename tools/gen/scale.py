H='''import Verif.Lemmas.Scale
import Verif.Lemmas.Proj
/-!
# Layer F: changing the unit of length by a power of two (C74)

(Generated by tools/gen/scale.py.)
-/

open Classical

namespace VecMath
open Scalar IEEE

variable {S : Type} [Scalar S] [IEEE S]

theorem same_num' {a b : S} (h : Same a b) : IEEE.num a = IEEE.num b := by unfold IEEE.num; rw [h]
theorem alike_of {a b : S} (h : IsFinite a) (h' : IsFinite b) : Alike a b := ⟨fun _ => h', fun _ => h⟩
/-- Sums of two products. -/
theorem Scaled.dot2 [Binary S] {j k : ℤ} {a a' b b' c c' d d' : S} (ha : Scaled j a a') (hb : Scaled k b b') (hc : Scaled j c c')
    (hd : Scaled k d d') (n1 : Normal S (IEEE.real a * IEEE.real b)) (n1' : Normal S (IEEE.real a' * IEEE.real b'))
    (n2 : Normal S (IEEE.real c * IEEE.real d)) (n2' : Normal S (IEEE.real c' * IEEE.real d'))
    (hf : IsFinite (a * b + c * d)) (hf' : IsFinite (a' * b' + c' * d')) : Scaled (j + k) (a * b + c * d) (a' * b' + c' * d') := by
  obtain ⟨f1, f2⟩ := finite_of_add hf
  obtain ⟨f1', f2'⟩ := finite_of_add hf'
  exact (ha.mul hb n1 n1' (alike_of f1 f1')).add (hc.mul hd n2 n2' (alike_of f2 f2')) (alike_of hf hf')
/-- Differences of two products. -/
theorem Scaled.det2 [Binary S] {j k : ℤ} {a a' b b' c c' d d' : S} (ha : Scaled j a a') (hb : Scaled k b b') (hc : Scaled j c c')
    (hd : Scaled k d d') (n1 : Normal S (IEEE.real a * IEEE.real b)) (n1' : Normal S (IEEE.real a' * IEEE.real b'))
    (n2 : Normal S (IEEE.real c * IEEE.real d)) (n2' : Normal S (IEEE.real c' * IEEE.real d'))
    (hf : IsFinite (a * b - c * d)) (hf' : IsFinite (a' * b' - c' * d')) : Scaled (j + k) (a * b - c * d) (a' * b' - c' * d') := by
  obtain ⟨f1, f2⟩ := finite_of_sub hf
  obtain ⟨f1', f2'⟩ := finite_of_sub hf'
  exact (ha.mul hb n1 n1' (alike_of f1 f1')).sub (hc.mul hd n2 n2' (alike_of f2 f2')) (alike_of hf hf')
'''
out=[H]
def P(s,d):
    for k,v in d.items(): s=s.replace('@'+k+'@',v)
    assert '@' not in s, s
    out.append(s)
def gen(n):
    X=['x','y','z'][:n]
    N=str(n)
    d=dict(N=N)
    d['sc']=' ∧ '.join(f'R a.{c} b.{c}' for c in X)
    d['scb']=' ∧ '.join(f'R a.{e}.{c} b.{e}.{c}' for e in ('min','max') for c in X)
    d['under']=', '.join('_' for _ in X)
    def each(f): return ', '.join(f(i,c) for i,c in enumerate(X))
    hs=each(lambda i,c:f'h{c}'); d['hs']=hs
    d['hs1']=each(lambda i,c:f'k{c}'); d['hs2']=each(lambda i,c:f'f{c}')
    d['add']=each(lambda i,c:f'h{c}.add k{c} f{c}')
    d['sub']=each(lambda i,c:f'h{c}.sub k{c} f{c}')
    d['neg']=each(lambda i,c:f'h{c}.neg')
    d['mul']=each(lambda i,c:f'h{c}.mul hs (n {i}) (n\' {i}) f{c}')
    d['div']=each(lambda i,c:f'h{c}.div hs (.inr ⟨n {i}, n\' {i}⟩) (.inl f{c})')
    d['divs']=each(lambda i,c:f'(h{c}.div_same hl)')
    d['bhs']=', '.join(f'l{c}' for c in X)+', '+', '.join(f'u{c}' for c in X)
    d['bhs1']=', '.join(f'l{c}\'' for c in X)+', '+', '.join(f'u{c}\'' for c in X)
    d['lemin']=each(lambda i,c:f'(l{c}.le k{c}), (k{c}.le u{c})').replace('(l','(l')
    d['inside']=', '.join(f'l{c}.le k{c}, k{c}.le u{c}' for c in X)
    d['over']=', '.join(f'l{c}\'.le u{c}, l{c}.le u{c}\'' for c in X)
    P('''
/-! ## @N@D -/

theorem Vector@N@.rel {R : S → S → Prop} {a b : Vector@N@ S} : List.Forall₂ R (Comps.comps a) (Comps.comps b) ↔ @sc@ := by
  simp [Comps.comps]
theorem Point@N@.rel {R : S → S → Prop} {a b : Point@N@ S} : List.Forall₂ R (Comps.comps a) (Comps.comps b) ↔ @sc@ := by
  simp [Comps.comps]
theorem BoundingBox@N@.rel {R : S → S → Prop} {a b : BoundingBox@N@ S} : List.Forall₂ R (Comps.comps a) (Comps.comps b) ↔
    @scb@ := by
  simp [Comps.comps]

section
variable {j k : ℤ}
''',d)
    for (A,B,C,op,nm) in [('Vector','Vector','Vector','+','add'),('Vector','Vector','Vector','-','sub'),('Point','Vector','Point','+','add_point'),('Point','Vector','Point','-','sub_point'),('Point','Point','Vector','-','diff')]:
        e=dict(d); e.update(A=A,B=B,C=C,op=op,nm=nm,body=d['add'] if op=='+' else d['sub'])
        P('''/-- **C74** `@op@` commutes with the change of scale, without any condition on underflow. -/
theorem C74_@nm@@N@ [Binary S] {u u' : @A@@N@ S} {v v' : @B@@N@ S} (h : ScaledAll k u u') (h' : ScaledAll k v v')
    (hf : AlikeAll (u @op@ v : @C@@N@ S) (u' @op@ v' : @C@@N@ S)) : ScaledAll k (u @op@ v : @C@@N@ S) (u' @op@ v' : @C@@N@ S) := by
  obtain ⟨@hs@⟩ := @A@@N@.rel.1 h
  obtain ⟨@hs1@⟩ := @B@@N@.rel.1 h'
  obtain ⟨@hs2@⟩ := @C@@N@.rel.1 hf
  exact @C@@N@.rel.2 ⟨@body@⟩
''',e)
    P('''/-- **C74** Negation. -/
theorem C74_neg@N@ {v v' : Vector@N@ S} (h : ScaledAll k v v') : ScaledAll k (-v) (-v') := by
  obtain ⟨@hs@⟩ := Vector@N@.rel.1 h
  exact Vector@N@.rel.2 ⟨@neg@⟩
/-- **C74** Products with a scalar, if no product underflows. -/
theorem C74_mul@N@ [Binary S] {v v' : Vector@N@ S} {s s' : S} (h : ScaledAll j v v') (hs : Scaled k s s')
    (n : ∀ i, Normal S (v.toReal i * real s)) (n' : ∀ i, Normal S (v'.toReal i * real s'))
    (hf : AlikeAll (v * s) (v' * s')) : ScaledAll (j + k) (v * s) (v' * s') := by
  obtain ⟨@hs@⟩ := Vector@N@.rel.1 h
  obtain ⟨@hs2@⟩ := Vector@N@.rel.1 hf
  exact Vector@N@.rel.2 ⟨@mul@⟩
/-- **C74** Quotients by a scalar, if no quotient underflows. -/
theorem C74_div@N@ [Binary S] {v v' : Vector@N@ S} {s s' : S} (h : ScaledAll j v v') (hs : Scaled k s s')
    (n : ∀ i, Normal S (v.toReal i / real s)) (n' : ∀ i, Normal S (v'.toReal i / real s'))
    (hf : AlikeAll (v / s) (v' / s')) : ScaledAll (j - k) (v / s) (v' / s') := by
  obtain ⟨@hs@⟩ := Vector@N@.rel.1 h
  obtain ⟨@hs2@⟩ := Vector@N@.rel.1 hf
  exact Vector@N@.rel.2 ⟨@div@⟩
''',d)
    if n==2:
        d['dot']="exact Scaled.dot2 hx kx hy ky (n 0) (n' 0) (n 1) (n' 1) hf hf'"
    else:
        d['dot']="""obtain ⟨g, gz⟩ := finite_of_add hf
  obtain ⟨g', gz'⟩ := finite_of_add hf'
  exact (Scaled.dot2 hx kx hy ky (n 0) (n' 0) (n 1) (n' 1) g g').add (hz.mul kz (n 2) (n' 2) (alike_of gz gz')) (alike_of hf hf')"""
    P('''/-- **C74** Inner products, if no product underflows. -/
theorem C74_dot@N@ [Binary S] {u u' v v' : Vector@N@ S} (h : ScaledAll j u u') (h' : ScaledAll k v v')
    (n : ∀ i, Normal S (u.toReal i * v.toReal i)) (n' : ∀ i, Normal S (u'.toReal i * v'.toReal i))
    (hf : IsFinite (Api.dot u v)) (hf' : IsFinite (Api.dot u' v')) : Scaled (j + k) (Api.dot u v) (Api.dot u' v') := by
  obtain ⟨@hs@⟩ := Vector@N@.rel.1 h
  obtain ⟨@hs1@⟩ := Vector@N@.rel.1 h'
  @dot@
/-- **C74** Lengths, if no square underflows. -/
theorem C74_length@N@ [Binary S] {v v' : Vector@N@ S} (h : ScaledAll k v v')
    (n : ∀ i, Normal S (v.toReal i ^ 2)) (n' : ∀ i, Normal S (v'.toReal i ^ 2))
    (hf : IsFinite (Api.length v)) (hf' : IsFinite (Api.length v')) : Scaled k (Api.length v) (Api.length v') := by
  simp only [sq] at n n'
  have := C74_dot@N@ h h n n' (finite_of_sqrt hf).1 (finite_of_sqrt hf').1
  rw [← two_mul] at this
  exact this.sqrt
/-- **C74** The normalized vector does not depend on the scale, not even in the last bit. -/
theorem C74_normalize@N@ [Binary S] {v v' : Vector@N@ S} (h : ScaledAll k v v')
    (n : ∀ i, Normal S (v.toReal i ^ 2)) (n' : ∀ i, Normal S (v'.toReal i ^ 2))
    (hf : IsFinite (Api.length v)) (hf' : IsFinite (Api.length v')) : SameAll v.normalize v'.normalize := by
  have hl := C74_length@N@ h n n' hf hf'
  obtain ⟨@hs@⟩ := Vector@N@.rel.1 h
  exact Vector@N@.sameAll.2 ⟨@divs@⟩
/-- **C74** Distances, if no square of a difference underflows. -/
theorem C74_distance@N@ [Binary S] {p p' q q' : Point@N@ S} (h : ScaledAll k p p') (h' : ScaledAll k q q')
    (n : ∀ i, Normal S ((q - p : Vector@N@ S).toReal i ^ 2)) (n' : ∀ i, Normal S ((q' - p' : Vector@N@ S).toReal i ^ 2))
    (hf : IsFinite (Api.distance p q)) (hf' : IsFinite (Api.distance p' q')) :
    Scaled k (Api.distance p q) (Api.distance p' q') := by
  refine C74_length@N@ (C74_diff@N@ h' h ?_) n n' hf hf'
  have f := (finite_of_sqrt hf).1
  have f' := (finite_of_sqrt hf').1
  @ff@
/-- **C74** `is_inside` and `overlaps` do not depend on the scale. -/
theorem C74_inside@N@ {b b' : BoundingBox@N@ S} {p p' : Point@N@ S} (h : ScaledAll k b b') (h' : ScaledAll k p p') :
    b'.isInside p' = b.isInside p := by
  obtain ⟨@bhs@⟩ := BoundingBox@N@.rel.1 h
  obtain ⟨@hs1@⟩ := Point@N@.rel.1 h'
  unfold BoundingBox@N@.isInside
  rw [@inside@]
theorem C74_overlaps@N@ {a a' b b' : BoundingBox@N@ S} (h : ScaledAll k a a') (h' : ScaledAll k b b') :
    a'.overlaps b' = a.overlaps b := by
  obtain ⟨@bhs@⟩ := BoundingBox@N@.rel.1 h
  obtain ⟨@bhs1@⟩ := BoundingBox@N@.rel.1 h'
  unfold BoundingBox@N@.overlaps
  rw [@over@]
/-- **C74** Union. -/
theorem C74_union@N@ {a a' b b' : BoundingBox@N@ S} (h : ScaledAll k a a') (h' : ScaledAll k b b') :
    ScaledNumAll k (Api.union a b : BoundingBox@N@ S) (Api.union a' b' : BoundingBox@N@ S) := by
  obtain ⟨@bhs@⟩ := BoundingBox@N@.rel.1 h
  obtain ⟨@bhs1@⟩ := BoundingBox@N@.rel.1 h'
  exact BoundingBox@N@.rel.2 ⟨@un@⟩
/-- **C74** Union with a point. -/
theorem C74_grow@N@ {b b' : BoundingBox@N@ S} {p p' : Point@N@ S} (h : ScaledAll k b b') (h' : ScaledAll k p p') :
    ScaledNumAll k (Api.union b p : BoundingBox@N@ S) (Api.union b' p' : BoundingBox@N@ S) := by
  obtain ⟨@bhs@⟩ := BoundingBox@N@.rel.1 h
  obtain ⟨@hs1@⟩ := Point@N@.rel.1 h'
  exact BoundingBox@N@.rel.2 ⟨@gr@⟩
/-- **C74** Intersection. -/
theorem C74_intersect@N@ {a a' b b' : BoundingBox@N@ S} (h : ScaledAll k a a') (h' : ScaledAll k b b') :
    match (Api.intersect a b : Option (BoundingBox@N@ S)), (Api.intersect a' b' : Option (BoundingBox@N@ S)) with
    | none, none => True
    | some c, some d => ScaledNumAll k c d
    | _, _ => False := by
  have ho := C74_overlaps@N@ h h'
  have e : ∀ a b : BoundingBox@N@ S, (Api.intersect a b : Option (BoundingBox@N@ S)) =
      if a.overlaps b then some (BoundingBox@N@.new (Api.max a.min b.min) (Api.min a.max b.max)) else none := fun _ _ => rfl
  obtain ⟨@bhs@⟩ := BoundingBox@N@.rel.1 h
  obtain ⟨@bhs1@⟩ := BoundingBox@N@.rel.1 h'
  rw [e, e, ho]
  by_cases hb : a.overlaps b = true
  · rw [if_pos hb, if_pos hb]
    exact BoundingBox@N@.rel.2 ⟨@ins@⟩
  · rw [if_neg hb, if_neg hb]; trivial
/-- **C74** Extents, without any condition on underflow. -/
theorem C74_diagonal@N@ [Binary S] {b b' : BoundingBox@N@ S} (h : ScaledAll k b b') (hf : AlikeAll b.diagonal b'.diagonal) :
    ScaledAll k b.diagonal b'.diagonal := by
  obtain ⟨@bhs@⟩ := BoundingBox@N@.rel.1 h
  obtain ⟨@hs2@⟩ := Vector@N@.rel.1 hf
  exact Vector@N@.rel.2 ⟨@dg@⟩
/-- **C74** The dimension of least and of greatest extent. -/
theorem C74_dimension@N@ [Binary S] {b b' : BoundingBox@N@ S} (h : ScaledAll k b b') (hf : AlikeAll b.diagonal b'.diagonal) :
    b'.minDimension = b.minDimension ∧ b'.maxDimension = b.maxDimension := by
  obtain ⟨@hs@⟩ := Vector@N@.rel.1 (C74_diagonal@N@ h hf)
  unfold BoundingBox@N@.minDimension BoundingBox@N@.maxDimension
  simp only [@dims@, and_self]
/-- **C74** The center, if no half extent underflows. -/
theorem C74_center@N@ [Binary S] {b b' : BoundingBox@N@ S} (h : ScaledAll k b b')
    (n : ∀ i, Normal S (b.diagonal.toReal i * (1 / 2))) (n' : ∀ i, Normal S (b'.diagonal.toReal i * (1 / 2)))
    (hf : AllFinite b.center) (hf' : AllFinite b'.center) : ScaledAll k b.center b'.center := by
  have hh : Scaled 0 (half : S) half := .refl _
  obtain ⟨@cf@⟩ := Point@N@.allFinite.1 hf
  obtain ⟨@cf1@⟩ := Point@N@.allFinite.1 hf'
  obtain ⟨@bhs@⟩ := BoundingBox@N@.rel.1 h
  have key : ∀ {lo lo' hi hi' : S}, Scaled k lo lo' → Scaled k hi hi' → Normal S (real (hi - lo) * (1 / 2)) →
      Normal S (real (hi' - lo') * (1 / 2)) → IsFinite (lo + (hi - lo) * half) → IsFinite (lo' + (hi' - lo') * half) →
      Scaled k (lo + (hi - lo) * half) (lo' + (hi' - lo') * half) := by
    intro lo lo' hi hi' hl hu m m' g g'
    have g1 := (finite_of_add g).2
    have g1' := (finite_of_add g').2
    have s1 := hu.sub hl (alike_of (finite_of_mul g1).1 (finite_of_mul g1').1)
    have s2 := s1.mul hh (by rw [real_half]; exact m) (by rw [real_half]; exact m') (alike_of g1 g1')
    rw [add_zero] at s2
    exact hl.add s2 (alike_of g g')
  exact Point@N@.rel.2 ⟨@ce@⟩
/-- **C74** The ray/box test does not depend on the unit of length: if box and ray are scaled alike and the differences
overflow on both scales or on neither, the parameters are the same. -/
theorem C74_hit@N@ [Binary S] {b b' : BoundingBox@N@ S} {r r' : Ray@N@ S} (hb : ScaledAll k b b')
    (ho : ScaledAll k r.origin r'.origin) (hd : ScaledAll k r.direction r'.direction)
    (h1 : AlikeAll (b.min - r.origin) (b'.min - r'.origin)) (h2 : AlikeAll (b.max - r.origin) (b'.max - r'.origin)) :
    SameHit (Api.intersect b r) (Api.intersect b' r') := by
  obtain ⟨@bhs@⟩ := BoundingBox@N@.rel.1 hb
  obtain ⟨@ho@⟩ := Point@N@.rel.1 ho
  obtain ⟨@hd@⟩ := Vector@N@.rel.1 hd
  obtain ⟨@a1@⟩ := Vector@N@.rel.1 h1
  obtain ⟨@a2@⟩ := Vector@N@.rel.1 h2
@qs@
  apply sameHit_of@N@
  · unfold startVal@N@ near
    rw [@q1@]
  · unfold stopVal@N@ far
    rw [@q2@]
/-- **C74** If box and origin are scaled by `2^j` and the direction by `2^k`, the parameters are scaled by `2^(j-k)`,
provided no quotient underflows and overflow happens on both scales or on neither. -/
theorem C74_hit_scaled@N@ [Binary S] {b b' : BoundingBox@N@ S} {r r' : Ray@N@ S} (hb : ScaledAll j b b')
    (ho : ScaledAll j r.origin r'.origin) (hd : ScaledAll k r.direction r'.direction)
    (h1 : AlikeAll (b.min - r.origin) (b'.min - r'.origin)) (h2 : AlikeAll (b.max - r.origin) (b'.max - r'.origin))
    (s1 : QuotientsSafe@N@ (b.min - r.origin) r.direction (b'.min - r'.origin) r'.direction)
    (s2 : QuotientsSafe@N@ (b.max - r.origin) r.direction (b'.max - r'.origin) r'.direction) :
    ScaledHit (j - k) (Api.intersect b r) (Api.intersect b' r') := by
  obtain ⟨@bhs@⟩ := BoundingBox@N@.rel.1 hb
  obtain ⟨@ho@⟩ := Point@N@.rel.1 ho
  obtain ⟨@hd@⟩ := Vector@N@.rel.1 hd
  obtain ⟨@a1@⟩ := Vector@N@.rel.1 h1
  obtain ⟨@a2@⟩ := Vector@N@.rel.1 h2
  obtain ⟨@s1@⟩ := s1
  obtain ⟨@s2@⟩ := s2
@qt@
  apply scaledHit_of@N@
  · unfold startVal@N@ near
    rw [@w1@]
    @z1@
  · unfold stopVal@N@ far
    rw [@w2@]
    @z2@
end
''',{**d,**extra(n,X,each)})
def extra(n,X,each):
    r={}
    if n==2:
        r['ff']='''obtain ⟨g1, g2⟩ := finite_of_add f
  obtain ⟨g1', g2'⟩ := finite_of_add f'
  exact Vector2.rel.2 ⟨alike_of (finite_of_mul g1).1 (finite_of_mul g1').1, alike_of (finite_of_mul g2).1 (finite_of_mul g2').1⟩'''
    else:
        r['ff']='''obtain ⟨g, g3⟩ := finite_of_add f
  obtain ⟨g', g3'⟩ := finite_of_add f'
  obtain ⟨g1, g2⟩ := finite_of_add g
  obtain ⟨g1', g2'⟩ := finite_of_add g'
  exact Vector3.rel.2 ⟨alike_of (finite_of_mul g1).1 (finite_of_mul g1').1, alike_of (finite_of_mul g2).1 (finite_of_mul g2').1,
    alike_of (finite_of_mul g3).1 (finite_of_mul g3').1⟩'''
    lo=lambda c:f'(l{c}.toNum.min l{c}\'.toNum)'
    hi=lambda c:f'(u{c}.toNum.max u{c}\'.toNum)'
    r['un']=', '.join([f'{lo(c)}.min {hi(c)}' for c in X]+[f'{lo(c)}.max {hi(c)}' for c in X])
    lo=lambda c:f'(l{c}.toNum.min k{c}.toNum)'
    hi=lambda c:f'(u{c}.toNum.max k{c}.toNum)'
    r['gr']=', '.join([f'{lo(c)}.min {hi(c)}' for c in X]+[f'{lo(c)}.max {hi(c)}' for c in X])
    lo=lambda c:f'(l{c}.toNum.max l{c}\'.toNum)'
    hi=lambda c:f'(u{c}.toNum.min u{c}\'.toNum)'
    r['ins']=', '.join([f'{lo(c)}.min {hi(c)}' for c in X]+[f'{lo(c)}.max {hi(c)}' for c in X])
    r['dg']=each(lambda i,c:f'u{c}.sub l{c} f{c}')
    r['dims']=', '.join(f'h{a}.{m} h{b}' for a in X for b in X if a!=b for m in ('le','lt'))
    r['cf']=each(lambda i,c:f'c{c}'); r['cf1']=each(lambda i,c:f'c{c}\'')
    r['ce']=each(lambda i,c:f'key l{c} u{c} (n {i}) (n\' {i}) c{c} c{c}\'')
    r['ho']=each(lambda i,c:f'o{c}'); r['hd']=each(lambda i,c:f'd{c}')
    r['a1']=each(lambda i,c:f'a{c}'); r['a2']=each(lambda i,c:f'e{c}')
    r['s1']=each(lambda i,c:f's{c}'); r['s2']=each(lambda i,c:f't{c}')
    r['qs']='\n'.join(f'''  have p{c} := same_num' ((l{c}.sub o{c} a{c}).div_same d{c})
  have q{c} := same_num' ((u{c}.sub o{c} e{c}).div_same d{c})
  have m{c} := loVal_congr (num_min_congr p{c} q{c})
  have n{c} := hiVal_congr (num_max_congr p{c} q{c})''' for c in X)
    r['q1']=each(lambda i,c:f'm{c}'); r['q2']=each(lambda i,c:f'n{c}')
    r['qt']='\n'.join(f'''  have p{c} := ((l{c}.sub o{c} a{c}).div d{c} (.inr ⟨s{c}.1, s{c}.2.1⟩) (.inl s{c}.2.2)).toNum
  have q{c} := ((u{c}.sub o{c} e{c}).div d{c} (.inr ⟨t{c}.1, t{c}.2.1⟩) (.inl t{c}.2.2)).toNum
  have m{c} := (p{c}.min q{c}).loVal
  have n{c} := (p{c}.max q{c}).hiVal''' for c in X)
    r['w1']=each(lambda i,c:f'm{c}'); r['w2']=each(lambda i,c:f'n{c}')
    r['z1']='rw [stretch_max%d]'%n
    r['z2']='rw [stretch_min%d]'%n
    return r
gen(2)
out.append('''section
variable {j k : ℤ}
/-- **C74** Area, if the product does not underflow. -/
theorem C74_area [Binary S] {b b' : BoundingBox2 S} (h : ScaledAll k b b') (n : Normal S (real b.width * real b.height))
    (n' : Normal S (real b'.width * real b'.height)) (hf : IsFinite b.area) (hf' : IsFinite b'.area) :
    Scaled (2 * k) b.area b'.area := by
  obtain ⟨lx, ly, ux, uy⟩ := BoundingBox2.rel.1 h
  obtain ⟨f1, f2⟩ := finite_of_mul (a := b.width) (b := b.height) hf
  obtain ⟨f1', f2'⟩ := finite_of_mul (a := b'.width) (b := b'.height) hf'
  rw [two_mul]
  exact (ux.sub lx (alike_of f1 f1')).mul (uy.sub ly (alike_of f2 f2')) n n' (alike_of hf hf')
end
''')
gen(3)
out.append('''section
variable {j k : ℤ}
/-- **C74** Volume, if neither product underflows. -/
theorem C74_volume [Binary S] {b b' : BoundingBox3 S} (h : ScaledAll k b b') (n : Normal S (real b.width * real b.height))
    (n' : Normal S (real b'.width * real b'.height)) (m : Normal S (real (b.width * b.height) * real b.depth))
    (m' : Normal S (real (b'.width * b'.height) * real b'.depth)) (hf : IsFinite b.volume) (hf' : IsFinite b'.volume) :
    Scaled (3 * k) b.volume b'.volume := by
  obtain ⟨lx, ly, lz, ux, uy, uz⟩ := BoundingBox3.rel.1 h
  obtain ⟨g, f3⟩ := finite_of_mul (a := b.width * b.height) (b := b.depth) hf
  obtain ⟨g', f3'⟩ := finite_of_mul (a := b'.width * b'.height) (b := b'.depth) hf'
  obtain ⟨f1, f2⟩ := finite_of_mul (a := b.width) (b := b.height) g
  obtain ⟨f1', f2'⟩ := finite_of_mul (a := b'.width) (b := b'.height) g'
  rw [show 3 * k = k + k + k by ring]
  exact ((ux.sub lx (alike_of f1 f1')).mul (uy.sub ly (alike_of f2 f2')) n n' (alike_of g g')).mul
    (uz.sub lz (alike_of f3 f3')) m m' (alike_of hf hf')
/-- **C74** Cross products, if no product underflows. -/
theorem C74_cross [Binary S] {u u' v v' : Vector3 S} (h : ScaledAll j u u') (h' : ScaledAll k v v')
    (n : ∀ i l : Fin 3, i ≠ l → Normal S (u.toReal i * v.toReal l)) (n' : ∀ i l : Fin 3, i ≠ l → Normal S (u'.toReal i * v'.toReal l))
    (hf : AllFinite (Api.cross u v)) (hf' : AllFinite (Api.cross u' v')) :
    ScaledAll (j + k) (Api.cross u v) (Api.cross u' v') := by
  obtain ⟨hx, hy, hz⟩ := Vector3.rel.1 h
  obtain ⟨kx, ky, kz⟩ := Vector3.rel.1 h'
  obtain ⟨fx, fy, fz⟩ := Vector3.allFinite.1 hf
  obtain ⟨fx', fy', fz'⟩ := Vector3.allFinite.1 hf'
  exact Vector3.rel.2 ⟨
    Scaled.det2 hy kz hz ky (n 1 2 (by decide)) (n' 1 2 (by decide)) (n 2 1 (by decide)) (n' 2 1 (by decide)) fx fx',
    Scaled.det2 hz kx hx kz (n 2 0 (by decide)) (n' 2 0 (by decide)) (n 0 2 (by decide)) (n' 0 2 (by decide)) fy fy',
    Scaled.det2 hx ky hy kx (n 0 1 (by decide)) (n' 0 1 (by decide)) (n 1 0 (by decide)) (n' 1 0 (by decide)) fz fz'⟩
end

end VecMath
''')
open('/verif/lean/Verif/Props/FloatScale.lean','w').write(''.join(out))
