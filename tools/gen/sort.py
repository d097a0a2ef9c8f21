out='''import Verif.Lemmas.Sort
import Verif.Props.FloatVector
import Verif.Props.FloatComponent
import Verif.Props.FloatNaN
import Verif.Props.FloatTournament
import Verif.Props.FloatExamples7
/-!
# Sorting by length and by distance: C94

Generated by tools/gen/sort.py.
-/

open Classical
set_option linter.unusedSectionVars false

namespace VecMath
open Scalar IEEE
variable {S : Type} [Scalar S] [IEEE S]

theorem le_of_not_lt {a b : S} (ha : ¬ IsNaN a) (hb : ¬ IsNaN b) (h : (b <? a) = false) : (a ≤? b) = true := by
  rw [← Bool.not_eq_true, lt_of_not_nan hb ha, not_lt] at h
  exact le_iff.2 ⟨ha, hb, h⟩
theorem beq_of_le {a b : S} (h : (a ≤? b) = true) (h' : (b ≤? a) = true) : (a == b) = true := by
  rw [le_iff] at h h'
  exact beq_iff.2 ⟨h.1, h.2.1, le_antisymm h.2.2 h'.2.2⟩
theorem lt_nan {a b : S} (h : IsNaN a ∨ IsNaN b) : (a <? b) = false := by
  rw [← Bool.not_eq_true, lt_iff]
  rintro ⟨h1, h2, -⟩
  exact h.elim h1 h2
/-- What fails when one element is tied with every other, although some are not. -/
theorem nan_breaks {A : Type} {r : A → A → Bool} {a b v : A} (h : r a b = true) (h1 : ∀ w, r v w = false ∧ r w v = false) :
    SortedBy r [b, v, a] ∧ ¬ StrictWeakOrder (fun _ => True) r := by
  refine ⟨⟨(h1 b).1, (h1 a).2, trivial⟩, fun hw => ?_⟩
  have := hw.ties a v b trivial trivial trivial (by simp [tied, h1]) (by simp [tied, h1])
  simp [tied, h] at this

'''
def block(X,D,T,o,r,P,key,m,rev,keynan,mnan,agree,word,nanP,nanlemma,title):
    # o: binder for reference, e.g. '(o : Point2 S) ' ; oa its argument
    oa=' o' if o else ''
    n=f'{X}{D}'
    L='ERealᵒᵈ' if rev else 'EReal'
    f=f'fun v => OrderDual.toDual (val ({key}))' if rev else f'fun v => val ({key})'
    le=(lambda a,b: f'({m(b)} ≤? {m(a)}) = true') if rev else (lambda a,b: f'({m(a)} ≤? {m(b)}) = true')
    R=f'(fun v w : {T} => {r("v","w")})'
    PP=f'(fun v : {T} => {P("v")})'
    lt_args='hb ha' if rev else 'ha hb'
    return f'''/-! ### {title} -/

theorem keyed_{n} {o}: KeyedBy (L := {L}) {PP} {R} ({f}) := by
  intro v w hv hw
  have {'ha' if not rev else 'ha'} : ¬ IsNaN ({key}) := by {keynan('v','hv')}
  have hb : ¬ IsNaN ({key.replace('v','w') if D!='' else key.replace('v','w')}) := by {keynan('w','hw')}
  exact lt_of_not_nan {lt_args}
theorem measured_{n} {o}{{v w : {T}}} (hv : {P('v')}) (hw : {P('w')}) (h : {r('w','v')} = false) : {le('v','w')} := by
  refine le_of_not_lt ({mnan('w' if rev else 'v')} {'hw' if rev else 'hv'}) ({mnan('v' if rev else 'w')} {'hv' if rev else 'hw'}) ?_
  by_contra hc
  rw [Bool.not_eq_false] at hc
  have hc' : {r('w','v')} = true := {agree('w','v')} hc
  rw [hc'] at h
  cases h
/-- **C94**: {word} is an order that one may sort by, for {nanP}. -/
theorem C94_order_{n} {o}: StrictWeakOrder {PP} {R} :=
  (keyed_{n}{oa}).order
/-- **C94**: if no element comes before its predecessor, then no element comes before any earlier one, the {'lengths' if 'length' in m('v') else 'distances'} are
in order, and the elements that come before any given `x` are a prefix (binary search). -/
theorem C94_sorted_{n} {o}(l : List ({T})) (hl : ∀ v ∈ l, {P('v')}) (hs : SortedBy {R} l) :
    l.Pairwise (fun v w => {r('w','v')} = false ∧ {le('v','w')}) ∧
    ∀ x : {T}, {P('x')} → ∃ pre post, l = pre ++ post ∧ (∀ v ∈ pre, {r('v','x')} = true) ∧ ∀ v ∈ post, {r('v','x')} = false := by
  refine ⟨?_, fun x hx => (keyed_{n}{oa}).search hl hs hx⟩
  have := (keyed_{n}{oa}).all hl hs
  rw [List.pairwise_iff_forall_sublist] at this ⊢
  intro v w hvw
  exact ⟨this hvw, measured_{n}{oa} (hl v (hvw.subset (by simp))) (hl w (hvw.subset (by simp))) (this hvw)⟩
/-- **C94**: there is exactly one stable way to sort, and any two sorted arrangements of the same elements have the same
{'lengths' if 'length' in m('v') else 'distances'}, position by position. -/
theorem C94_stable_{n} {o}(l : List ({T})) (hl : ∀ v ∈ l, {P('v')}) :
    (∃! out, StableSort {R} l out) ∧
    ∀ l1 l2 : List ({T}), l1.Perm l → l2.Perm l → SortedBy {R} l1 → SortedBy {R} l2 →
      List.Forall₂ (fun v w => ({m('v')} == {m('w')}) = true) l1 l2 := by
  refine ⟨(keyed_{n}{oa}).stable hl, fun l1 l2 p1 p2 s1 s2 => ?_⟩
  have q1 : ∀ v ∈ l1, {P('v')} := fun v hv => hl v (p1.mem_iff.1 hv)
  have q2 : ∀ v ∈ l2, {P('v')} := fun v hv => hl v (p2.mem_iff.1 hv)
  have k := (keyed_{n}{oa}).keys q1 s1 s2 (p1.trans p2.symm)
  rw [List.forall₂_iff_get] at k ⊢
  refine ⟨k.1, fun i h1 h2 => ?_⟩
  have t := k.2 i h1 h2
  have e1 := q1 _ (List.get_mem l1 ⟨i, h1⟩)
  have e2 := q2 _ (List.get_mem l2 ⟨i, h2⟩)
  simp only [tied, Bool.and_eq_true, Bool.not_eq_true'] at t
  exact beq_of_le (measured_{n}{oa} {'e2 e1 t.1' if rev else 'e1 e2 t.2'}) (measured_{n}{oa} {'e1 e2 t.2' if rev else 'e2 e1 t.1'})
/-- **C94**: one NaN is enough to break it: the order is none, and a list can pass the adjacent checks out of order. -/
theorem C94_nan_{n} {o}(a b v : {T}) (h : {r('a','b')} = true) (hv : ¬ {P('v')}) :
    SortedBy {R} [b, v, a] ∧ ¬ StrictWeakOrder (fun _ => True) {R} := by
  have hn : IsNaN ({key}) := by {nanlemma}
  exact nan_breaks h fun w => ⟨lt_nan (.{'inr' if rev else 'inl'} hn), lt_nan (.{'inl' if rev else 'inr'} hn)⟩

'''
for D in '23':
    for X,rev in (('shorter',0),('longer',1)):
        fn='isShorterThan' if not rev else 'isLongerThan'
        T=f'Vector{D} S'
        r=lambda a,b,fn=fn: f'RelativeLength.{fn} {a} {b}'
        out+=block(X,D,T,'',r,lambda v:f'NoNaN {v}','Api.dot v v',lambda v:f'Api.length {v}',rev,
          lambda v,h,D=D:f'rw [dot_self_isNaN{D}]; simpa using {h}',
          lambda v,D=D:f'(fun h => mt length_isNaN{D}.1 (not_not.2 h))',
          (lambda a,b,D=D:f'(C14_float{D} {a} {b}).1') if not rev else (lambda a,b,D=D:f'(C14_float{D} {a} {b}).2.2.1.trans <| (C14_float{D} {b} {a}).1'),
          f'`is_{X}_than`','NaN-free vectors',f'rw [dot_self_isNaN{D}]; exact hv',f'by length, {X} first ({D}D)')
    for X,rev in (('closer',0),('farther',1)):
        fn='isCloserTo' if not rev else 'isFartherFrom'
        T=f'Point{D} S'
        r=lambda a,b,fn=fn: f'RelativeDistance.{fn} o {a} {b}'
        out+=block(X,D,T,f'(o : Point{D} S) ',r,lambda v:f'¬ IsNaN (Api.distance o {v})','Api.dot (v - o) (v - o)',lambda v:f'Api.distance o {v}',rev,
          lambda v,h,D=D:f'rw [dot_self_isNaN{D}]; simpa [Api.distance, Distance.distance, length_isNaN{D}] using {h}',
          lambda v:'(fun h => h)',
          (lambda a,b,D=D:f'(C16_float{D} o {a} {b}).1') if not rev else (lambda a,b,D=D:f'(C16_float{D} o {a} {b}).2.2.1.trans <| (C16_float{D} o {b} {a}).1'),
          f'`is_{X}_{"to" if not rev else "from"}`','points with a NaN-free distance',f'rw [dot_self_isNaN{D}]; simpa [Api.distance, Distance.distance, length_isNaN{D}] using hv',f'by distance from `o`, {X} first ({D}D)')
for X,rev in (('shorter',0),('longer',1)):
    fn='isShorterThan' if not rev else 'isLongerThan'
    out+=block(X,'1','S','',lambda a,b,fn=fn:f'RelativeLength.{fn} ({a} : S) {b}',lambda v:f'¬ IsNaN {v}','Api.length v',lambda v:f'Api.length {v}',rev,
      lambda v,h:f'rw [length1_isNaN]; exact {h}',lambda v:f'(fun h => mt length1_isNaN.1 h)',
      (lambda a,b:'id') , f'`is_{X}_than` on scalars','numbers that are not NaN','rw [length1_isNaN]; exact not_not.1 hv',f'by absolute value, {X} first (scalars)')
for X,rev in (('closer',0),('farther',1)):
    fn='isCloserTo' if not rev else 'isFartherFrom'
    out+=block(X,'1','S','(o : S) ',lambda a,b,fn=fn:f'RelativeDistance.{fn} (o : S) {a} {b}',lambda v:f'¬ IsNaN (Api.distance o {v})','Api.distance o v',lambda v:f'Api.distance o {v}',rev,
      lambda v,h:f'exact {h}',lambda v:'(fun h => h)',(lambda a,b:'id'), f'`is_{X}_{"to" if not rev else "from"}` on scalars','numbers with a NaN-free distance','exact not_not.1 hv',f'by distance from `o`, {X} first (scalars)')
out=out.replace("/-! ### by absolute value, shorter first","theorem length1_isNaN {s : S} : IsNaN (Api.length s) ↔ IsNaN s := by\n  show IsNaN (Scalar.abs s) ↔ _\n  exact isNaN_abs\n\n/-! ### by absolute value, shorter first",1)
out+=open('/tmp/w/sortex.lean').read() if __import__('os').path.exists('/tmp/w/sortex.lean') else ''
out+='end VecMath\n'
open('/verif/lean/Verif/Props/FloatSort.lean','w').write(out)
