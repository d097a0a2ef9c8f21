H='''import Verif.Spec.Reduce
import Verif.Props.FloatNaN
import Verif.Props.FloatExamples2
/-!
# Tournaments: selecting the shortest, longest, closest, farthest of many (layer F): C79

A `Tree` whose leaves are the candidates in order; each inner node keeps the better of its two sub-results. For trees of
any shape. Generated by tools/gen/tourn.py.
-/

open Classical
set_option linter.unusedSectionVars false

namespace VecMath
open Scalar IEEE
variable {S : Type} [Scalar S] [IEEE S]

/-- A tournament under any strict weak order is won by the last of the best candidates. -/
theorem tournament {A : Type} (P : A → Prop) (r : A → A → Bool) (pick : A → A → A)
    (hpick : ∀ a b, pick a b = if r a b then a else b)
    (tr : ∀ a b c, P a → P b → P c → r a b = true → r b c = true → r a c = true)
    (nt : ∀ a b c, P a → P b → P c → r a b = false → r b c = false → r a c = false)
    (t : Tree A) (h : ∀ a ∈ t.leaves, P a) :
    ∃ pre post, t.leaves = pre ++ t.bound pick :: post ∧ (∀ a ∈ pre, r a (t.bound pick) = false) ∧
      ∀ a ∈ post, r (t.bound pick) a = true := by
  induction t with
  | leaf b => exact ⟨[], [], by simp [Tree.leaves, Tree.bound], by simp, by simp⟩
  | node s u ihs ihu =>
    simp only [Tree.leaves, List.mem_append] at h
    obtain ⟨p1, q1, e1, a1, b1⟩ := ihs fun a ha => h a (.inl ha)
    obtain ⟨p2, q2, e2, a2, b2⟩ := ihu fun a ha => h a (.inr ha)
    have hs : ∀ a, a ∈ p1 ∨ a = s.bound pick ∨ a ∈ q1 → P a := fun a ha => h a (.inl (by rw [e1]; simpa using ha))
    have hu : ∀ a, a ∈ p2 ∨ a = u.bound pick ∨ a ∈ q2 → P a := fun a ha => h a (.inr (by rw [e2]; simpa using ha))
    have ps := hs _ (.inr (.inl rfl))
    have pu := hu _ (.inr (.inl rfl))
    simp only [Tree.leaves, Tree.bound, hpick]
    cases hr : r (s.bound pick) (u.bound pick) with
    | true =>
      refine ⟨p1, q1 ++ p2 ++ u.bound pick :: q2, ?_, by simpa using a1, ?_⟩
      · rw [e1, e2]; simp
      · intro a ha
        simp only [List.append_assoc, List.mem_append, List.mem_cons] at ha
        simp only [if_true]
        rcases ha with ha | ha | rfl | ha
        · exact b1 a ha
        · by_contra hc
          rw [Bool.not_eq_true] at hc
          have := nt _ a _ ps (hu a (.inl ha)) pu hc (a2 a ha)
          simp [hr] at this
        · exact hr
        · exact tr _ _ _ ps pu (hu a (.inr (.inr ha))) hr (b2 a ha)
    | false =>
      refine ⟨p1 ++ s.bound pick :: q1 ++ p2, q2, ?_, ?_, by simpa using b2⟩
      · rw [e1, e2]; simp
      · intro a ha
        simp only [List.append_assoc, List.mem_append, List.cons_append, List.mem_cons] at ha
        simp only [Bool.false_eq_true, if_false]
        rcases ha with ha | rfl | ha | ha
        · exact nt _ _ _ (hs a (.inl ha)) ps pu (a1 a ha) hr
        · exact hr
        · by_contra hc
          rw [Bool.not_eq_false] at hc
          have := tr _ a _ ps (hs a (.inr (.inr ha))) pu (b1 a ha) hc
          simp [hr] at this
        · exact a2 a ha
/-- Such a winner is unique. -/
theorem winner_unique {A : Type} (r : A → A → Bool) {p q p' q' : List A} {w w' : A} (e : p ++ w :: q = p' ++ w' :: q')
    (h1 : ∀ a ∈ p, r a w = false) (h2 : ∀ a ∈ q, r w a = true) (h1' : ∀ a ∈ p', r a w' = false)
    (h2' : ∀ a ∈ q', r w' a = true) : w = w' := by
  rcases List.append_eq_append_iff.1 e with ⟨m, e1, e2⟩ | ⟨m, e1, e2⟩
  · cases m with
    | nil => simpa using congrArg List.head? e2
    | cons x m =>
      simp only [List.cons_append, List.cons.injEq] at e2
      have a := h1' w (by rw [e1, e2.1]; simp)
      have b := h2 w' (by rw [e2.2]; simp)
      simp [a] at b
  · cases m with
    | nil => simpa using (congrArg List.head? e2).symm
    | cons x m =>
      simp only [List.cons_append, List.cons.injEq] at e2
      have a := h1 w' (by rw [e1, e2.1]; simp)
      have b := h2' w (by rw [e2.2]; simp)
      simp [a] at b
/-- The tree that stands for a sequential fold. -/
theorem exists_comb {A : Type} (f : A → A → A) (t : Tree A) (l : List A) :
    ∃ u : Tree A, u.leaves = t.leaves ++ l ∧ u.bound f = l.foldl f (t.bound f) := by
  induction l generalizing t with
  | nil => exact ⟨t, by simp, rfl⟩
  | cons a l ih =>
    obtain ⟨u, h1, h2⟩ := ih (.node t (.leaf a))
    exact ⟨u, by simp [h1, Tree.leaves], h2⟩

section key
variable {A : Type} (key : A → S)
theorem key_tr {a b c : S} (h : (a <? b) = true) (h' : (b <? c) = true) : (a <? c) = true := by
  rw [lt_iff] at *; exact ⟨h.1, h'.2.1, h.2.2.trans h'.2.2⟩
theorem key_nt {a b c : S} (ha : ¬ IsNaN a) (hb : ¬ IsNaN b) (hc : ¬ IsNaN c) (h : (a <? b) = false)
    (h' : (b <? c) = false) : (a <? c) = false := by
  rw [← Bool.not_eq_true] at *
  rw [lt_of_not_nan ha hb] at h
  rw [lt_of_not_nan hb hc] at h'
  rw [lt_of_not_nan ha hc]
  exact not_lt.2 ((not_lt.1 h').trans (not_lt.1 h))
end key
'''
T='''
/-! ### NAME, TITLE -/

theorem won_ID PARAM(t : Tree (TY)) (h : ∀ v ∈ t.leaves, HYP) :
    ∃ pre post, t.leaves = pre ++ t.bound (OP) :: post ∧ (∀ v ∈ pre, (REL(v,(t.bound (OP)))) = false) ∧
      ∀ v ∈ post, (REL((t.bound (OP)),v)) = true :=
  tournament (fun v => ¬ IsNaN (KEY(v))) (fun v w => REL(v,w)) (OP) (fun _ _ => rfl)
    (fun _ _ _ _ _ _ h h' => TRANS) (fun _ _ _ ha hb hc h h' => NTRANS) t fun v hv => NN
/-- NAME of TITLE: the winner is no WORSE than any candidate, and it is the last such candidate. -/
theorem C79_ID PARAM(t : Tree (TY)) (h : ∀ v ∈ t.leaves, HYP) :
    (∃ pre post, t.leaves = pre ++ t.bound (OP) :: post ∧
      (∀ v ∈ pre, (REL(v,(t.bound (OP)))) = false) ∧ ∀ v ∈ post, (REL((t.bound (OP)),v)) = true) ∧
    ∀ v ∈ t.leaves, MEAS = true := by
  obtain ⟨pre, post, e, h1, h2⟩ := won_ID AP t h
  refine ⟨⟨pre, post, e, h1, h2⟩, fun v hv => ?_⟩
  have hw := h (t.bound (OP)) (by rw [e]; simp)
  have hv' := h v hv
  rw [e] at hv
  simp only [List.mem_append, List.mem_cons] at hv
  have c := C17 
  rcases hv with hv | rfl | hv
  · have := PAIR
    rw [show OP2(v,(t.bound (OP))) = t.bound (OP) from if_neg (Bool.eq_false_iff.1 (h1 v hv))] at this
    exact this
  · exact le_self (LNN)
  · have := PAIR'
    rw [show OP2((t.bound (OP)),v) = t.bound (OP) from if_pos (h2 v hv)] at this
    exact this
/-- NAME of TITLE: only the order of the candidates counts, not how the tournament is organised; in particular every
tournament returns what going through the candidates one by one returns. -/
theorem C79_shape_ID PARAM(t : Tree (TY)) (h : ∀ v ∈ t.leaves, HYP) :
    (∀ u : Tree (TY), u.leaves = t.leaves → u.bound (OP) = t.bound (OP)) ∧
    ∀ v vs, t.leaves = v :: vs → vs.foldl (OP) v = t.bound (OP) := by
  have key : ∀ u : Tree (TY), u.leaves = t.leaves → u.bound (OP) = t.bound (OP) := by
    intro u e
    obtain ⟨p, q, e1, a1, b1⟩ := won_ID AP t h
    obtain ⟨p', q', e2, a2, b2⟩ := won_ID AP u (by rw [e]; exact h)
    exact winner_unique (fun v w => REL(v,w)) (e2.symm.trans (e.trans e1)) a2 b2 a1 b1
  refine ⟨key, fun v vs e => ?_⟩
  obtain ⟨u, h1, h2⟩ := exists_comb (OP) (.leaf v) vs
  have := key u (by rw [h1, e]; rfl)
  rw [← this, h2]; rfl
/-- NAME of TITLE: with the candidates in another order, a winner that is just as good. -/
theorem C79_order_ID PARAM(t u : Tree (TY)) (h : ∀ v ∈ t.leaves, HYP) (e : ∀ v, v ∈ t.leaves ↔ v ∈ u.leaves) :
    (MV((t.bound (OP))) == MV((u.bound (OP)))) = true := by
  have m : ∀ t : Tree (TY), (∀ v ∈ t.leaves, HYP) → t.bound (OP) ∈ t.leaves := by
    intro t h
    obtain ⟨p, q, e, -, -⟩ := won_ID AP t h
    rw [e]; simp
  have hu : ∀ v ∈ u.leaves, HYP := fun v hv => h v ((e v).2 hv)
  ANTI
'''
import re
def call(t,name,f):
    # replace NAME(args) with balanced parens
    out='';i=0
    while True:
        m=re.compile(r'(?<![A-Za-z])'+re.escape(name)+r'\(').search(t,i)
        if not m: return out+t[i:]
        out+=t[i:m.start()]
        j=m.end();d=1;args=[''];
        while d:
            ch=t[j]
            if ch=='(':d+=1
            if ch==')':
                d-=1
                if d==0: break
            if ch==',' and d==1: args.append('')
            else: args[-1]+=ch
            j+=1
        out+=f(*args); i=j+1
out=H
def gen(ID,NAME,TITLE,TY,PARAM,AP,HYP,OP,OP2,REL,KEY,NN,MV,small,pair,pair2,lnn,worse,measnn):
    global out
    t=T
    big=not small
    t=t.replace('TRANS)','key_tr h h\')' if small else "key_tr h' h)",1)
    t=t.replace('NTRANS)',"key_nt ha hb hc h h')" if small else "key_nt hc hb ha h' h)",1)
    t=t.replace('MEAS',f"(MV((t.bound (OP))) ≤? MV(v))" if small else "(MV(v) ≤? MV((t.bound (OP))))")
    t=t.replace("  have c := C17 \n",'')
    t=t.replace("PAIR'",pair2).replace('PAIR',pair).replace('LNN',lnn)
    ex="(C79_%s %s t h).2 _ ((e _).2 (m u hu))"%(ID,AP); ey="(C79_%s %s u hu).2 _ ((e _).1 (m t h))"%(ID,AP)
    t=t.replace('ANTI',f"exact le_antisymm' ({ex}) ({ey})" if small else f"exact le_antisymm' ({ey}) ({ex})")
    t=call(t,'OP2',OP2); t=call(t,'REL',REL); t=call(t,'KEY',KEY); t=call(t,'MV',MV)
    t=t.replace('(OP)','('+OP+')' if ' ' in OP else OP)
    t=t.replace('NN\n',NN+'\n',1)
    for a,b in dict(WORSE=worse,TITLE=TITLE,NAME=NAME,PARAM=PARAM,AP=AP,HYP=HYP,TY=TY).items(): t=re.sub(r'(?<![A-Za-z])'+a+r'(?![A-Za-z])|(?<![A-Za-z])'+a+r'(?=\(t)',lambda m:b,t)
    t=re.sub(r'([_ ])ID\b',lambda m:m.group(1)+ID,t)
    t=t.replace('_ID',f'_{ID}')
    out+=t
for n in (2,3):
  for op,rel,small,w in (('shortest','isShorterThan',1,'longer'),('longest','isLongerThan',0,'shorter')):
    sel='.1' if small else '.2'
    a,b=('.1','.2')
    P=f"((C17_vector{n} v (t.bound (OP))).1 hv' hw){sel}"
    P2=f"((C17_vector{n} (t.bound (OP)) v).1 hw hv'){sel}"
    gen(f'{op}{n}',op,f'{n}D vectors',f'Vector{n} S','','','NoNaN v',f'Api.{op}',lambda x,y,op=op:f'Api.{op} {x} {y}',
        lambda x,y,rel=rel:f'RelativeLength.{rel} {x} {y}',lambda x:f'Api.dot {x} {x}',
        f'by rw [dot_self_isNaN{n}]; simpa using h v hv',lambda x:f'Api.length {x}',small,P+a,P2+b,
        f'by rw [length_isNaN{n}]; simpa using hw',w,None)
  for op,rel,small,w in (('closest','isCloserTo',1,'farther'),('farthest','isFartherFrom',0,'closer')):
    sel='.1' if small else '.2'
    P=f"((C17_point{n} o v (t.bound (OP))).1 hv' hw){sel}"
    P2=f"((C17_point{n} o (t.bound (OP)) v).1 hw hv'){sel}"
    gen(f'{op}{n}',op,f'{n}D points',f'Point{n} S',f'(o : Point{n} S) ','o','¬ IsNaN (Api.distance o v)',f'Api.{op} o',lambda x,y,op=op:f'Api.{op} o {x} {y}',
        lambda x,y,rel=rel:f'RelativeDistance.{rel} o {x} {y}',lambda x:f'Api.dot ({x} - o) ({x} - o)',
        f'by rw [dot_self_isNaN{n}]; simpa [Api.distance, Distance.distance, length_isNaN{n}] using h v hv',lambda x:f'Api.distance o {x}',small,P+'.1',P2+'.2',
        'hw',w,None)
out+='''
/-! ### A NaN among the candidates -/
NANS
/-! Concrete cases -/
EX

end VecMath
'''
nans='';EXS=''
for n in (2,3):
    nans+=f'''
/-- With a NaN vector among the candidates the result does depend on how the tournament is organised. -/
theorem C79_nan{n} (a b v : Vector{n} S) (h : RelativeLength.isShorterThan a b = true) (hv : ¬ NoNaN v) :
    (Tree.node (.leaf a) (.node (.leaf v) (.leaf b))).bound Api.shortest = a ∧
    (Tree.node (.node (.leaf a) (.leaf v)) (.leaf b)).bound Api.shortest = b := by
  simp only [Tree.bound]
  rw [((C17_vector{n} v b).2.2.2 (.inl hv)).1, ((C17_vector{n} a v).2.2.2 (.inr hv)).1, ((C17_vector{n} v b).2.2.2 (.inl hv)).1]
  exact ⟨if_pos h, rfl⟩
'''
    ex1=f'''
/-- Four vectors, two of them of equal length. -/
noncomputable def cands{n} : Tree (Vector{n} F32) :=
  .node (.node (.leaf (Vector{n}.fromPoint (cube{n} 1 3).max)) (.leaf (Vector{n}.fromPoint (cube{n} 1 2).min)))
    (.node (.leaf (Vector{n}.fromPoint (cube{n} (-1) 3).min)) (.leaf (Vector{n}.fromPoint (cube{n} 5 7).max)))
theorem cands{n}_ok : ∀ v ∈ cands{n}.leaves, NoNaN v := by
  intro v hv
  simp only [cands{n}, Tree.leaves, List.cons_append, List.nil_append, List.mem_cons, List.not_mem_nil, or_false] at hv
  rcases hv with rfl | rfl | rfl | rfl
  exacts [cube_max{n} (by norm_num), cube_min{n} (by norm_num), cube_min{n} (by norm_num), cube_max{n} (by norm_num)]
example := C79_shortest{n} cands{n} cands{n}_ok
example := C79_longest{n} cands{n} cands{n}_ok
example (o : Point{n} F32) (t : Tree (Point{n} F32)) (ho : AllFinite o) (h : ∀ p ∈ t.leaves, AllFinite p) :=
  C79_closest{n} o t fun p hp => distance_nn{n} ho (h p hp)
example := (C79_shape_shortest{n} cands{n} cands{n}_ok).2 _ _ rfl
'''
    nn=', '.join(['(le_nn h.1).@','(le_nn h.2).@'] if n==2 else ['(le_nn h.1).@','(le_nn h.2.1).@','(le_nn h.2.2).@'])
    dn=', '.join(f'isNaN_sub_finite ho{q} hp{q}.not_nan' for q in (['.1','.2'] if n==2 else ['.1','.2.1','.2.2']))
    hlp=f'''
theorem distance_nn{n} {{o p : Point{n} S}} (ho : AllFinite o) (hp : AllFinite p) : ¬ IsNaN (Api.distance o p) := by
  rw [Point{n}.allFinite] at ho hp
  simp only [Api.distance, Distance.distance]
  rw [length_isNaN{n}]
  simp only [not_not]
  exact Vector{n}.noNaN.2 ⟨{dn}⟩
theorem cube_min{n} {{a b : ℤ}} {{ha : |a| ≤ 16777216}} {{hb : |b| ≤ 16777216}} (h : a ≤ b) :
    NoNaN (Vector{n}.fromPoint (cube{n} a b ha hb).min) := by
  have h := Point{n}.leAll.1 (cube{n}_le (ha := ha) (hb := hb) h)
  exact Vector{n}.noNaN.2 ⟨{nn.replace('@','1')}⟩
theorem cube_max{n} {{a b : ℤ}} {{ha : |a| ≤ 16777216}} {{hb : |b| ≤ 16777216}} (h : a ≤ b) :
    NoNaN (Vector{n}.fromPoint (cube{n} a b ha hb).max) := by
  have h := Point{n}.leAll.1 (cube{n}_le (ha := ha) (hb := hb) h)
  exact Vector{n}.noNaN.2 ⟨{nn.replace('@','2')}⟩
'''
    EXS+=hlp+ex1
out=out.replace('NANS',nans).replace('EX',EXS)
open('/verif/lean/Verif/Props/FloatTournament.lean','w').write(out)
