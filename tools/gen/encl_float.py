import itertools
out='''import Verif.Spec.Ball
import Verif.Props.FloatMono
import Verif.Props.FloatCorners
import Verif.Lemmas.FloatSlab
import Verif.Lemmas.Num
import Verif.Lemmas.Mono
import Verif.Props.FloatBall
/-! # C121: bounding balls in floating point

(Generated by tools/gen.) -/

open Classical

namespace VecMath
open Scalar IEEE
variable {S : Type} [Scalar S] [IEEE S]

/-- One coordinate: no value of an interval is farther from `c` than the farther end. -/
theorem far1 {lo hi p c : S} (hl : IsFinite lo) (hh : IsFinite hi) (hc : IsFinite c) (h1 : (lo ≤? p) = true) (h2 : (p ≤? hi) = true) :
    Dom ((p - c) * (p - c)) ((lo - c) * (lo - c)) ∨ Dom ((p - c) * (p - c)) ((hi - c) * (hi - c)) := by
  have np : ¬ IsNaN p := (le_iff.1 h1).2.1
  have rf : ∀ {x : S}, ¬ IsNaN x → (x ≤? x) = true := fun h => le_iff.2 ⟨h, h, le_rfl⟩
  rcases le_total (val p) (val c) with h | h
  · left
    have d := (Dom.extent hl hc h1 (le_iff.2 ⟨np, hc.not_nan, h⟩) (rf hc.not_nan)).self_mul
    have e1 := same_sub_sq p c
    have e2 := same_sub_sq lo c
    exact ⟨mt e1.isNaN.1 d.nl, mt e2.isNaN.1 d.nr, by rw [e1.val]; exact d.pos, by rw [e1.val, e2.val]; exact d.le⟩
  · right
    exact (Dom.extent hc hh (rf hc.not_nan) (le_iff.2 ⟨hc.not_nan, np, h⟩) h2).self_mul

/-- Folding a selection by a number: the result is one of the candidates, and none has a larger number. -/
theorem fold_far {P : Type} (f : P → S) (sel : P → P → P) (hsel : ∀ p q, sel p q = if (f p >? f q) then p else q) (ps : List P) (x : P)
    (hx : ¬ IsNaN (f x)) (h : ∀ p ∈ ps, ¬ IsNaN (f p)) :
    (ps.foldl sel x = x ∨ ps.foldl sel x ∈ ps) ∧ val (f x) ≤ val (f (ps.foldl sel x)) ∧ ∀ p ∈ ps, val (f p) ≤ val (f (ps.foldl sel x)) := by
  induction ps generalizing x with
  | nil => simp
  | cons p ps ih =>
    have hp := h p (by simp)
    have key : (sel x p = x ∨ sel x p = p) ∧ val (f x) ≤ val (f (sel x p)) ∧ val (f p) ≤ val (f (sel x p)) := by
      rw [hsel]
      by_cases c : (f p <? f x) = true
      · rw [if_pos c]; exact ⟨.inl rfl, le_rfl, (lt_iff.1 c).2.2.le⟩
      · rw [if_neg c]
        refine ⟨.inr rfl, ?_, le_rfl⟩
        by_contra c'
        exact c (lt_iff.2 ⟨hp, hx, not_le.1 c'⟩)
    have hn : ¬ IsNaN (f (sel x p)) := by rcases key.1 with e | e <;> rw [e] <;> assumption
    obtain ⟨a, b, d⟩ := ih (sel x p) hn (fun q hq => h q (by simp [hq]))
    rw [List.foldl_cons]
    refine ⟨?_, key.2.1.trans b, ?_⟩
    · rcases a with a | a
      · rw [a]; rcases key.1 with e | e <;> rw [e] <;> simp
      · exact .inr (by simp [a])
    · intro q hq
      rcases List.mem_cons.1 hq with rfl | hq
      · exact key.2.2.trans b
      · exact d q hq
theorem fold_max (f : ℕ → S) : True := trivial
/-- The largest of some numbers and a start. -/
theorem foldl_fmax {P : Type} (f : P → S) (ps : List P) (x : S) (hx : ¬ IsNaN x) :
    ¬ IsNaN (ps.foldl (fun r p => fmax r (f p)) x) ∧ val x ≤ val (ps.foldl (fun r p => fmax r (f p)) x) ∧
    (∀ p ∈ ps, ¬ IsNaN (f p) → val (f p) ≤ val (ps.foldl (fun r p => fmax r (f p)) x)) ∧
    ∀ y : EReal, val x ≤ y → (∀ p ∈ ps, ¬ IsNaN (f p) → val (f p) ≤ y) → val (ps.foldl (fun r p => fmax r (f p)) x) ≤ y := by
  induction ps generalizing x with
  | nil => simp [hx]
  | cons p ps ih =>
    obtain ⟨e1, e2, e3, e4⟩ := fmax_step (n := f p) hx
    obtain ⟨a, b, c, d⟩ := ih (fmax x (f p)) e1
    rw [List.foldl_cons]
    refine ⟨a, e2.trans b, ?_, fun y hy hq => d y (e4 y hy (hq p (by simp))) (fun q hq' => hq q (by simp [hq']))⟩
    intro q hq hn
    rcases List.mem_cons.1 hq with rfl | hq
    · exact (e3 hn).trans b
    · exact c q hq hn
theorem dist_nn {x : S} (h : ¬ IsNaN x) (h0 : 0 ≤ val x) : Dom x x := Dom.refl h h0
'''.replace("theorem fold_max (f : ℕ → S) : True := trivial\n","").replace("theorem dist_nn {x : S} (h : ¬ IsNaN x) (h0 : 0 ≤ val x) : Dom x x := Dom.refl h h0\n","")
for n in (2,3):
    cs='xyz'[:n]; V=f'Vector{n}'; P=f'Point{n}'; B=f'Ball{n}'; BB=f'BoundingBox{n}'; K=2**n; w={2:'disc',3:'ball'}[n]
    combos=[[('max' if (k>>i)&1 else 'min') for i in range(n)] for k in range(K)]
    pts=['⟨'+', '.join(f'b.{m}.{c}' for m,c in zip(cm,cs))+'⟩' for cm in combos]
    okn=', '.join(f'h{k}' for k in range(K))
    def conj(l): return '⟨'+', '.join(l)+'⟩'
    d=lambda q: f'Api.dot ({q} - c : {V} S) ({q} - c : {V} S)'
    def add(l):
        r=l[0]
        for x in l[1:]: r=f'(Dom.add {r} {x})'
        return r
    acc=lambda h,i: (f'{h}.1' if i==0 else f'{h}.2' if n==2 else (f'{h}.2.1' if i==1 else f'{h}.2.2'))
    out+=f'''
/-! ## Dimension {n} -/
theorem {P}.dom_gap {{p c : {P} S}} (hp : AllFinite p) (hc : AllFinite c) : Dom ({d('p')}) ({d('p')}) := by
  rw [{P}.allFinite] at hp hc
  have k : ∀ {{a b : S}}, IsFinite a → IsFinite b → Dom ((a - b) * (a - b)) ((a - b) * (a - b)) := fun ha hb =>
    Dom.refl (mt isNaN_mul_self.1 (isNaN_sub_finite hb ha.not_nan)) (val_mul_self_nonneg _)
  exact {add([f'(k {acc("hp",i)} {acc("hc",i)})' for i in range(n)])}
/-- No point of a box is farther from `c` than all corners. -/
theorem {BB}.far_of_inside (b : {BB} S) (hb : AllFinite b) (c : {P} S) (hc : AllFinite c) (p : {P} S) (hp : b.isInside p = true) :
    {' ∨ '.join(f"Dom ({d('p')}) ({d('('+q+' : '+P+' S)')})" for q in pts)} := by
  rw [{BB}.allFinite, {P}.allFinite, {P}.allFinite] at hb
  rw [{P}.allFinite] at hc
  rw [isInside{n}_iff] at hp
'''
    for i in range(n): out+=f'''  have h{i} := far1 {acc("hb.1",i)} {acc("hb.2",i)} {acc("hc",i)} {acc("hp",i)}.1 {acc("hp",i)}.2
'''
    out+='  '+' <;> '.join(f'rcases h{i} with a{i} | a{i}' for i in range(n))+'\n'
    import itertools as it
    order=list(it.product(*[['min','max']]*n))
    for cm in order:
        k=sum((1<<i) for i,m in enumerate(cm) if m=='max')
        sel='.inr ('*k+('.inl ' if k<K-1 else '')+add([f'a{i}' for i in range(n)])+')'*k
        out+=f'  · exact {sel}\n'
    out+=f'''/-- **C121**: the corner of a box that is farthest from a point, as found with the library's own comparison, is at least as far as every point of
the box: the {w} with that radius has the whole box, and no smaller {w} with this center does. -/
theorem C121_corner{n} (build : Build) (b : {BB} S) (hb : AllFinite b) (wb : LeAll b.min b.max) (c : {P} S) (hc : AllFinite c) :
    ∃ q, b.farCorner build c = .ok q ∧ (∃ k : UInt32, k < {K} ∧ b.corner build k = .ok q) ∧
      (∀ p, b.isInside p = true → (⟨c, Api.distance c q⟩ : {B} S).has p = true) ∧
      ∀ r : S, (∀ p, b.isInside p = true → (⟨c, r⟩ : {B} S).has p = true) → (Api.distance c q ≤? r) = true := by
  obtain {conj([f'h{k}' for k in range(K)])} := corner_ok{n} build b
  have hf : ∀ q ∈ ([{', '.join(pts)}] : List ({P} S)), AllFinite q := by
    rw [{BB}.allFinite, {P}.allFinite, {P}.allFinite] at hb
    simp only [List.forall_mem_cons, List.not_mem_nil, IsEmpty.forall_iff, implies_true, and_true, {P}.allFinite]
    tauto
  have hk : ∀ q ∈ ([{', '.join(pts)}] : List ({P} S)), ∃ k : UInt32, k < {K} ∧ b.corner build k = .ok q := by
    simp only [List.forall_mem_cons, List.not_mem_nil, IsEmpty.forall_iff, implies_true, and_true]
    exact {conj([f'⟨{k}, by decide, h{k}⟩' for k in range(K)])}
  have e : b.farCorner build c = .ok (([{', '.join(pts[1:])}] : List ({P} S)).foldl (Api.farthest c) {pts[0]}) := by
    unfold {BB}.farCorner
    simp only [List.mapM_cons, List.mapM_nil, {okn}]
    rfl
  obtain ⟨m1, m2, m3⟩ := fold_far (fun q : {P} S => {d('q')}) (Api.farthest c) (fun p q => rfl) [{', '.join(pts[1:])}] {pts[0]}
    ({P}.dom_gap (hf _ (by simp)) hc).nl (fun q hq => ({P}.dom_gap (hf q (List.mem_cons_of_mem _ hq)) hc).nl)
  set q := ([{', '.join(pts[1:])}] : List ({P} S)).foldl (Api.farthest c) {pts[0]} with hq
  have mem : q ∈ ([{', '.join(pts)}] : List ({P} S)) := by
    rcases m1 with m | m
    · rw [m]; simp
    · exact List.mem_cons_of_mem _ m
  have top : ∀ p ∈ ([{', '.join(pts)}] : List ({P} S)), val ({d('p')}) ≤ val ({d('q')}) := by
    intro p hp
    rcases List.mem_cons.1 hp with rfl | hp
    · exact m2
    · exact m3 p hp
  refine ⟨q, e, hk q mem, ?_, ?_⟩
  · intro p hp
    have nq := ({P}.dom_gap (hf q mem) hc).nl
    have fin : ∀ x ∈ ([{', '.join(pts)}] : List ({P} S)), Dom ({d('p')}) ({d('x')}) → (⟨c, Api.distance c q⟩ : {B} S).has p = true :=
      fun x hx hd => (Dom.sqrt ⟨hd.nl, nq, hd.pos, hd.le.trans (top x hx)⟩).toLe
    rcases b.far_of_inside hb c hc p hp with {' | '.join(['h']*K)}
    all_goals exact fin _ (by simp) h
  · intro r hr
    obtain ⟨k, k1, k2⟩ := hk q mem
    exact hr q (corner_inside{n} build b wb k1 k2)
/-- **C121**: the {w} around `c` through the farthest of some points has all of them, and no {w} with this center has all of them and a smaller
radius. -/
theorem C121_points{n} (c : {P} S) (ps : List ({P} S)) (hc : AllFinite c) (hp : ∀ p ∈ ps, AllFinite p) :
    (∀ p ∈ ps, (Ball{n}.around c ps).has p = true) ∧
    ∀ r : S, (zero ≤? r) = true → (∀ p ∈ ps, (⟨c, r⟩ : {B} S).has p = true) → ((Ball{n}.around c ps).radius ≤? r) = true := by
  have k : ∀ p ∈ ps, Dom (Api.distance c p : S) (Api.distance c p) := fun p h => ({P}.dom_gap (hp p h) hc).sqrt
  obtain ⟨a, b, d, e⟩ := foldl_fmax (fun p => (Api.distance c p : S)) ps zero finite_zero.not_nan
  refine ⟨fun p h => le_iff.2 ⟨(k p h).nl, a, d p h (k p h).nl⟩, fun r h0 hr => ?_⟩
  exact le_iff.2 ⟨a, (le_iff.1 h0).2.1, e _ (le_iff.1 h0).2.2 fun p h _ => (le_iff.1 (hr p h)).2.2⟩
/-- **C121**: whether two {w}s overlap does not depend on their order. -/
theorem C121_symm{n} (a b : {B} S) : a.meets b = b.meets a := by
  have s1 := C15_float_symmetric{n} (S := S) a.center b.center
  have s2 : Same (a.radius + b.radius) (b.radius + a.radius) := same_add_comm _ _
  rw [Bool.eq_iff_iff]
  unfold Ball{n}.meets
  rw [le_iff, le_iff, s1.isNaN, s1.val, s2.isNaN, s2.val]
/-- **C121**: a larger {w} has every point that a smaller one with the same center has, and meets every {w} with a center that the smaller one meets,
if the radius of that one is finite. -/
theorem C121_grow{n} (a : {B} S) (r : S) (hr : (a.radius ≤? r) = true) :
    (∀ p, a.has p = true → (⟨a.center, r⟩ : {B} S).has p = true) ∧
    ∀ b : {B} S, IsFinite b.radius → a.meets b = true → (⟨a.center, r⟩ : {B} S).meets b = true := by
  have h := le_iff.1 hr
  refine ⟨fun p hp => le_trans' hp hr, fun b hb hm => ?_⟩
  have m := le_iff.1 hm
  have n1 : ¬ IsNaN (r + b.radius) := fun hc => isNaN_add_finite hb h.2.1 ((same_add_comm _ _).isNaN.1 hc)
  exact le_iff.2 ⟨m.1, n1, m.2.2.trans (val_add_mono h.2.2 le_rfl m.2.1 n1)⟩
'''
out+='\nend VecMath\n'
open('/verif/lean/Verif/Props/FloatEnclose.lean','w').write(out)
