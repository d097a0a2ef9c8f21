H='''import Verif.Lemmas.Symm
import Verif.Lemmas.Float
import Verif.Props.FloatMatrix
/-!
# Layer F: what a NaN coordinate does, everywhere in the API (C75)

`¬ NoNaN t` reads "some component of `t` is NaN". (Generated by tools/gen/nan.py.)
-/

open Classical

namespace VecMath
open Scalar IEEE

variable {S : Type} [Scalar S] [IEEE S]

theorem isNaN_sqrt {a : S} (h : IsNaN a) : IsNaN (Scalar.sqrt a) := by
  unfold IsNaN at *; rw [den_sqrt, h]; simp [Rounding.sqrt]
/-- Chases a NaN through an arithmetic expression. -/
macro "chase_nan" : tactic => `(tactic| with_reducible
  solve_by_elim (maxDepth := 12) [isNaN_add_left, isNaN_add_right, isNaN_sub_left, isNaN_sub_right,
    isNaN_mul_left, isNaN_mul_right, isNaN_div_left, isNaN_div_right, isNaN_sqrt])
theorem lt_nan_left {a b : S} (h : IsNaN a) : (a <? b) = false := by
  rw [Bool.eq_false_iff]; exact fun h' => (lt_iff.1 h').1 h
theorem lt_nan_right {a b : S} (h : IsNaN b) : (a <? b) = false := by
  rw [Bool.eq_false_iff]; exact fun h' => (lt_iff.1 h').2.1 h
theorem le_nan_left {a b : S} (h : IsNaN a) : (a ≤? b) = false := by
  rw [Bool.eq_false_iff]; exact fun h' => (le_iff.1 h').1 h
theorem le_nan_right {a b : S} (h : IsNaN b) : (a ≤? b) = false := by
  rw [Bool.eq_false_iff]; exact fun h' => (le_iff.1 h').2.1 h
'''
out=[H]
w=out.append
C={2:['x','y'],3:['x','y','z']}
M={2:('Matrix3x3',3),3:('Matrix4x4',4)}
w('/-! ## Unfolding -/\n')
for n in (2,3):
    cs=C[n]
    for T in ('Vector','Point'):
        ors=' ∨ '.join(f'IsNaN v.{c}' for c in cs); ands=' ∧ '.join(f'IsNaN v.{c}' for c in cs)
        w(f'''theorem {T}{n}.someNaN {{v : {T}{n} S}} : ¬ NoNaN v ↔ {ors} := by
  simp only [NoNaN, Comps.comps, List.mem_cons, List.not_mem_nil, or_false, forall_eq_or_imp, forall_eq]; tauto
theorem {T}{n}.allNaN {{v : {T}{n} S}} : AllNaN v ↔ {ands} := by
  simp only [AllNaN, Comps.comps, List.mem_cons, List.not_mem_nil, or_false, forall_eq_or_imp, forall_eq]
''')
    w(f'''theorem BoundingBox{n}.someNaN {{b : BoundingBox{n} S}} : ¬ NoNaN b ↔ ¬ NoNaN b.min ∨ ¬ NoNaN b.max := by
  rw [BoundingBox{n}.noNaN]; tauto
theorem Ray{n}.someNaN {{r : Ray{n} S}} : ¬ NoNaN r ↔ ¬ NoNaN r.origin ∨ ¬ NoNaN r.direction := by
  unfold NoNaN; simp only [Comps.comps, List.mem_append, or_imp, forall_and]; tauto
theorem sameAll_point{n} {{a b : Point{n} S}} : SameAll a b ↔ {' ∧ '.join(f'Same a.{c} b.{c}' for c in cs)} := by
  simp [SameAll, Comps.comps]
theorem sameAll_of_allNaN{n} {{a b : Point{n} S}} (ha : AllNaN a) (hb : AllNaN b) : SameAll a b := by
  rw [Point{n}.allNaN] at ha hb; rw [sameAll_point{n}]; unfold IsNaN at ha hb; unfold Same; simp [ha, hb]
''')
w('/-! ## NaN is contagious in arithmetic -/\n')
for n in (2,3):
    cs=C[n]; V=f'Vector{n} S'; P=f'Point{n} S'
    w(f'''/-- **C75**: a NaN coordinate makes `dot` NaN. -/
theorem C75_dot{n} (a b : {V}) (h : ¬ NoNaN a ∨ ¬ NoNaN b) : IsNaN (Api.dot a b : S) := by
  show IsNaN ({' + '.join(f'a.{c} * b.{c}' for c in cs)})
  rw [Vector{n}.someNaN, Vector{n}.someNaN] at h
  rcases h with h | h <;> rcases h with {' | '.join(['h']*n)} <;> chase_nan
/-- **C75**: a NaN coordinate makes `length` NaN, and only that does. -/
theorem C75_length{n} (v : {V}) : IsNaN (Api.length v : S) ↔ ¬ NoNaN v := by
  refine ⟨fun h hn => ?_, fun h => isNaN_sqrt (C75_dot{n} v v (.inl h))⟩
  rw [Vector{n}.noNaN] at hn
  have hd : ¬ IsNaN (Api.dot v v : S) ∧ 0 ≤ val (Api.dot v v : S) := by
    DOTPROOF{n}
  exact hd.1 ((isNaN_sqrt_nonneg hd.2).1 h)
/-- **C75**: `normalize` of a vector with a NaN coordinate is NaN in every coordinate. -/
theorem C75_normalize{n} (v : {V}) (h : ¬ NoNaN v) : AllNaN v.normalize := by
  have := (C75_length{n} v).2 h
  rw [Vector{n}.allNaN]
  exact ⟨{', '.join(['isNaN_div_right this']*n)}⟩
/-- **C75**: a NaN coordinate makes `distance` NaN. -/
theorem C75_distance{n} (a b : {P}) (h : ¬ NoNaN a ∨ ¬ NoNaN b) : IsNaN (Api.distance a b : S) := by
  refine (C75_length{n} (b - a)).2 (Vector{n}.someNaN.2 ?_)
  show {' ∨ '.join(f'IsNaN (b.{c} - a.{c})' for c in cs)}
  rw [Point{n}.someNaN, Point{n}.someNaN] at h
  rcases h with h | h <;> rcases h with {' | '.join(['h']*n)} <;>
    first {' '.join('| exact '+o+'(by chase_nan)'+c for o,c in ([('.inl ',''),('.inr ','')] if n==2 else [('.inl ',''),('.inr (.inl ',')'),('.inr (.inr ',')')]))}
/-- **C75**: no vector is shorter or longer than, or than it, when a NaN is involved, and the selections then always
return their second candidate — even if that is the one with the NaN. -/
theorem C75_relative_length{n} (a b : {V}) (h : ¬ NoNaN a ∨ ¬ NoNaN b) :
    RelativeLength.isShorterThan a b = false ∧ RelativeLength.isLongerThan a b = false ∧ Api.shortest a b = b ∧ Api.longest a b = b := by
  have hn : IsNaN (Api.dot a a : S) ∨ IsNaN (Api.dot b b : S) :=
    h.imp (fun h => C75_dot{n} a a (.inl h)) (fun h => C75_dot{n} b b (.inl h))
  have h1 : ((Api.dot a a : S) <? (Api.dot b b : S)) = false := hn.elim lt_nan_left lt_nan_right
  have h2 : ((Api.dot b b : S) <? (Api.dot a a : S)) = false := hn.elim lt_nan_right lt_nan_left
  refine ⟨h1, h2, ?_, ?_⟩
  · show (if ((Api.dot a a : S) <? (Api.dot b b : S)) then a else b) = b
    rw [h1]; rfl
  · show (if ((Api.dot b b : S) <? (Api.dot a a : S)) then a else b) = b
    rw [h2]; rfl
/-- **C75**: the same for distances. -/
theorem C75_relative_distance{n} (p a b : {P}) (h : ¬ NoNaN p ∨ ¬ NoNaN a ∨ ¬ NoNaN b) :
    RelativeDistance.isCloserTo p a b = false ∧ RelativeDistance.isFartherFrom p a b = false ∧ Api.closest p a b = b ∧ Api.farthest p a b = b := by
  have nn : ∀ q : {P}, ¬ NoNaN p ∨ ¬ NoNaN q → ¬ NoNaN (q - p : {V}) := by
    intro q h
    rw [Vector{n}.someNaN]
    show {' ∨ '.join(f'IsNaN (q.{c} - p.{c})' for c in cs)}
    rw [Point{n}.someNaN, Point{n}.someNaN] at h
    rcases h with h | h <;> rcases h with {' | '.join(['h']*n)} <;>
      first {' '.join('| exact '+o+'(by chase_nan)'+c for o,c in ([('.inl ',''),('.inr ','')] if n==2 else [('.inl ',''),('.inr (.inl ',')'),('.inr (.inr ',')')]))}
  have hn : ¬ NoNaN (a - p : {V}) ∨ ¬ NoNaN (b - p : {V}) := by
    rcases h with h | h | h
    · exact .inl (nn a (.inl h))
    · exact .inl (nn a (.inr h))
    · exact .inr (nn b (.inr h))
  obtain ⟨h1, h2, -, -⟩ := C75_relative_length{n} _ _ hn
  have h1' : Point{n}.isCloserTo p a b = false := h1
  have h2' : Point{n}.isFartherFrom p a b = false := h2
  refine ⟨h1, h2, ?_, ?_⟩
  · show (if Point{n}.isCloserTo p a b then a else b) = b
    rw [h1']; rfl
  · show (if Point{n}.isFartherFrom p a b then a else b) = b
    rw [h2']; rfl
/-- **C75**: `ray.at t` is NaN in a coordinate if the origin or the direction is NaN in that coordinate, and NaN in all
of them if `t` is NaN. -/
theorem C75_ray_at{n} (r : Ray{n} S) (t : S) :
    {' ∧ '.join(f'(IsNaN r.origin.{c} ∨ IsNaN r.direction.{c} ∨ IsNaN t → IsNaN (r.at t).{c})' for c in cs)} := by
  refine ⟨{', '.join(['?_']*n)}⟩
''')
    for c in cs:
        w(f'''  · show _ → IsNaN (r.origin.{c} + r.direction.{c} * t)
    rintro (h | h | h) <;> chase_nan''')
    w('')
w('''/-- **C75**: in a cross product a NaN coordinate makes the two *other* coordinates NaN. -/
theorem C75_cross (a b : Vector3 S) :
    (IsNaN a.x ∨ IsNaN b.x → IsNaN (Api.cross a b : Vector3 S).y ∧ IsNaN (Api.cross a b : Vector3 S).z) ∧
    (IsNaN a.y ∨ IsNaN b.y → IsNaN (Api.cross a b : Vector3 S).x ∧ IsNaN (Api.cross a b : Vector3 S).z) ∧
    (IsNaN a.z ∨ IsNaN b.z → IsNaN (Api.cross a b : Vector3 S).x ∧ IsNaN (Api.cross a b : Vector3 S).y) := by
  refine ⟨?_, ?_, ?_⟩
  · show _ → IsNaN (a.z * b.x - a.x * b.z) ∧ IsNaN (a.x * b.y - a.y * b.x)
    rintro (h | h) <;> constructor <;> chase_nan
  · show _ → IsNaN (a.y * b.z - a.z * b.y) ∧ IsNaN (a.x * b.y - a.y * b.x)
    rintro (h | h) <;> constructor <;> chase_nan
  · show _ → IsNaN (a.y * b.z - a.z * b.y) ∧ IsNaN (a.z * b.x - a.x * b.z)
    rintro (h | h) <;> constructor <;> chase_nan
''')
w('/-! ## Matrices and transforms -/\n')
for n in (2,3):
    cs=C[n]; V=f'Vector{n} S'; P=f'Point{n} S'; MM,k=M[n]
    # row expr
    def prow(i): return ' + '.join([f'm.m[{i*k+j}] * v.{cs[j]}' for j in range(n)]+[f'm.m[{i*k+n}]'])
    def pcol(i): return ' + '.join([f'v.{cs[j]} * m.m[{j*k+i}]' for j in range(n)]+[f'm.m[{n*k+i}]'])
    def vrow(i): return ' + '.join([f'm.m[{i*k+j}] * v.{cs[j]}' for j in range(n)])
    def vcol(i): return ' + '.join([f'v.{cs[j]} * m.m[{j*k+i}]' for j in range(n)])
    for (T,nm,lhs,f,div) in (('Point','point','m * v',prow,True),('Point','point_row','v * m',pcol,True),('Vector','vector','m * v',vrow,False),('Vector','vector_row','v * m',vcol,False)):
        ex=[ (f'({f(i)}) / ({f(n)})' if div else f(i)) for i in range(n)]
        w(f'''/-- **C75**: a NaN coordinate of the operand makes every coordinate of `{lhs}` NaN, whatever the matrix. -/
theorem C75_matrix_{nm}{n} (m : {MM} S) (v : {T}{n} S) (h : ¬ NoNaN v) : AllNaN ({lhs} : {T}{n} S) := by
  rw [{T}{n}.allNaN]
  show {' ∧ '.join(f'IsNaN ({e})' for e in ex)}
  rw [{T}{n}.someNaN] at h
  rcases h with {' | '.join(['h']*n)} <;> refine ⟨{', '.join(['?_']*n)}⟩ <;> chase_nan
''')
    w(f'''/-- **C75**: a transform turns a ray whose origin (direction) has a NaN coordinate into one whose origin (direction)
is all NaN. -/
theorem C75_transform_ray{n} (t : Transform{n} S) (r : Ray{n} S) :
    (¬ NoNaN r.origin → AllNaN (Transform.transform t r : Ray{n} S).origin) ∧
    (¬ NoNaN r.direction → AllNaN (Transform.transform t r : Ray{n} S).direction) :=
  ⟨C75_matrix_point{n} t.forward r.origin, C75_matrix_vector{n} t.forward r.direction⟩
''')
    w(f'''/-- **C75**: in a product, a NaN in row `i` of the left factor makes row `i` NaN. -/
theorem C75_product_left{n} (a b : {MM} S) (i j k : Fin {k}) (h : IsNaN a.m[{k} * i.val + k.val]) :
    IsNaN (a * b).m[{k} * i.val + j.val] := by
  fin_cases i <;> fin_cases k <;> simp only [Fin.zero_eta, Fin.mk_one, Fin.reduceFinMk, Fin.val_zero, Fin.val_one, Fin.isValue] at h <;>
    fin_cases j <;> PRODUNF
/-- **C75**: in a product, a NaN in column `j` of the right factor makes column `j` NaN. -/
theorem C75_product_right{n} (a b : {MM} S) (i j k : Fin {k}) (h : IsNaN b.m[{k} * k.val + j.val]) :
    IsNaN (a * b).m[{k} * i.val + j.val] := by
  fin_cases i <;> fin_cases k <;> simp only [Fin.zero_eta, Fin.mk_one, Fin.reduceFinMk, Fin.val_zero, Fin.val_one, Fin.isValue] at h <;>
    fin_cases j <;> PRODUNF
''')
    w(f'''/-- **C75**: `TryFrom` accepts a matrix with a NaN anywhere; the transform it returns has an all-NaN inverse. -/
theorem C75_try_from{n} (m : {MM} S) (h : ¬ NoNaN m) : ∃ t, Transform{n}.tryFrom m = .ok t ∧ t.forward = m ∧ AllNaN t.inverse := by
  obtain ⟨i, e, hi⟩ := C45_nan_accepted{'2' if n==2 else ''} m h
  exact ⟨⟨m, i⟩, by unfold Transform{n}.tryFrom; rw [e]; rfl, rfl, hi⟩
''')
open('/tmp/w/nan_part.lean','w').write('\n'.join(out))
import re
src=open('/tmp/w/nan_part.lean').read()
src=src.replace('DOTPROOF2','exact add_nonneg (fun h => hn.1 (isNaN_mul_self.1 h)) (fun h => hn.2 (isNaN_mul_self.1 h)) (val_mul_self_nonneg _) (val_mul_self_nonneg _)')
src=src.replace('DOTPROOF3','''have h1 := add_nonneg (fun h => hn.1 (isNaN_mul_self.1 h)) (fun h => hn.2.1 (isNaN_mul_self.1 h))
      (val_mul_self_nonneg v.x) (val_mul_self_nonneg v.y)
    exact add_nonneg h1.1 (fun h => hn.2.2 (isNaN_mul_self.1 h)) h1.2 (val_mul_self_nonneg _)''')
for n,MM,k in ((2,'Matrix3x3',3),(3,'Matrix4x4',4)):
    for side in ('left','right'):
        i=src.index(f'theorem C75_product_{side}{n}')
        j=src.index('  fin_cases i',i); e=src.index('PRODUNF',j)+len('PRODUNF')
        src=src[:j]+f'''  rw [entry_mul{n}]
  fin_cases k <;> simp at h <;> chase_nan'''+src[e:]
    lem=f'''theorem entry_mul{n} (a b : {MM} S) (i j : Fin {k}) : (a * b).m[{k} * i.val + j.val] =
    {' + '.join(f'a.m[{k} * i.val{" + "+str(l) if l else ""}] * b.m[{str(k*l)+" + " if l else ""}j.val]' for l in range(k))} := by
  fin_cases i <;> fin_cases j <;> rfl
'''
    i=src.index(f'/-- **C75**: in a product, a NaN in row `i` of the left factor makes row `i` NaN. -/\ntheorem C75_product_left{n}')
    src=src[:i]+lem+src[i:]
out=[src]; w=out.append
C={2:['x','y'],3:['x','y','z']}
w('''/-! ## Boxes -/

theorem min_all {a b : S} : Same (fmin a b) b ∨ ¬ IsNaN a := by
  by_cases h : IsNaN a
  · exact .inl (min_nan_left h)
  · exact .inr h
/-- One axis of one step of the box transform: adding NaN changes nothing. -/
theorem nan_step {lo hi o s : S} (hl : Same lo o) (hh : Same hi o) (hs : Same s o ∨ IsNaN s) :
    Same (fmin lo s) o ∧ Same (fmax hi s) o := by
  rcases hs with hs | hs
  · constructor
    · rcases min_same (a := lo) (b := s) with h | h
      · exact h.trans hl
      · exact h.trans hs
    · rcases max_same (a := hi) (b := s) with h | h
      · exact h.trans hh
      · exact h.trans hs
  · exact ⟨(min_nan_right hs).trans hl, (max_nan_right hs).trans hh⟩
theorem nan_sort {lo hi o : S} (hl : Same lo o) (hh : Same hi o) : Same (fmin lo hi) o ∧ Same (fmax lo hi) o := by
  constructor
  · rcases min_same (a := lo) (b := hi) with h | h
    · exact h.trans hl
    · exact h.trans hh
  · rcases max_same (a := lo) (b := hi) with h | h
    · exact h.trans hl
    · exact h.trans hh
''')
for n in (2,3):
    cs=C[n]; P=f'Point{n} S'; B=f'BoundingBox{n} S'
    diag=' ∨ '.join(f'IsNaN (b.max.{c} - b.min.{c})' for c in cs)
    firsts=' '.join('| exact '+o+'(by chase_nan)'+c for o,c in ([('.inl ',''),('.inr ','')] if n==2 else [('.inl ',''),('.inr (.inl ',')'),('.inr (.inr ',')')]))
    w(f'''theorem diagonal_nan{n} {{b : {B}}} (h : ¬ NoNaN b) : ¬ NoNaN b.diagonal := by
  rw [Vector{n}.someNaN]
  show {diag}
  rw [BoundingBox{n}.someNaN, Point{n}.someNaN, Point{n}.someNaN] at h
  rcases h with h | h <;> rcases h with {' | '.join(['h']*n)} <;>
    first {firsts}
/-- One step of the loop with a NaN diagonal. -/
theorem box_step_nan{n} {{o : {P}}} {{d : Vector{n} S}} (hd : AllNaN d) {{acc : {P} × {P}}} (i : ℕ)
    (h : SameAll acc.1 o ∧ SameAll acc.2 o) :
    SameAll (Transform{n}.boxStep o d acc i).1 o ∧ SameAll (Transform{n}.boxStep o d acc i).2 o := by
  rw [Vector{n}.allNaN] at hd
  simp only [sameAll_point{n}] at *
  have key : ∀ (c : Bool) (x dx : S), IsNaN dx → Same (if c then x + dx else x) x ∨ IsNaN (if c then x + dx else x) := by
    intro c x dx h
    cases c
    · exact .inl rfl
    · exact .inr (isNaN_add_right h)''')
    masks=['0b01','0b10'] if n==2 else ['0b001','0b010','0b100']
    for q,c in enumerate(cs):
        w(f'''  have k{c} := nan_step h.1{'.1' if q==0 else ('.2' if n==2 else ('.2.1' if q==1 else '.2.2'))} h.2{'.1' if q==0 else ('.2' if n==2 else ('.2.1' if q==1 else '.2.2'))} (key (i &&& {masks[q]} != 0) o.{c} d.{c} hd{'.1' if q==0 else ('.2' if n==2 else ('.2.1' if q==1 else '.2.2'))})''')
    lets='\n'.join(f'      let corner := if i &&& {masks[q]} != 0 then {{ corner with {c} := corner.{c} + d.{c} }} else corner' for q,c in enumerate(cs))
    cc=f"(⟨{', '.join(f'if i &&& {masks[q]} != 0 then o.{c} + d.{c} else o.{c}' for q,c in enumerate(cs))}⟩ : {P})"
    w(f'''  have e : Transform{n}.boxStep o d acc i = (Api.min acc.1 {cc},
      Api.max acc.2 {cc}) := by
    unfold Transform{n}.boxStep
    cases h1 : (i &&& {masks[0]} != 0) <;> cases h2 : (i &&& {masks[1]} != 0) <;> {f'cases h3 : (i &&& {masks[2]} != 0) <;> ' if n==3 else ''}rfl
  rw [e]
  exact ⟨⟨{', '.join(f'k{c}.1' for c in cs)}⟩, ⟨{', '.join(f'k{c}.2' for c in cs)}⟩⟩
/-- **C75**: a box with a NaN in either corner is transformed, silently, to the single point that its `min` corner
is transformed to (all NaN, if the NaN is in `min`; an ordinary point, if it is in `max`). -/
theorem C75_transform_box{n} (t : Transform{n} S) (b : {B}) (h : ¬ NoNaN b) :
    SameAll (Transform.transform t b : {B}).min (Transform.transform t b.min : {P}) ∧
    SameAll (Transform.transform t b : {B}).max (Transform.transform t b.min : {P}) := by
  have hd : AllNaN (Transform.transform t b.diagonal : Vector{n} S) := C75_matrix_vector{n} t.forward _ (diagonal_nan{n} h)
  have key : ∀ (l : List ℕ) (acc : {P} × {P}), SameAll acc.1 (Transform.transform t b.min : {P}) ∧ SameAll acc.2 (Transform.transform t b.min : {P}) →
      SameAll (l.foldl (Transform{n}.boxStep (Transform.transform t b.min : {P}) (Transform.transform t b.diagonal : Vector{n} S)) acc).1 (Transform.transform t b.min : {P}) ∧
      SameAll (l.foldl (Transform{n}.boxStep (Transform.transform t b.min : {P}) (Transform.transform t b.diagonal : Vector{n} S)) acc).2 (Transform.transform t b.min : {P}) := by
    intro l
    induction l with
    | nil => intro acc h; exact h
    | cons i l ih => intro acc h; exact ih _ (box_step_nan{n} hd i h)
  have rf : SameAll (Transform.transform t b.min : {P}) (Transform.transform t b.min : {P}) := by rw [sameAll_point{n}]; exact ⟨{', '.join(['rfl']*n)}⟩
  have := key {[1,2,3] if n==2 else [1,2,3,4,5,6,7]} (_, _) ⟨rf, rf⟩
  simp only [sameAll_point{n}] at this ⊢
  exact ⟨⟨{', '.join(f'(nan_sort this.1{p} this.2{p}).1' for p in (['.1','.2'] if n==2 else ['.1','.2.1','.2.2']))}⟩, ⟨{', '.join(f'(nan_sort this.1{p} this.2{p}).2' for p in (['.1','.2'] if n==2 else ['.1','.2.1','.2.2']))}⟩⟩
''')
    ovl=f"C75_overlaps{n}"
    w(f'''/-- **C75**: no point is inside a box with a NaN corner, and no point with a NaN coordinate is inside any box. -/
theorem C75_is_inside{n} (b : {B}) (p : {P}) (h : ¬ NoNaN b ∨ ¬ NoNaN p) : b.isInside p = false := by
  rw [Bool.eq_false_iff]
  intro hc
  unfold BoundingBox{n}.isInside at hc
  simp only [Bool.and_eq_true, le_iff] at hc
  rw [BoundingBox{n}.someNaN, Point{n}.someNaN, Point{n}.someNaN, Point{n}.someNaN] at h
  tauto
/-- **C75**: a box with a NaN corner overlaps nothing, and its intersection with any box is `None`. -/
theorem {ovl} (a b : {B}) (h : ¬ NoNaN a ∨ ¬ NoNaN b) :
    a.overlaps b = false ∧ (Api.intersect a b : Option ({B})) = none := by
  have hf : a.overlaps b = false := by
    rw [Bool.eq_false_iff]
    intro hc
    unfold BoundingBox{n}.overlaps at hc
    simp only [Bool.and_eq_true, le_iff] at hc
    rw [BoundingBox{n}.someNaN, BoundingBox{n}.someNaN, Point{n}.someNaN, Point{n}.someNaN, Point{n}.someNaN, Point{n}.someNaN] at h
    tauto
  refine ⟨hf, ?_⟩
  show (if a.overlaps b then _ else none) = none
  rw [hf]; rfl
''')
    axes=' ∧ '.join(f'(IsNaN p.{c} → (b.min.{c} ≤? b.max.{c}) = true → Agree (Api.union b p : {B}).min.{c} b.min.{c} ∧ Agree (Api.union b p : {B}).max.{c} b.max.{c})' for c in cs)
    w(f'''/-- **C75**: growing a box by a point leaves the box as it is along every axis in which the point is NaN. -/
theorem C75_union_point{n} (b : {B}) (p : {P}) :
    {axes} :=
  ⟨{', '.join(['nan_union']*n)}⟩
''')
w_idx=[i for i,s in enumerate(out) if 'theorem diagonal_nan2' in s][0]
out.insert(w_idx,'''theorem nan_union {lo hi p : S} (h : IsNaN p) (hl : (lo ≤? hi) = true) :
    Agree (fmin (fmin lo p) (fmax hi p)) lo ∧ Agree (fmax (fmin lo p) (fmax hi p)) hi := by
  have h1 := min_nan_right (a := lo) h
  have h2 := max_nan_right (a := hi) h
  have hv := le_iff.1 hl
  simp only [agree_iff]
  rw [num_min_congr h1.num h2.num, num_max_congr h1.num h2.num]
  constructor
  · refine num_ext (by rw [isNaN_min]; tauto) fun _ => ?_
    rw [val_min hv.1 hv.2.1, min_eq_left hv.2.2]
  · refine num_ext (by rw [isNaN_max]; tauto) fun _ => ?_
    rw [val_max hv.1 hv.2.1, max_eq_right hv.2.2]
''')
w('''/-! ## Ray/box -/

/-- A NaN in the ray along an axis, or in both ends of the box: that slab does not exist. -/
theorem near_far_nan {lo hi o d : S} (h : IsNaN o ∨ IsNaN d ∨ (IsNaN lo ∧ IsNaN hi)) :
    loVal (near lo hi o d) = ⊥ ∧ hiVal (far lo hi o d) = ⊤ := by
  have h1 : IsNaN ((lo - o) / d) := by rcases h with h | h | h <;> [skip; skip; have h := h.1] <;> chase_nan
  have h2 : IsNaN ((hi - o) / d) := by rcases h with h | h | h <;> [skip; skip; have h := h.2] <;> chase_nan
  have h3 : IsNaN (near lo hi o d) := isNaN_min.2 ⟨h1, h2⟩
  have h4 : IsNaN (far lo hi o d) := isNaN_max.2 ⟨h1, h2⟩
  unfold loVal hiVal
  rw [if_pos h3, if_pos h4]; exact ⟨rfl, rfl⟩
''')
def ax(c): return f'IsNaN r.origin.{c} ∨ IsNaN r.direction.{c} ∨ (IsNaN b.min.{c} ∧ IsNaN b.max.{c})'
for n in (2,3):
    cs=C[n]; B=f'BoundingBox{n} S'
    hyps=' '.join(f'(h{c} : {ax(c)})' for c in cs)
    rws='\n  '.join(f'have e{c} := near_far_nan h{c}' for c in cs)
    w(f'''/-- **C75**: a ray that is NaN in every axis (for instance: with an all-NaN direction) is reported to hit *every* box,
over the whole range from 0 to infinity. -/
theorem C75_ray_all_nan{n} (b : {B}) (r : Ray{n} S) {hyps} :
    ∃ i : Range S, (Api.intersect b r : Option (Range S)) = some i ∧ (i.start == zero) = true ∧ (i.stop == infinity) = true := by
  {rws}
  have e1 : startVal{n} b r = 0 := by unfold startVal{n}; simp [{', '.join(f'e{c}.1' for c in cs)}]
  have e2 : stopVal{n} b r = ⊤ := by unfold stopVal{n}; simp [{', '.join(f'e{c}.2' for c in cs)}]
  obtain ⟨i, e, a1, a2, a3, a4⟩ := (hit_iff{n} b r).1 (by rw [e1, e2]; exact le_top)
  exact ⟨i, e, beq_iff.2 ⟨a1, not_nan_zero, by rw [a3, e1, val_zero]⟩, beq_iff.2 ⟨a2, not_nan_infinity, by rw [a4, e2, val_infinity]⟩⟩
''')
for (c,d,e) in (('x','y','z'),('y','x','z'),('z','x','y')):
    w(f'''/-- **C75**: an axis in which the ray is NaN is ignored: the answer in 3D is the 2D answer for the other two axes. -/
theorem C75_ray_nan_{c} (b : BoundingBox3 S) (r : Ray3 S) (h : {ax(c)}) :
    SameHit (Api.intersect b r : Option (Range S)) (Api.intersect
      (⟨⟨b.min.{d}, b.min.{e}⟩, ⟨b.max.{d}, b.max.{e}⟩⟩ : BoundingBox2 S)
      (⟨⟨r.origin.{d}, r.origin.{e}⟩, ⟨r.direction.{d}, r.direction.{e}⟩⟩ : Ray2 S) : Option (Range S)) := by
  have k := near_far_nan h
  apply sameHit_of32
  · unfold startVal3 startVal2; rw [k.1]; simp
  · unfold stopVal3 stopVal2; rw [k.2]; simp
''')
for (c,d) in (('x','y'),('y','x')):
    w(f'''/-- **C75**: in 2D an axis in which the ray is NaN is ignored: the answer is as if it were a copy of the other axis. -/
theorem C75_ray_nan2_{c} (b : BoundingBox2 S) (r : Ray2 S) (h : {ax(c)}) :
    SameHit (Api.intersect b r : Option (Range S)) (Api.intersect
      (⟨⟨b.min.{d}, b.min.{d}⟩, ⟨b.max.{d}, b.max.{d}⟩⟩ : BoundingBox2 S)
      (⟨⟨r.origin.{d}, r.origin.{d}⟩, ⟨r.direction.{d}, r.direction.{d}⟩⟩ : Ray2 S) : Option (Range S)) := by
  have k := near_far_nan h
  apply sameHit_of2
  · unfold startVal2; rw [k.1]; simp
  · unfold stopVal2; rw [k.2]; simp
''')
i=[i for i,s in enumerate(out) if 'theorem C75_ray_nan_x' in s][0]
out.insert(i,'''theorem sameHit_of32 {b : BoundingBox3 S} {b' : BoundingBox2 S} {r : Ray3 S} {r' : Ray2 S} (h1 : startVal3 b r = startVal2 b' r')
    (h2 : stopVal3 b r = stopVal2 b' r') : SameHit (Api.intersect b r) (Api.intersect b' r') := by
  have p := hit_iff3 b r
  have q := hit_iff2 b' r'
  show SameHit (b.intersectRay r) (b'.intersectRay r')
  by_cases h : startVal3 b r ≤ stopVal3 b r
  · obtain ⟨i, e, a1, a2, a3, a4⟩ := p.1 h
    obtain ⟨j, e', b1, b2, b3, b4⟩ := q.1 (by rwa [← h1, ← h2])
    rw [e, e']
    exact ⟨beq_iff.2 ⟨a1, b1, by rw [a3, b3, h1]⟩, beq_iff.2 ⟨a2, b2, by rw [a4, b4, h2]⟩⟩
  · rw [p.2 h, q.2 (by rwa [← h1, ← h2])]; trivial
''')
w('end VecMath')
open('/verif/lean/Verif/Props/FloatNaN.lean','w').write('\n'.join(out)+'\n')
