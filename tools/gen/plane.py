spec='''import Verif.Model
import Verif.Spec.Float
import Verif.Spec.Tree
/-!
# Vocabulary for C110: culling boxes by planes

What a client writes with the library: a plane is a normal `n` and a point `o`; a point `p` is in front of it if
`n.dot(p - o) >= 0`. A box is behind the plane if its farthest corner in the direction of `n` is, which is the corner whose
index has bit `d` set iff component `d` of the normal is not negative.
-/

namespace VecMath
open Scalar IEEE
variable {S : Type} [Scalar S]

'''
D={2:('Vector2','Point2','BoundingBox2','Dimension2'),3:('Vector3','Point3','BoundingBox3','Dimension3')}
for n in (2,3):
    V,P,B,Dm=D[n]; c='xyz'[:n]
    idx=' ||| '.join(f'(if Scalar.zero ≤? n.{k} then {2**i} else 0)' for i,k in enumerate(c))
    prods=' ∧ '.join(f'(IsFinite (n.{k} * (b.min.{k} - o.{k})) ∧ IsFinite (n.{k} * (b.max.{k} - o.{k})))' for k in c)
    spec+=f'''/-- The index of the corner farthest in the direction of `n`. -/
def {V}.farIndex (n : {V} S) : UInt32 := {idx}
/-- The index `k` belongs to a corner farthest in the direction of `n`: bit `d` is set only if component `d` of `n` is not
negative, and clear only if it is not positive. -/
def {V}.Along (n : {V} S) (k : UInt32) : Prop :=
  ∀ d, if k.toNat.testBit ({Dm}.pos d) then (Scalar.zero ≤? n.index d) = true else (n.index d ≤? Scalar.zero) = true
/-- The client's test: the farthest corner is behind the plane. -/
def {B}.behind (build : Build) (n : {V} S) (o : {P} S) (b : {B} S) : Bool :=
  match b.corner build n.farIndex with
  | .ok c => (Api.dot n (c - o : {V} S) : S) <? Scalar.zero
  | .error _ => false
/-- Another common test: the center and half the extents along the normal. -/
def {B}.behindCenter (n : {V} S) (o : {P} S) (b : {B} S) : Bool :=
  (Api.dot n (b.center - o : {V} S) : S) + (Api.dot n.abs b.diagonal : S) * half <? Scalar.zero
/-- The client's frustum test: keep the box unless it is behind one of the planes. -/
def {B}.kept (build : Build) (planes : List ({V} S × {P} S)) (b : {B} S) : Bool := planes.all fun q => !b.behind build q.1 q.2
/-- A point in front of all the planes. -/
def {P}.Visible (planes : List ({V} S × {P} S)) (p : {P} S) : Prop := ∀ q ∈ planes, (Scalar.zero ≤? (Api.dot q.1 (p - q.2 : {V} S) : S)) = true
/-- No product of a component of the normal and a difference of coordinates overflows. -/
def {B}.Clear [IEEE S] (n : {V} S) (o : {P} S) (b : {B} S) : Prop :=
  {prods}

'''
spec+='end VecMath\n'
open('/verif/lean/Verif/Spec/Plane.lean','w').write(spec)

out='''import Verif.Spec.Plane
import Verif.Lemmas.Mono
import Verif.Lemmas.Symm
import Verif.Props.FloatBoxMeasure
import Verif.Props.FloatCull
import Verif.Props.FloatSide
import Verif.Props.FloatRayMono
/-!
# Culling boxes by planes in floating point (layer F): C110

(Generated by tools/gen.)
-/

open Classical

namespace VecMath
open Scalar IEEE

section
variable {S : Type} [Scalar S] [IEEE S] {a b c d n : S}

theorem val_mul_nonneg (ha : 0 ≤ val a) (hb : 0 ≤ val b) (hn : ¬ IsNaN (a * b)) : 0 ≤ val (a * b) := by
  obtain ⟨na, nb⟩ := nan_of_mul hn
  unfold IsNaN val at *
  rw [den_mul] at *
  exact (mul_nonneg_val _ na nb ha hb).2 hn
theorem val_mul_right_mono (h0 : 0 ≤ val n) (h : val a ≤ val b) (ha : ¬ IsNaN (n * a)) (hb : ¬ IsNaN (n * b)) : val (n * a) ≤ val (n * b) := by
  have e : ∀ x : S, val (n * -x) = -val (n * x) := fun x => by rw [(same_mul_neg n x).val, val_neg]
  have en : ∀ x : S, ¬ IsNaN (n * x) → ¬ IsNaN (n * -x) := fun x hx => by rw [(same_mul_neg n x).isNaN, isNaN_neg]; exact hx
  rcases le_total 0 (val a) with h1 | h1
  · exact val_mul_mono h0 h1 le_rfl h ha hb
  rcases le_total 0 (val b) with h2 | h2
  · have : 0 ≤ val (n * -a) := val_mul_nonneg h0 (by rw [val_neg]; exact EReal.neg_nonneg.2 h1) (en a ha)
    rw [e] at this
    exact (EReal.neg_nonneg.1 this).trans (val_mul_nonneg h0 h2 hb)
  · have := val_mul_mono (a := n) (a' := n) (b := -b) (b' := -a) h0 (by rw [val_neg]; exact EReal.neg_nonneg.2 h2) le_rfl (val_neg_le h) (en b hb) (en a ha)
    rw [e, e] at this
    exact EReal.neg_le_neg_iff.1 this
theorem val_mul_right_anti (h0 : val n ≤ 0) (h : val a ≤ val b) (ha : ¬ IsNaN (n * a)) (hb : ¬ IsNaN (n * b)) : val (n * b) ≤ val (n * a) := by
  have e : ∀ x : S, val (-n * x) = -val (n * x) := fun x => by rw [(same_neg_mul n x).val, val_neg]
  have en : ∀ x : S, ¬ IsNaN (n * x) → ¬ IsNaN (-n * x) := fun x hx => by rw [(same_neg_mul n x).isNaN, isNaN_neg]; exact hx
  have := val_mul_right_mono (n := -n) (by rw [val_neg]; exact EReal.neg_nonneg.2 h0) h (en a ha) (en b hb)
  rw [e, e] at this
  exact EReal.neg_le_neg_iff.1 this
/-- One dimension: the product at the far end of the interval is the largest. -/
theorem far_term {lo hi o p : S} {bit : Bool} (hl : (lo ≤? p) = true) (hh : (p ≤? hi) = true)
    (hb : if bit then (zero ≤? n) = true else (n ≤? zero) = true)
    (h1 : ¬ IsNaN (n * (p - o))) (h2 : ¬ IsNaN (n * ((if bit then hi else lo) - o))) :
    val (n * (p - o)) ≤ val (n * ((if bit then hi else lo) - o)) := by
  have n1 := (nan_of_mul h1).2
  have n2 := (nan_of_mul h2).2
  cases bit
  · simp only [Bool.false_eq_true, if_false] at *
    have h0 : val n ≤ 0 := by have := (le_iff.1 hb).2.2; rwa [val_zero] at this
    exact val_mul_right_anti h0 (val_sub_mono (le_iff.1 hl).2.2 le_rfl n2 n1) h2 h1
  · simp only [if_true] at *
    have h0 : 0 ≤ val n := by have := (le_iff.1 hb).2.2; rwa [val_zero] at this
    exact val_mul_right_mono h0 (val_sub_mono (le_iff.1 hh).2.2 le_rfl n1 n2) h1 h2
theorem same_finite {x y : S} (h : Same x y) (hy : IsFinite y) : IsFinite x := by
  unfold IsFinite at *; rw [show den x = den y from h]; exact hy
theorem term_same {x y o : S} (h : Same x y) (hy : IsFinite (n * (y - o))) : IsFinite (n * (x - o)) :=
  same_finite ((Same.refl n).mul (h.sub (Same.refl o))) hy
theorem term_min {x y o : S} (hx : IsFinite (n * (x - o))) (hy : IsFinite (n * (y - o))) : IsFinite (n * (fmin x y - o)) := by
  rcases min_same (a := x) (b := y) with h | h
  · exact term_same h hx
  · exact term_same h hy
theorem term_max {x y o : S} (hx : IsFinite (n * (x - o))) (hy : IsFinite (n * (y - o))) : IsFinite (n * (fmax x y - o)) := by
  rcases max_same (a := x) (b := y) with h | h
  · exact term_same h hx
  · exact term_same h hy
theorem far_finite {lo hi o p : S} (hl : (lo ≤? p) = true) (hh : (p ≤? hi) = true)
    (f1 : IsFinite (n * (lo - o))) (f2 : IsFinite (n * (hi - o))) : IsFinite (n * (p - o)) := by
  obtain ⟨fn, g1⟩ := finite_of_mul f1
  obtain ⟨-, g2⟩ := finite_of_mul f2
  have k1 := finite_of_sub g1
  have k2 := finite_of_sub g2
  have np : ¬ IsNaN p := (le_iff.1 hl).2.1
  have fp : IsFinite p := by
    unfold IsFinite
    refine Val.fin_of_between np (fun h => ?_) (fun h => ?_)
    · have := (le_iff.1 hl).2.2
      unfold val at this; rw [h, le_bot_iff] at this
      exact absurd this (Val.isFin_iff.1 k1.1).2.2
    · have := (le_iff.1 hh).2.2
      unfold val at this; rw [h, top_le_iff] at this
      exact absurd this (Val.isFin_iff.1 k2.1).2.1
  have nd := not_nan_sub_fin k1.2 fp.not_nan
  have a1 := val_sub_mono (le_iff.1 hl).2.2 (le_refl (val o)) g1.not_nan nd
  have a2 := val_sub_mono (le_iff.1 hh).2.2 (le_refl (val o)) nd g2.not_nan
  have fd : IsFinite (p - o) := by
    unfold IsFinite
    refine Val.fin_of_between nd (fun h => ?_) (fun h => ?_)
    · unfold val at a1; rw [h, le_bot_iff] at a1
      exact absurd a1 (Val.isFin_iff.1 g1).2.2
    · unfold val at a2; rw [h, top_le_iff] at a2
      exact absurd a2 (Val.isFin_iff.1 g2).2.1
  have nm : ¬ IsNaN (n * (p - o)) := isNaN_mul_finite fn fd
  have up : val (n * (p - o)) ≠ ⊤ ∧ val (n * (p - o)) ≠ ⊥ := by
    rcases le_total 0 (val n) with h0 | h0
    · have b1 := val_mul_right_mono h0 a1 f1.not_nan nm
      have b2 := val_mul_right_mono h0 a2 nm f2.not_nan
      exact ⟨fun h => by rw [h, top_le_iff] at b2; exact (Val.isFin_iff.1 f2).2.1 b2, fun h => by rw [h, le_bot_iff] at b1; exact (Val.isFin_iff.1 f1).2.2 b1⟩
    · have b1 := val_mul_right_anti h0 a1 f1.not_nan nm
      have b2 := val_mul_right_anti h0 a2 nm f2.not_nan
      exact ⟨fun h => by rw [h, top_le_iff] at b1; exact (Val.isFin_iff.1 f1).2.1 b1, fun h => by rw [h, le_bot_iff] at b2; exact (Val.isFin_iff.1 f2).2.2 b2⟩
  exact Val.fin_of_between nm up.2 up.1
end

'''
for n in (2,3):
    V,P,B,Dm=D[n]; c='xyz'[:n]; K=2**n
    w='2D' if n==2 else '3D'
    C=[k.upper() for k in c]
    clp='⟨'+', '.join(f'⟨a{k}, A{k}⟩' for k in c)+'⟩'; clq='⟨'+', '.join(f'⟨b_{k}, B_{k}⟩' for k in c)+'⟩'
    clr='⟨'+', '.join(f'⟨term_min (term_min a{k} b_{k}) (term_max A{k} B_{k}), term_max (term_min a{k} b_{k}) (term_max A{k} B_{k})⟩' for k in c)+'⟩'
    bits=', '.join(f'h1 .{k}' for k in C)
    if n==2:
        split='''  obtain ⟨p0, p1⟩ := hin.1
  obtain ⟨q0, q1⟩ := hin.2
  obtain ⟨x0, x1⟩ := nan_of_add hp
  obtain ⟨y0, y1⟩ := nan_of_add hq'''
        fin='val_add_mono (far_term p0 q0 (hk .X) x0 y0) (far_term p1 q1 (hk .Y) x1 y1) hp hq'
        sf='  exact isNaN_add_finite h.1 h.2.not_nan'
    else:
        split='''  obtain ⟨p0, p1, p2⟩ := hin.1
  obtain ⟨q0, q1, q2⟩ := hin.2
  obtain ⟨x01, x2⟩ := nan_of_add hp
  obtain ⟨y01, y2⟩ := nan_of_add hq
  obtain ⟨x0, x1⟩ := nan_of_add x01
  obtain ⟨y0, y1⟩ := nan_of_add y01'''
        fin='val_add_mono (val_add_mono (far_term p0 q0 (hk .X) x0 y0) (far_term p1 q1 (hk .Y) x1 y1) x01 y01) (far_term p2 q2 (hk .Z) x2 y2) hp hq'
        sf='''  have n1 : ¬ IsNaN (n.x * (p - o : Vector3 S).x + n.y * (p - o : Vector3 S).y) := isNaN_add_finite h.1 h.2.1.not_nan
  have e := (same_add_comm (n.x * (p - o : Vector3 S).x + n.y * (p - o : Vector3 S).y) (n.z * (p - o : Vector3 S).z)).isNaN
  intro hc
  exact isNaN_add_finite h.2.2 n1 (e.1 hc)'''
    cases='; '.join('')
    cornercomps=', '.join(f'if k.toNat.testBit ({Dm}.pos .{u}) then b.max.{l} else b.min.{l}' for u,l in zip(C,c))
    out+=f'''/-! ## Dimension {n} -/
section
variable {{S : Type}} [Scalar S] [IEEE S]
theorem {B}.corner_ok {{b : {B} S}} {{build : Build}} {{k : UInt32}} {{c : {P} S}} (h : b.corner build k = .ok c) : c = ⟨{cornercomps}⟩ := by
  obtain ⟨h1, h2, h3⟩ := C33_corner{n} b k
  cases build
  · by_cases hk : k < {K}
    · rw [h2 hk, h1] at h; exact (Except.ok.inj h).symm
    · rw [h3 hk] at h; cases h
  · rw [h1] at h; exact (Except.ok.inj h).symm
theorem {B}.corner_small (b : {B} S) (build : Build) {{k : UInt32}} (hk : k < {K}) : b.corner build k = .ok ⟨{cornercomps}⟩ := by
  obtain ⟨h1, h2, h3⟩ := C33_corner{n} b k
  cases build
  · rw [h2 hk, h1]
  · exact h1
/-- **C110** ({w}): for a normal without NaN the client's index is that of a farthest corner. -/
theorem C110_index{n} (n : {V} S) (hn : NoNaN n) : n.farIndex < {K} ∧ n.Along n.farIndex := by
  rw [{V}.noNaN] at hn
  have neg : ∀ a : S, ¬ IsNaN a → (zero ≤? a) = false → (a ≤? zero) = true := fun a ha h => by
    rw [le_iff]
    refine ⟨ha, finite_zero.not_nan, ?_⟩
    by_contra hc
    rw [Bool.eq_false_iff, Ne, le_iff] at h
    exact h ⟨finite_zero.not_nan, ha, (not_le.1 hc).le⟩
  unfold {V}.farIndex
'''
    nm=['hn.1','hn.2'] if n==2 else ['hn.1','hn.2.1','hn.2.2']
    for k in c:
        out+=f'  rcases h{k} : (zero ≤? n.{k}) with _ | _\n' if False else ''
    rc=' <;> '.join(f'rcases h{k} : (zero ≤? n.{k}) with _ | _' for k in c)
    negs='\n'.join(f'  have g{k} := neg n.{k} {x}' for k,x in zip(c,nm))
    out+=negs+'\n'
    out+=f'''  revert {' '.join('g'+k for k in c)}
  {rc} <;> intro {' '.join('g'+k for k in c)} <;>
    refine ⟨by decide, fun d => ?_⟩ <;> cases d <;> simp (config := {{ decide := true }}) [{Dm}.pos, {V}.index, *]
/-- **C110** ({w}): of all points of a box, a farthest corner has the largest computed `n.dot(p - o)`, rounding included. -/
theorem C110_far{n} (b : {B} S) (n : {V} S) (o p c : {P} S) (build : Build) (k : UInt32) (hc : b.corner build k = .ok c) (hk : n.Along k)
    (hin : b.isInside p = true) (hp : ¬ IsNaN (Api.dot n (p - o : {V} S) : S)) (hq : ¬ IsNaN (Api.dot n (c - o : {V} S) : S)) :
    ((Api.dot n (p - o : {V} S) : S) ≤? Api.dot n (c - o : {V} S)) = true := by
  rw [(C25_inside{n} b p).1, {P}.leAll, {P}.leAll] at hin
  obtain rfl := {B}.corner_ok hc
  rw [le_iff]
  refine ⟨hp, hq, ?_⟩
{split}
  exact {fin}
/-- **C110** ({w}): and a corner farthest against the normal the smallest. -/
theorem C110_near{n} (b : {B} S) (n : {V} S) (o p c : {P} S) (build : Build) (k : UInt32) (hc : b.corner build k = .ok c) (hk : (-n).Along k)
    (hin : b.isInside p = true) (hp : ¬ IsNaN (Api.dot n (p - o : {V} S) : S)) (hq : ¬ IsNaN (Api.dot n (c - o : {V} S) : S)) :
    ((Api.dot n (c - o : {V} S) : S) ≤? Api.dot n (p - o : {V} S)) = true := by
  have e : ∀ q : {P} S, ¬ IsNaN (Api.dot n (q - o : {V} S) : S) → num (Api.dot (-n) (q - o : {V} S) : S) = num (-(Api.dot n (q - o : {V} S) : S)) :=
    fun q h => num_of_beq (C107_flip{n} n o q h).1
  have n1 : ∀ q : {P} S, ¬ IsNaN (Api.dot n (q - o : {V} S) : S) → ¬ IsNaN (Api.dot (-n) (q - o : {V} S) : S) := fun q h => by
    rw [num_nan (e q h), isNaN_neg]; exact h
  have := (le_iff.1 (C110_far{n} b (-n) o p c build k hc hk hin (n1 p hp) (n1 c hq))).2.2
  rw [num_val (e p hp), num_val (e c hq), val_neg, val_neg, EReal.neg_le_neg_iff] at this
  exact le_iff.2 ⟨hq, hp, this⟩
/-- **C110** ({w}): if no product overflows, the computed number is not NaN for any point of the box. -/
theorem C110_clear{n} (b : {B} S) (n : {V} S) (o p : {P} S) (h : b.Clear n o) (hin : b.isInside p = true) :
    ¬ IsNaN (Api.dot n (p - o : {V} S) : S) := by
  rw [(C25_inside{n} b p).1, {P}.leAll, {P}.leAll] at hin
  have h : {' ∧ '.join(f'IsFinite (n.{k} * (p - o : {V} S).{k})' for k in c)} :=
    ⟨{', '.join(f'far_finite {x} {y} {z}.1 {z}.2' for x,y,z in (zip(['hin.1.1','hin.1.2'],['hin.2.1','hin.2.2'],['h.1','h.2']) if n==2 else zip(['hin.1.1','hin.1.2.1','hin.1.2.2'],['hin.2.1','hin.2.2.1','hin.2.2.2'],['h.1','h.2.1','h.2.2'])))}⟩
{sf}
/-- **C110** ({w}): a box behind a plane contains no point in front of it. No condition on NaN, overflow or the shape of the box. -/
theorem C110_behind{n} (b : {B} S) (n : {V} S) (o p : {P} S) (build : Build) (h : b.behind build n o = true) (hin : b.isInside p = true) :
    (zero ≤? (Api.dot n (p - o : {V} S) : S)) = false := by
  rw [Bool.eq_false_iff]
  intro hp
  unfold {B}.behind at h
  split at h
  · rename_i c hc
    have hq := (lt_iff.1 h)
    have hp' := le_iff.1 hp
    have hn : NoNaN n := by
      rw [{V}.noNaN]
      have := hp'.2.1
      exact {'⟨(nan_of_mul (nan_of_add this).1).1, (nan_of_mul (nan_of_add this).2).1⟩' if n==2 else '⟨(nan_of_mul (nan_of_add (nan_of_add this).1).1).1, (nan_of_mul (nan_of_add (nan_of_add this).1).2).1, (nan_of_mul (nan_of_add this).2).1⟩'}
    have := C110_far{n} b n o p c build _ hc (C110_index{n} n hn).2 hin hp'.2.1 hq.1
    exact absurd ((hp'.2.2.trans (le_iff.1 this).2.2).trans_lt hq.2.2) (lt_irrefl _)
  · cases h
/-- **C110** ({w}): for a well-formed box the test is exact: the box is behind the plane iff no point of it is in front. -/
theorem C110_exact{n} (b : {B} S) (n : {V} S) (o : {P} S) (build : Build) (hb : LeAll b.min b.max) (h : b.Clear n o) :
    b.behind build n o = true ↔ ∀ p, b.isInside p = true → (zero ≤? (Api.dot n (p - o : {V} S) : S)) = false := by
  refine ⟨fun hbh p hin => C110_behind{n} b n o p build hbh hin, fun hall => ?_⟩
  have hn : NoNaN n := by
    rw [{V}.noNaN]
    exact {'⟨(finite_of_mul h.1.1).1.not_nan, (finite_of_mul h.2.1).1.not_nan⟩' if n==2 else '⟨(finite_of_mul h.1.1).1.not_nan, (finite_of_mul h.2.1.1).1.not_nan, (finite_of_mul h.2.2.1).1.not_nan⟩'}
  have hc := {B}.corner_small b build (C110_index{n} n hn).1
  have hin := C33_inside{n} b hb build _ _ hc
  have nn := C110_clear{n} b n o _ h hin
  have := hall _ hin
  unfold {B}.behind
  rw [hc]
  show (_ <? _) = true
  rw [lt_iff]
  refine ⟨nn, finite_zero.not_nan, ?_⟩
  by_contra hge
  rw [Bool.eq_false_iff, Ne, le_iff] at this
  exact this ⟨finite_zero.not_nan, nn, not_lt.1 hge⟩
/-- **C110** ({w}): a box that is not kept contains no visible point. -/
theorem C110_kept{n} (planes : List ({V} S × {P} S)) (b : {B} S) (p : {P} S) (build : Build) (hin : b.isInside p = true) (hv : p.Visible planes) :
    b.kept build planes = true := by
  unfold {B}.kept
  rw [List.all_eq_true]
  intro q hq
  rw [Bool.not_eq_true', Bool.eq_false_iff]
  intro h
  have := C110_behind{n} b q.1 q.2 p build h hin
  rw [hv q hq] at this
  cases this
theorem {B}.inside_bound (t : Tree ({B} S)) (ht : ∀ b ∈ t.leaves, LeAll b.min b.max) :
    LeAll (t.bound Api.union).min (t.bound Api.union).max ∧ ∀ b ∈ t.leaves, ∀ p, b.isInside p = true → (t.bound Api.union).isInside p = true := by
  induction t with
  | leaf b => exact ⟨ht b (by simp [Tree.leaves]), fun c hc p hp => by simp [Tree.leaves] at hc; subst hc; exact hp⟩
  | node l r hl hr =>
    have l' := hl fun b hb => ht b (by simp [Tree.leaves, hb])
    have r' := hr fun b hb => ht b (by simp [Tree.leaves, hb])
    obtain ⟨u1, u2, -⟩ := C26_union{n} (l.bound Api.union) (r.bound Api.union) l'.1 r'.1
    refine ⟨u1, fun b hb p hp => u2 p ?_⟩
    rcases List.mem_append.1 hb with h | h
    · exact .inl (l'.2 b h p hp)
    · exact .inr (r'.2 b h p hp)
/-- **C110** ({w}): descending a hierarchy and skipping every subtree whose bounding box is not kept finds every leaf box
that contains a visible point. -/
theorem C110_tree_visible{n} (planes : List ({V} S × {P} S)) (build : Build) (t : Tree ({B} S)) (ht : ∀ b ∈ t.leaves, LeAll b.min b.max)
    (b : {B} S) (hb : b ∈ t.leaves) (p : {P} S) (hin : b.isInside p = true) (hv : p.Visible planes) :
    b ∈ t.search Api.union ({B}.kept build planes) := by
  induction t with
  | leaf a =>
    simp [Tree.leaves] at hb; subst hb
    simp [Tree.search, C110_kept{n} planes b p build hin hv]
  | node l r hl hr =>
    have k := C110_kept{n} planes _ p build (({B}.inside_bound (.node l r) ht).2 b hb p hin) hv
    unfold Tree.search
    rw [if_pos k]
    refine List.mem_append.2 ?_
    rcases List.mem_append.1 hb with h | h
    · exact .inl (hl (fun b hb => ht b (by simp [Tree.leaves, hb])) h)
    · exact .inr (hr (fun b hb => ht b (by simp [Tree.leaves, hb])) h)
theorem {B}.clear_union {{n : {V} S}} {{o : {P} S}} {{a b : {B} S}} (ha : a.Clear n o) (hb : b.Clear n o) : (Api.union a b).Clear n o := by
  obtain {clp} := ha
  obtain {clq} := hb
  exact {clr}
/-- **C110** ({w}): if no product overflows, the descent returns exactly the leaf boxes that are kept. -/
theorem C110_tree{n} (planes : List ({V} S × {P} S)) (build : Build) (t : Tree ({B} S))
    (ht : ∀ b ∈ t.leaves, LeAll b.min b.max ∧ ∀ q ∈ planes, b.Clear q.1 q.2) :
    t.search Api.union ({B}.kept build planes) = t.leaves.filter ({B}.kept build planes) := by
  refine Tree.search_eq (P := fun b => LeAll b.min b.max ∧ ∀ q ∈ planes, b.Clear q.1 q.2) (fun {{a b}} ha hb => ⟨(C26_union{n} a b ha.1 hb.1).1, fun q hq => {B}.clear_union (ha.2 q hq) (hb.2 q hq)⟩)
    (fun {{a b}} ha hb h => ?_) t ht
  unfold {B}.kept at *
  simp only [List.all_eq_true] at h ⊢
  have in' := (C26_union{n} a b ha.1 hb.1).2.1
  intro q hq
  rw [Bool.not_eq_true', Bool.eq_false_iff]
  intro hbh
  have hno := fun p hp => C110_behind{n} (Api.union a b) q.1 q.2 p build hbh (in' p hp)
  rcases h with h | h
  · have := h q hq
    rw [(C110_exact{n} a q.1 q.2 build ha.1 (ha.2 q hq)).2 fun p hp => hno p (.inl hp)] at this
    cases this
  · have := h q hq
    rw [(C110_exact{n} b q.1 q.2 build hb.1 (hb.2 q hq)).2 fun p hp => hno p (.inr hp)] at this
    cases this
end

'''
out+='end VecMath\n'
open('/verif/lean/Verif/Props/FloatPlane.lean','w').write(out)
