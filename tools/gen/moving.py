HEAD='''import Verif.Spec.Moving
import Verif.Props.FloatRayMono
import Verif.Props.FloatCull
import Verif.Lemmas.Num
/-!
# Layer F: moving boxes (C105)

Generated by `tools/gen/moving.py`. Every point of a moving object goes along a ray, whose coordinates are monotone in time
after rounding (C88).
-/

open Classical

namespace VecMath
set_option linter.unusedSectionVars false
open Scalar IEEE

section
variable {S : Type} [Scalar S] [IEEE S] [Binary S] {x y d m : S}
/-- Rounded addition of the same number keeps the order. -/
theorem add_keeps_le (hx : IsFinite x) (hy : IsFinite y) (hd : ¬ IsNaN d) (h : (x ≤? y) = true) : (x + d ≤? y + d) = true := by
  have n : ∀ {z : S}, IsFinite z → ¬ IsNaN (z + d) := fun {z} hz => isNaN_add_finite hz (hd)
  exact le_iff.2 ⟨n hx, n hy, val_add_mono (le_iff.1 h).2.2 le_rfl (n hx) (n hy)⟩
/-- A displacement within the margin. -/
theorem margin_le (hx : IsFinite x) (hm : IsFinite m) (hd : IsFinite d) (h : (-m ≤? d) = true) : (x - m ≤? x + d) = true := by
  have n1 : ¬ IsNaN (x + d) := isNaN_add_finite hx (hd.not_nan)
  have n2 : ¬ IsNaN (x + -m) := isNaN_add_finite hx ((finite_neg.2 hm).not_nan)
  refine le_iff.2 ⟨fun hc => n2 ((same_sub x m).isNaN.1 hc), n1, ?_⟩
  rw [(same_sub x m).val]
  exact val_add_mono le_rfl (le_iff.1 h).2.2 n2 n1
theorem margin_ge (hx : IsFinite x) (hy : IsFinite y) (hm : IsFinite m) (hd : IsFinite d) (hxy : (x ≤? y) = true) (h : (d ≤? m) = true) :
    (x + d ≤? y + m) = true := by
  have n1 : ¬ IsNaN (x + d) := isNaN_add_finite hx (hd.not_nan)
  have n2 : ¬ IsNaN (y + m) := isNaN_add_finite hy (hm.not_nan)
  exact le_iff.2 ⟨n1, n2, val_add_mono (le_iff.1 hxy).2.2 (le_iff.1 h).2.2 n1 n2⟩
theorem margin_mid (hx : IsFinite x) (hy : IsFinite y) (hm : IsFinite m) (hd : IsFinite d) (hxy : (x ≤? y) = true) (h : (-m ≤? d) = true) :
    (x - m ≤? y + d) = true :=
  le_trans' (margin_le hx hm hd h) (margin_ge hx hy hd hd hxy (le_self hd.not_nan))
end

'''
def gen(n):
    ax="xyz"[:n]
    def sel(h,i):
        if n==2: return h+[".1",".2"][i]
        return h+[".1",".2.1",".2.2"][i]
    B=f"BoundingBox{n}";V=f"Vector{n}";P=f"Point{n}"
    ovm=lambda: None
    T=lambda f: "⟨"+", ".join(f(i) for i in range(n))+"⟩"
    add=T(lambda i: f"⟨le_trans' ({sel('hn.2.1',i)}.1) (add_keeps_le {sel('fb.1',i)} {sel('fp',i)} {sel('hv',i)} {sel('hi',i)}.1), le_trans' (add_keeps_le {sel('fp',i)} {sel('fb.2',i)} {sel('hv',i)} {sel('hi',i)}.2) ({sel('hn.2.2.1',i)}.2)⟩")
    fatlo=T(lambda i: f"⟨le_trans' {sel('hn.2.1',i)}.1 (margin_le {sel('fb.1',i)} {sel('fm',i)} {sel('fv',i)} {sel('h1',i)}), le_trans' (margin_ge {sel('fb.1',i)} {sel('fb.2',i)} {sel('fm',i)} {sel('fv',i)} {sel('hb',i)} {sel('h2',i)}) {sel('hn.2.2.1',i)}.2⟩")
    fathi=T(lambda i: f"⟨le_trans' {sel('hn.2.1',i)}.1 (margin_mid {sel('fb.1',i)} {sel('fb.2',i)} {sel('fm',i)} {sel('fv',i)} {sel('hb',i)} {sel('h1',i)}), le_trans' (margin_ge {sel('fb.2',i)} {sel('fb.2',i)} {sel('fm',i)} {sel('fv',i)} (le_self {sel('fb.2',i)}.not_nan) {sel('h2',i)}) {sel('hn.2.2.1',i)}.2⟩")
    nn=lambda f: T(f)
    return f'''/-! ## {n}D -/
section
variable {{S : Type}} [Scalar S] [IEEE S] [Binary S]
theorem noNaN_plus{n} (p : {P} S) (v : {V} S) (hp : AllFinite p) (hv : NoNaN v) : NoNaN (p + v) := by
  rw [{P}.allFinite] at hp
  rw [{V}.noNaN] at hv
  exact {P}.noNaN.2 {T(lambda i: f"isNaN_add_finite {sel('hp',i)} {sel('hv',i)}")}
theorem noNaN_times{n} (v : {V} S) (t : S) (hv : AllFinite v) (ht : IsFinite t) : NoNaN (v * t) := by
  rw [{V}.allFinite] at hv
  exact {V}.noNaN.2 {T(lambda i: f"isNaN_mul_finite {sel('hv',i)} ht")}
/-- Two points of a box that a third box contains: if corner and opposite corner are inside, all is. -/
theorem new_sub{n} (p q : {P} S) (hp : NoNaN p) (hq : NoNaN q) (c : {B} S) (h1 : c.isInside p = true) (h2 : c.isInside q = true) (x : {P} S)
    (hx : ({B}.new p q).isInside x = true) : c.isInside x = true := (C24_new{n} p q hp hq).2.2.2.1 c h1 h2 x hx
/-- **C105**, {n}D: a point of the object is in the moved box. -/
theorem C105_point{n} (b : {B} S) (v : {V} S) (p : {P} S) (hb : AllFinite b) (hp : AllFinite p) (hv : NoNaN v)
    (hi : b.isInside p = true) : (moved{n} b v).isInside (p + v) = true := by
  have hb' := hb
  rw [{B}.allFinite] at hb'
  have hn := C24_new{n} _ _ (noNaN_plus{n} _ v hb'.1 hv) (noNaN_plus{n} _ v hb'.2 hv)
  have fb := hb'
  have fp := hp
  rw [{P}.allFinite, {P}.allFinite] at fb
  rw [{P}.allFinite] at fp
  rw [{V}.noNaN] at hv
  rw [isInside{n}_iff] at hi
  rw [isInside{n}_iff, isInside{n}_iff] at hn
  exact isInside{n}_iff.2 {add}
/-- **C105**, {n}D: between two times the object is in the swept box. -/
theorem C105_swept{n} (b : {B} S) (v : {V} S) (hb : AllFinite b) (hv : AllFinite v) (s u t : S) (hs : IsFinite s) (hu : IsFinite u)
    (ht : IsFinite t) (h1 : (s ≤? u) = true) (h2 : (u ≤? t) = true) :
    (∀ p, (boxAt{n} b v u).isInside p = true → (swept{n} b v s t).isInside p = true) ∧
    ∀ p, AllFinite p → b.isInside p = true → (swept{n} b v s t).isInside (p + v * u) = true := by
  have hb' := hb
  rw [{B}.allFinite] at hb'
  have nn : ∀ (p : {P} S) x, AllFinite p → IsFinite x → NoNaN (p + v * x) := fun p x hp hx => noNaN_plus{n} _ _ hp (noNaN_times{n} v x hv hx)
  have ns := C24_new{n} _ _ (nn b.min s hb'.1 hs) (nn b.max s hb'.2 hs)
  have nt := C24_new{n} _ _ (nn b.min t hb'.1 ht) (nn b.max t hb'.2 ht)
  have un := (C26_union{n} (boxAt{n} b v s) (boxAt{n} b v t) ns.1 nt.1).2.1
  have c1 := C88_convex{n} ⟨b.min, v⟩ (Ray{n}.allFinite.2 ⟨hb'.1, hv⟩) (swept{n} b v s t) s u t hs hu ht h1 h2 (un _ (.inl ns.2.1)) (un _ (.inr nt.2.1))
  have c2 := C88_convex{n} ⟨b.max, v⟩ (Ray{n}.allFinite.2 ⟨hb'.2, hv⟩) (swept{n} b v s t) s u t hs hu ht h1 h2 (un _ (.inl ns.2.2.1)) (un _ (.inr nt.2.2.1))
  have key : ∀ p, (boxAt{n} b v u).isInside p = true → (swept{n} b v s t).isInside p = true :=
    fun p hp => new_sub{n} _ _ (nn b.min u hb'.1 hu) (nn b.max u hb'.2 hu) _ c1 c2 p hp
  exact ⟨key, fun p hp hi => key _ (C105_point{n} b (v * u) p hb hp (noNaN_times{n} v u hv hu) hi)⟩
/-- **C105**, {n}D: if the boxes of two moving objects overlap at any time in between, the swept boxes overlap. -/
theorem C105_contact{n} (a b : {B} S) (v w : {V} S) (ha : AllFinite a) (hb : AllFinite b) (hv : AllFinite v) (hw : AllFinite w) (s u t : S)
    (hs : IsFinite s) (hu : IsFinite u) (ht : IsFinite t) (h1 : (s ≤? u) = true) (h2 : (u ≤? t) = true)
    (h : (boxAt{n} a v u).overlaps (boxAt{n} b w u) = true) : (swept{n} a v s t).overlaps (swept{n} b w s t) = true := by
  have wf : ∀ (b : {B} S) (v : {V} S), AllFinite b → AllFinite v → ∀ x, IsFinite x → LeAll (boxAt{n} b v x).min (boxAt{n} b v x).max := by
    intro b v hb hv x hx
    rw [{B}.allFinite] at hb
    exact (C24_new{n} _ _ (noNaN_plus{n} _ _ hb.1 (noNaN_times{n} v x hv hx)) (noNaN_plus{n} _ _ hb.2 (noNaN_times{n} v x hv hx))).1
  have ws : ∀ (b : {B} S) (v : {V} S), AllFinite b → AllFinite v → LeAll (swept{n} b v s t).min (swept{n} b v s t).max :=
    fun b v hb hv => (C26_union{n} _ _ (wf b v hb hv s hs) (wf b v hb hv t ht)).1
  obtain ⟨p, p1, p2⟩ := (C29_common_point{n} _ _ (wf a v ha hv u hu) (wf b w hb hw u hu)).1 h
  exact (C29_common_point{n} _ _ (ws a v ha hv) (ws b w hb hw)).2 ⟨p, (C105_swept{n} a v ha hv s u t hs hu ht h1 h2).1 p p1,
    (C105_swept{n} b w hb hw s u t hs hu ht h1 h2).1 p p2⟩
/-- **C105**, {n}D: an object displaced by at most the margin along every axis stays in its fat box. -/
theorem C105_fat{n} (b : {B} S) (m v : {V} S) (hb : LeAll b.min b.max) (fb : AllFinite b) (fm : AllFinite m) (fv : AllFinite v)
    (h1 : LeAll (-m) v) (h2 : LeAll v m) : ∀ p, (moved{n} b v).isInside p = true → (fat{n} b m).isInside p = true := by
  have fb' := fb
  rw [{B}.allFinite] at fb'
  have nm : NoNaN (b.min - m) ∧ NoNaN (b.max + m) := by
    refine ⟨?_, noNaN_plus{n} _ _ fb'.2 fm.noNaN⟩
    have fb := fb'
    rw [{P}.allFinite, {P}.allFinite] at fb
    rw [{V}.allFinite] at fm
    exact {P}.noNaN.2 {T(lambda i: f"not_nan_sub_fin {sel('fm',i)} {sel('fb.1',i)}.not_nan")}
  have hn := C24_new{n} _ _ nm.1 nm.2
  have nv : NoNaN v := fv.noNaN
  refine new_sub{n} _ _ (noNaN_plus{n} _ v fb'.1 nv) (noNaN_plus{n} _ v fb'.2 nv) _ ?_ ?_
  all_goals
    rw [{P}.allFinite, {P}.allFinite] at fb'
    replace fb := fb'
    rw [{V}.allFinite] at fm fv
    rw [{V}.leAll] at h1 h2
    rw [{P}.leAll] at hb
    rw [isInside{n}_iff, isInside{n}_iff] at hn
  · exact isInside{n}_iff.2 {fatlo}
  · exact isInside{n}_iff.2 {fathi}
/-- **C105**, {n}D: objects whose fat boxes do not overlap cannot touch before one of them has moved by more than its margin. -/
theorem C105_fat_apart{n} (a b : {B} S) (m k v w : {V} S) (ha : LeAll a.min a.max) (hb : LeAll b.min b.max) (fa : AllFinite a) (fb : AllFinite b)
    (fm : AllFinite m) (fk : AllFinite k) (fv : AllFinite v) (fw : AllFinite w) (h1 : LeAll (-m) v) (h2 : LeAll v m) (h3 : LeAll (-k) w)
    (h4 : LeAll w k) (h : (fat{n} a m).overlaps (fat{n} b k) = false) : (moved{n} a v).overlaps (moved{n} b w) = false := by
  have wf : ∀ (b : {B} S) (v : {V} S), AllFinite b → NoNaN v → LeAll (moved{n} b v).min (moved{n} b v).max := by
    intro b v hb hv
    rw [{B}.allFinite] at hb
    exact (C24_new{n} _ _ (noNaN_plus{n} _ _ hb.1 hv) (noNaN_plus{n} _ _ hb.2 hv)).1
  have wf' : ∀ (b : {B} S) (m : {V} S), AllFinite b → AllFinite m → LeAll (fat{n} b m).min (fat{n} b m).max := by
    intro b m hb hm
    rw [{B}.allFinite] at hb
    refine (C24_new{n} _ _ ?_ (noNaN_plus{n} _ _ hb.2 hm.noNaN)).1
    rw [{P}.allFinite, {P}.allFinite] at hb
    rw [{V}.allFinite] at hm
    exact {P}.noNaN.2 {T(lambda i: f"not_nan_sub_fin {sel('hm',i)} {sel('hb.1',i)}.not_nan")}
  rw [Bool.eq_false_iff] at h ⊢
  intro hc
  obtain ⟨p, p1, p2⟩ := (C29_common_point{n} _ _ (wf a v fa fv.noNaN) (wf b w fb fw.noNaN)).1 hc
  exact h ((C29_common_point{n} _ _ (wf' a m fa fm) (wf' b k fb fk)).2 ⟨p, C105_fat{n} a m v ha fa fm fv h1 h2 p p1, C105_fat{n} b k w hb fb fk fw h3 h4 p p2⟩)
end

'''
open('/verif/lean/Verif/Props/FloatMoving.lean','w').write(HEAD+gen(2)+gen(3)+"end VecMath\n")
