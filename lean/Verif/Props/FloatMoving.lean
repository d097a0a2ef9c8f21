import Verif.Spec.Moving
import Verif.Props.FloatRayMono
import Verif.Props.FloatCull
import Verif.Lemmas.Num
/-!
# Layer F: moving boxes (C105)

Generated by `tools/gen/moving.py`. Every point of a moving object goes along a ray, whose coordinates are monotone in time
after rounding (C88).
-/

open Classical

namespace VecMath
set_option linter.unusedSectionVars false
open Scalar IEEE

section
variable {S : Type} [Scalar S] [IEEE S] [Binary S] {x y d m : S}
/-- Rounded addition of the same number keeps the order. -/
theorem add_keeps_le (hx : IsFinite x) (hy : IsFinite y) (hd : ¬ IsNaN d) (h : (x ≤? y) = true) : (x + d ≤? y + d) = true := by
  have n : ∀ {z : S}, IsFinite z → ¬ IsNaN (z + d) := fun {z} hz => isNaN_add_finite hz (hd)
  exact le_iff.2 ⟨n hx, n hy, val_add_mono (le_iff.1 h).2.2 le_rfl (n hx) (n hy)⟩
/-- A displacement within the margin. -/
theorem margin_le (hx : IsFinite x) (hm : IsFinite m) (hd : IsFinite d) (h : (-m ≤? d) = true) : (x - m ≤? x + d) = true := by
  have n1 : ¬ IsNaN (x + d) := isNaN_add_finite hx (hd.not_nan)
  have n2 : ¬ IsNaN (x + -m) := isNaN_add_finite hx ((finite_neg.2 hm).not_nan)
  refine le_iff.2 ⟨fun hc => n2 ((same_sub x m).isNaN.1 hc), n1, ?_⟩
  rw [(same_sub x m).val]
  exact val_add_mono le_rfl (le_iff.1 h).2.2 n2 n1
theorem margin_ge (hx : IsFinite x) (hy : IsFinite y) (hm : IsFinite m) (hd : IsFinite d) (hxy : (x ≤? y) = true) (h : (d ≤? m) = true) :
    (x + d ≤? y + m) = true := by
  have n1 : ¬ IsNaN (x + d) := isNaN_add_finite hx (hd.not_nan)
  have n2 : ¬ IsNaN (y + m) := isNaN_add_finite hy (hm.not_nan)
  exact le_iff.2 ⟨n1, n2, val_add_mono (le_iff.1 hxy).2.2 (le_iff.1 h).2.2 n1 n2⟩
theorem margin_mid (hx : IsFinite x) (hy : IsFinite y) (hm : IsFinite m) (hd : IsFinite d) (hxy : (x ≤? y) = true) (h : (-m ≤? d) = true) :
    (x - m ≤? y + d) = true :=
  le_trans' (margin_le hx hm hd h) (margin_ge hx hy hd hd hxy (le_self hd.not_nan))
end

/-! ## 2D -/
section
variable {S : Type} [Scalar S] [IEEE S] [Binary S]
theorem noNaN_plus2 (p : Point2 S) (v : Vector2 S) (hp : AllFinite p) (hv : NoNaN v) : NoNaN (p + v) := by
  rw [Point2.allFinite] at hp
  rw [Vector2.noNaN] at hv
  exact Point2.noNaN.2 ⟨isNaN_add_finite hp.1 hv.1, isNaN_add_finite hp.2 hv.2⟩
theorem noNaN_times2 (v : Vector2 S) (t : S) (hv : AllFinite v) (ht : IsFinite t) : NoNaN (v * t) := by
  rw [Vector2.allFinite] at hv
  exact Vector2.noNaN.2 ⟨isNaN_mul_finite hv.1 ht, isNaN_mul_finite hv.2 ht⟩
/-- Two points of a box that a third box contains: if corner and opposite corner are inside, all is. -/
theorem new_sub2 (p q : Point2 S) (hp : NoNaN p) (hq : NoNaN q) (c : BoundingBox2 S) (h1 : c.isInside p = true) (h2 : c.isInside q = true) (x : Point2 S)
    (hx : (BoundingBox2.new p q).isInside x = true) : c.isInside x = true := (C24_new2 p q hp hq).2.2.2.1 c h1 h2 x hx
/-- **C105**, 2D: a point of the object is in the moved box. -/
theorem C105_point2 (b : BoundingBox2 S) (v : Vector2 S) (p : Point2 S) (hb : AllFinite b) (hp : AllFinite p) (hv : NoNaN v)
    (hi : b.isInside p = true) : (moved2 b v).isInside (p + v) = true := by
  have hb' := hb
  rw [BoundingBox2.allFinite] at hb'
  have hn := C24_new2 _ _ (noNaN_plus2 _ v hb'.1 hv) (noNaN_plus2 _ v hb'.2 hv)
  have fb := hb'
  have fp := hp
  rw [Point2.allFinite, Point2.allFinite] at fb
  rw [Point2.allFinite] at fp
  rw [Vector2.noNaN] at hv
  rw [isInside2_iff] at hi
  rw [isInside2_iff, isInside2_iff] at hn
  exact isInside2_iff.2 ⟨⟨le_trans' (hn.2.1.1.1) (add_keeps_le fb.1.1 fp.1 hv.1 hi.1.1), le_trans' (add_keeps_le fp.1 fb.2.1 hv.1 hi.1.2) (hn.2.2.1.1.2)⟩, ⟨le_trans' (hn.2.1.2.1) (add_keeps_le fb.1.2 fp.2 hv.2 hi.2.1), le_trans' (add_keeps_le fp.2 fb.2.2 hv.2 hi.2.2) (hn.2.2.1.2.2)⟩⟩
/-- **C105**, 2D: between two times the object is in the swept box. -/
theorem C105_swept2 (b : BoundingBox2 S) (v : Vector2 S) (hb : AllFinite b) (hv : AllFinite v) (s u t : S) (hs : IsFinite s) (hu : IsFinite u)
    (ht : IsFinite t) (h1 : (s ≤? u) = true) (h2 : (u ≤? t) = true) :
    (∀ p, (boxAt2 b v u).isInside p = true → (swept2 b v s t).isInside p = true) ∧
    ∀ p, AllFinite p → b.isInside p = true → (swept2 b v s t).isInside (p + v * u) = true := by
  have hb' := hb
  rw [BoundingBox2.allFinite] at hb'
  have nn : ∀ (p : Point2 S) x, AllFinite p → IsFinite x → NoNaN (p + v * x) := fun p x hp hx => noNaN_plus2 _ _ hp (noNaN_times2 v x hv hx)
  have ns := C24_new2 _ _ (nn b.min s hb'.1 hs) (nn b.max s hb'.2 hs)
  have nt := C24_new2 _ _ (nn b.min t hb'.1 ht) (nn b.max t hb'.2 ht)
  have un := (C26_union2 (boxAt2 b v s) (boxAt2 b v t) ns.1 nt.1).2.1
  have c1 := C88_convex2 ⟨b.min, v⟩ (Ray2.allFinite.2 ⟨hb'.1, hv⟩) (swept2 b v s t) s u t hs hu ht h1 h2 (un _ (.inl ns.2.1)) (un _ (.inr nt.2.1))
  have c2 := C88_convex2 ⟨b.max, v⟩ (Ray2.allFinite.2 ⟨hb'.2, hv⟩) (swept2 b v s t) s u t hs hu ht h1 h2 (un _ (.inl ns.2.2.1)) (un _ (.inr nt.2.2.1))
  have key : ∀ p, (boxAt2 b v u).isInside p = true → (swept2 b v s t).isInside p = true :=
    fun p hp => new_sub2 _ _ (nn b.min u hb'.1 hu) (nn b.max u hb'.2 hu) _ c1 c2 p hp
  exact ⟨key, fun p hp hi => key _ (C105_point2 b (v * u) p hb hp (noNaN_times2 v u hv hu) hi)⟩
/-- **C105**, 2D: if the boxes of two moving objects overlap at any time in between, the swept boxes overlap. -/
theorem C105_contact2 (a b : BoundingBox2 S) (v w : Vector2 S) (ha : AllFinite a) (hb : AllFinite b) (hv : AllFinite v) (hw : AllFinite w) (s u t : S)
    (hs : IsFinite s) (hu : IsFinite u) (ht : IsFinite t) (h1 : (s ≤? u) = true) (h2 : (u ≤? t) = true)
    (h : (boxAt2 a v u).overlaps (boxAt2 b w u) = true) : (swept2 a v s t).overlaps (swept2 b w s t) = true := by
  have wf : ∀ (b : BoundingBox2 S) (v : Vector2 S), AllFinite b → AllFinite v → ∀ x, IsFinite x → LeAll (boxAt2 b v x).min (boxAt2 b v x).max := by
    intro b v hb hv x hx
    rw [BoundingBox2.allFinite] at hb
    exact (C24_new2 _ _ (noNaN_plus2 _ _ hb.1 (noNaN_times2 v x hv hx)) (noNaN_plus2 _ _ hb.2 (noNaN_times2 v x hv hx))).1
  have ws : ∀ (b : BoundingBox2 S) (v : Vector2 S), AllFinite b → AllFinite v → LeAll (swept2 b v s t).min (swept2 b v s t).max :=
    fun b v hb hv => (C26_union2 _ _ (wf b v hb hv s hs) (wf b v hb hv t ht)).1
  obtain ⟨p, p1, p2⟩ := (C29_common_point2 _ _ (wf a v ha hv u hu) (wf b w hb hw u hu)).1 h
  exact (C29_common_point2 _ _ (ws a v ha hv) (ws b w hb hw)).2 ⟨p, (C105_swept2 a v ha hv s u t hs hu ht h1 h2).1 p p1,
    (C105_swept2 b w hb hw s u t hs hu ht h1 h2).1 p p2⟩
/-- **C105**, 2D: an object displaced by at most the margin along every axis stays in its fat box. -/
theorem C105_fat2 (b : BoundingBox2 S) (m v : Vector2 S) (hb : LeAll b.min b.max) (fb : AllFinite b) (fm : AllFinite m) (fv : AllFinite v)
    (h1 : LeAll (-m) v) (h2 : LeAll v m) : ∀ p, (moved2 b v).isInside p = true → (fat2 b m).isInside p = true := by
  have fb' := fb
  rw [BoundingBox2.allFinite] at fb'
  have nm : NoNaN (b.min - m) ∧ NoNaN (b.max + m) := by
    refine ⟨?_, noNaN_plus2 _ _ fb'.2 fm.noNaN⟩
    have fb := fb'
    rw [Point2.allFinite, Point2.allFinite] at fb
    rw [Vector2.allFinite] at fm
    exact Point2.noNaN.2 ⟨not_nan_sub_fin fm.1 fb.1.1.not_nan, not_nan_sub_fin fm.2 fb.1.2.not_nan⟩
  have hn := C24_new2 _ _ nm.1 nm.2
  have nv : NoNaN v := fv.noNaN
  refine new_sub2 _ _ (noNaN_plus2 _ v fb'.1 nv) (noNaN_plus2 _ v fb'.2 nv) _ ?_ ?_
  all_goals
    rw [Point2.allFinite, Point2.allFinite] at fb'
    replace fb := fb'
    rw [Vector2.allFinite] at fm fv
    rw [Vector2.leAll] at h1 h2
    rw [Point2.leAll] at hb
    rw [isInside2_iff, isInside2_iff] at hn
  · exact isInside2_iff.2 ⟨⟨le_trans' hn.2.1.1.1 (margin_le fb.1.1 fm.1 fv.1 h1.1), le_trans' (margin_ge fb.1.1 fb.2.1 fm.1 fv.1 hb.1 h2.1) hn.2.2.1.1.2⟩, ⟨le_trans' hn.2.1.2.1 (margin_le fb.1.2 fm.2 fv.2 h1.2), le_trans' (margin_ge fb.1.2 fb.2.2 fm.2 fv.2 hb.2 h2.2) hn.2.2.1.2.2⟩⟩
  · exact isInside2_iff.2 ⟨⟨le_trans' hn.2.1.1.1 (margin_mid fb.1.1 fb.2.1 fm.1 fv.1 hb.1 h1.1), le_trans' (margin_ge fb.2.1 fb.2.1 fm.1 fv.1 (le_self fb.2.1.not_nan) h2.1) hn.2.2.1.1.2⟩, ⟨le_trans' hn.2.1.2.1 (margin_mid fb.1.2 fb.2.2 fm.2 fv.2 hb.2 h1.2), le_trans' (margin_ge fb.2.2 fb.2.2 fm.2 fv.2 (le_self fb.2.2.not_nan) h2.2) hn.2.2.1.2.2⟩⟩
/-- **C105**, 2D: objects whose fat boxes do not overlap cannot touch before one of them has moved by more than its margin. -/
theorem C105_fat_apart2 (a b : BoundingBox2 S) (m k v w : Vector2 S) (ha : LeAll a.min a.max) (hb : LeAll b.min b.max) (fa : AllFinite a) (fb : AllFinite b)
    (fm : AllFinite m) (fk : AllFinite k) (fv : AllFinite v) (fw : AllFinite w) (h1 : LeAll (-m) v) (h2 : LeAll v m) (h3 : LeAll (-k) w)
    (h4 : LeAll w k) (h : (fat2 a m).overlaps (fat2 b k) = false) : (moved2 a v).overlaps (moved2 b w) = false := by
  have wf : ∀ (b : BoundingBox2 S) (v : Vector2 S), AllFinite b → NoNaN v → LeAll (moved2 b v).min (moved2 b v).max := by
    intro b v hb hv
    rw [BoundingBox2.allFinite] at hb
    exact (C24_new2 _ _ (noNaN_plus2 _ _ hb.1 hv) (noNaN_plus2 _ _ hb.2 hv)).1
  have wf' : ∀ (b : BoundingBox2 S) (m : Vector2 S), AllFinite b → AllFinite m → LeAll (fat2 b m).min (fat2 b m).max := by
    intro b m hb hm
    rw [BoundingBox2.allFinite] at hb
    refine (C24_new2 _ _ ?_ (noNaN_plus2 _ _ hb.2 hm.noNaN)).1
    rw [Point2.allFinite, Point2.allFinite] at hb
    rw [Vector2.allFinite] at hm
    exact Point2.noNaN.2 ⟨not_nan_sub_fin hm.1 hb.1.1.not_nan, not_nan_sub_fin hm.2 hb.1.2.not_nan⟩
  rw [Bool.eq_false_iff] at h ⊢
  intro hc
  obtain ⟨p, p1, p2⟩ := (C29_common_point2 _ _ (wf a v fa fv.noNaN) (wf b w fb fw.noNaN)).1 hc
  exact h ((C29_common_point2 _ _ (wf' a m fa fm) (wf' b k fb fk)).2 ⟨p, C105_fat2 a m v ha fa fm fv h1 h2 p p1, C105_fat2 b k w hb fb fk fw h3 h4 p p2⟩)
end

/-! ## 3D -/
section
variable {S : Type} [Scalar S] [IEEE S] [Binary S]
theorem noNaN_plus3 (p : Point3 S) (v : Vector3 S) (hp : AllFinite p) (hv : NoNaN v) : NoNaN (p + v) := by
  rw [Point3.allFinite] at hp
  rw [Vector3.noNaN] at hv
  exact Point3.noNaN.2 ⟨isNaN_add_finite hp.1 hv.1, isNaN_add_finite hp.2.1 hv.2.1, isNaN_add_finite hp.2.2 hv.2.2⟩
theorem noNaN_times3 (v : Vector3 S) (t : S) (hv : AllFinite v) (ht : IsFinite t) : NoNaN (v * t) := by
  rw [Vector3.allFinite] at hv
  exact Vector3.noNaN.2 ⟨isNaN_mul_finite hv.1 ht, isNaN_mul_finite hv.2.1 ht, isNaN_mul_finite hv.2.2 ht⟩
/-- Two points of a box that a third box contains: if corner and opposite corner are inside, all is. -/
theorem new_sub3 (p q : Point3 S) (hp : NoNaN p) (hq : NoNaN q) (c : BoundingBox3 S) (h1 : c.isInside p = true) (h2 : c.isInside q = true) (x : Point3 S)
    (hx : (BoundingBox3.new p q).isInside x = true) : c.isInside x = true := (C24_new3 p q hp hq).2.2.2.1 c h1 h2 x hx
/-- **C105**, 3D: a point of the object is in the moved box. -/
theorem C105_point3 (b : BoundingBox3 S) (v : Vector3 S) (p : Point3 S) (hb : AllFinite b) (hp : AllFinite p) (hv : NoNaN v)
    (hi : b.isInside p = true) : (moved3 b v).isInside (p + v) = true := by
  have hb' := hb
  rw [BoundingBox3.allFinite] at hb'
  have hn := C24_new3 _ _ (noNaN_plus3 _ v hb'.1 hv) (noNaN_plus3 _ v hb'.2 hv)
  have fb := hb'
  have fp := hp
  rw [Point3.allFinite, Point3.allFinite] at fb
  rw [Point3.allFinite] at fp
  rw [Vector3.noNaN] at hv
  rw [isInside3_iff] at hi
  rw [isInside3_iff, isInside3_iff] at hn
  exact isInside3_iff.2 ⟨⟨le_trans' (hn.2.1.1.1) (add_keeps_le fb.1.1 fp.1 hv.1 hi.1.1), le_trans' (add_keeps_le fp.1 fb.2.1 hv.1 hi.1.2) (hn.2.2.1.1.2)⟩, ⟨le_trans' (hn.2.1.2.1.1) (add_keeps_le fb.1.2.1 fp.2.1 hv.2.1 hi.2.1.1), le_trans' (add_keeps_le fp.2.1 fb.2.2.1 hv.2.1 hi.2.1.2) (hn.2.2.1.2.1.2)⟩, ⟨le_trans' (hn.2.1.2.2.1) (add_keeps_le fb.1.2.2 fp.2.2 hv.2.2 hi.2.2.1), le_trans' (add_keeps_le fp.2.2 fb.2.2.2 hv.2.2 hi.2.2.2) (hn.2.2.1.2.2.2)⟩⟩
/-- **C105**, 3D: between two times the object is in the swept box. -/
theorem C105_swept3 (b : BoundingBox3 S) (v : Vector3 S) (hb : AllFinite b) (hv : AllFinite v) (s u t : S) (hs : IsFinite s) (hu : IsFinite u)
    (ht : IsFinite t) (h1 : (s ≤? u) = true) (h2 : (u ≤? t) = true) :
    (∀ p, (boxAt3 b v u).isInside p = true → (swept3 b v s t).isInside p = true) ∧
    ∀ p, AllFinite p → b.isInside p = true → (swept3 b v s t).isInside (p + v * u) = true := by
  have hb' := hb
  rw [BoundingBox3.allFinite] at hb'
  have nn : ∀ (p : Point3 S) x, AllFinite p → IsFinite x → NoNaN (p + v * x) := fun p x hp hx => noNaN_plus3 _ _ hp (noNaN_times3 v x hv hx)
  have ns := C24_new3 _ _ (nn b.min s hb'.1 hs) (nn b.max s hb'.2 hs)
  have nt := C24_new3 _ _ (nn b.min t hb'.1 ht) (nn b.max t hb'.2 ht)
  have un := (C26_union3 (boxAt3 b v s) (boxAt3 b v t) ns.1 nt.1).2.1
  have c1 := C88_convex3 ⟨b.min, v⟩ (Ray3.allFinite.2 ⟨hb'.1, hv⟩) (swept3 b v s t) s u t hs hu ht h1 h2 (un _ (.inl ns.2.1)) (un _ (.inr nt.2.1))
  have c2 := C88_convex3 ⟨b.max, v⟩ (Ray3.allFinite.2 ⟨hb'.2, hv⟩) (swept3 b v s t) s u t hs hu ht h1 h2 (un _ (.inl ns.2.2.1)) (un _ (.inr nt.2.2.1))
  have key : ∀ p, (boxAt3 b v u).isInside p = true → (swept3 b v s t).isInside p = true :=
    fun p hp => new_sub3 _ _ (nn b.min u hb'.1 hu) (nn b.max u hb'.2 hu) _ c1 c2 p hp
  exact ⟨key, fun p hp hi => key _ (C105_point3 b (v * u) p hb hp (noNaN_times3 v u hv hu) hi)⟩
/-- **C105**, 3D: if the boxes of two moving objects overlap at any time in between, the swept boxes overlap. -/
theorem C105_contact3 (a b : BoundingBox3 S) (v w : Vector3 S) (ha : AllFinite a) (hb : AllFinite b) (hv : AllFinite v) (hw : AllFinite w) (s u t : S)
    (hs : IsFinite s) (hu : IsFinite u) (ht : IsFinite t) (h1 : (s ≤? u) = true) (h2 : (u ≤? t) = true)
    (h : (boxAt3 a v u).overlaps (boxAt3 b w u) = true) : (swept3 a v s t).overlaps (swept3 b w s t) = true := by
  have wf : ∀ (b : BoundingBox3 S) (v : Vector3 S), AllFinite b → AllFinite v → ∀ x, IsFinite x → LeAll (boxAt3 b v x).min (boxAt3 b v x).max := by
    intro b v hb hv x hx
    rw [BoundingBox3.allFinite] at hb
    exact (C24_new3 _ _ (noNaN_plus3 _ _ hb.1 (noNaN_times3 v x hv hx)) (noNaN_plus3 _ _ hb.2 (noNaN_times3 v x hv hx))).1
  have ws : ∀ (b : BoundingBox3 S) (v : Vector3 S), AllFinite b → AllFinite v → LeAll (swept3 b v s t).min (swept3 b v s t).max :=
    fun b v hb hv => (C26_union3 _ _ (wf b v hb hv s hs) (wf b v hb hv t ht)).1
  obtain ⟨p, p1, p2⟩ := (C29_common_point3 _ _ (wf a v ha hv u hu) (wf b w hb hw u hu)).1 h
  exact (C29_common_point3 _ _ (ws a v ha hv) (ws b w hb hw)).2 ⟨p, (C105_swept3 a v ha hv s u t hs hu ht h1 h2).1 p p1,
    (C105_swept3 b w hb hw s u t hs hu ht h1 h2).1 p p2⟩
/-- **C105**, 3D: an object displaced by at most the margin along every axis stays in its fat box. -/
theorem C105_fat3 (b : BoundingBox3 S) (m v : Vector3 S) (hb : LeAll b.min b.max) (fb : AllFinite b) (fm : AllFinite m) (fv : AllFinite v)
    (h1 : LeAll (-m) v) (h2 : LeAll v m) : ∀ p, (moved3 b v).isInside p = true → (fat3 b m).isInside p = true := by
  have fb' := fb
  rw [BoundingBox3.allFinite] at fb'
  have nm : NoNaN (b.min - m) ∧ NoNaN (b.max + m) := by
    refine ⟨?_, noNaN_plus3 _ _ fb'.2 fm.noNaN⟩
    have fb := fb'
    rw [Point3.allFinite, Point3.allFinite] at fb
    rw [Vector3.allFinite] at fm
    exact Point3.noNaN.2 ⟨not_nan_sub_fin fm.1 fb.1.1.not_nan, not_nan_sub_fin fm.2.1 fb.1.2.1.not_nan, not_nan_sub_fin fm.2.2 fb.1.2.2.not_nan⟩
  have hn := C24_new3 _ _ nm.1 nm.2
  have nv : NoNaN v := fv.noNaN
  refine new_sub3 _ _ (noNaN_plus3 _ v fb'.1 nv) (noNaN_plus3 _ v fb'.2 nv) _ ?_ ?_
  all_goals
    rw [Point3.allFinite, Point3.allFinite] at fb'
    replace fb := fb'
    rw [Vector3.allFinite] at fm fv
    rw [Vector3.leAll] at h1 h2
    rw [Point3.leAll] at hb
    rw [isInside3_iff, isInside3_iff] at hn
  · exact isInside3_iff.2 ⟨⟨le_trans' hn.2.1.1.1 (margin_le fb.1.1 fm.1 fv.1 h1.1), le_trans' (margin_ge fb.1.1 fb.2.1 fm.1 fv.1 hb.1 h2.1) hn.2.2.1.1.2⟩, ⟨le_trans' hn.2.1.2.1.1 (margin_le fb.1.2.1 fm.2.1 fv.2.1 h1.2.1), le_trans' (margin_ge fb.1.2.1 fb.2.2.1 fm.2.1 fv.2.1 hb.2.1 h2.2.1) hn.2.2.1.2.1.2⟩, ⟨le_trans' hn.2.1.2.2.1 (margin_le fb.1.2.2 fm.2.2 fv.2.2 h1.2.2), le_trans' (margin_ge fb.1.2.2 fb.2.2.2 fm.2.2 fv.2.2 hb.2.2 h2.2.2) hn.2.2.1.2.2.2⟩⟩
  · exact isInside3_iff.2 ⟨⟨le_trans' hn.2.1.1.1 (margin_mid fb.1.1 fb.2.1 fm.1 fv.1 hb.1 h1.1), le_trans' (margin_ge fb.2.1 fb.2.1 fm.1 fv.1 (le_self fb.2.1.not_nan) h2.1) hn.2.2.1.1.2⟩, ⟨le_trans' hn.2.1.2.1.1 (margin_mid fb.1.2.1 fb.2.2.1 fm.2.1 fv.2.1 hb.2.1 h1.2.1), le_trans' (margin_ge fb.2.2.1 fb.2.2.1 fm.2.1 fv.2.1 (le_self fb.2.2.1.not_nan) h2.2.1) hn.2.2.1.2.1.2⟩, ⟨le_trans' hn.2.1.2.2.1 (margin_mid fb.1.2.2 fb.2.2.2 fm.2.2 fv.2.2 hb.2.2 h1.2.2), le_trans' (margin_ge fb.2.2.2 fb.2.2.2 fm.2.2 fv.2.2 (le_self fb.2.2.2.not_nan) h2.2.2) hn.2.2.1.2.2.2⟩⟩
/-- **C105**, 3D: objects whose fat boxes do not overlap cannot touch before one of them has moved by more than its margin. -/
theorem C105_fat_apart3 (a b : BoundingBox3 S) (m k v w : Vector3 S) (ha : LeAll a.min a.max) (hb : LeAll b.min b.max) (fa : AllFinite a) (fb : AllFinite b)
    (fm : AllFinite m) (fk : AllFinite k) (fv : AllFinite v) (fw : AllFinite w) (h1 : LeAll (-m) v) (h2 : LeAll v m) (h3 : LeAll (-k) w)
    (h4 : LeAll w k) (h : (fat3 a m).overlaps (fat3 b k) = false) : (moved3 a v).overlaps (moved3 b w) = false := by
  have wf : ∀ (b : BoundingBox3 S) (v : Vector3 S), AllFinite b → NoNaN v → LeAll (moved3 b v).min (moved3 b v).max := by
    intro b v hb hv
    rw [BoundingBox3.allFinite] at hb
    exact (C24_new3 _ _ (noNaN_plus3 _ _ hb.1 hv) (noNaN_plus3 _ _ hb.2 hv)).1
  have wf' : ∀ (b : BoundingBox3 S) (m : Vector3 S), AllFinite b → AllFinite m → LeAll (fat3 b m).min (fat3 b m).max := by
    intro b m hb hm
    rw [BoundingBox3.allFinite] at hb
    refine (C24_new3 _ _ ?_ (noNaN_plus3 _ _ hb.2 hm.noNaN)).1
    rw [Point3.allFinite, Point3.allFinite] at hb
    rw [Vector3.allFinite] at hm
    exact Point3.noNaN.2 ⟨not_nan_sub_fin hm.1 hb.1.1.not_nan, not_nan_sub_fin hm.2.1 hb.1.2.1.not_nan, not_nan_sub_fin hm.2.2 hb.1.2.2.not_nan⟩
  rw [Bool.eq_false_iff] at h ⊢
  intro hc
  obtain ⟨p, p1, p2⟩ := (C29_common_point3 _ _ (wf a v fa fv.noNaN) (wf b w fb fw.noNaN)).1 hc
  exact h ((C29_common_point3 _ _ (wf' a m fa fm) (wf' b k fb fk)).2 ⟨p, C105_fat3 a m v ha fa fm fv h1 h2 p p1, C105_fat3 b k w hb fb fk fw h3 h4 p p2⟩)
end

end VecMath
