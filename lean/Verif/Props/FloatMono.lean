import Verif.Lemmas.Mono
import Verif.Props.FloatBox
import Verif.Props.FloatBoxMeasure
import Verif.Props.FloatVector
import Verif.Lemmas.Round
/-!
# Layer F: order survives rounding (C69)
-/

open Classical

namespace VecMath
open Scalar IEEE

variable {S : Type} [Scalar S] [IEEE S]

/-- `x` and `y` are numbers with `0 ≤ x ≤ y`. -/
structure Dom (x y : S) : Prop where
  nl : ¬ IsNaN x
  nr : ¬ IsNaN y
  pos : 0 ≤ val x
  le : val x ≤ val y

namespace Dom
variable {x y z w : S}
theorem toLe (h : Dom x y) : (x ≤? y) = true := le_iff.2 ⟨h.nl, h.nr, h.le⟩
theorem mul (h : Dom x y) (h' : Dom z w) (hn : ¬ IsNaN (x * z)) (hn' : ¬ IsNaN (y * w)) : Dom (x * z) (y * w) := by
  refine ⟨hn, hn', ?_, val_mul_mono h.pos h'.pos h.le h'.le hn hn'⟩
  have hz : ¬ IsNaN (zero * zero : S) := by rw [isNaN_mul_self]; exact not_nan_zero
  have := val_mul_mono (a := (zero : S)) (b := zero) (by simp) (by simp) (by simpa using h.pos) (by simpa using h'.pos) hz hn
  exact (val_mul_self_nonneg (zero : S)).trans this
theorem add (h : Dom x y) (h' : Dom z w) : Dom (x + z) (y + w) := by
  have a := add_nonneg h.nl h'.nl h.pos h'.pos
  have b := add_nonneg h.nr h'.nr (h.pos.trans h.le) (h'.pos.trans h'.le)
  exact ⟨a.1, b.1, a.2, val_add_mono h.le h'.le a.1 b.1⟩
theorem finite (h : Dom x y) (hf : IsFinite y) : IsFinite x := by
  rw [finite_iff] at hf ⊢
  exact ⟨h.nl, (h.le.trans_lt (lt_top_iff_ne_top.2 hf.2.1)).ne, (EReal.bot_lt_zero.trans_le h.pos).ne'⟩
theorem refl (h : ¬ IsNaN x) (h0 : 0 ≤ val x) : Dom x x := ⟨h, h, h0, le_rfl⟩
end Dom

/-! ### Scalars -/

/-- The extent of an interval inside a finite one is the smaller. -/
theorem Dom.extent {l h L H : S} (hL : IsFinite L) (hH : IsFinite H) (h1 : (L ≤? l) = true) (h2 : (l ≤? h) = true)
    (h3 : (h ≤? H) = true) : Dom (h - l) (H - L) := by
  have fl : IsFinite l := by
    have a := le_iff.1 h1
    have b := le_iff.1 (le_trans' h2 h3)
    rw [hL.val] at a; rw [hH.val] at b
    exact finite_iff.2 ⟨b.1, (b.2.2.trans_lt (EReal.coe_lt_top _)).ne, ((EReal.bot_lt_coe _).trans_le a.2.2).ne'⟩
  have fh : IsFinite h := by
    have a := le_iff.1 (le_trans' h1 h2)
    have b := le_iff.1 h3
    rw [hL.val] at a; rw [hH.val] at b
    exact finite_iff.2 ⟨b.1, (b.2.2.trans_lt (EReal.coe_lt_top _)).ne, ((EReal.bot_lt_coe _).trans_le a.2.2).ne'⟩
  have e := le_iff.1 (extent_nonneg fl fh h2)
  have nn := isNaN_sub_finite hL hH.not_nan
  exact ⟨e.2.1, nn, by simpa using e.2.2, val_sub_mono (le_iff.1 h3).2.2 (le_iff.1 h1).2.2 e.2.1 nn⟩
theorem Dom.sq {x y : S} (h : (Scalar.abs x ≤? Scalar.abs y) = true) : Dom (x * x) (y * y) := by
  have h := le_iff.1 h
  have nx : ¬ IsNaN x := fun hc => h.1 (by unfold IsNaN at *; rw [den_abs, hc]; rfl)
  have ny : ¬ IsNaN y := fun hc => h.2.1 (by unfold IsNaN at *; rw [den_abs, hc]; rfl)
  have sx := same_sq (a := Scalar.abs x) (b := x) h.1 nx (val_abs x)
  have sy := same_sq (a := Scalar.abs y) (b := y) h.2.1 ny (val_abs y)
  have pos : 0 ≤ val (Scalar.abs x) := by
    rw [val_abs_eq_max]
    rcases le_total 0 (val x) with h | h
    · exact le_max_of_le_left h
    · exact le_max_of_le_right (EReal.neg_nonneg.2 h)
  have := val_mul_mono pos pos h.2.2 h.2.2 (mt isNaN_mul_self.1 h.1) (mt isNaN_mul_self.1 h.2.1)
  rw [sx.val, sy.val] at this
  exact ⟨mt isNaN_mul_self.1 nx, mt isNaN_mul_self.1 ny, val_mul_self_nonneg x, this⟩
theorem Dom.self_mul {x y : S} (h : Dom x y) : Dom (x * x) (y * y) :=
  h.mul h (mt isNaN_mul_self.1 h.nl) (mt isNaN_mul_self.1 h.nr)
theorem Dom.sqrt {x y : S} (h : Dom x y) : Dom (Scalar.sqrt x) (Scalar.sqrt y) :=
  ⟨mt (isNaN_sqrt_nonneg h.pos).1 h.nl, mt (isNaN_sqrt_nonneg (h.pos.trans h.le)).1 h.nr,
    val_sqrt_nonneg h.nl h.pos, val_sqrt_mono h.nl h.nr h.pos h.le⟩
theorem Dom.two : Dom (two : S) two := Dom.refl finite_two.not_nan (by rw [finite_two.val, real_two]; norm_cast)

/-- A measure `m` of a part against the same measure `M` of the whole: the part's is a number and finite whenever
the whole's is finite, and it is never the larger of two numbers. -/
def Smaller (m M : S) : Prop := (IsFinite M → IsFinite m) ∧ (¬ IsNaN m → ¬ IsNaN M → (m ≤? M) = true)
theorem Dom.smaller {x y : S} (h : Dom x y) : Smaller x y := ⟨h.finite, fun _ _ => h.toLe⟩
/-- A product of smaller factors: where the larger product is finite so is the smaller one. -/
theorem Dom.mul_of_finite {x y z w : S} (h : Dom x y) (h' : Dom z w) (hf : IsFinite (y * w)) : Dom (x * z) (y * w) := by
  have hy := finite_of_mul hf
  refine h.mul h' ?_ hf.not_nan
  unfold IsNaN
  rw [mul_finite (h.finite hy.1) (h'.finite hy.2)]
  exact Rounding.finish_ne_nan _ _ _
theorem Smaller.of {x y : S} (hf : IsFinite y → Dom x y) (hn : ¬ IsNaN x → ¬ IsNaN y → Dom x y) : Smaller x y :=
  ⟨fun h => (hf h).finite h, fun h h' => (hn h h').toLe⟩

/-! ## C69 -/

/-- **C69**, 2D: a well-formed box inside another finite one has the smaller extents. -/
theorem C69_extent2 (a b : BoundingBox2 S) (ha : LeAll a.min a.max) (hb : AllFinite b)
    (hs : ∀ p, a.isInside p = true → b.isInside p = true) (d : Dimension2) : (a.extent d ≤? b.extent d) = true := by
  obtain ⟨h1, h2⟩ := (subset2_iff ha).1 hs
  rw [Point2.leAll] at ha h1 h2
  rw [BoundingBox2.allFinite, Point2.allFinite, Point2.allFinite] at hb
  cases d
  · exact (Dom.extent hb.1.1 hb.2.1 h1.1 ha.1 h2.1).toLe
  · exact (Dom.extent hb.1.2 hb.2.2 h1.2 ha.2 h2.2).toLe
/-- **C69**, 3D. -/
theorem C69_extent3 (a b : BoundingBox3 S) (ha : LeAll a.min a.max) (hb : AllFinite b)
    (hs : ∀ p, a.isInside p = true → b.isInside p = true) (d : Dimension3) : (a.extent d ≤? b.extent d) = true := by
  obtain ⟨h1, h2⟩ := (subset3_iff ha).1 hs
  rw [Point3.leAll] at ha h1 h2
  rw [BoundingBox3.allFinite, Point3.allFinite, Point3.allFinite] at hb
  cases d
  · exact (Dom.extent hb.1.1 hb.2.1 h1.1 ha.1 h2.1).toLe
  · exact (Dom.extent hb.1.2.1 hb.2.2.1 h1.2.1 ha.2.1 h2.2.1).toLe
  · exact (Dom.extent hb.1.2.2 hb.2.2.2 h1.2.2 ha.2.2 h2.2.2).toLe

/-- **C69**: the area of a box inside another is not the larger. -/
theorem C69_area (a b : BoundingBox2 S) (ha : LeAll a.min a.max) (hb : AllFinite b)
    (hs : ∀ p, a.isInside p = true → b.isInside p = true) : Smaller a.area b.area := by
  obtain ⟨h1, h2⟩ := (subset2_iff ha).1 hs
  rw [Point2.leAll] at ha h1 h2
  rw [BoundingBox2.allFinite, Point2.allFinite, Point2.allFinite] at hb
  have dx := Dom.extent hb.1.1 hb.2.1 h1.1 ha.1 h2.1
  have dy := Dom.extent hb.1.2 hb.2.2 h1.2 ha.2 h2.2
  exact Smaller.of (fun h => dx.mul_of_finite dy h) (fun h h' => dx.mul dy h h')
/-- **C69**: the volume of a box inside another is not the larger. -/
theorem C69_volume (a b : BoundingBox3 S) (ha : LeAll a.min a.max) (hb : AllFinite b)
    (hs : ∀ p, a.isInside p = true → b.isInside p = true) : Smaller a.volume b.volume := by
  obtain ⟨h1, h2⟩ := (subset3_iff ha).1 hs
  rw [Point3.leAll] at ha h1 h2
  rw [BoundingBox3.allFinite, Point3.allFinite, Point3.allFinite] at hb
  have dx := Dom.extent hb.1.1 hb.2.1 h1.1 ha.1 h2.1
  have dy := Dom.extent hb.1.2.1 hb.2.2.1 h1.2.1 ha.2.1 h2.2.1
  have dz := Dom.extent hb.1.2.2 hb.2.2.2 h1.2.2 ha.2.2 h2.2.2
  exact Smaller.of (fun h => (dx.mul_of_finite dy (finite_of_mul h).1).mul_of_finite dz h)
    (fun h h' => (dx.mul dy (nan_of_mul h).1 (nan_of_mul h').1).mul dz h h')
/-- **C69**: the surface area of a box inside another is not the larger. -/
theorem C69_surface (a b : BoundingBox3 S) (ha : LeAll a.min a.max) (hb : AllFinite b)
    (hs : ∀ p, a.isInside p = true → b.isInside p = true) : Smaller a.surfaceArea b.surfaceArea := by
  obtain ⟨h1, h2⟩ := (subset3_iff ha).1 hs
  rw [Point3.leAll] at ha h1 h2
  rw [BoundingBox3.allFinite, Point3.allFinite, Point3.allFinite] at hb
  have dx := Dom.extent hb.1.1 hb.2.1 h1.1 ha.1 h2.1
  have dy := Dom.extent hb.1.2.1 hb.2.2.1 h1.2.1 ha.2.1 h2.2.1
  have dz := Dom.extent hb.1.2.2 hb.2.2.2 h1.2.2 ha.2.2 h2.2.2
  refine Smaller.of (fun h => ?_) (fun h h' => ?_)
  · have g := (finite_of_mul h).2
    have g1 := finite_of_add g
    have g2 := finite_of_add g1.1
    exact Dom.two.mul_of_finite (((dx.mul_of_finite dy g2.1).add (dx.mul_of_finite dz g2.2)).add
      (dy.mul_of_finite dz g1.2)) h
  · have g := nan_of_add (nan_of_mul h).2
    have g' := nan_of_add (nan_of_mul h').2
    have k := nan_of_add g.1
    have k' := nan_of_add g'.1
    exact Dom.two.mul (((dx.mul dy k.1 k'.1).add (dx.mul dz k.2 k'.2)).add (dy.mul dz g.2 g'.2)) h h'

/-- **C69**: joining a box with another never makes its measures smaller. -/
theorem C69_union_area (a b : BoundingBox2 S) (ha : LeAll a.min a.max) (hb : LeAll b.min b.max)
    (hf : AllFinite (Api.union a b)) : Smaller a.area (Api.union a b).area :=
  C69_area a _ ha hf fun p hp => (C26_union2 a b ha hb).2.1 p (.inl hp)
/-- **C69**, 3D. -/
theorem C69_union3 (a b : BoundingBox3 S) (ha : LeAll a.min a.max) (hb : LeAll b.min b.max)
    (hf : AllFinite (Api.union a b)) : Smaller a.volume (Api.union a b).volume ∧
      Smaller a.surfaceArea (Api.union a b).surfaceArea :=
  ⟨C69_volume a _ ha hf fun p hp => (C26_union3 a b ha hb).2.1 p (.inl hp),
    C69_surface a _ ha hf fun p hp => (C26_union3 a b ha hb).2.1 p (.inl hp)⟩

/-- **C69**: a vector with smaller components (in magnitude) is not the longer. -/
theorem C69_length2 (u v : Vector2 S) (h : LeAll u.abs v.abs) : (Api.length u ≤? Api.length v) = true := by
  rw [Vector2.leAll] at h
  exact ((Dom.sq h.1).add (Dom.sq h.2)).sqrt.toLe
/-- **C69**, 3D. -/
theorem C69_length3 (u v : Vector3 S) (h : LeAll u.abs v.abs) : (Api.length u ≤? Api.length v) = true := by
  rw [Vector3.leAll] at h
  exact (((Dom.sq h.1).add (Dom.sq h.2.1)).add (Dom.sq h.2.2)).sqrt.toLe

/-- **C69**: of three points in componentwise order the middle one is not farther from either end than the other
end is. -/
theorem C69_distance2 (p q r : Point2 S) (hp : AllFinite p) (hr : AllFinite r) (h1 : LeAll p q) (h2 : LeAll q r) :
    ((Api.distance p q : S) ≤? Api.distance p r) = true ∧ ((Api.distance q r : S) ≤? Api.distance p r) = true := by
  rw [Point2.leAll] at h1 h2
  rw [Point2.allFinite] at hp hr
  have rf : ∀ {x : S}, IsFinite x → (x ≤? x) = true := fun h => le_iff.2 ⟨h.not_nan, h.not_nan, le_rfl⟩
  constructor
  · exact (Dom.add (Dom.extent hp.1 hr.1 (rf hp.1) h1.1 h2.1).self_mul
      (Dom.extent hp.2 hr.2 (rf hp.2) h1.2 h2.2).self_mul).sqrt.toLe
  · exact (Dom.add (Dom.extent hp.1 hr.1 h1.1 h2.1 (rf hr.1)).self_mul
      (Dom.extent hp.2 hr.2 h1.2 h2.2 (rf hr.2)).self_mul).sqrt.toLe
/-- **C69**, 3D. -/
theorem C69_distance3 (p q r : Point3 S) (hp : AllFinite p) (hr : AllFinite r) (h1 : LeAll p q) (h2 : LeAll q r) :
    ((Api.distance p q : S) ≤? Api.distance p r) = true ∧ ((Api.distance q r : S) ≤? Api.distance p r) = true := by
  rw [Point3.leAll] at h1 h2
  rw [Point3.allFinite] at hp hr
  have rf : ∀ {x : S}, IsFinite x → (x ≤? x) = true := fun h => le_iff.2 ⟨h.not_nan, h.not_nan, le_rfl⟩
  constructor
  · exact (((Dom.extent hp.1 hr.1 (rf hp.1) h1.1 h2.1).self_mul.add
      (Dom.extent hp.2.1 hr.2.1 (rf hp.2.1) h1.2.1 h2.2.1).self_mul).add
      (Dom.extent hp.2.2 hr.2.2 (rf hp.2.2) h1.2.2 h2.2.2).self_mul).sqrt.toLe
  · exact (((Dom.extent hp.1 hr.1 h1.1 h2.1 (rf hr.1)).self_mul.add
      (Dom.extent hp.2.1 hr.2.1 h1.2.1 h2.2.1 (rf hr.2.1)).self_mul).add
      (Dom.extent hp.2.2 hr.2.2 h1.2.2 h2.2.2 (rf hr.2.2)).self_mul).sqrt.toLe

end VecMath
