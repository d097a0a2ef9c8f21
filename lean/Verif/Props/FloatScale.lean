import Verif.Lemmas.Scale
import Verif.Lemmas.Proj
/-!
# Layer F: changing the unit of length by a power of two (C74)

(Generated by tools/gen/scale.py.)
-/

open Classical

namespace VecMath
open Scalar IEEE

variable {S : Type} [Scalar S] [IEEE S]

theorem same_num' {a b : S} (h : Same a b) : IEEE.num a = IEEE.num b := by unfold IEEE.num; rw [h]
theorem alike_of {a b : S} (h : IsFinite a) (h' : IsFinite b) : Alike a b := ⟨fun _ => h', fun _ => h⟩
/-- Sums of two products. -/
theorem Scaled.dot2 [Binary S] {j k : ℤ} {a a' b b' c c' d d' : S} (ha : Scaled j a a') (hb : Scaled k b b') (hc : Scaled j c c')
    (hd : Scaled k d d') (n1 : Normal S (IEEE.real a * IEEE.real b)) (n1' : Normal S (IEEE.real a' * IEEE.real b'))
    (n2 : Normal S (IEEE.real c * IEEE.real d)) (n2' : Normal S (IEEE.real c' * IEEE.real d'))
    (hf : IsFinite (a * b + c * d)) (hf' : IsFinite (a' * b' + c' * d')) : Scaled (j + k) (a * b + c * d) (a' * b' + c' * d') := by
  obtain ⟨f1, f2⟩ := finite_of_add hf
  obtain ⟨f1', f2'⟩ := finite_of_add hf'
  exact (ha.mul hb n1 n1' (alike_of f1 f1')).add (hc.mul hd n2 n2' (alike_of f2 f2')) (alike_of hf hf')
/-- Differences of two products. -/
theorem Scaled.det2 [Binary S] {j k : ℤ} {a a' b b' c c' d d' : S} (ha : Scaled j a a') (hb : Scaled k b b') (hc : Scaled j c c')
    (hd : Scaled k d d') (n1 : Normal S (IEEE.real a * IEEE.real b)) (n1' : Normal S (IEEE.real a' * IEEE.real b'))
    (n2 : Normal S (IEEE.real c * IEEE.real d)) (n2' : Normal S (IEEE.real c' * IEEE.real d'))
    (hf : IsFinite (a * b - c * d)) (hf' : IsFinite (a' * b' - c' * d')) : Scaled (j + k) (a * b - c * d) (a' * b' - c' * d') := by
  obtain ⟨f1, f2⟩ := finite_of_sub hf
  obtain ⟨f1', f2'⟩ := finite_of_sub hf'
  exact (ha.mul hb n1 n1' (alike_of f1 f1')).sub (hc.mul hd n2 n2' (alike_of f2 f2')) (alike_of hf hf')

/-! ## 2D -/

theorem Vector2.rel {R : S → S → Prop} {a b : Vector2 S} : List.Forall₂ R (Comps.comps a) (Comps.comps b) ↔ R a.x b.x ∧ R a.y b.y := by
  simp [Comps.comps]
theorem Point2.rel {R : S → S → Prop} {a b : Point2 S} : List.Forall₂ R (Comps.comps a) (Comps.comps b) ↔ R a.x b.x ∧ R a.y b.y := by
  simp [Comps.comps]
theorem BoundingBox2.rel {R : S → S → Prop} {a b : BoundingBox2 S} : List.Forall₂ R (Comps.comps a) (Comps.comps b) ↔
    R a.min.x b.min.x ∧ R a.min.y b.min.y ∧ R a.max.x b.max.x ∧ R a.max.y b.max.y := by
  simp [Comps.comps]

section
variable {j k : ℤ}
/-- **C74** `+` commutes with the change of scale, without any condition on underflow. -/
theorem C74_add2 [Binary S] {u u' : Vector2 S} {v v' : Vector2 S} (h : ScaledAll k u u') (h' : ScaledAll k v v')
    (hf : AlikeAll (u + v : Vector2 S) (u' + v' : Vector2 S)) : ScaledAll k (u + v : Vector2 S) (u' + v' : Vector2 S) := by
  obtain ⟨hx, hy⟩ := Vector2.rel.1 h
  obtain ⟨kx, ky⟩ := Vector2.rel.1 h'
  obtain ⟨fx, fy⟩ := Vector2.rel.1 hf
  exact Vector2.rel.2 ⟨hx.add kx fx, hy.add ky fy⟩
/-- **C74** `-` commutes with the change of scale, without any condition on underflow. -/
theorem C74_sub2 [Binary S] {u u' : Vector2 S} {v v' : Vector2 S} (h : ScaledAll k u u') (h' : ScaledAll k v v')
    (hf : AlikeAll (u - v : Vector2 S) (u' - v' : Vector2 S)) : ScaledAll k (u - v : Vector2 S) (u' - v' : Vector2 S) := by
  obtain ⟨hx, hy⟩ := Vector2.rel.1 h
  obtain ⟨kx, ky⟩ := Vector2.rel.1 h'
  obtain ⟨fx, fy⟩ := Vector2.rel.1 hf
  exact Vector2.rel.2 ⟨hx.sub kx fx, hy.sub ky fy⟩
/-- **C74** `+` commutes with the change of scale, without any condition on underflow. -/
theorem C74_add_point2 [Binary S] {u u' : Point2 S} {v v' : Vector2 S} (h : ScaledAll k u u') (h' : ScaledAll k v v')
    (hf : AlikeAll (u + v : Point2 S) (u' + v' : Point2 S)) : ScaledAll k (u + v : Point2 S) (u' + v' : Point2 S) := by
  obtain ⟨hx, hy⟩ := Point2.rel.1 h
  obtain ⟨kx, ky⟩ := Vector2.rel.1 h'
  obtain ⟨fx, fy⟩ := Point2.rel.1 hf
  exact Point2.rel.2 ⟨hx.add kx fx, hy.add ky fy⟩
/-- **C74** `-` commutes with the change of scale, without any condition on underflow. -/
theorem C74_sub_point2 [Binary S] {u u' : Point2 S} {v v' : Vector2 S} (h : ScaledAll k u u') (h' : ScaledAll k v v')
    (hf : AlikeAll (u - v : Point2 S) (u' - v' : Point2 S)) : ScaledAll k (u - v : Point2 S) (u' - v' : Point2 S) := by
  obtain ⟨hx, hy⟩ := Point2.rel.1 h
  obtain ⟨kx, ky⟩ := Vector2.rel.1 h'
  obtain ⟨fx, fy⟩ := Point2.rel.1 hf
  exact Point2.rel.2 ⟨hx.sub kx fx, hy.sub ky fy⟩
/-- **C74** `-` commutes with the change of scale, without any condition on underflow. -/
theorem C74_diff2 [Binary S] {u u' : Point2 S} {v v' : Point2 S} (h : ScaledAll k u u') (h' : ScaledAll k v v')
    (hf : AlikeAll (u - v : Vector2 S) (u' - v' : Vector2 S)) : ScaledAll k (u - v : Vector2 S) (u' - v' : Vector2 S) := by
  obtain ⟨hx, hy⟩ := Point2.rel.1 h
  obtain ⟨kx, ky⟩ := Point2.rel.1 h'
  obtain ⟨fx, fy⟩ := Vector2.rel.1 hf
  exact Vector2.rel.2 ⟨hx.sub kx fx, hy.sub ky fy⟩
/-- **C74** Negation. -/
theorem C74_neg2 {v v' : Vector2 S} (h : ScaledAll k v v') : ScaledAll k (-v) (-v') := by
  obtain ⟨hx, hy⟩ := Vector2.rel.1 h
  exact Vector2.rel.2 ⟨hx.neg, hy.neg⟩
/-- **C74** Products with a scalar, if no product underflows. -/
theorem C74_mul2 [Binary S] {v v' : Vector2 S} {s s' : S} (h : ScaledAll j v v') (hs : Scaled k s s')
    (n : ∀ i, Normal S (v.toReal i * real s)) (n' : ∀ i, Normal S (v'.toReal i * real s'))
    (hf : AlikeAll (v * s) (v' * s')) : ScaledAll (j + k) (v * s) (v' * s') := by
  obtain ⟨hx, hy⟩ := Vector2.rel.1 h
  obtain ⟨fx, fy⟩ := Vector2.rel.1 hf
  exact Vector2.rel.2 ⟨hx.mul hs (n 0) (n' 0) fx, hy.mul hs (n 1) (n' 1) fy⟩
/-- **C74** Quotients by a scalar, if no quotient underflows. -/
theorem C74_div2 [Binary S] {v v' : Vector2 S} {s s' : S} (h : ScaledAll j v v') (hs : Scaled k s s')
    (n : ∀ i, Normal S (v.toReal i / real s)) (n' : ∀ i, Normal S (v'.toReal i / real s'))
    (hf : AlikeAll (v / s) (v' / s')) : ScaledAll (j - k) (v / s) (v' / s') := by
  obtain ⟨hx, hy⟩ := Vector2.rel.1 h
  obtain ⟨fx, fy⟩ := Vector2.rel.1 hf
  exact Vector2.rel.2 ⟨hx.div hs (.inr ⟨n 0, n' 0⟩) (.inl fx), hy.div hs (.inr ⟨n 1, n' 1⟩) (.inl fy)⟩
/-- **C74** Inner products, if no product underflows. -/
theorem C74_dot2 [Binary S] {u u' v v' : Vector2 S} (h : ScaledAll j u u') (h' : ScaledAll k v v')
    (n : ∀ i, Normal S (u.toReal i * v.toReal i)) (n' : ∀ i, Normal S (u'.toReal i * v'.toReal i))
    (hf : IsFinite (Api.dot u v)) (hf' : IsFinite (Api.dot u' v')) : Scaled (j + k) (Api.dot u v) (Api.dot u' v') := by
  obtain ⟨hx, hy⟩ := Vector2.rel.1 h
  obtain ⟨kx, ky⟩ := Vector2.rel.1 h'
  exact Scaled.dot2 hx kx hy ky (n 0) (n' 0) (n 1) (n' 1) hf hf'
/-- **C74** Lengths, if no square underflows. -/
theorem C74_length2 [Binary S] {v v' : Vector2 S} (h : ScaledAll k v v')
    (n : ∀ i, Normal S (v.toReal i ^ 2)) (n' : ∀ i, Normal S (v'.toReal i ^ 2))
    (hf : IsFinite (Api.length v)) (hf' : IsFinite (Api.length v')) : Scaled k (Api.length v) (Api.length v') := by
  simp only [sq] at n n'
  have := C74_dot2 h h n n' (finite_of_sqrt hf).1 (finite_of_sqrt hf').1
  rw [← two_mul] at this
  exact this.sqrt
/-- **C74** The normalized vector does not depend on the scale, not even in the last bit. -/
theorem C74_normalize2 [Binary S] {v v' : Vector2 S} (h : ScaledAll k v v')
    (n : ∀ i, Normal S (v.toReal i ^ 2)) (n' : ∀ i, Normal S (v'.toReal i ^ 2))
    (hf : IsFinite (Api.length v)) (hf' : IsFinite (Api.length v')) : SameAll v.normalize v'.normalize := by
  have hl := C74_length2 h n n' hf hf'
  obtain ⟨hx, hy⟩ := Vector2.rel.1 h
  exact Vector2.sameAll.2 ⟨(hx.div_same hl), (hy.div_same hl)⟩
/-- **C74** Distances, if no square of a difference underflows. -/
theorem C74_distance2 [Binary S] {p p' q q' : Point2 S} (h : ScaledAll k p p') (h' : ScaledAll k q q')
    (n : ∀ i, Normal S ((q - p : Vector2 S).toReal i ^ 2)) (n' : ∀ i, Normal S ((q' - p' : Vector2 S).toReal i ^ 2))
    (hf : IsFinite (Api.distance p q)) (hf' : IsFinite (Api.distance p' q')) :
    Scaled k (Api.distance p q) (Api.distance p' q') := by
  refine C74_length2 (C74_diff2 h' h ?_) n n' hf hf'
  have f := (finite_of_sqrt hf).1
  have f' := (finite_of_sqrt hf').1
  obtain ⟨g1, g2⟩ := finite_of_add f
  obtain ⟨g1', g2'⟩ := finite_of_add f'
  exact Vector2.rel.2 ⟨alike_of (finite_of_mul g1).1 (finite_of_mul g1').1, alike_of (finite_of_mul g2).1 (finite_of_mul g2').1⟩
/-- **C74** `is_inside` and `overlaps` do not depend on the scale. -/
theorem C74_inside2 {b b' : BoundingBox2 S} {p p' : Point2 S} (h : ScaledAll k b b') (h' : ScaledAll k p p') :
    b'.isInside p' = b.isInside p := by
  obtain ⟨lx, ly, ux, uy⟩ := BoundingBox2.rel.1 h
  obtain ⟨kx, ky⟩ := Point2.rel.1 h'
  unfold BoundingBox2.isInside
  rw [lx.le kx, kx.le ux, ly.le ky, ky.le uy]
theorem C74_overlaps2 {a a' b b' : BoundingBox2 S} (h : ScaledAll k a a') (h' : ScaledAll k b b') :
    a'.overlaps b' = a.overlaps b := by
  obtain ⟨lx, ly, ux, uy⟩ := BoundingBox2.rel.1 h
  obtain ⟨lx', ly', ux', uy'⟩ := BoundingBox2.rel.1 h'
  unfold BoundingBox2.overlaps
  rw [lx'.le ux, lx.le ux', ly'.le uy, ly.le uy']
/-- **C74** Union. -/
theorem C74_union2 {a a' b b' : BoundingBox2 S} (h : ScaledAll k a a') (h' : ScaledAll k b b') :
    ScaledNumAll k (Api.union a b : BoundingBox2 S) (Api.union a' b' : BoundingBox2 S) := by
  obtain ⟨lx, ly, ux, uy⟩ := BoundingBox2.rel.1 h
  obtain ⟨lx', ly', ux', uy'⟩ := BoundingBox2.rel.1 h'
  exact BoundingBox2.rel.2 ⟨(lx.toNum.min lx'.toNum).min (ux.toNum.max ux'.toNum), (ly.toNum.min ly'.toNum).min (uy.toNum.max uy'.toNum), (lx.toNum.min lx'.toNum).max (ux.toNum.max ux'.toNum), (ly.toNum.min ly'.toNum).max (uy.toNum.max uy'.toNum)⟩
/-- **C74** Union with a point. -/
theorem C74_grow2 {b b' : BoundingBox2 S} {p p' : Point2 S} (h : ScaledAll k b b') (h' : ScaledAll k p p') :
    ScaledNumAll k (Api.union b p : BoundingBox2 S) (Api.union b' p' : BoundingBox2 S) := by
  obtain ⟨lx, ly, ux, uy⟩ := BoundingBox2.rel.1 h
  obtain ⟨kx, ky⟩ := Point2.rel.1 h'
  exact BoundingBox2.rel.2 ⟨(lx.toNum.min kx.toNum).min (ux.toNum.max kx.toNum), (ly.toNum.min ky.toNum).min (uy.toNum.max ky.toNum), (lx.toNum.min kx.toNum).max (ux.toNum.max kx.toNum), (ly.toNum.min ky.toNum).max (uy.toNum.max ky.toNum)⟩
/-- **C74** Intersection. -/
theorem C74_intersect2 {a a' b b' : BoundingBox2 S} (h : ScaledAll k a a') (h' : ScaledAll k b b') :
    match (Api.intersect a b : Option (BoundingBox2 S)), (Api.intersect a' b' : Option (BoundingBox2 S)) with
    | none, none => True
    | some c, some d => ScaledNumAll k c d
    | _, _ => False := by
  have ho := C74_overlaps2 h h'
  have e : ∀ a b : BoundingBox2 S, (Api.intersect a b : Option (BoundingBox2 S)) =
      if a.overlaps b then some (BoundingBox2.new (Api.max a.min b.min) (Api.min a.max b.max)) else none := fun _ _ => rfl
  obtain ⟨lx, ly, ux, uy⟩ := BoundingBox2.rel.1 h
  obtain ⟨lx', ly', ux', uy'⟩ := BoundingBox2.rel.1 h'
  rw [e, e, ho]
  by_cases hb : a.overlaps b = true
  · rw [if_pos hb, if_pos hb]
    exact BoundingBox2.rel.2 ⟨(lx.toNum.max lx'.toNum).min (ux.toNum.min ux'.toNum), (ly.toNum.max ly'.toNum).min (uy.toNum.min uy'.toNum), (lx.toNum.max lx'.toNum).max (ux.toNum.min ux'.toNum), (ly.toNum.max ly'.toNum).max (uy.toNum.min uy'.toNum)⟩
  · rw [if_neg hb, if_neg hb]; trivial
/-- **C74** Extents, without any condition on underflow. -/
theorem C74_diagonal2 [Binary S] {b b' : BoundingBox2 S} (h : ScaledAll k b b') (hf : AlikeAll b.diagonal b'.diagonal) :
    ScaledAll k b.diagonal b'.diagonal := by
  obtain ⟨lx, ly, ux, uy⟩ := BoundingBox2.rel.1 h
  obtain ⟨fx, fy⟩ := Vector2.rel.1 hf
  exact Vector2.rel.2 ⟨ux.sub lx fx, uy.sub ly fy⟩
/-- **C74** The dimension of least and of greatest extent. -/
theorem C74_dimension2 [Binary S] {b b' : BoundingBox2 S} (h : ScaledAll k b b') (hf : AlikeAll b.diagonal b'.diagonal) :
    b'.minDimension = b.minDimension ∧ b'.maxDimension = b.maxDimension := by
  obtain ⟨hx, hy⟩ := Vector2.rel.1 (C74_diagonal2 h hf)
  unfold BoundingBox2.minDimension BoundingBox2.maxDimension
  simp only [hx.le hy, hx.lt hy, hy.le hx, hy.lt hx, and_self]
/-- **C74** The center, if no half extent underflows. -/
theorem C74_center2 [Binary S] {b b' : BoundingBox2 S} (h : ScaledAll k b b')
    (n : ∀ i, Normal S (b.diagonal.toReal i * (1 / 2))) (n' : ∀ i, Normal S (b'.diagonal.toReal i * (1 / 2)))
    (hf : AllFinite b.center) (hf' : AllFinite b'.center) : ScaledAll k b.center b'.center := by
  have hh : Scaled 0 (half : S) half := .refl _
  obtain ⟨cx, cy⟩ := Point2.allFinite.1 hf
  obtain ⟨cx', cy'⟩ := Point2.allFinite.1 hf'
  obtain ⟨lx, ly, ux, uy⟩ := BoundingBox2.rel.1 h
  have key : ∀ {lo lo' hi hi' : S}, Scaled k lo lo' → Scaled k hi hi' → Normal S (real (hi - lo) * (1 / 2)) →
      Normal S (real (hi' - lo') * (1 / 2)) → IsFinite (lo + (hi - lo) * half) → IsFinite (lo' + (hi' - lo') * half) →
      Scaled k (lo + (hi - lo) * half) (lo' + (hi' - lo') * half) := by
    intro lo lo' hi hi' hl hu m m' g g'
    have g1 := (finite_of_add g).2
    have g1' := (finite_of_add g').2
    have s1 := hu.sub hl (alike_of (finite_of_mul g1).1 (finite_of_mul g1').1)
    have s2 := s1.mul hh (by rw [real_half]; exact m) (by rw [real_half]; exact m') (alike_of g1 g1')
    rw [add_zero] at s2
    exact hl.add s2 (alike_of g g')
  exact Point2.rel.2 ⟨key lx ux (n 0) (n' 0) cx cx', key ly uy (n 1) (n' 1) cy cy'⟩
/-- **C74** The ray/box test does not depend on the unit of length: if box and ray are scaled alike and the differences
overflow on both scales or on neither, the parameters are the same. -/
theorem C74_hit2 [Binary S] {b b' : BoundingBox2 S} {r r' : Ray2 S} (hb : ScaledAll k b b')
    (ho : ScaledAll k r.origin r'.origin) (hd : ScaledAll k r.direction r'.direction)
    (h1 : AlikeAll (b.min - r.origin) (b'.min - r'.origin)) (h2 : AlikeAll (b.max - r.origin) (b'.max - r'.origin)) :
    SameHit (Api.intersect b r) (Api.intersect b' r') := by
  obtain ⟨lx, ly, ux, uy⟩ := BoundingBox2.rel.1 hb
  obtain ⟨ox, oy⟩ := Point2.rel.1 ho
  obtain ⟨dx, dy⟩ := Vector2.rel.1 hd
  obtain ⟨ax, ay⟩ := Vector2.rel.1 h1
  obtain ⟨ex, ey⟩ := Vector2.rel.1 h2
  have px := same_num' ((lx.sub ox ax).div_same dx)
  have qx := same_num' ((ux.sub ox ex).div_same dx)
  have mx := loVal_congr (num_min_congr px qx)
  have nx := hiVal_congr (num_max_congr px qx)
  have py := same_num' ((ly.sub oy ay).div_same dy)
  have qy := same_num' ((uy.sub oy ey).div_same dy)
  have my := loVal_congr (num_min_congr py qy)
  have ny := hiVal_congr (num_max_congr py qy)
  apply sameHit_of2
  · unfold startVal2 near
    rw [mx, my]
  · unfold stopVal2 far
    rw [nx, ny]
/-- **C74** If box and origin are scaled by `2^j` and the direction by `2^k`, the parameters are scaled by `2^(j-k)`,
provided no quotient underflows and overflow happens on both scales or on neither. -/
theorem C74_hit_scaled2 [Binary S] {b b' : BoundingBox2 S} {r r' : Ray2 S} (hb : ScaledAll j b b')
    (ho : ScaledAll j r.origin r'.origin) (hd : ScaledAll k r.direction r'.direction)
    (h1 : AlikeAll (b.min - r.origin) (b'.min - r'.origin)) (h2 : AlikeAll (b.max - r.origin) (b'.max - r'.origin))
    (s1 : QuotientsSafe2 (b.min - r.origin) r.direction (b'.min - r'.origin) r'.direction)
    (s2 : QuotientsSafe2 (b.max - r.origin) r.direction (b'.max - r'.origin) r'.direction) :
    ScaledHit (j - k) (Api.intersect b r) (Api.intersect b' r') := by
  obtain ⟨lx, ly, ux, uy⟩ := BoundingBox2.rel.1 hb
  obtain ⟨ox, oy⟩ := Point2.rel.1 ho
  obtain ⟨dx, dy⟩ := Vector2.rel.1 hd
  obtain ⟨ax, ay⟩ := Vector2.rel.1 h1
  obtain ⟨ex, ey⟩ := Vector2.rel.1 h2
  obtain ⟨sx, sy⟩ := s1
  obtain ⟨tx, ty⟩ := s2
  have px := ((lx.sub ox ax).div dx (.inr ⟨sx.1, sx.2.1⟩) (.inl sx.2.2)).toNum
  have qx := ((ux.sub ox ex).div dx (.inr ⟨tx.1, tx.2.1⟩) (.inl tx.2.2)).toNum
  have mx := (px.min qx).loVal
  have nx := (px.max qx).hiVal
  have py := ((ly.sub oy ay).div dy (.inr ⟨sy.1, sy.2.1⟩) (.inl sy.2.2)).toNum
  have qy := ((uy.sub oy ey).div dy (.inr ⟨ty.1, ty.2.1⟩) (.inl ty.2.2)).toNum
  have my := (py.min qy).loVal
  have ny := (py.max qy).hiVal
  apply scaledHit_of2
  · unfold startVal2 near
    rw [mx, my]
    rw [stretch_max2]
  · unfold stopVal2 far
    rw [nx, ny]
    rw [stretch_min2]
end
section
variable {j k : ℤ}
/-- **C74** Area, if the product does not underflow. -/
theorem C74_area [Binary S] {b b' : BoundingBox2 S} (h : ScaledAll k b b') (n : Normal S (real b.width * real b.height))
    (n' : Normal S (real b'.width * real b'.height)) (hf : IsFinite b.area) (hf' : IsFinite b'.area) :
    Scaled (2 * k) b.area b'.area := by
  obtain ⟨lx, ly, ux, uy⟩ := BoundingBox2.rel.1 h
  obtain ⟨f1, f2⟩ := finite_of_mul (a := b.width) (b := b.height) hf
  obtain ⟨f1', f2'⟩ := finite_of_mul (a := b'.width) (b := b'.height) hf'
  rw [two_mul]
  exact (ux.sub lx (alike_of f1 f1')).mul (uy.sub ly (alike_of f2 f2')) n n' (alike_of hf hf')
end

/-! ## 3D -/

theorem Vector3.rel {R : S → S → Prop} {a b : Vector3 S} : List.Forall₂ R (Comps.comps a) (Comps.comps b) ↔ R a.x b.x ∧ R a.y b.y ∧ R a.z b.z := by
  simp [Comps.comps]
theorem Point3.rel {R : S → S → Prop} {a b : Point3 S} : List.Forall₂ R (Comps.comps a) (Comps.comps b) ↔ R a.x b.x ∧ R a.y b.y ∧ R a.z b.z := by
  simp [Comps.comps]
theorem BoundingBox3.rel {R : S → S → Prop} {a b : BoundingBox3 S} : List.Forall₂ R (Comps.comps a) (Comps.comps b) ↔
    R a.min.x b.min.x ∧ R a.min.y b.min.y ∧ R a.min.z b.min.z ∧ R a.max.x b.max.x ∧ R a.max.y b.max.y ∧ R a.max.z b.max.z := by
  simp [Comps.comps]

section
variable {j k : ℤ}
/-- **C74** `+` commutes with the change of scale, without any condition on underflow. -/
theorem C74_add3 [Binary S] {u u' : Vector3 S} {v v' : Vector3 S} (h : ScaledAll k u u') (h' : ScaledAll k v v')
    (hf : AlikeAll (u + v : Vector3 S) (u' + v' : Vector3 S)) : ScaledAll k (u + v : Vector3 S) (u' + v' : Vector3 S) := by
  obtain ⟨hx, hy, hz⟩ := Vector3.rel.1 h
  obtain ⟨kx, ky, kz⟩ := Vector3.rel.1 h'
  obtain ⟨fx, fy, fz⟩ := Vector3.rel.1 hf
  exact Vector3.rel.2 ⟨hx.add kx fx, hy.add ky fy, hz.add kz fz⟩
/-- **C74** `-` commutes with the change of scale, without any condition on underflow. -/
theorem C74_sub3 [Binary S] {u u' : Vector3 S} {v v' : Vector3 S} (h : ScaledAll k u u') (h' : ScaledAll k v v')
    (hf : AlikeAll (u - v : Vector3 S) (u' - v' : Vector3 S)) : ScaledAll k (u - v : Vector3 S) (u' - v' : Vector3 S) := by
  obtain ⟨hx, hy, hz⟩ := Vector3.rel.1 h
  obtain ⟨kx, ky, kz⟩ := Vector3.rel.1 h'
  obtain ⟨fx, fy, fz⟩ := Vector3.rel.1 hf
  exact Vector3.rel.2 ⟨hx.sub kx fx, hy.sub ky fy, hz.sub kz fz⟩
/-- **C74** `+` commutes with the change of scale, without any condition on underflow. -/
theorem C74_add_point3 [Binary S] {u u' : Point3 S} {v v' : Vector3 S} (h : ScaledAll k u u') (h' : ScaledAll k v v')
    (hf : AlikeAll (u + v : Point3 S) (u' + v' : Point3 S)) : ScaledAll k (u + v : Point3 S) (u' + v' : Point3 S) := by
  obtain ⟨hx, hy, hz⟩ := Point3.rel.1 h
  obtain ⟨kx, ky, kz⟩ := Vector3.rel.1 h'
  obtain ⟨fx, fy, fz⟩ := Point3.rel.1 hf
  exact Point3.rel.2 ⟨hx.add kx fx, hy.add ky fy, hz.add kz fz⟩
/-- **C74** `-` commutes with the change of scale, without any condition on underflow. -/
theorem C74_sub_point3 [Binary S] {u u' : Point3 S} {v v' : Vector3 S} (h : ScaledAll k u u') (h' : ScaledAll k v v')
    (hf : AlikeAll (u - v : Point3 S) (u' - v' : Point3 S)) : ScaledAll k (u - v : Point3 S) (u' - v' : Point3 S) := by
  obtain ⟨hx, hy, hz⟩ := Point3.rel.1 h
  obtain ⟨kx, ky, kz⟩ := Vector3.rel.1 h'
  obtain ⟨fx, fy, fz⟩ := Point3.rel.1 hf
  exact Point3.rel.2 ⟨hx.sub kx fx, hy.sub ky fy, hz.sub kz fz⟩
/-- **C74** `-` commutes with the change of scale, without any condition on underflow. -/
theorem C74_diff3 [Binary S] {u u' : Point3 S} {v v' : Point3 S} (h : ScaledAll k u u') (h' : ScaledAll k v v')
    (hf : AlikeAll (u - v : Vector3 S) (u' - v' : Vector3 S)) : ScaledAll k (u - v : Vector3 S) (u' - v' : Vector3 S) := by
  obtain ⟨hx, hy, hz⟩ := Point3.rel.1 h
  obtain ⟨kx, ky, kz⟩ := Point3.rel.1 h'
  obtain ⟨fx, fy, fz⟩ := Vector3.rel.1 hf
  exact Vector3.rel.2 ⟨hx.sub kx fx, hy.sub ky fy, hz.sub kz fz⟩
/-- **C74** Negation. -/
theorem C74_neg3 {v v' : Vector3 S} (h : ScaledAll k v v') : ScaledAll k (-v) (-v') := by
  obtain ⟨hx, hy, hz⟩ := Vector3.rel.1 h
  exact Vector3.rel.2 ⟨hx.neg, hy.neg, hz.neg⟩
/-- **C74** Products with a scalar, if no product underflows. -/
theorem C74_mul3 [Binary S] {v v' : Vector3 S} {s s' : S} (h : ScaledAll j v v') (hs : Scaled k s s')
    (n : ∀ i, Normal S (v.toReal i * real s)) (n' : ∀ i, Normal S (v'.toReal i * real s'))
    (hf : AlikeAll (v * s) (v' * s')) : ScaledAll (j + k) (v * s) (v' * s') := by
  obtain ⟨hx, hy, hz⟩ := Vector3.rel.1 h
  obtain ⟨fx, fy, fz⟩ := Vector3.rel.1 hf
  exact Vector3.rel.2 ⟨hx.mul hs (n 0) (n' 0) fx, hy.mul hs (n 1) (n' 1) fy, hz.mul hs (n 2) (n' 2) fz⟩
/-- **C74** Quotients by a scalar, if no quotient underflows. -/
theorem C74_div3 [Binary S] {v v' : Vector3 S} {s s' : S} (h : ScaledAll j v v') (hs : Scaled k s s')
    (n : ∀ i, Normal S (v.toReal i / real s)) (n' : ∀ i, Normal S (v'.toReal i / real s'))
    (hf : AlikeAll (v / s) (v' / s')) : ScaledAll (j - k) (v / s) (v' / s') := by
  obtain ⟨hx, hy, hz⟩ := Vector3.rel.1 h
  obtain ⟨fx, fy, fz⟩ := Vector3.rel.1 hf
  exact Vector3.rel.2 ⟨hx.div hs (.inr ⟨n 0, n' 0⟩) (.inl fx), hy.div hs (.inr ⟨n 1, n' 1⟩) (.inl fy), hz.div hs (.inr ⟨n 2, n' 2⟩) (.inl fz)⟩
/-- **C74** Inner products, if no product underflows. -/
theorem C74_dot3 [Binary S] {u u' v v' : Vector3 S} (h : ScaledAll j u u') (h' : ScaledAll k v v')
    (n : ∀ i, Normal S (u.toReal i * v.toReal i)) (n' : ∀ i, Normal S (u'.toReal i * v'.toReal i))
    (hf : IsFinite (Api.dot u v)) (hf' : IsFinite (Api.dot u' v')) : Scaled (j + k) (Api.dot u v) (Api.dot u' v') := by
  obtain ⟨hx, hy, hz⟩ := Vector3.rel.1 h
  obtain ⟨kx, ky, kz⟩ := Vector3.rel.1 h'
  obtain ⟨g, gz⟩ := finite_of_add hf
  obtain ⟨g', gz'⟩ := finite_of_add hf'
  exact (Scaled.dot2 hx kx hy ky (n 0) (n' 0) (n 1) (n' 1) g g').add (hz.mul kz (n 2) (n' 2) (alike_of gz gz')) (alike_of hf hf')
/-- **C74** Lengths, if no square underflows. -/
theorem C74_length3 [Binary S] {v v' : Vector3 S} (h : ScaledAll k v v')
    (n : ∀ i, Normal S (v.toReal i ^ 2)) (n' : ∀ i, Normal S (v'.toReal i ^ 2))
    (hf : IsFinite (Api.length v)) (hf' : IsFinite (Api.length v')) : Scaled k (Api.length v) (Api.length v') := by
  simp only [sq] at n n'
  have := C74_dot3 h h n n' (finite_of_sqrt hf).1 (finite_of_sqrt hf').1
  rw [← two_mul] at this
  exact this.sqrt
/-- **C74** The normalized vector does not depend on the scale, not even in the last bit. -/
theorem C74_normalize3 [Binary S] {v v' : Vector3 S} (h : ScaledAll k v v')
    (n : ∀ i, Normal S (v.toReal i ^ 2)) (n' : ∀ i, Normal S (v'.toReal i ^ 2))
    (hf : IsFinite (Api.length v)) (hf' : IsFinite (Api.length v')) : SameAll v.normalize v'.normalize := by
  have hl := C74_length3 h n n' hf hf'
  obtain ⟨hx, hy, hz⟩ := Vector3.rel.1 h
  exact Vector3.sameAll.2 ⟨(hx.div_same hl), (hy.div_same hl), (hz.div_same hl)⟩
/-- **C74** Distances, if no square of a difference underflows. -/
theorem C74_distance3 [Binary S] {p p' q q' : Point3 S} (h : ScaledAll k p p') (h' : ScaledAll k q q')
    (n : ∀ i, Normal S ((q - p : Vector3 S).toReal i ^ 2)) (n' : ∀ i, Normal S ((q' - p' : Vector3 S).toReal i ^ 2))
    (hf : IsFinite (Api.distance p q)) (hf' : IsFinite (Api.distance p' q')) :
    Scaled k (Api.distance p q) (Api.distance p' q') := by
  refine C74_length3 (C74_diff3 h' h ?_) n n' hf hf'
  have f := (finite_of_sqrt hf).1
  have f' := (finite_of_sqrt hf').1
  obtain ⟨g, g3⟩ := finite_of_add f
  obtain ⟨g', g3'⟩ := finite_of_add f'
  obtain ⟨g1, g2⟩ := finite_of_add g
  obtain ⟨g1', g2'⟩ := finite_of_add g'
  exact Vector3.rel.2 ⟨alike_of (finite_of_mul g1).1 (finite_of_mul g1').1, alike_of (finite_of_mul g2).1 (finite_of_mul g2').1,
    alike_of (finite_of_mul g3).1 (finite_of_mul g3').1⟩
/-- **C74** `is_inside` and `overlaps` do not depend on the scale. -/
theorem C74_inside3 {b b' : BoundingBox3 S} {p p' : Point3 S} (h : ScaledAll k b b') (h' : ScaledAll k p p') :
    b'.isInside p' = b.isInside p := by
  obtain ⟨lx, ly, lz, ux, uy, uz⟩ := BoundingBox3.rel.1 h
  obtain ⟨kx, ky, kz⟩ := Point3.rel.1 h'
  unfold BoundingBox3.isInside
  rw [lx.le kx, kx.le ux, ly.le ky, ky.le uy, lz.le kz, kz.le uz]
theorem C74_overlaps3 {a a' b b' : BoundingBox3 S} (h : ScaledAll k a a') (h' : ScaledAll k b b') :
    a'.overlaps b' = a.overlaps b := by
  obtain ⟨lx, ly, lz, ux, uy, uz⟩ := BoundingBox3.rel.1 h
  obtain ⟨lx', ly', lz', ux', uy', uz'⟩ := BoundingBox3.rel.1 h'
  unfold BoundingBox3.overlaps
  rw [lx'.le ux, lx.le ux', ly'.le uy, ly.le uy', lz'.le uz, lz.le uz']
/-- **C74** Union. -/
theorem C74_union3 {a a' b b' : BoundingBox3 S} (h : ScaledAll k a a') (h' : ScaledAll k b b') :
    ScaledNumAll k (Api.union a b : BoundingBox3 S) (Api.union a' b' : BoundingBox3 S) := by
  obtain ⟨lx, ly, lz, ux, uy, uz⟩ := BoundingBox3.rel.1 h
  obtain ⟨lx', ly', lz', ux', uy', uz'⟩ := BoundingBox3.rel.1 h'
  exact BoundingBox3.rel.2 ⟨(lx.toNum.min lx'.toNum).min (ux.toNum.max ux'.toNum), (ly.toNum.min ly'.toNum).min (uy.toNum.max uy'.toNum), (lz.toNum.min lz'.toNum).min (uz.toNum.max uz'.toNum), (lx.toNum.min lx'.toNum).max (ux.toNum.max ux'.toNum), (ly.toNum.min ly'.toNum).max (uy.toNum.max uy'.toNum), (lz.toNum.min lz'.toNum).max (uz.toNum.max uz'.toNum)⟩
/-- **C74** Union with a point. -/
theorem C74_grow3 {b b' : BoundingBox3 S} {p p' : Point3 S} (h : ScaledAll k b b') (h' : ScaledAll k p p') :
    ScaledNumAll k (Api.union b p : BoundingBox3 S) (Api.union b' p' : BoundingBox3 S) := by
  obtain ⟨lx, ly, lz, ux, uy, uz⟩ := BoundingBox3.rel.1 h
  obtain ⟨kx, ky, kz⟩ := Point3.rel.1 h'
  exact BoundingBox3.rel.2 ⟨(lx.toNum.min kx.toNum).min (ux.toNum.max kx.toNum), (ly.toNum.min ky.toNum).min (uy.toNum.max ky.toNum), (lz.toNum.min kz.toNum).min (uz.toNum.max kz.toNum), (lx.toNum.min kx.toNum).max (ux.toNum.max kx.toNum), (ly.toNum.min ky.toNum).max (uy.toNum.max ky.toNum), (lz.toNum.min kz.toNum).max (uz.toNum.max kz.toNum)⟩
/-- **C74** Intersection. -/
theorem C74_intersect3 {a a' b b' : BoundingBox3 S} (h : ScaledAll k a a') (h' : ScaledAll k b b') :
    match (Api.intersect a b : Option (BoundingBox3 S)), (Api.intersect a' b' : Option (BoundingBox3 S)) with
    | none, none => True
    | some c, some d => ScaledNumAll k c d
    | _, _ => False := by
  have ho := C74_overlaps3 h h'
  have e : ∀ a b : BoundingBox3 S, (Api.intersect a b : Option (BoundingBox3 S)) =
      if a.overlaps b then some (BoundingBox3.new (Api.max a.min b.min) (Api.min a.max b.max)) else none := fun _ _ => rfl
  obtain ⟨lx, ly, lz, ux, uy, uz⟩ := BoundingBox3.rel.1 h
  obtain ⟨lx', ly', lz', ux', uy', uz'⟩ := BoundingBox3.rel.1 h'
  rw [e, e, ho]
  by_cases hb : a.overlaps b = true
  · rw [if_pos hb, if_pos hb]
    exact BoundingBox3.rel.2 ⟨(lx.toNum.max lx'.toNum).min (ux.toNum.min ux'.toNum), (ly.toNum.max ly'.toNum).min (uy.toNum.min uy'.toNum), (lz.toNum.max lz'.toNum).min (uz.toNum.min uz'.toNum), (lx.toNum.max lx'.toNum).max (ux.toNum.min ux'.toNum), (ly.toNum.max ly'.toNum).max (uy.toNum.min uy'.toNum), (lz.toNum.max lz'.toNum).max (uz.toNum.min uz'.toNum)⟩
  · rw [if_neg hb, if_neg hb]; trivial
/-- **C74** Extents, without any condition on underflow. -/
theorem C74_diagonal3 [Binary S] {b b' : BoundingBox3 S} (h : ScaledAll k b b') (hf : AlikeAll b.diagonal b'.diagonal) :
    ScaledAll k b.diagonal b'.diagonal := by
  obtain ⟨lx, ly, lz, ux, uy, uz⟩ := BoundingBox3.rel.1 h
  obtain ⟨fx, fy, fz⟩ := Vector3.rel.1 hf
  exact Vector3.rel.2 ⟨ux.sub lx fx, uy.sub ly fy, uz.sub lz fz⟩
/-- **C74** The dimension of least and of greatest extent. -/
theorem C74_dimension3 [Binary S] {b b' : BoundingBox3 S} (h : ScaledAll k b b') (hf : AlikeAll b.diagonal b'.diagonal) :
    b'.minDimension = b.minDimension ∧ b'.maxDimension = b.maxDimension := by
  obtain ⟨hx, hy, hz⟩ := Vector3.rel.1 (C74_diagonal3 h hf)
  unfold BoundingBox3.minDimension BoundingBox3.maxDimension
  simp only [hx.le hy, hx.lt hy, hx.le hz, hx.lt hz, hy.le hx, hy.lt hx, hy.le hz, hy.lt hz, hz.le hx, hz.lt hx, hz.le hy, hz.lt hy, and_self]
/-- **C74** The center, if no half extent underflows. -/
theorem C74_center3 [Binary S] {b b' : BoundingBox3 S} (h : ScaledAll k b b')
    (n : ∀ i, Normal S (b.diagonal.toReal i * (1 / 2))) (n' : ∀ i, Normal S (b'.diagonal.toReal i * (1 / 2)))
    (hf : AllFinite b.center) (hf' : AllFinite b'.center) : ScaledAll k b.center b'.center := by
  have hh : Scaled 0 (half : S) half := .refl _
  obtain ⟨cx, cy, cz⟩ := Point3.allFinite.1 hf
  obtain ⟨cx', cy', cz'⟩ := Point3.allFinite.1 hf'
  obtain ⟨lx, ly, lz, ux, uy, uz⟩ := BoundingBox3.rel.1 h
  have key : ∀ {lo lo' hi hi' : S}, Scaled k lo lo' → Scaled k hi hi' → Normal S (real (hi - lo) * (1 / 2)) →
      Normal S (real (hi' - lo') * (1 / 2)) → IsFinite (lo + (hi - lo) * half) → IsFinite (lo' + (hi' - lo') * half) →
      Scaled k (lo + (hi - lo) * half) (lo' + (hi' - lo') * half) := by
    intro lo lo' hi hi' hl hu m m' g g'
    have g1 := (finite_of_add g).2
    have g1' := (finite_of_add g').2
    have s1 := hu.sub hl (alike_of (finite_of_mul g1).1 (finite_of_mul g1').1)
    have s2 := s1.mul hh (by rw [real_half]; exact m) (by rw [real_half]; exact m') (alike_of g1 g1')
    rw [add_zero] at s2
    exact hl.add s2 (alike_of g g')
  exact Point3.rel.2 ⟨key lx ux (n 0) (n' 0) cx cx', key ly uy (n 1) (n' 1) cy cy', key lz uz (n 2) (n' 2) cz cz'⟩
/-- **C74** The ray/box test does not depend on the unit of length: if box and ray are scaled alike and the differences
overflow on both scales or on neither, the parameters are the same. -/
theorem C74_hit3 [Binary S] {b b' : BoundingBox3 S} {r r' : Ray3 S} (hb : ScaledAll k b b')
    (ho : ScaledAll k r.origin r'.origin) (hd : ScaledAll k r.direction r'.direction)
    (h1 : AlikeAll (b.min - r.origin) (b'.min - r'.origin)) (h2 : AlikeAll (b.max - r.origin) (b'.max - r'.origin)) :
    SameHit (Api.intersect b r) (Api.intersect b' r') := by
  obtain ⟨lx, ly, lz, ux, uy, uz⟩ := BoundingBox3.rel.1 hb
  obtain ⟨ox, oy, oz⟩ := Point3.rel.1 ho
  obtain ⟨dx, dy, dz⟩ := Vector3.rel.1 hd
  obtain ⟨ax, ay, az⟩ := Vector3.rel.1 h1
  obtain ⟨ex, ey, ez⟩ := Vector3.rel.1 h2
  have px := same_num' ((lx.sub ox ax).div_same dx)
  have qx := same_num' ((ux.sub ox ex).div_same dx)
  have mx := loVal_congr (num_min_congr px qx)
  have nx := hiVal_congr (num_max_congr px qx)
  have py := same_num' ((ly.sub oy ay).div_same dy)
  have qy := same_num' ((uy.sub oy ey).div_same dy)
  have my := loVal_congr (num_min_congr py qy)
  have ny := hiVal_congr (num_max_congr py qy)
  have pz := same_num' ((lz.sub oz az).div_same dz)
  have qz := same_num' ((uz.sub oz ez).div_same dz)
  have mz := loVal_congr (num_min_congr pz qz)
  have nz := hiVal_congr (num_max_congr pz qz)
  apply sameHit_of3
  · unfold startVal3 near
    rw [mx, my, mz]
  · unfold stopVal3 far
    rw [nx, ny, nz]
/-- **C74** If box and origin are scaled by `2^j` and the direction by `2^k`, the parameters are scaled by `2^(j-k)`,
provided no quotient underflows and overflow happens on both scales or on neither. -/
theorem C74_hit_scaled3 [Binary S] {b b' : BoundingBox3 S} {r r' : Ray3 S} (hb : ScaledAll j b b')
    (ho : ScaledAll j r.origin r'.origin) (hd : ScaledAll k r.direction r'.direction)
    (h1 : AlikeAll (b.min - r.origin) (b'.min - r'.origin)) (h2 : AlikeAll (b.max - r.origin) (b'.max - r'.origin))
    (s1 : QuotientsSafe3 (b.min - r.origin) r.direction (b'.min - r'.origin) r'.direction)
    (s2 : QuotientsSafe3 (b.max - r.origin) r.direction (b'.max - r'.origin) r'.direction) :
    ScaledHit (j - k) (Api.intersect b r) (Api.intersect b' r') := by
  obtain ⟨lx, ly, lz, ux, uy, uz⟩ := BoundingBox3.rel.1 hb
  obtain ⟨ox, oy, oz⟩ := Point3.rel.1 ho
  obtain ⟨dx, dy, dz⟩ := Vector3.rel.1 hd
  obtain ⟨ax, ay, az⟩ := Vector3.rel.1 h1
  obtain ⟨ex, ey, ez⟩ := Vector3.rel.1 h2
  obtain ⟨sx, sy, sz⟩ := s1
  obtain ⟨tx, ty, tz⟩ := s2
  have px := ((lx.sub ox ax).div dx (.inr ⟨sx.1, sx.2.1⟩) (.inl sx.2.2)).toNum
  have qx := ((ux.sub ox ex).div dx (.inr ⟨tx.1, tx.2.1⟩) (.inl tx.2.2)).toNum
  have mx := (px.min qx).loVal
  have nx := (px.max qx).hiVal
  have py := ((ly.sub oy ay).div dy (.inr ⟨sy.1, sy.2.1⟩) (.inl sy.2.2)).toNum
  have qy := ((uy.sub oy ey).div dy (.inr ⟨ty.1, ty.2.1⟩) (.inl ty.2.2)).toNum
  have my := (py.min qy).loVal
  have ny := (py.max qy).hiVal
  have pz := ((lz.sub oz az).div dz (.inr ⟨sz.1, sz.2.1⟩) (.inl sz.2.2)).toNum
  have qz := ((uz.sub oz ez).div dz (.inr ⟨tz.1, tz.2.1⟩) (.inl tz.2.2)).toNum
  have mz := (pz.min qz).loVal
  have nz := (pz.max qz).hiVal
  apply scaledHit_of3
  · unfold startVal3 near
    rw [mx, my, mz]
    rw [stretch_max3]
  · unfold stopVal3 far
    rw [nx, ny, nz]
    rw [stretch_min3]
end
section
variable {j k : ℤ}
/-- **C74** Volume, if neither product underflows. -/
theorem C74_volume [Binary S] {b b' : BoundingBox3 S} (h : ScaledAll k b b') (n : Normal S (real b.width * real b.height))
    (n' : Normal S (real b'.width * real b'.height)) (m : Normal S (real (b.width * b.height) * real b.depth))
    (m' : Normal S (real (b'.width * b'.height) * real b'.depth)) (hf : IsFinite b.volume) (hf' : IsFinite b'.volume) :
    Scaled (3 * k) b.volume b'.volume := by
  obtain ⟨lx, ly, lz, ux, uy, uz⟩ := BoundingBox3.rel.1 h
  obtain ⟨g, f3⟩ := finite_of_mul (a := b.width * b.height) (b := b.depth) hf
  obtain ⟨g', f3'⟩ := finite_of_mul (a := b'.width * b'.height) (b := b'.depth) hf'
  obtain ⟨f1, f2⟩ := finite_of_mul (a := b.width) (b := b.height) g
  obtain ⟨f1', f2'⟩ := finite_of_mul (a := b'.width) (b := b'.height) g'
  rw [show 3 * k = k + k + k by ring]
  exact ((ux.sub lx (alike_of f1 f1')).mul (uy.sub ly (alike_of f2 f2')) n n' (alike_of g g')).mul
    (uz.sub lz (alike_of f3 f3')) m m' (alike_of hf hf')
/-- **C74** Cross products, if no product underflows. -/
theorem C74_cross [Binary S] {u u' v v' : Vector3 S} (h : ScaledAll j u u') (h' : ScaledAll k v v')
    (n : ∀ i l : Fin 3, i ≠ l → Normal S (u.toReal i * v.toReal l)) (n' : ∀ i l : Fin 3, i ≠ l → Normal S (u'.toReal i * v'.toReal l))
    (hf : AllFinite (Api.cross u v)) (hf' : AllFinite (Api.cross u' v')) :
    ScaledAll (j + k) (Api.cross u v) (Api.cross u' v') := by
  obtain ⟨hx, hy, hz⟩ := Vector3.rel.1 h
  obtain ⟨kx, ky, kz⟩ := Vector3.rel.1 h'
  obtain ⟨fx, fy, fz⟩ := Vector3.allFinite.1 hf
  obtain ⟨fx', fy', fz'⟩ := Vector3.allFinite.1 hf'
  exact Vector3.rel.2 ⟨
    Scaled.det2 hy kz hz ky (n 1 2 (by decide)) (n' 1 2 (by decide)) (n 2 1 (by decide)) (n' 2 1 (by decide)) fx fx',
    Scaled.det2 hz kx hx kz (n 2 0 (by decide)) (n' 2 0 (by decide)) (n 0 2 (by decide)) (n' 0 2 (by decide)) fy fy',
    Scaled.det2 hx ky hy kx (n 0 1 (by decide)) (n' 0 1 (by decide)) (n 1 0 (by decide)) (n' 1 0 (by decide)) fz fz'⟩
end

end VecMath
