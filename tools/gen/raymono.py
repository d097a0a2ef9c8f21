out=open('/verif/lean/Verif/Props/FloatRayMono.lean','w')
out.write('''import Verif.Spec.Near
import Verif.Props.FloatMono
import Verif.Props.FloatEq
import Verif.Props.FloatMatrix
import Verif.Lemmas.Near
/-!
# Layer F: walking along a ray in rounded arithmetic (C88), and the segment between two points (C87)

Generated by tools/gen/raymono.py.
-/

open Classical

namespace VecMath
open Scalar IEEE

section
variable {S : Type} [Scalar S] [IEEE S]

theorem not_nan_add_fin {o x : S} (ho : IsFinite o) (hx : ¬ IsNaN x) : ¬ IsNaN (o + x) := by
  unfold IsNaN IsFinite at *; rw [den_add]
  generalize den x = v at *
  induction v using Val.cases_inf_fin with
  | hn => exact (hx rfl).elim
  | hi s => rw [Rounding.add_fin_inf _ ho]; simp
  | hf y hy => rw [Rounding.add_fin _ ho hy]; exact Rounding.finish_ne_nan _ _ _
theorem not_nan_sub_fin {o x : S} (ho : IsFinite o) (hx : ¬ IsNaN x) : ¬ IsNaN (x - o) := by
  intro h
  refine not_nan_add_fin (finite_neg.2 ho) hx (?_ : IsNaN (-o + x))
  have := (same_sub x o).isNaN.1 h
  unfold IsNaN at *; rw [den_add] at *; rw [Rounding.add_comm]; exact this
theorem not_nan_mul_fin {d t : S} (hd : IsFinite d) (ht : IsFinite t) : ¬ IsNaN (d * t) := by
  unfold IsNaN; rw [mul_finite hd ht]; exact Rounding.finish_ne_nan _ _ _
/-- One coordinate of `ray.at` is never NaN. -/
theorem at_not_nan {o d t : S} (ho : IsFinite o) (hd : IsFinite d) (ht : IsFinite t) : ¬ IsNaN (o + d * t) :=
  not_nan_add_fin ho (not_nan_mul_fin hd ht)
theorem le_fin {a b : S} (ha : IsFinite a) (hb : IsFinite b) : (a ≤? b) = true ↔ real a ≤ real b := by
  rw [le_iff, ha.val, hb.val, EReal.coe_le_coe_iff]
  exact ⟨fun h => h.2.2, fun h => ⟨ha.not_nan, hb.not_nan, h⟩⟩
/-- One coordinate of `ray.at` is monotone. -/
theorem at_moves {o d s t : S} (ho : IsFinite o) (hd : IsFinite d) (hs : IsFinite s) (ht : IsFinite t)
    (h : (s ≤? t) = true) : MovesAlong d (o + d * s) (o + d * t) := by
  rw [le_fin hs ht] at h
  have key : ∀ {s t : S}, IsFinite s → IsFinite t → real d * real s ≤ real d * real t →
      (o + d * s ≤? o + d * t) = true := fun {s t} hs ht h => by
    refine le_iff.2 ⟨at_not_nan ho hd hs, at_not_nan ho hd ht, ?_⟩
    refine val_add_mono le_rfl ?_ (at_not_nan ho hd hs) (at_not_nan ho hd ht)
    unfold val; rw [mul_finite hd hs, mul_finite hd ht]; exact Rounding.finish_mono _ h
  refine ⟨fun h0 => key hs ht ?_, fun h0 => key ht hs ?_⟩
  · rw [le_fin finite_zero hd, real_zero] at h0
    exact mul_le_mul_of_nonneg_left h h0
  · rw [le_fin hd finite_zero, real_zero] at h0
    exact mul_le_mul_of_nonpos_left h h0
theorem sign_total {d : S} (hd : IsFinite d) : (zero ≤? d) = true ∨ (d ≤? zero) = true := by
  rw [le_fin hd finite_zero, le_fin finite_zero hd, real_zero]; exact le_total _ _
/-- One coordinate between two others. -/
theorem at_between {o d s u t lo hi : S} (ho : IsFinite o) (hd : IsFinite d) (hs : IsFinite s) (hu : IsFinite u)
    (ht : IsFinite t) (h1 : (s ≤? u) = true) (h2 : (u ≤? t) = true) :
    ((o + d * s ≥? lo) = true → (o + d * t ≥? lo) = true → (o + d * u ≥? lo) = true) ∧
    ((o + d * s ≤? hi) = true → (o + d * t ≤? hi) = true → (o + d * u ≤? hi) = true) := by
  have m1 := at_moves ho hd hs hu h1
  have m2 := at_moves ho hd hu ht h2
  rcases sign_total hd with h | h
  · exact ⟨fun a _ => le_trans' a (m1.1 h), fun _ a => le_trans' (m2.1 h) a⟩
  · exact ⟨fun _ a => le_trans' a (m2.2 h), fun a _ => le_trans' (m1.2 h) a⟩
/-- One coordinate of the way from the origin grows. -/
theorem at_grows {o d s t : S} (ho : IsFinite o) (hd : IsFinite d) (hs : IsFinite s) (ht : IsFinite t)
    (h0 : (zero ≤? s) = true) (h : (s ≤? t) = true) :
    (Scalar.abs (o + d * s - o) ≤? Scalar.abs (o + d * t - o)) = true := by
  have m := at_moves ho hd hs ht h
  have m0 := at_moves ho hd finite_zero hs h0
  have ns := not_nan_sub_fin ho (at_not_nan ho hd hs)
  have nt := not_nan_sub_fin ho (at_not_nan ho hd ht)
  have no := not_nan_sub_fin ho ho.not_nan
  have e0 : val (o + d * zero) = val o :=
    (beq_iff.1 (beq_of_num' (by rw [num_add_congr rfl (num_mul_zero hd), num_add_zero]) ho.not_nan)).2.2
  have z0 : val (o - o) = 0 := by
    unfold val; rw [sub_finite ho ho, sub_self, Rounding.finish_zero]; generalize ((den o).neg? && !(den o).neg?) = w; cases w <;> rfl
  have na : ∀ {x : S}, ¬ IsNaN x → ¬ IsNaN (Scalar.abs x) := fun {x} hx hc => hx (by
    unfold IsNaN at *; rw [den_abs] at hc; revert hc; cases den x <;> simp [Val.abs])
  refine le_iff.2 ⟨na ns, na nt, ?_⟩
  rw [val_abs_eq_max, val_abs_eq_max]
  rcases sign_total hd with hd0 | hd0
  · have a := (le_iff.1 (m0.1 hd0)).2.2
    rw [e0] at a
    have a := val_sub_mono a (le_refl (val o)) no ns
    have b := val_sub_mono (le_iff.1 (m.1 hd0)).2.2 (le_refl (val o)) ns nt
    rw [z0] at a
    have np : ∀ {x : EReal}, 0 ≤ x → -x ≤ x := fun {x} hx => by
      have := EReal.neg_le_neg_iff.2 hx
      rw [neg_zero] at this; exact this.trans hx
    rw [max_eq_left (np a), max_eq_left (np (a.trans b))]
    exact b
  · have a := (le_iff.1 (m0.2 hd0)).2.2
    rw [e0] at a
    have a := val_sub_mono a (le_refl (val o)) ns no
    have b := val_sub_mono (le_iff.1 (m.2 hd0)).2.2 (le_refl (val o)) nt ns
    rw [z0] at a
    rw [max_eq_right (a.trans (EReal.neg_nonneg.2 a)), max_eq_right ((b.trans a).trans (EReal.neg_nonneg.2 (b.trans a)))]
    exact EReal.neg_le_neg_iff.2 b

/-! ## C88 -/
''')
for n,cs in ((2,'xy'),(3,'xyz')):
    R=f'Ray{n}';P=f'Point{n}';B=f'BoundingBox{n}';V=f'Vector{n}'
    pr=lambda i: '.1' if i==0 else ('.2' if n==2 else ('.2.1' if i==1 else '.2.2'))
    oh=[f'hr.1{pr(i)}' for i in range(n)]; dh=[f'hr.2{pr(i)}' for i in range(n)]
    mv=' ∧\n      '.join(f'MovesAlong r.direction.{c} (r.at s).{c} (r.at t).{c}' for c in cs)
    open_r=f'''  rw [{R}.allFinite, {P}.allFinite, {V}.allFinite] at hr
'''
    tl = '' if n==2 else ', 3D'
    out.write(f'''
/-- **C88**{tl}: further along a finite ray every coordinate has moved in the direction of the ray or stayed, and none
is ever NaN. -/
theorem C88_monotone{n} (r : {R} S) (hr : AllFinite r) (s t : S) (hs : IsFinite s) (ht : IsFinite t)
    (h : (s ≤? t) = true) : NoNaN (r.at t) ∧
      {mv} := by
{open_r}  exact ⟨{P}.noNaN.2 ⟨{', '.join(f'at_not_nan {oh[i]} {dh[i]} ht' for i in range(n))}⟩,
    {', '.join(f'at_moves {oh[i]} {dh[i]} hs ht h' for i in range(n))}⟩

/-- **C88**{tl}: the parameters at which a ray is inside a box form an interval: between two of them there is no gap. -/
theorem C88_convex{n} (r : {R} S) (hr : AllFinite r) (b : {B} S) (s u t : S) (hs : IsFinite s) (hu : IsFinite u)
    (ht : IsFinite t) (h1 : (s ≤? u) = true) (h2 : (u ≤? t) = true) (bs : b.isInside (r.at s) = true)
    (bt : b.isInside (r.at t) = true) : b.isInside (r.at u) = true := by
{open_r}  unfold {B}.isInside at *
  simp only [Bool.and_eq_true] at *
''')
    # isInside nested and: ((a∧b)∧c)∧d ...
    m=2*n
    def proj(h,j):
        # left-assoc conj of m items, item j
        return h + '.1'*(m-1-j) + ('' if j==0 else '.2')
    items=[]
    for i in range(n):
        for k in (0,1):
            j=2*i+k
            items.append(f'(at_between (lo := b.min.{cs[i]}) (hi := b.max.{cs[i]}) {oh[i]} {dh[i]} hs hu ht h1 h2).{k+1} {proj("bs",j)} {proj("bt",j)}')
    e=items[0]
    for it in items[1:]: e=f'⟨{e},\n    {it}⟩'
    out.write(f'  exact {e}\n')
    out.write(f'''
/-- **C88**{tl}: every point of the ray between two others is inside the box they span. -/
theorem C88_span{n} (r : {R} S) (hr : AllFinite r) (s u t : S) (hs : IsFinite s) (hu : IsFinite u)
    (ht : IsFinite t) (h1 : (s ≤? u) = true) (h2 : (u ≤? t) = true) :
    ({B}.new (r.at s) (r.at t)).isInside (r.at u) = true := by
  have us := (C88_monotone{n} r hr s s hs hs (le_iff.2 ⟨hs.not_nan, hs.not_nan, le_rfl⟩)).1
  have ut := (C88_monotone{n} r hr t t ht ht (le_iff.2 ⟨ht.not_nan, ht.not_nan, le_rfl⟩)).1
  have hn := C24_new{n} _ _ us ut
  exact C88_convex{n} r hr _ s u t hs hu ht h1 h2 hn.2.1 hn.2.2.1

/-- **C88**{tl}: further along the ray the computed distance to the origin never shrinks. -/
theorem C88_distance{n} (r : {R} S) (hr : AllFinite r) (s t : S) (hs : IsFinite s) (ht : IsFinite t)
    (h0 : (zero ≤? s) = true) (h : (s ≤? t) = true) :
    ((Api.distance r.origin (r.at s) : S) ≤? Api.distance r.origin (r.at t)) = true := by
{open_r}  exact C69_length{n} (r.at s - r.origin) (r.at t - r.origin) ({V}.leAll.2
    ⟨{', '.join(f'at_grows {oh[i]} {dh[i]} hs ht h0 h' for i in range(n))}⟩)
''')
out.write('''
end

/-! ## C87 -/

section
variable {S : Type} [Scalar S] [IEEE S] [Binary S]
theorem at_one {a b : S} (h : Nearby a b) : (b + (a - b) * one == a) = true := by
  have := num_add_congr (rfl : num b = num b) (num_mul_one (a - b))
  exact beq_of_num' (this.trans (num_of_beq h.back)) h.1.not_nan
''')
for n,cs in ((2,'xy'),(3,'xyz')):
    R=f'Ray{n}';P=f'Point{n}';B=f'BoundingBox{n}';V=f'Vector{n}';T=f'Transform{n}'
    pr=lambda i: '.1' if i==0 else ('.2' if n==2 else ('.2.1' if i==1 else '.2.2'))
    h=[f'h{pr(i)}' for i in range(n)]
    tl = '' if n==2 else ', 3D'
    J=lambda f: ', '.join(f(i) for i in range(n))
    fin='fin_cases i\n    exacts ['+J(lambda i: h[i]+'.sub.2')+']'
    out.write(f'''
/-- **C87**{tl}: the difference of two vectors with nearby components is exact, and adding it back returns. -/
theorem C87_vector{n} (u v : {V} S) (h : NearbyAll u v) :
    AllFinite (u - v) ∧ (∀ i, (u - v).toReal i = u.toReal i - v.toReal i) ∧
    (v + (u - v) == u) = true ∧ (u - (u - v) == v) = true := by
  rw [{V}.nearbyAll] at h
  refine ⟨{V}.allFinite.2 ⟨{J(lambda i: h[i]+'.sub.1')}⟩, fun i => ?_,
    {V}.beq_iff.2 ⟨{J(lambda i: h[i]+'.back')}⟩, {V}.beq_iff.2 ⟨{J(lambda i: h[i]+"'").replace("'",".back'")}⟩⟩
  · {fin}

/-- **C87**{tl}: the way from a point to a nearby one is exact; going it arrives exactly, whether by adding it, by
translating by it, or by evaluating the ray along it at 1. -/
theorem C87_point{n} (p q : {P} S) (h : NearbyAll q p) :
    AllFinite (q - p) ∧ (∀ i, (q - p).toReal i = q.toReal i - p.toReal i) ∧
    (p + (q - p) == q) = true ∧ (q - (q - p) == p) = true ∧
    (Transform.transform ({T}.translate (q - p)) p == q) = true ∧
    (({R}.new p (q - p)).at one == q) = true ∧ (({R}.new p (q - p)).at zero == p) = true := by
  rw [{P}.nearbyAll] at h
  have fd : AllFinite (q - p) := {V}.allFinite.2 ⟨{J(lambda i: h[i]+'.sub.1')}⟩
  have fp : AllFinite p := {P}.allFinite.2 ⟨{J(lambda i: h[i]+'.2.1')}⟩
  have back : (p + (q - p) == q) = true := {P}.beq_iff.2 ⟨{J(lambda i: h[i]+'.back')}⟩
  refine ⟨fd, fun i => ?_, back, {P}.beq_iff.2 ⟨{J(lambda i: h[i]+"'").replace("'",".back'")}⟩, ?_,
    {P}.beq_iff.2 ⟨{J(lambda i: 'at_one '+h[i])}⟩, C23_float_start{n} ({R}.new p (q - p)) fp.noNaN fd⟩
  · {fin}
  · exact C58_point{n}.trans _ _ _ (C46_float_translate{n} (q - p) (q - p) p fp fd.noNaN fd).1 back

/-- **C87**{tl}: every point of the segment from `p` to a nearby `q` computed with a parameter from 0 to 1 lies in the
box spanned by `p` and `q`. -/
theorem C87_segment{n} (p q : {P} S) (h : NearbyAll q p) (t : S) (h0 : (zero ≤? t) = true) (h1 : (t ≤? one) = true) :
    ({B}.new p q).isInside (({R}.new p (q - p)).at t) = true := by
  obtain ⟨fd, -, -, -, -, b1, b0⟩ := C87_point{n} p q h
  rw [{P}.nearbyAll] at h
  have fp : AllFinite p := {P}.allFinite.2 ⟨{J(lambda i: h[i]+'.2.1')}⟩
  have fq : AllFinite q := {P}.allFinite.2 ⟨{J(lambda i: h[i]+'.1')}⟩
  have ft : IsFinite t := by
    have a := le_iff.1 h0
    have b := le_iff.1 h1
    rw [finite_zero.val] at a; rw [finite_one.val] at b
    exact finite_iff.2 ⟨a.2.1, (b.2.2.trans_lt (EReal.coe_lt_top _)).ne, ((EReal.bot_lt_coe _).trans_le a.2.2).ne'⟩
  have hn := C24_new{n} p q fp.noNaN fq.noNaN
  have cong : ∀ a b : {P} S, (a == b) = true → ({B}.new p q).isInside b = true → ({B}.new p q).isInside a = true := by
    intro a b hab hb
    rw [(C25_inside{n} _ _).1, {P}.leAll, {P}.leAll] at hb ⊢
    rw [{P}.beq_iff] at hab
    simp only [le_iff, beq_iff] at *
    obtain ⟨{', '.join(f'⟨n{c}, m{c}, e{c}⟩' for c in cs)}⟩ := hab
    simpa only [{', '.join(f'e{c}, n{c}, m{c}' for c in cs)}] using hb
  exact C88_convex{n} ({R}.new p (q - p)) ({R}.allFinite.2 ⟨fp, fd⟩) _ zero t one finite_zero ft finite_one h0 h1
    (cong _ _ b0 hn.2.1) (cong _ _ b1 hn.2.2.1)
''')
out.write('''
/-- **C87**: the extents of a box with nearby corners are exact. -/
theorem C87_box2 (b : BoundingBox2 S) (h : NearbyAll b.max b.min) :
    Exactly b.width (real b.max.x - real b.min.x) ∧ Exactly b.height (real b.max.y - real b.min.y) ∧
    (b.min + b.diagonal == b.max) = true := by
  have := (C87_point2 b.min b.max h).2.2.1
  rw [Point2.nearbyAll] at h
  exact ⟨h.1.sub, h.2.sub, this⟩
/-- **C87**, 3D. -/
theorem C87_box3 (b : BoundingBox3 S) (h : NearbyAll b.max b.min) :
    Exactly b.width (real b.max.x - real b.min.x) ∧ Exactly b.height (real b.max.y - real b.min.y) ∧
    Exactly b.depth (real b.max.z - real b.min.z) ∧ (b.min + b.diagonal == b.max) = true := by
  have := (C87_point3 b.min b.max h).2.2.1
  rw [Point3.nearbyAll] at h
  exact ⟨h.1.sub, h.2.1.sub, h.2.2.sub, this⟩
end

end VecMath
''')
out.close()
