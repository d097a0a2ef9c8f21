out=[]
A=out.append
A('''import Verif.Spec.Clip
import Verif.Props.FloatCurve
import Verif.Props.FloatShadow
import Verif.Props.FloatPersp
import Verif.Props.FloatExact
/-! # C126: clipping by planes -/

namespace VecMath
open Scalar IEEE

/-! ## For every scalar type: which points are kept -/
section
variable {S : Type} [Scalar S]
''')
for k in '23':
    A(f'''/-- **C126**: the points inside are kept. -/
theorem C126_keep{k} (n : Vector{k} S) (d : S) (ps : List (Point{k} S)) (p : Point{k} S) (h : p ∈ ps) (hp : (d ≤? n.along p) = true) : p ∈ n.clip d ps :=
  List.mem_append_left _ (List.mem_filter.2 ⟨h, hp⟩)
/-- **C126**: what is in the result was kept, or is the crossing of a point inside and a point outside. -/
theorem C126_mem{k} (n : Vector{k} S) (d : S) (ps : List (Point{k} S)) (c : Point{k} S) : c ∈ n.clip d ps ↔
    (c ∈ ps ∧ (d ≤? n.along c) = true) ∨ ∃ p ∈ ps, ∃ q ∈ ps, (d ≤? n.along p) = true ∧ (d ≤? n.along q) = false ∧ c = Point{k}.cut n d p q := by
  simp only [Vector{k}.clip, Vector{k}.kept, Vector{k}.dropped, List.mem_append, List.mem_filter, List.mem_flatMap, List.mem_map]
  refine or_congr Iff.rfl ⟨?_, ?_⟩
  · rintro ⟨p, ⟨hp, kp⟩, q, ⟨hq, kq⟩, rfl⟩
    exact ⟨p, hp, q, hq, kp, by simpa using kq, rfl⟩
  · rintro ⟨p, hp, q, hq, kp, kq, rfl⟩
    exact ⟨p, ⟨hp, kp⟩, q, ⟨hq, by simpa using kq⟩, rfl⟩
/-- **C126**: if all the points are inside, nothing changes. -/
theorem C126_all{k} (n : Vector{k} S) (d : S) (ps : List (Point{k} S)) (h : ∀ p ∈ ps, (d ≤? n.along p) = true) : n.clip d ps = ps := by
  have e1 : n.kept d ps = ps := List.filter_eq_self.2 h
  have e2 : n.dropped d ps = [] := List.filter_eq_nil_iff.2 fun p hp => by simp [h p hp]
  rw [Vector{k}.clip, e1, e2]
  simp
/-- **C126**: if no point is inside, nothing is left. -/
theorem C126_none{k} (n : Vector{k} S) (d : S) (ps : List (Point{k} S)) (h : ∀ p ∈ ps, (d ≤? n.along p) = false) : n.clip d ps = [] := by
  have e1 : n.kept d ps = [] := List.filter_eq_nil_iff.2 fun p hp => by simp [h p hp]
  rw [Vector{k}.clip, e1]
  simp
/-- **C126**: one edge: the crossing replaces the point outside. -/
theorem C126_edge{k} (n : Vector{k} S) (d : S) (p q : Point{k} S) (hp : (d ≤? n.along p) = true) (hq : (d ≤? n.along q) = false) :
    n.clip d [p, q] = [p, Point{k}.cut n d p q] ∧ n.clip d [q, p] = [p, Point{k}.cut n d p q] := by
  constructor <;> simp [Vector{k}.clip, Vector{k}.kept, Vector{k}.dropped, hp, hq]
''')
A('''end

/-! ## In every binary format -/
section
variable {S : Type} [Scalar S] [IEEE S] [Binary S]
theorem cut_param {a b d : S} (ha : IsFinite a) (hb : IsFinite b) (hd : IsFinite d) (ka : (d ≤? a) = true) (kb : (d ≤? b) = false) (hw : IsFinite (b - a)) :
    (zero ≤? (d - a) / (b - a)) = true ∧ ((d - a) / (b - a) ≤? one) = true := by
  have la : real d ≤ real a := (ole_real' hd ha).1 ka
  have lb : real b < real d := by
    rw [← Bool.not_eq_true, ole_real' hd hb, not_le] at kb
    exact kb
  have cw := correct_sub hb ha
  have hx : IsFinite (d - a) := by
    refine (correct_sub hd ha).1.2 (lt_of_le_of_lt ?_ (cw.1.1 hw))
    rw [abs_of_nonpos (by linarith), abs_of_nonpos (by linarith)]
    linarith
  have w0 : real (b - a) < 0 := (sub_pos_iff hw).2.1.2 (by linarith)
  have x0 : real (d - a) ≤ 0 := by
    rw [IEEE.real_sub hx]
    exact (IEEE.A S).rnd_nonpos (by linarith)
  have le : real (b - a) ≤ real (d - a) := by
    rw [IEEE.real_sub hx, IEEE.real_sub hw]
    exact (IEEE.A S).rnd_mono (by linarith)
  have h1 : ((d - a) / (b - a) ≤? one) = true := by
    rw [div_le_one_neg hw w0]
    exact (ole_real' hw hx).2 le
  have h2 : (-one ≤? (d - a) / (b - a)) = true := by
    rw [one_le_div_neg hw w0]
    refine (ole_real' hx (finite_neg.2 hw)).2 ?_
    rw [IEEE.real_neg]
    linarith
  have ft : IsFinite ((d - a) / (b - a)) := finite_btw (finite_neg.2 finite_one) finite_one h2 h1
  refine ⟨(ole_real' finite_zero ft).2 ?_, h1⟩
  rw [real_zero, IEEE.real_div hx hw w0.ne ft]
  exact (IEEE.A S).rnd_nonneg (div_nonneg_of_nonpos x0 w0.le)
''')
for k in '23':
    A(f'''/-- **C126**: the computed parameter of a crossing is between `0` and `1`. -/
theorem C126_parameter{k} (n : Vector{k} S) (d : S) (p q : Point{k} S) (hd : IsFinite d) (hw : IsFinite (n.along q - n.along p))
    (kp : (d ≤? n.along p) = true) (kq : (d ≤? n.along q) = false) :
    (zero ≤? (d - n.along p) / (n.along q - n.along p)) = true ∧ ((d - n.along p) / (n.along q - n.along p) ≤? one) = true :=
  cut_param (finite_of_sub hw).2 (finite_of_sub hw).1 hd kp kq hw
/-- **C126**: a new point does not leave the boxes that hold `p` and `p + (q - p)`. -/
theorem C126_between{k} (n : Vector{k} S) (d : S) (p q : Point{k} S) (hp : AllFinite p) (hq : AllFinite (q - p)) (hd : IsFinite d)
    (hw : IsFinite (n.along q - n.along p)) (kp : (d ≤? n.along p) = true) (kq : (d ≤? n.along q) = false)
    (b : BoundingBox{k} S) (bp : b.isInside p = true) (bq : b.isInside (Point{k}.mix one p q) = true) : b.isInside (Point{k}.cut n d p q) = true := by
  obtain ⟨h0, h1⟩ := C126_parameter{k} n d p q hd hw kp kq
  exact C118_between{k} p q hp hq _ h0 h1 b bp bq
/-- **C126**: if the differences of the points are not rounded, clipping does not leave the boxes that hold the points. -/
theorem C126_box{k} (n : Vector{k} S) (d : S) (ps : List (Point{k} S)) (hd : IsFinite d) (hp : ∀ p ∈ ps, AllFinite p)
    (hq : ∀ p ∈ ps, ∀ q ∈ ps, AllFinite (q - p) ∧ (p + (q - p) == q) = true ∧ IsFinite (n.along q - n.along p))
    (b : BoundingBox{k} S) (hb : ∀ p ∈ ps, b.isInside p = true) : ∀ c ∈ n.clip d ps, b.isInside c = true := by
  intro c hc
  rcases (C126_mem{k} n d ps c).1 hc with ⟨h, -⟩ | ⟨p, h, q, h', kp, kq, rfl⟩
  · exact hb c h
  · obtain ⟨f, e, w⟩ := hq p h q h'
    obtain ⟨h0, h1⟩ := C126_parameter{k} n d p q hd w kp kq
    exact C118_segment{k} p q (hp p h) f e _ h0 h1 b (hb p h) (hb q h')
''')
for k,c in (('2',2),('3',3)):
    A(f'''/-- **C126**: on data with few bits the test whether a point is inside is exact: the points kept are exactly those in the half-space. -/
theorem C126_exact{k} (n : Vector{k} S) (d : S) (ps : List (Point{k} S)) (e f : ℤ) (M N : ℕ) (hn : AllFinite n) (hd : IsFinite d) (hp : ∀ p ∈ ps, AllFinite p)
    (gn : ∀ i, OnGrid e M (n.toReal i)) (gp : ∀ p ∈ ps, ∀ i, OnGrid f N (p.toReal i)) (hF : Fits S (e + f) ({c} * (M * N))) (p : Point{k} S) :
    p ∈ n.kept d ps ↔ p ∈ ps ∧ real d ≤ n.toReal ⬝ᵥ p.toReal := by
  rw [Vector{k}.kept, List.mem_filter]
  refine and_congr_right fun h => ?_
  have hv : AllFinite (Vector{k}.fromPoint p) := Vector{k}.allFinite.2 (Point{k}.allFinite.1 (hp p h))
  have ex := C68_dot{k} n (Vector{k}.fromPoint p) hn hv gn (gp p h) hF
  have f : IsFinite (n.along p) := ex.1
  rw [ole_real' hd f, show real (n.along p) = _ from ex.2]
  exact Iff.rfl
''')
A('''end

end VecMath''')
open('/tmp/d/FloatClip.lean','w').write('\n'.join(out))
