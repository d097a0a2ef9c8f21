import Verif.Lemmas.SqrtSq
import Verif.Lemmas.Near
import Verif.Lemmas.Perturb
import Verif.Props.FloatLimits
import Verif.Props.FloatMono
/-!
# Layer F: length and components (C98)

`sqrt(x * x)` is exactly `|x|` unless the square underflows or overflows. With monotone rounding it follows that no
component exceeds the computed length, and that no component of a normalized vector exceeds 1.
-/

open Classical

namespace VecMath
open Scalar IEEE

section
variable {S : Type} [Scalar S] [IEEE S] [Binary S] {a b c : S}

theorem le_iff_real (ha : IsFinite a) (hb : IsFinite b) : (a ≤? b) = true ↔ real a ≤ real b := by
  rw [le_iff, ha.val, hb.val, EReal.coe_le_coe_iff]
  exact ⟨fun h => h.2.2, fun h => ⟨ha.not_nan, hb.not_nan, h⟩⟩
theorem isZero_sq (h : IsZero a) : IsZero (a * a) := by
  have := (correct_mul h.1 h.1).exact (by rw [h.2, mul_zero, ← h.2]; exact inFormat h.1) (by rw [h.2]; simp; linarith [three_le_overflow (S := S)])
  exact ⟨this.1, by rw [this.2, h.2, mul_zero]⟩
theorem add_zero_right (ha : IsFinite a) (hb : IsZero b) : IsFinite (a + b) ∧ real (a + b) = real a := by
  have e : real a + real b = real a := by rw [hb.2, add_zero]
  have := (correct_add ha hb.1).exact (by rw [e]; exact inFormat ha) (by rw [e]; exact finite_lt_overflow ha)
  exact ⟨this.1, by rw [this.2, e]⟩
theorem add_zero_left (ha : IsFinite a) (hb : IsZero b) : IsFinite (b + a) ∧ real (b + a) = real a := by
  have e : real b + real a = real a := by rw [hb.2, zero_add]
  have := (correct_add hb.1 ha).exact (by rw [e]; exact inFormat ha) (by rw [e]; exact finite_lt_overflow ha)
  exact ⟨this.1, by rw [this.2, e]⟩
theorem sq_rnd (ha : IsFinite a) (ho : real a ^ 2 < overflowAt S) : IsFinite (a * a) ∧ real (a * a) = (Binary.F S).rnd (real a ^ 2) := by
  have h := (correct_mul ha ha).1.2 (by rw [← pow_two, abs_of_nonneg (sq_nonneg _)]; exact ho)
  exact ⟨h, by rw [real_mul h, rnd_eq, pow_two]⟩
theorem finite_sqrt_nonneg (ha : IsFinite a) (h0 : 0 ≤ real a) : IsFinite (Scalar.sqrt a) := by
  refine finite_sqrt_of ha h0 ?_
  have h1 := finite_lt_overflow ha
  rw [abs_of_nonneg h0] at h1
  have h3 := three_le_overflow (S := S)
  rcases le_total (real a) 1 with h | h
  · have : √(real a) ≤ 1 := by rw [Real.sqrt_le_left (by norm_num)]; simpa using h
    linarith
  · have : √(real a) ≤ real a := by
      rw [Real.sqrt_le_left h0]; nlinarith
    linarith
/-- The square root of (a number equal to) a computed square. -/
theorem sqrt_of_sq (ha : IsFinite a) (hn : Normal S (real a ^ 2)) (ho : real a ^ 2 < overflowAt S) (hc : IsFinite c)
    (h : real c = real (a * a)) : IsFinite (Scalar.sqrt c) ∧ real (Scalar.sqrt c) = |real a| := by
  obtain ⟨-, e⟩ := sq_rnd ha ho
  have c0 : 0 ≤ real c := by rw [h, e]; exact (Binary.F S).rnd_nonneg (sq_nonneg _)
  have hf := finite_sqrt_nonneg hc c0
  refine ⟨hf, ?_⟩
  rw [real_sqrt hf, rnd_eq, h, e]
  refine Fmt.rnd_sqrt_sq (isFinite_has ha) ?_
  rcases hn with h | h
  · exact .inl (by simpa using h)
  · refine .inr ?_
    rw [abs_of_nonneg (sq_nonneg _)] at h
    exact h
theorem beq_abs (hc : IsFinite c) (ha : IsFinite a) (h : real c = |real a|) : (c == Scalar.abs a) = true := by
  have hb : IsFinite (Scalar.abs a) := finite_abs.2 ha
  exact beq_iff.2 ⟨hc.not_nan, hb.not_nan, by rw [hc.val, hb.val, h, real_abs]⟩
theorem div_abs_self (ha : IsFinite a) (h0 : real a ≠ 0) (hc : IsFinite c) (h : real c = |real a|) :
    IsFinite (a / c) ∧ real (a / c) = real a / |real a| := by
  have hc0 : real c ≠ 0 := by rw [h]; exact abs_ne_zero.2 h0
  have e : real a / real c = 1 ∨ real a / real c = -1 := by
    rw [h]
    rcases lt_or_gt_of_ne h0 with h' | h'
    · right; rw [abs_of_neg h', div_neg, div_self h0]
    · left; rw [abs_of_pos h', div_self h0]
  have o : InFormat S 1 := by have := inFormat (S := S) (a := Scalar.one) finite_one; rwa [real_one] at this
  have o' : InFormat S (-1) := by
    have := inFormat (S := S) (a := -Scalar.one) (finite_neg.2 finite_one)
    rwa [IEEE.real_neg, real_one] at this
  have h3 := three_le_overflow (S := S)
  have := (correct_div ha hc hc0).exact (by rcases e with e | e <;> rw [e] <;> assumption) (by rcases e with e | e <;> rw [e] <;> simp <;> linarith)
  exact ⟨this.1, by rw [this.2, h]⟩
theorem zero_div_num (ha : IsZero a) (hc : IsFinite c) (h0 : real c ≠ 0) : IsZero (a / c) := by
  have := (correct_div ha.1 hc h0).exact (by rw [ha.2, zero_div, ← ha.2]; exact inFormat ha.1)
    (by rw [ha.2, zero_div, abs_zero]; linarith [three_le_overflow (S := S)])
  exact ⟨this.1, by rw [this.2, ha.2, zero_div]⟩
/-- A quotient of magnitude at most one. -/
theorem quotient_le_one (ha : IsFinite a) (hc : ¬ IsNaN c) (h0 : 0 < val c) (h : (Scalar.abs a ≤? c) = true) :
    (Scalar.abs (a / c) ≤? one) = true := by
  by_cases hf : IsFinite c
  · have h1 : real c ≠ 0 := by
      rw [hf.val] at h0
      have : (0 : ℝ) < real c := by exact_mod_cast h0
      exact this.ne'
    have hp : 0 < real c := by rw [hf.val] at h0; exact_mod_cast h0
    have h2 : |real a| ≤ real c := by
      have := (le_iff_real (finite_abs.2 ha) hf).1 h
      rwa [real_abs] at this
    have q : |real a / real c| ≤ 1 := by rw [abs_div, abs_of_pos hp, div_le_one hp]; exact h2
    have h3 := three_le_overflow (S := S)
    have fq : IsFinite (a / c) := (correct_div ha hf h1).1.2 (by linarith)
    rw [le_iff_real (finite_abs.2 fq) finite_one, real_abs, real_one, real_div ha hf h1 fq, rnd_eq, abs_le]
    have r1 : (Binary.F S).rnd 1 = 1 := by
      have := (Binary.F S).rnd_of_has (isFinite_has (S := S) (a := Scalar.one) finite_one)
      rwa [real_one] at this
    constructor
    · have := (Binary.F S).rnd_mono (abs_le.1 q).1
      rwa [Fmt.rnd_neg, r1] at this
    · have := (Binary.F S).rnd_mono (abs_le.1 q).2
      rwa [r1] at this
  · have := finite_div_inf ha (isInf_iff.2 ⟨hc, hf⟩)
    rw [le_iff_real (finite_abs.2 this.1) finite_one, real_abs, this.2, real_one]
    norm_num
end


section
variable {S : Type} [Scalar S] [IEEE S] [Binary S]
/-! ## 2D -/
/-- The computed squared length of a vector along an axis. -/
theorem axis_dot2 (v : Vector2 S) (d : Dimension2) (hd : IsFinite (v.index d)) (h0 : ∀ e ≠ d, (v.index e == zero) = true)
    (ho : real (v.index d) ^ 2 < overflowAt S) :
    IsFinite (Api.dot v v : S) ∧ real (Api.dot v v : S) = real (v.index d * v.index d) := by
  obtain ⟨f, -⟩ := sq_rnd hd ho
  cases d
  case X =>
    have z1 := isZero_sq (isZero_iff.2 (h0 .Y (by decide)))
    exact add_zero_right f z1
  case Y =>
    have z0 := isZero_sq (isZero_iff.2 (h0 .X (by decide)))
    exact add_zero_left f z0
/-- **C98**, 2D: the length of a vector along a coordinate axis is exactly the magnitude of its only component, and it
normalizes to exactly plus or minus the unit vector of that axis. -/
theorem C98_axis2 (v : Vector2 S) (d : Dimension2) (hd : IsFinite (v.index d)) (h0 : ∀ e ≠ d, (v.index e == zero) = true)
    (hn : Normal S (real (v.index d) ^ 2)) (ho : real (v.index d) ^ 2 < overflowAt S) :
    (Api.length v == Scalar.abs (v.index d)) = true ∧
    (real (v.index d) ≠ 0 → IsFinite (v.normalize.index d) ∧ real (v.normalize.index d) = real (v.index d) / |real (v.index d)| ∧
      ∀ e ≠ d, (v.normalize.index e == zero) = true) := by
  obtain ⟨f, e⟩ := axis_dot2 v d hd h0 ho
  obtain ⟨fl, el⟩ := sqrt_of_sq hd hn ho f e
  have fl : IsFinite (Api.length v) := fl
  have el : real (Api.length v) = |real (v.index d)| := el
  refine ⟨beq_abs fl hd el, fun hne => ?_⟩
  have ix : ∀ e, v.normalize.index e = v.index e / Api.length v := fun e => by cases e <;> rfl
  obtain ⟨h1, h2⟩ := div_abs_self hd hne fl el
  refine ⟨by rw [ix]; exact h1, by rw [ix]; exact h2, fun j hj => ?_⟩
  rw [ix]
  exact isZero_iff.1 (zero_div_num (isZero_iff.2 (h0 j hj)) fl (by rw [el]; exact abs_ne_zero.2 hne))
/-- One component, with a square that does not underflow. -/
theorem one_component2 (v : Vector2 S) (hv : AllFinite v) (d : Dimension2) (hn : Normal S (real (v.index d) ^ 2)) :
    (Scalar.abs (v.index d) ≤? Api.length v) = true := by
  have hvn := hv.noNaN
  have hfd : IsFinite (v.index d) := by
    rw [Vector2.allFinite] at hv
    cases d
    exacts [hv.1, hv.2]
  by_cases ho : real (v.index d) ^ 2 < overflowAt S
  · have z0 : Vector2.index (Vector2.mk (zero : S) (zero : S)) = fun _ => zero := by funext e; cases e <;> rfl
    let u : Vector2 S := Vector2.indexMut ⟨zero, zero⟩ d fun _ => v.index d
    have ud : u.index d = v.index d := by cases d <;> rfl
    have ue : ∀ e ≠ d, (u.index e == zero) = true := by
      intro e he
      have : u.index e = zero := by cases d <;> cases e <;> first | rfl | exact absurd rfl he
      rw [this]; exact isZero_iff.1 ⟨finite_zero, real_zero⟩
    have h1 := (C98_axis2 u d (by rw [ud]; exact hfd) ue (by rw [ud]; exact hn) (by rw [ud]; exact ho)).1
    rw [ud] at h1
    have zz : ∀ c : S, IsFinite c → (Scalar.abs (zero : S) ≤? Scalar.abs c) = true := fun c hc => by
      rw [le_iff_real (finite_abs.2 finite_zero) (finite_abs.2 hc), real_abs, real_abs, real_zero, abs_zero]; exact abs_nonneg _
    have ss : ∀ c : S, IsFinite c → (Scalar.abs c ≤? Scalar.abs c) = true := fun c hc => le_self (finite_abs.2 hc).not_nan
    have h2 : (Api.length u ≤? Api.length v) = true := by
      rw [Vector2.allFinite] at hv
      refine C69_length2 u v (Vector2.leAll.2 ?_)
      cases d
      · exact ⟨ss _ hv.1, zz _ hv.2⟩
      · exact ⟨zz _ hv.1, ss _ hv.2⟩
    have h3 := beq_iff.1 h1
    have h4 := le_iff.1 h2
    exact le_iff.2 ⟨h3.2.1, h4.2.1, by rw [← h3.2.2]; exact h4.2.2⟩
  · have hd : ¬ IsFinite (Api.dot v v : S) := by
      intro hc
      have hc : IsFinite (v.x * v.x + v.y * v.y) := hc
      have : IsFinite (v.index d * v.index d) := by
        have := finite_of_add hc
        cases d
        exacts [this.1, this.2]
      exact (mul_huge hfd hfd (by rw [← pow_two, abs_of_nonneg (sq_nonneg _)]; exact not_lt.1 ho)).not_finite this
    have hd1 : ¬ IsNaN (Api.dot v v : S) := fun h => dot_self_isNaN2.1 h hvn
    have nonneg := dot_self_nonneg2 hvn
    have hl : IsInf (Api.length v) := length_inf hd1 hd nonneg
    have h0 : 0 ≤ val (Api.length v) := val_sqrt_nonneg hd1 nonneg
    have top : val (Api.length v) = ⊤ := by
      obtain ⟨s, hs⟩ := hl
      unfold val at h0 ⊢; rw [hs] at h0 ⊢
      cases s
      · rfl
      · simp at h0
    exact le_iff.2 ⟨(finite_abs.2 hfd).not_nan, hl.not_nan, by rw [top]; exact le_top⟩
/-- **C98**, 2D: no component exceeds the computed length in magnitude, if the square of at least one of them does not
underflow (whether or not something overflows). -/
theorem C98_component2 (v : Vector2 S) (hv : AllFinite v) (e : Dimension2) (he : minNormal S ≤ real (v.index e) ^ 2)
    (d : Dimension2) : (Scalar.abs (v.index d) ≤? Api.length v) = true := by
  have hfd : ∀ d, IsFinite (v.index d) := by
    rw [Vector2.allFinite] at hv
    intro d
    cases d
    exacts [hv.1, hv.2]
  by_cases h : minNormal S ≤ real (v.index d) ^ 2
  · exact one_component2 v hv d (.inr (by rw [abs_of_nonneg (sq_nonneg _)]; exact h))
  · refine le_trans' ?_ (one_component2 v hv e (.inr (by rw [abs_of_nonneg (sq_nonneg _)]; exact he)))
    rw [le_iff_real (finite_abs.2 (hfd d)) (finite_abs.2 (hfd e)), real_abs, real_abs]
    exact sq_le_sq.1 ((not_le.1 h).trans_le he).le
/-- **C98**, 2D: no component of a normalized vector exceeds 1 in magnitude. -/
theorem C98_normalize2 (v : Vector2 S) (hv : AllFinite v) (e : Dimension2) (he : minNormal S ≤ real (v.index e) ^ 2)
    (d : Dimension2) : (Scalar.abs (v.normalize.index d) ≤? one) = true := by
  have ix : v.normalize.index d = v.index d / Api.length v := by cases d <;> rfl
  have hfd : ∀ d, IsFinite (v.index d) := by
    rw [Vector2.allFinite] at hv
    intro d
    cases d
    exacts [hv.1, hv.2]
  rw [ix]
  have h1 := le_iff.1 (C98_component2 v hv e he e)
  refine quotient_le_one (hfd d) h1.2.1 (lt_of_lt_of_le ?_ h1.2.2) (C98_component2 v hv e he d)
  rw [(finite_abs.2 (hfd e)).val, real_abs]
  have : real (v.index e) ≠ 0 := by
    intro h
    rw [h] at he
    have : 0 < minNormal S := by unfold minNormal; positivity
    norm_num at he
    linarith
  exact_mod_cast abs_pos.2 this
/-- **C98**, 2D: the computed distance of two points is at least each computed difference of coordinates. -/
theorem C98_distance2 (p q : Point2 S) (h : AllFinite (q - p : Vector2 S)) (e : Dimension2)
    (he : minNormal S ≤ real ((q - p : Vector2 S).index e) ^ 2) (d : Dimension2) :
    (Scalar.abs ((q - p : Vector2 S).index d) ≤? Api.distance p q) = true :=
  C98_component2 (q - p) h e he d
/-- **C98**, 2D: the distance of two points on a line parallel to a coordinate axis is exactly the computed difference of
their coordinates. -/
theorem C98_axis_distance2 (p q : Point2 S) (d : Dimension2) (hd : IsFinite ((q - p : Vector2 S).index d))
    (h0 : ∀ e ≠ d, ((q - p : Vector2 S).index e == zero) = true) (hn : Normal S (real ((q - p : Vector2 S).index d) ^ 2))
    (ho : real ((q - p : Vector2 S).index d) ^ 2 < overflowAt S) :
    (Api.distance p q == Scalar.abs ((q - p : Vector2 S).index d)) = true :=
  (C98_axis2 (q - p) d hd h0 hn ho).1
end


section
variable {S : Type} [Scalar S] [IEEE S] [Binary S]
/-! ## 3D -/
/-- The computed squared length of a vector along an axis. -/
theorem axis_dot3 (v : Vector3 S) (d : Dimension3) (hd : IsFinite (v.index d)) (h0 : ∀ e ≠ d, (v.index e == zero) = true)
    (ho : real (v.index d) ^ 2 < overflowAt S) :
    IsFinite (Api.dot v v : S) ∧ real (Api.dot v v : S) = real (v.index d * v.index d) := by
  obtain ⟨f, -⟩ := sq_rnd hd ho
  cases d
  case X =>
    have z1 := isZero_sq (isZero_iff.2 (h0 .Y (by decide)))
    have z2 := isZero_sq (isZero_iff.2 (h0 .Z (by decide)))
    have h := add_zero_right f z1
    have h' := add_zero_right h.1 z2
    exact ⟨h'.1, h'.2.trans h.2⟩
  case Y =>
    have z0 := isZero_sq (isZero_iff.2 (h0 .X (by decide)))
    have z2 := isZero_sq (isZero_iff.2 (h0 .Z (by decide)))
    have h := add_zero_left f z0
    have h' := add_zero_right h.1 z2
    exact ⟨h'.1, h'.2.trans h.2⟩
  case Z =>
    have z0 := isZero_sq (isZero_iff.2 (h0 .X (by decide)))
    have z1 := isZero_sq (isZero_iff.2 (h0 .Y (by decide)))
    have h := add_zero_right z0.1 z1
    exact add_zero_left f ⟨h.1, h.2.trans z0.2⟩
/-- **C98**, 3D: the length of a vector along a coordinate axis is exactly the magnitude of its only component, and it
normalizes to exactly plus or minus the unit vector of that axis. -/
theorem C98_axis3 (v : Vector3 S) (d : Dimension3) (hd : IsFinite (v.index d)) (h0 : ∀ e ≠ d, (v.index e == zero) = true)
    (hn : Normal S (real (v.index d) ^ 2)) (ho : real (v.index d) ^ 2 < overflowAt S) :
    (Api.length v == Scalar.abs (v.index d)) = true ∧
    (real (v.index d) ≠ 0 → IsFinite (v.normalize.index d) ∧ real (v.normalize.index d) = real (v.index d) / |real (v.index d)| ∧
      ∀ e ≠ d, (v.normalize.index e == zero) = true) := by
  obtain ⟨f, e⟩ := axis_dot3 v d hd h0 ho
  obtain ⟨fl, el⟩ := sqrt_of_sq hd hn ho f e
  have fl : IsFinite (Api.length v) := fl
  have el : real (Api.length v) = |real (v.index d)| := el
  refine ⟨beq_abs fl hd el, fun hne => ?_⟩
  have ix : ∀ e, v.normalize.index e = v.index e / Api.length v := fun e => by cases e <;> rfl
  obtain ⟨h1, h2⟩ := div_abs_self hd hne fl el
  refine ⟨by rw [ix]; exact h1, by rw [ix]; exact h2, fun j hj => ?_⟩
  rw [ix]
  exact isZero_iff.1 (zero_div_num (isZero_iff.2 (h0 j hj)) fl (by rw [el]; exact abs_ne_zero.2 hne))
/-- One component, with a square that does not underflow. -/
theorem one_component3 (v : Vector3 S) (hv : AllFinite v) (d : Dimension3) (hn : Normal S (real (v.index d) ^ 2)) :
    (Scalar.abs (v.index d) ≤? Api.length v) = true := by
  have hvn := hv.noNaN
  have hfd : IsFinite (v.index d) := by
    rw [Vector3.allFinite] at hv
    cases d
    exacts [hv.1, hv.2.1, hv.2.2]
  by_cases ho : real (v.index d) ^ 2 < overflowAt S
  · have z0 : Vector3.index (Vector3.mk (zero : S) (zero : S) (zero : S)) = fun _ => zero := by funext e; cases e <;> rfl
    let u : Vector3 S := Vector3.indexMut ⟨zero, zero, zero⟩ d fun _ => v.index d
    have ud : u.index d = v.index d := by cases d <;> rfl
    have ue : ∀ e ≠ d, (u.index e == zero) = true := by
      intro e he
      have : u.index e = zero := by cases d <;> cases e <;> first | rfl | exact absurd rfl he
      rw [this]; exact isZero_iff.1 ⟨finite_zero, real_zero⟩
    have h1 := (C98_axis3 u d (by rw [ud]; exact hfd) ue (by rw [ud]; exact hn) (by rw [ud]; exact ho)).1
    rw [ud] at h1
    have zz : ∀ c : S, IsFinite c → (Scalar.abs (zero : S) ≤? Scalar.abs c) = true := fun c hc => by
      rw [le_iff_real (finite_abs.2 finite_zero) (finite_abs.2 hc), real_abs, real_abs, real_zero, abs_zero]; exact abs_nonneg _
    have ss : ∀ c : S, IsFinite c → (Scalar.abs c ≤? Scalar.abs c) = true := fun c hc => le_self (finite_abs.2 hc).not_nan
    have h2 : (Api.length u ≤? Api.length v) = true := by
      rw [Vector3.allFinite] at hv
      refine C69_length3 u v (Vector3.leAll.2 ?_)
      cases d
      · exact ⟨ss _ hv.1, zz _ hv.2.1, zz _ hv.2.2⟩
      · exact ⟨zz _ hv.1, ss _ hv.2.1, zz _ hv.2.2⟩
      · exact ⟨zz _ hv.1, zz _ hv.2.1, ss _ hv.2.2⟩
    have h3 := beq_iff.1 h1
    have h4 := le_iff.1 h2
    exact le_iff.2 ⟨h3.2.1, h4.2.1, by rw [← h3.2.2]; exact h4.2.2⟩
  · have hd : ¬ IsFinite (Api.dot v v : S) := by
      intro hc
      have hc : IsFinite (v.x * v.x + v.y * v.y + v.z * v.z) := hc
      have : IsFinite (v.index d * v.index d) := by
        have h1 := finite_of_add hc
        have h2 := finite_of_add h1.1
        cases d
        exacts [h2.1, h2.2, h1.2]
      exact (mul_huge hfd hfd (by rw [← pow_two, abs_of_nonneg (sq_nonneg _)]; exact not_lt.1 ho)).not_finite this
    have hd1 : ¬ IsNaN (Api.dot v v : S) := fun h => dot_self_isNaN3.1 h hvn
    have nonneg := dot_self_nonneg3 hvn
    have hl : IsInf (Api.length v) := length_inf hd1 hd nonneg
    have h0 : 0 ≤ val (Api.length v) := val_sqrt_nonneg hd1 nonneg
    have top : val (Api.length v) = ⊤ := by
      obtain ⟨s, hs⟩ := hl
      unfold val at h0 ⊢; rw [hs] at h0 ⊢
      cases s
      · rfl
      · simp at h0
    exact le_iff.2 ⟨(finite_abs.2 hfd).not_nan, hl.not_nan, by rw [top]; exact le_top⟩
/-- **C98**, 3D: no component exceeds the computed length in magnitude, if the square of at least one of them does not
underflow (whether or not something overflows). -/
theorem C98_component3 (v : Vector3 S) (hv : AllFinite v) (e : Dimension3) (he : minNormal S ≤ real (v.index e) ^ 2)
    (d : Dimension3) : (Scalar.abs (v.index d) ≤? Api.length v) = true := by
  have hfd : ∀ d, IsFinite (v.index d) := by
    rw [Vector3.allFinite] at hv
    intro d
    cases d
    exacts [hv.1, hv.2.1, hv.2.2]
  by_cases h : minNormal S ≤ real (v.index d) ^ 2
  · exact one_component3 v hv d (.inr (by rw [abs_of_nonneg (sq_nonneg _)]; exact h))
  · refine le_trans' ?_ (one_component3 v hv e (.inr (by rw [abs_of_nonneg (sq_nonneg _)]; exact he)))
    rw [le_iff_real (finite_abs.2 (hfd d)) (finite_abs.2 (hfd e)), real_abs, real_abs]
    exact sq_le_sq.1 ((not_le.1 h).trans_le he).le
/-- **C98**, 3D: no component of a normalized vector exceeds 1 in magnitude. -/
theorem C98_normalize3 (v : Vector3 S) (hv : AllFinite v) (e : Dimension3) (he : minNormal S ≤ real (v.index e) ^ 2)
    (d : Dimension3) : (Scalar.abs (v.normalize.index d) ≤? one) = true := by
  have ix : v.normalize.index d = v.index d / Api.length v := by cases d <;> rfl
  have hfd : ∀ d, IsFinite (v.index d) := by
    rw [Vector3.allFinite] at hv
    intro d
    cases d
    exacts [hv.1, hv.2.1, hv.2.2]
  rw [ix]
  have h1 := le_iff.1 (C98_component3 v hv e he e)
  refine quotient_le_one (hfd d) h1.2.1 (lt_of_lt_of_le ?_ h1.2.2) (C98_component3 v hv e he d)
  rw [(finite_abs.2 (hfd e)).val, real_abs]
  have : real (v.index e) ≠ 0 := by
    intro h
    rw [h] at he
    have : 0 < minNormal S := by unfold minNormal; positivity
    norm_num at he
    linarith
  exact_mod_cast abs_pos.2 this
/-- **C98**, 3D: the computed distance of two points is at least each computed difference of coordinates. -/
theorem C98_distance3 (p q : Point3 S) (h : AllFinite (q - p : Vector3 S)) (e : Dimension3)
    (he : minNormal S ≤ real ((q - p : Vector3 S).index e) ^ 2) (d : Dimension3) :
    (Scalar.abs ((q - p : Vector3 S).index d) ≤? Api.distance p q) = true :=
  C98_component3 (q - p) h e he d
/-- **C98**, 3D: the distance of two points on a line parallel to a coordinate axis is exactly the computed difference of
their coordinates. -/
theorem C98_axis_distance3 (p q : Point3 S) (d : Dimension3) (hd : IsFinite ((q - p : Vector3 S).index d))
    (h0 : ∀ e ≠ d, ((q - p : Vector3 S).index e == zero) = true) (hn : Normal S (real ((q - p : Vector3 S).index d) ^ 2))
    (ho : real ((q - p : Vector3 S).index d) ^ 2 < overflowAt S) :
    (Api.distance p q == Scalar.abs ((q - p : Vector3 S).index d)) = true :=
  (C98_axis3 (q - p) d hd h0 hn ho).1
end

end VecMath