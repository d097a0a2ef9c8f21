import Verif.Spec.Foot
import Verif.Props.RealFoot
import Verif.Props.FloatRayMono
import Verif.Props.FloatError
import Verif.Props.FloatInvAffine
/-!
# Nearest points of lines, half-lines and segments in floating point (layer F): C112

(Generated by tools/gen.)
-/

namespace VecMath
open Scalar IEEE
variable {S : Type} [Scalar S] [IEEE S]

/-! ## Clamping a parameter -/

theorem clamp_max (t : S) : ¬ IsNaN (fmax t zero) ∧ (zero ≤? fmax t zero) = true := by
  have h0 : ¬ IsNaN (zero : S) := finite_zero.not_nan
  by_cases ht : IsNaN t
  · have h := max_nan_left (b := (zero : S)) ht
    have h1 : ¬ IsNaN (fmax t zero) := fun h2 => h0 (isNaN_max.1 h2).2
    exact ⟨h1, le_iff.2 ⟨h0, h1, h.val.ge⟩⟩
  · have h1 : ¬ IsNaN (fmax t zero) := fun h2 => h0 (isNaN_max.1 h2).2
    exact ⟨h1, le_iff.2 ⟨h0, h1, by rw [val_max ht h0]; exact le_max_right _ _⟩⟩
theorem clamp_unit (t : S) : IsFinite (fmin (fmax t zero) one) ∧ (zero ≤? fmin (fmax t zero) one) = true ∧ (fmin (fmax t zero) one ≤? one) = true := by
  obtain ⟨h1, h2⟩ := clamp_max t
  have h3 : ¬ IsNaN (one : S) := finite_one.not_nan
  have h4 : ¬ IsNaN (fmin (fmax t zero) one) := fun h => h1 (isNaN_min.1 h).1
  have h2 := (le_iff.1 h2).2.2
  have e := val_min h1 h3
  have v0 : val (zero : S) = ((0 : ℝ) : EReal) := by rw [finite_zero.val, real_zero]
  have v1 : val (one : S) = ((1 : ℝ) : EReal) := by rw [finite_one.val, real_one]
  have a : val (zero : S) ≤ val (fmin (fmax t zero) one) := by
    rw [e]; refine le_min h2 ?_; rw [v0, v1]; exact EReal.coe_le_coe_iff.2 zero_le_one
  have b : val (fmin (fmax t zero) one) ≤ val (one : S) := by rw [e]; exact min_le_right _ _
  refine ⟨?_, le_iff.2 ⟨finite_zero.not_nan, h4, a⟩, le_iff.2 ⟨h4, h3, b⟩⟩
  rw [v0] at a; rw [v1] at b
  exact Val.fin_of_between h4 (lt_of_lt_of_le (EReal.bot_lt_coe 0) a).ne' (lt_of_le_of_lt b (EReal.coe_lt_top 1)).ne
/-- What clamping gives: zero for NaN and everything not above zero, one for everything from one on, and the parameter itself in between. -/
theorem clamp_cases (t : S) : ((zero <? t) = false → (fmin (fmax t zero) one == zero) = true) ∧
    ((one ≤? t) = true → (fmin (fmax t zero) one == one) = true) ∧
    ((zero ≤? t) = true → (t ≤? one) = true → (fmin (fmax t zero) one == t) = true) := by
  obtain ⟨f, -, -⟩ := clamp_unit t
  obtain ⟨h1, h2⟩ := clamp_max t
  have h0 : ¬ IsNaN (zero : S) := finite_zero.not_nan
  have h3 : ¬ IsNaN (one : S) := finite_one.not_nan
  have e := val_min h1 h3
  have v01 : val (zero : S) ≤ val (one : S) := by
    rw [finite_zero.val, real_zero, finite_one.val, real_one]; exact EReal.coe_le_coe_iff.2 zero_le_one
  refine ⟨fun h => ?_, fun h => ?_, fun h h' => ?_⟩
  · refine beq_iff.2 ⟨f.not_nan, h0, ?_⟩
    rw [e]
    have : val (fmax t zero) = val (zero : S) := by
      by_cases ht : IsNaN t
      · exact (max_nan_left (b := (zero : S)) ht).val
      · rw [val_max ht h0]
        refine max_eq_right (not_lt.1 fun hl => ?_)
        rw [lt_iff.2 ⟨h0, ht, hl⟩] at h; cases h
    rw [this, min_eq_left v01]
  · obtain ⟨-, ht, h⟩ := le_iff.1 h
    refine beq_iff.2 ⟨f.not_nan, h3, ?_⟩
    rw [e, val_max ht h0, max_eq_left (v01.trans h), min_eq_right h]
  · obtain ⟨-, ht, h⟩ := le_iff.1 h
    obtain ⟨-, -, h'⟩ := le_iff.1 h'
    refine beq_iff.2 ⟨f.not_nan, ht, ?_⟩
    rw [e, val_max ht h0, max_eq_left h, min_eq_left h']
/-- A quotient by an infinity or NaN is never positive: it is a zero or NaN. -/
theorem div_not_fin {a b : S} (h : ¬ IsFinite b) : (zero <? a / b) = false := by
  rw [Bool.eq_false_iff, Ne, lt_iff]
  rintro ⟨-, hn, hl⟩
  have v0 : val (zero : S) = ((0 : ℝ) : EReal) := by rw [finite_zero.val, real_zero]
  rw [v0] at hl
  unfold IsFinite at h
  unfold IsNaN at hn
  unfold val at hl
  rw [den_div] at hn hl
  revert h hn hl
  induction den b using Val.cases_inf_fin with
  | hn => simp
  | hf y hy => intro h; exact absurd hy h
  | hi t =>
    induction den a using Val.cases_inf_fin with
    | hn => simp
    | hi s => simp
    | hf x hx =>
      intro _ _ hl
      rw [Rounding.div_fin_inf _ hx] at hl
      have : ∀ c : Bool, (Val.mkZero c).ereal = ((0 : ℝ) : EReal) := by intro c; cases c <;> simp [Val.mkZero, Val.ereal]
      rw [this] at hl
      exact absurd hl (lt_irrefl _)
/-- A quotient by a zero is NaN or infinite: not positive, or not below one; not positive if the dividend is a zero, too. -/
theorem div_zero_cases {a b : S} (hb : IsFinite b) (h : real b = 0) : ((zero <? a / b) = false ∨ (one ≤? a / b) = true) ∧
    (IsFinite a → real a = 0 → (zero <? a / b) = false) := by
  have key : den (a / b) = .nan ∨ ∃ t, den (a / b) = .inf t := by
    rw [den_div]
    unfold IsFinite at hb
    unfold real at h
    induction den a using Val.cases_inf_fin with
    | hn => left; simp
    | hi s => right; exact ⟨_, Rounding.div_inf_fin _ s hb⟩
    | hf x hx =>
      rw [Rounding.div_fin _ hx hb, if_pos h]
      split
      · exact .inl rfl
      · exact .inr ⟨_, rfl⟩
  have nan : den (a / b) = .nan → (zero <? a / b) = false := by
    intro e
    rw [Bool.eq_false_iff, Ne, lt_iff]
    exact fun k => k.2.1 e
  refine ⟨?_, fun ha h0 => nan ?_⟩
  · rcases key with e | ⟨t, e⟩
    · exact .inl (nan e)
    · cases t
      · right
        refine le_iff.2 ⟨finite_one.not_nan, by unfold IsNaN; rw [e]; simp, ?_⟩
        have : val (a / b) = ⊤ := by unfold val; rw [e]; rfl
        rw [this]; exact le_top
      · left
        rw [Bool.eq_false_iff, Ne, lt_iff]
        rintro ⟨-, -, k⟩
        have : val (a / b) = ⊥ := by unfold val; rw [e]; rfl
        rw [this] at k; exact absurd k not_lt_bot
  · rw [den_div, Rounding.div_fin _ ha hb, if_pos (show (den b).real = 0 from h), if_pos (show (den a).real = 0 from h0)]
theorem zero_div_not_pos {a b : S} (ha : IsFinite a) (h : real a = 0) (hb : IsFinite b) (h0 : real b ≠ 0) : (zero <? a / b) = false := by
  rw [Bool.eq_false_iff, Ne, lt_iff]
  rintro ⟨-, -, k⟩
  rw [finite_zero.val, real_zero] at k
  unfold val at k
  rw [den_div, Rounding.div_fin _ ha hb, if_neg (show (den b).real ≠ 0 from h0), show (den a).real = 0 from h, zero_div, Rounding.finish_zero] at k
  have : ∀ c : Bool, (Val.mkZero c).ereal = ((0 : ℝ) : EReal) := by intro c; cases c <;> simp [Val.mkZero, Val.ereal]
  rw [this] at k
  exact absurd k (lt_irrefl _)
theorem at_beq {o d s t : S} (ho : IsFinite o) (hd : IsFinite d) (hs : IsFinite s) (ht : IsFinite t) (h : (s == t) = true) :
    (o + d * s == o + d * t) = true := by
  have e := (beq_iff.1 h).2.2
  have l : (s ≤? t) = true := le_iff.2 ⟨hs.not_nan, ht.not_nan, e.le⟩
  have l' : (t ≤? s) = true := le_iff.2 ⟨ht.not_nan, hs.not_nan, e.ge⟩
  have n1 := at_not_nan ho hd hs
  have n2 := at_not_nan ho hd ht
  have k := at_between (lo := o + d * t) (hi := o + d * t) ho hd ht hs ht l' l
  have r : (o + d * t ≤? o + d * t) = true := le_iff.2 ⟨n2, n2, le_rfl⟩
  exact beq_iff.2 ⟨n1, n2, le_antisymm (le_iff.1 (k.2 r r)).2.2 (le_iff.1 (k.1 r r)).2.2⟩

/-! ## The error of a quotient -/

theorem quot_aux {c a : ℝ} (hc : 1 ≤ c) (ha : 1 ≤ a) : 2 - 2 * (1 / a) ≤ c * (a ^ 2 - 1) := by
  have z0 : 1 / a ≥ 2 - a := by
    rw [ge_iff_le, le_div_iff₀ (by linarith)]; nlinarith [sq_nonneg (a - 1)]
  have z3 : a ^ 2 - 1 ≥ 2 * (a - 1) := by nlinarith [sq_nonneg (a - 1)]
  have z5 := mul_le_mul_of_nonneg_right hc (show 0 ≤ a ^ 2 - 1 by nlinarith)
  linarith
theorem quot_err {u a b E N N' D D' A t : ℝ} (hu : 0 ≤ u) (ha : 1 ≤ a) (hb : 0 < b) (hab : a * b ≤ 1) (hE : E = (1 + u) * a) (hD : 0 < D) (hA : |N| ≤ A)
    (hN : |N' - N| ≤ (E - 1) * A) (h1 : b * D ≤ D') (h2 : D' ≤ a * D) (ht : |t - N' / D'| ≤ u * |N' / D'|) :
    |t - N / D| ≤ ((1 + u) ^ 2 * a / b - 1) * (A / D) := by
  have hA0 : 0 ≤ A := (abs_nonneg _).trans hA
  have hD' : 0 < D' := lt_of_lt_of_le (mul_pos hb hD) h1
  have hb1 : b ≤ 1 := by nlinarith
  set ρ := D / D' with hρ
  have ρ0 : 0 < ρ := div_pos hD hD'
  have r1 : ρ ≤ 1 / b := by rw [hρ, div_le_div_iff₀ hD' hb]; linarith
  have r2 : 1 / a ≤ ρ := by rw [hρ, div_le_div_iff₀ (by linarith) hD']; linarith
  have q : N' / D' = ρ * N' / D := by rw [hρ]; field_simp
  have hN' : |N'| ≤ E * A := by
    have := abs_sub_abs_le_abs_sub N' N
    nlinarith
  have e1 : |N' / D'| ≤ ρ * E * (A / D) := by
    rw [q, abs_div, abs_mul, abs_of_pos ρ0, abs_of_pos hD, mul_div_assoc, mul_assoc]
    refine mul_le_mul_of_nonneg_left ?_ ρ0.le
    rw [← mul_div_assoc]
    exact div_le_div_of_nonneg_right hN' hD.le
  have e2 : |N' / D' - N / D| ≤ (ρ * (E - 1) + |ρ - 1|) * (A / D) := by
    rw [q, ← sub_div, abs_div, abs_of_pos hD, ← mul_div_assoc]
    refine div_le_div_of_nonneg_right ?_ hD.le
    rw [show ρ * N' - N = ρ * (N' - N) + (ρ - 1) * N by ring]
    refine (abs_add_le _ _).trans ?_
    rw [abs_mul, abs_mul, abs_of_pos ρ0, add_mul, mul_assoc]
    exact add_le_add (mul_le_mul_of_nonneg_left hN ρ0.le) (mul_le_mul_of_nonneg_left hA (abs_nonneg _))
  have e3 : |t - N / D| ≤ (u * (ρ * E) + (ρ * (E - 1) + |ρ - 1|)) * (A / D) := by
    have := abs_add_le (t - N' / D') (N' / D' - N / D)
    rw [sub_add_sub_cancel] at this
    have k := mul_le_mul_of_nonneg_left e1 hu
    rw [add_mul]
    have : u * (ρ * E * (A / D)) = u * (ρ * E) * (A / D) := by ring
    linarith
  refine e3.trans (mul_le_mul_of_nonneg_right ?_ (div_nonneg hA0 hD.le))
  have X : u * (ρ * E) + ρ * (E - 1) = ρ * ((1 + u) ^ 2 * a) - ρ := by rw [hE]; ring
  set W := (1 + u) ^ 2 * a with hW
  have W1 : 1 ≤ W := by
    have : 1 ≤ (1 + u) ^ 2 := one_le_pow₀ (by linarith)
    nlinarith
  rcases le_total 1 ρ with h | h
  · rw [abs_of_nonneg (by linarith)]
    have : ρ * W ≤ W / b := by rw [div_eq_mul_one_div, mul_comm W]; exact mul_le_mul_of_nonneg_right r1 (by linarith)
    linarith
  · rw [abs_of_nonpos (by linarith)]
    have big : W ≤ W / b := by rw [le_div_iff₀ hb]; nlinarith
    rcases le_total 2 W with h2 | h2
    · nlinarith
    · have k1 : ρ * (W - 2) ≤ 1 / a * (W - 2) := by
        have := mul_le_mul_of_nonneg_right r2 (show 0 ≤ 2 - W by linarith)
        linarith
      have k2 : 1 / a * W = (1 + u) ^ 2 := by rw [hW]; field_simp
      have k3 : W * a ≤ W / b := by
        rw [le_div_iff₀ hb]; nlinarith
      have k4 := quot_aux (show 1 ≤ (1 + u) ^ 2 from one_le_pow₀ (by linarith)) ha
      have k5 : W * a = (1 + u) ^ 2 * a ^ 2 := by rw [hW]; ring
      have k6 : 1 / a * (W - 2) = 1 / a * W - 2 * (1 / a) := by ring
      have k7 : ρ * (W - 2) = ρ * W - 2 * ρ := by ring
      have k8 : (1 + u) ^ 2 * (a ^ 2 - 1) = (1 + u) ^ 2 * a ^ 2 - (1 + u) ^ 2 := by ring
      linarith
theorem clamp_lip (x y : ℝ) : |min (max x 0) 1 - min (max y 0) 1| ≤ |x - y| :=
  (abs_min_sub_min_le_max _ _ _ _).trans (by
    rw [sub_self, abs_zero]
    refine max_le ((abs_max_sub_max_le_max _ _ _ _).trans ?_) (abs_nonneg _)
    rw [sub_self, abs_zero]
    exact max_le le_rfl (abs_nonneg _))

section
variable [Binary S]
theorem uro_ab (n : ℕ) : 1 ≤ (1 + uro S) ^ n ∧ 0 < (1 - uro S) ^ n ∧ (1 + uro S) ^ n * (1 - uro S) ^ n ≤ 1 := by
  have h0 := uro_pos (S := S)
  have h1 := uro_le (S := S)
  refine ⟨one_le_pow₀ (by linarith), pow_pos (by linarith) n, ?_⟩
  rw [← mul_pow]
  exact pow_le_one₀ (by nlinarith) (by nlinarith)
/-- One coordinate of the point of a ray at an inexact parameter. -/
theorem foot_at_err {o d t : S} {x e : ℝ} (h : IsFinite (o + d * t)) (ht : |real t - x| ≤ e) :
    |real (o + d * t) - (real o + real d * x)| ≤ (1 + uro S) * ((1 + uro S) * |real d| * e + uro S * |real d * x| + tiny S) + uro S * |real o + real d * x| := by
  have hu := uro_pos (S := S)
  have k : |real (d * t) - real d * x| ≤ (1 + uro S) * |real d| * e + uro S * |real d * x| + tiny S := by
    have m := err_mul (finite_of_add h).2
    have e1 : |real d * real t - real d * x| ≤ |real d| * e := by
      rw [← mul_sub, abs_mul]; exact mul_le_mul_of_nonneg_left ht (abs_nonneg _)
    have e2 : |real d * real t| ≤ |real d| * e + |real d * x| := by
      have := abs_sub_abs_le_abs_sub (real d * real t) (real d * x); linarith
    have e3 := abs_add_le (real (d * t) - real d * real t) (real d * real t - real d * x)
    rw [sub_add_sub_cancel] at e3
    nlinarith
  have := err_add_of h (x := real o) (e := 0) (by simp) k
  rw [zero_add] at this
  exact this
end

/-! ## Dimension 2 -/

/-- **C112** (2D), for all inputs without exception, NaN and infinities included: the parameter of the segment is a number from 0 to 1,
that of the half-line a number from 0 on; both are the parameter of the line where that is in range, and the near end where it is NaN. -/
theorem C112_param2 (r : Ray2 S) (p : Point2 S) :
    (IsFinite (r.segParam p) ∧ (zero ≤? r.segParam p) = true ∧ (r.segParam p ≤? one) = true) ∧
    ((zero <? r.footParam p) = false → (r.segParam p == zero) = true) ∧
    ((one ≤? r.footParam p) = true → (r.segParam p == one) = true) ∧
    ((zero ≤? r.footParam p) = true → (r.footParam p ≤? one) = true → (r.segParam p == r.footParam p) = true) ∧
    ¬ IsNaN (r.halfParam p) ∧ (zero ≤? r.halfParam p) = true := by
  have h := clamp_cases (r.footParam p)
  exact ⟨clamp_unit _, h.1, h.2.1, h.2.2, clamp_max _⟩
/-- **C112** (2D): for every finite ray and every point whatsoever, the computed nearest point of the segment is never NaN and is inside the
box spanned by the two ends; it is an end if the parameter is out of range (the near end if it is NaN). -/
theorem C112_box2 (r : Ray2 S) (p : Point2 S) (hr : AllFinite r) :
    NoNaN (r.at (r.segParam p)) ∧ (BoundingBox2.new (r.at zero) (r.at one)).isInside (r.at (r.segParam p)) = true ∧ (r.at zero == r.origin) = true ∧
    ((zero <? r.footParam p) = false → (r.at (r.segParam p) == r.origin) = true) ∧
    ((one ≤? r.footParam p) = true → (r.at (r.segParam p) == r.at one) = true) := by
  obtain ⟨⟨f, a, b⟩, z, o, -⟩ := C112_param2 r p
  have m := C88_monotone2 r hr zero (r.segParam p) finite_zero f a
  refine ⟨m.1, C88_span2 r hr _ _ _ finite_zero f finite_one a b, ?_, fun h => ?_, fun h => ?_⟩
  · rw [Ray2.allFinite] at hr
    exact C23_float_start2 r (Point2.noNaN.2 (by have := Point2.allFinite.1 hr.1; exact ⟨this.1.not_nan, this.2.not_nan⟩)) hr.2
  · have z := z h
    have q := hr
    rw [Ray2.allFinite, Point2.allFinite, Vector2.allFinite] at q
    have st := C23_float_start2 r (Point2.noNaN.2 ⟨q.1.1.not_nan, q.1.2.not_nan⟩) (Ray2.allFinite.1 hr).2
    rw [Point2.beq_iff] at st ⊢
    have t : ∀ x y w : S, (x == y) = true → (y == w) = true → (x == w) = true := fun x y w h1 h2 =>
      beq_iff.2 ⟨(beq_iff.1 h1).1, (beq_iff.1 h2).2.1, (beq_iff.1 h1).2.2.trans (beq_iff.1 h2).2.2⟩
    exact ⟨t _ _ _ (at_beq q.1.1 q.2.1 f finite_zero z) st.1, t _ _ _ (at_beq q.1.2 q.2.2 f finite_zero z) st.2⟩
  · have o := o h
    rw [Ray2.allFinite, Point2.allFinite, Vector2.allFinite] at hr
    rw [Point2.beq_iff]
    exact ⟨at_beq hr.1.1 hr.2.1 f finite_one o, at_beq hr.1.2 hr.2.2 f finite_one o⟩

/-- **C112** (2D): the direction times itself overflows: for every point, the near end is reported. -/
theorem C112_overflow2 (r : Ray2 S) (p : Point2 S) (hr : AllFinite r) (h : ¬ IsFinite (Api.dot r.direction r.direction : S)) :
    (r.at (r.segParam p) == r.origin) = true := (C112_box2 r p hr).2.2.2.1 (div_not_fin h)
/-- **C112** (2D): the direction times itself underflows to zero (or the direction is zero): for every point, one of the ends is reported. -/
theorem C112_underflow2 (r : Ray2 S) (p : Point2 S) (hr : AllFinite r) (hf : IsFinite (Api.dot r.direction r.direction : S))
    (h : real (Api.dot r.direction r.direction : S) = 0) :
    (r.at (r.segParam p) == r.origin) = true ∨ (r.at (r.segParam p) == r.at one) = true :=
  (div_zero_cases hf h).1.imp (C112_box2 r p hr).2.2.2.1 (C112_box2 r p hr).2.2.2.2
/-- **C112** (2D): the near end is its own nearest point, whatever the direction. -/
theorem C112_origin2 (r : Ray2 S) (hr : AllFinite r) : (r.at (r.segParam r.origin) == r.origin) = true := by
  refine (C112_box2 r r.origin hr).2.2.2.1 ?_
  by_cases hd : IsFinite (Api.dot r.direction r.direction : S)
  · rw [Ray2.allFinite, Point2.allFinite, Vector2.allFinite] at hr
    have t : ∀ d o : S, IsFinite d → IsFinite o → num (d * (o - o)) = num (zero : S) := fun d o hd ho =>
      (num_mul_congr rfl (same_sub_self ho).num).trans (IEEE.num_mul_zero hd)
    have e : num (Api.dot r.direction (r.origin - r.origin : Vector2 S) : S) = num (zero : S) := by
      show num (r.direction.x * (r.origin.x - r.origin.x) + r.direction.y * (r.origin.y - r.origin.y)) = _
      rw [num_add_congr (t _ _ hr.2.1 hr.1.1) (t _ _ hr.2.2 hr.1.2)]
      exact IEEE.num_add_zero _
    have fa := finite_of_num e finite_zero
    have ra : real (Api.dot r.direction (r.origin - r.origin : Vector2 S) : S) = 0 := by rw [real_of_num fa finite_zero e, real_zero]
    by_cases h0 : real (Api.dot r.direction r.direction : S) = 0
    · exact (div_zero_cases hd h0).2 fa ra
    · exact zero_div_not_pos fa ra hd h0
  · exact div_not_fin hd

section
variable [Binary S]
/-- **C112** (2D): if nothing overflows or underflows, the computed parameter of the line is within 4 roundings (of which 2 in the divisor) of the
exact one, relative to the sum of the magnitudes of the terms; clamping does not add to the error. -/
theorem C112_accurate2 (r : Ray2 S) (p : Point2 S) (h : r.FootNormal p) (h0 : real r.direction.x ^ 2 + real r.direction.y ^ 2 ≠ 0) :
    |real (r.footParam p) - r.exactParam p| ≤ footErr S 2 * r.absParam p ∧
    |real (r.segParam p) - min (max (r.exactParam p) 0) 1| ≤ footErr S 2 * r.absParam p := by
  obtain ⟨fn, fd, ft, hn, hs, hq⟩ := h
  have hu := uro_pos (S := S)
  have pos : 0 < real r.direction.x ^ 2 + real r.direction.y ^ 2 := lt_of_le_of_ne (by positivity) (Ne.symm h0)
  have W : Within S 2 (real (Api.dot r.direction r.direction : S)) (real r.direction.x ^ 2 + real r.direction.y ^ 2) := by
    have hd : IsFinite (r.direction.x * r.direction.x + r.direction.y * r.direction.y) := fd
    have h1 := finite_of_add hd
    exact Within.add hd (Within.mul_self h1.1 hs.1) (Within.mul_self h1.2 hs.2) (sq_nonneg _) (sq_nonneg _)
  obtain ⟨a1, b1, ab⟩ := uro_ab (S := S) 2
  have dn : real (Api.dot r.direction r.direction : S) ≠ 0 := (lt_of_lt_of_le (mul_pos b1 pos) W.1).ne'
  have T := C59_dot_normal2 r.direction (p - r.origin : Vector2 S) fn hn.1 hn.2
  have fs : IsFinite (p.x - r.origin.x) ∧ IsFinite (p.y - r.origin.y) := by
    have h1 := finite_of_add (a := r.direction.x * (p.x - r.origin.x)) (b := r.direction.y * (p.y - r.origin.y)) fn
    exact ⟨(finite_of_mul h1.1).2, (finite_of_mul h1.2).2⟩
  have term : ∀ d w w' : ℝ, |w' - w| ≤ uro S * |w| → |d * w' - d * w| ≤ uro S * (|d| * |w|) ∧ |d * w'| ≤ (1 + uro S) * (|d| * |w|) := by
    intro d w w' h
    have k : |d * w' - d * w| ≤ uro S * (|d| * |w|) := by
      rw [← mul_sub, abs_mul]
      calc |d| * |w' - w| ≤ |d| * (uro S * |w|) := mul_le_mul_of_nonneg_left h (abs_nonneg _)
        _ = _ := by ring
    refine ⟨k, ?_⟩
    have := abs_sub_abs_le_abs_sub (d * w') (d * w)
    rw [abs_mul d w] at this
    linarith
  obtain ⟨tx, mx⟩ := term (real r.direction.x) _ _ (err_sub fs.1)
  obtain ⟨ty, my⟩ := term (real r.direction.y) _ _ (err_sub fs.2)
  have T' : |real (Api.dot r.direction (p - r.origin : Vector2 S) : S) - (real r.direction.x * real (p.x - r.origin.x) + real r.direction.y * real (p.y - r.origin.y))| ≤
      ((1 + uro S) ^ 2 - 1) * (|real r.direction.x * real (p.x - r.origin.x)| + |real r.direction.y * real (p.y - r.origin.y)|) := T
  have line : |real (r.footParam p) - r.exactParam p| ≤ footErr S 2 * r.absParam p := by
    have := quot_err (u := uro S) (a := (1 + uro S) ^ 2) (b := (1 - uro S) ^ 2) (E := (1 + uro S) * (1 + uro S) ^ 2)
      (N := real r.direction.x * (real p.x - real r.origin.x) + real r.direction.y * (real p.y - real r.origin.y)) (N' := real (Api.dot r.direction (p - r.origin : Vector2 S) : S))
      (A := |real r.direction.x| * |real p.x - real r.origin.x| + |real r.direction.y| * |real p.y - real r.origin.y|) (t := real (r.footParam p)) hu.le a1 b1 ab rfl pos ?_ ?_ W.1 W.2
      (err_div_normal fn fd dn ft hq)
    · refine this.trans (le_of_eq ?_)
      unfold footErr Ray2.absParam
      rw [← pow_add, Nat.add_comm]
    · refine (abs_add_le _ _).trans (le_of_eq ?_); rw [abs_mul, abs_mul]
    · generalize real (Api.dot r.direction (p - r.origin : Vector2 S) : S) = N' at *
      have k : |(real r.direction.x * real (p.x - r.origin.x) + real r.direction.y * real (p.y - r.origin.y)) - (real r.direction.x * (real p.x - real r.origin.x) + real r.direction.y * (real p.y - real r.origin.y))| ≤
          uro S * (|real r.direction.x| * |real p.x - real r.origin.x| + |real r.direction.y| * |real p.y - real r.origin.y|) := by
        rw [abs_le] at *
        constructor <;> linarith
      have k2 := abs_add_le (N' - (real r.direction.x * real (p.x - r.origin.x) + real r.direction.y * real (p.y - r.origin.y))) ((real r.direction.x * real (p.x - r.origin.x) + real r.direction.y * real (p.y - r.origin.y)) - (real r.direction.x * (real p.x - real r.origin.x) + real r.direction.y * (real p.y - real r.origin.y)))
      rw [sub_add_sub_cancel] at k2
      have k3 : ((1 + uro S) ^ 2 - 1) * (|real r.direction.x * real (p.x - r.origin.x)| + |real r.direction.y * real (p.y - r.origin.y)|) ≤
          ((1 + uro S) ^ 2 - 1) * ((1 + uro S) * (|real r.direction.x| * |real p.x - real r.origin.x| + |real r.direction.y| * |real p.y - real r.origin.y|)) :=
        mul_le_mul_of_nonneg_left (by linarith) (by linarith)
      calc _ ≤ _ := k2
        _ ≤ ((1 + uro S) ^ 2 - 1) * ((1 + uro S) * (|real r.direction.x| * |real p.x - real r.origin.x| + |real r.direction.y| * |real p.y - real r.origin.y|)) + uro S * (|real r.direction.x| * |real p.x - real r.origin.x| + |real r.direction.y| * |real p.y - real r.origin.y|) := by linarith
        _ = _ := by ring
  refine ⟨line, ?_⟩
  have g := fmax_fin ft (finite_zero (S := S))
  have e := fmin_fin g.1 (finite_one (S := S))
  have e' : real (r.segParam p) = min (max (real (r.footParam p)) 0) 1 := e.2.trans (by rw [g.2, real_zero, real_one])
  rw [e']
  exact (clamp_lip _ _).trans line
/-- **C112** (2D): accordingly for the coordinates of the computed nearest point of the line and of the segment. -/
theorem C112_point2 (r : Ray2 S) (p : Point2 S) (h : r.FootNormal p) (h0 : real r.direction.x ^ 2 + real r.direction.y ^ 2 ≠ 0) :
    (AllFinite (r.at (r.footParam p)) →
      |real (r.at (r.footParam p)).x - (real r.origin.x + real r.direction.x * r.exactParam p)| ≤ (1 + uro S) * ((1 + uro S) * |real r.direction.x| * (footErr S 2 * r.absParam p) + uro S * |real r.direction.x * r.exactParam p| + tiny S) + uro S * |real r.origin.x + real r.direction.x * r.exactParam p| ∧
      |real (r.at (r.footParam p)).y - (real r.origin.y + real r.direction.y * r.exactParam p)| ≤ (1 + uro S) * ((1 + uro S) * |real r.direction.y| * (footErr S 2 * r.absParam p) + uro S * |real r.direction.y * r.exactParam p| + tiny S) + uro S * |real r.origin.y + real r.direction.y * r.exactParam p|) ∧
    (AllFinite (r.at (r.segParam p)) →
      |real (r.at (r.segParam p)).x - (real r.origin.x + real r.direction.x * (min (max (r.exactParam p) 0) 1))| ≤ (1 + uro S) * ((1 + uro S) * |real r.direction.x| * (footErr S 2 * r.absParam p) + uro S * |real r.direction.x * (min (max (r.exactParam p) 0) 1)| + tiny S) + uro S * |real r.origin.x + real r.direction.x * (min (max (r.exactParam p) 0) 1)| ∧
      |real (r.at (r.segParam p)).y - (real r.origin.y + real r.direction.y * (min (max (r.exactParam p) 0) 1))| ≤ (1 + uro S) * ((1 + uro S) * |real r.direction.y| * (footErr S 2 * r.absParam p) + uro S * |real r.direction.y * (min (max (r.exactParam p) 0) 1)| + tiny S) + uro S * |real r.origin.y + real r.direction.y * (min (max (r.exactParam p) 0) 1)|) := by
  obtain ⟨a, b⟩ := C112_accurate2 r p h h0
  constructor <;> intro f <;> rw [Point2.allFinite] at f
  · exact ⟨foot_at_err f.1 a, foot_at_err f.2 a⟩
  · exact ⟨foot_at_err f.1 b, foot_at_err f.2 b⟩
end
/-! ## Dimension 3 -/

/-- **C112** (3D), for all inputs without exception, NaN and infinities included: the parameter of the segment is a number from 0 to 1,
that of the half-line a number from 0 on; both are the parameter of the line where that is in range, and the near end where it is NaN. -/
theorem C112_param3 (r : Ray3 S) (p : Point3 S) :
    (IsFinite (r.segParam p) ∧ (zero ≤? r.segParam p) = true ∧ (r.segParam p ≤? one) = true) ∧
    ((zero <? r.footParam p) = false → (r.segParam p == zero) = true) ∧
    ((one ≤? r.footParam p) = true → (r.segParam p == one) = true) ∧
    ((zero ≤? r.footParam p) = true → (r.footParam p ≤? one) = true → (r.segParam p == r.footParam p) = true) ∧
    ¬ IsNaN (r.halfParam p) ∧ (zero ≤? r.halfParam p) = true := by
  have h := clamp_cases (r.footParam p)
  exact ⟨clamp_unit _, h.1, h.2.1, h.2.2, clamp_max _⟩
/-- **C112** (3D): for every finite ray and every point whatsoever, the computed nearest point of the segment is never NaN and is inside the
box spanned by the two ends; it is an end if the parameter is out of range (the near end if it is NaN). -/
theorem C112_box3 (r : Ray3 S) (p : Point3 S) (hr : AllFinite r) :
    NoNaN (r.at (r.segParam p)) ∧ (BoundingBox3.new (r.at zero) (r.at one)).isInside (r.at (r.segParam p)) = true ∧ (r.at zero == r.origin) = true ∧
    ((zero <? r.footParam p) = false → (r.at (r.segParam p) == r.origin) = true) ∧
    ((one ≤? r.footParam p) = true → (r.at (r.segParam p) == r.at one) = true) := by
  obtain ⟨⟨f, a, b⟩, z, o, -⟩ := C112_param3 r p
  have m := C88_monotone3 r hr zero (r.segParam p) finite_zero f a
  refine ⟨m.1, C88_span3 r hr _ _ _ finite_zero f finite_one a b, ?_, fun h => ?_, fun h => ?_⟩
  · rw [Ray3.allFinite] at hr
    exact C23_float_start3 r (Point3.noNaN.2 (by have := Point3.allFinite.1 hr.1; exact ⟨this.1.not_nan, this.2.1.not_nan, this.2.2.not_nan⟩)) hr.2
  · have z := z h
    have q := hr
    rw [Ray3.allFinite, Point3.allFinite, Vector3.allFinite] at q
    have st := C23_float_start3 r (Point3.noNaN.2 ⟨q.1.1.not_nan, q.1.2.1.not_nan, q.1.2.2.not_nan⟩) (Ray3.allFinite.1 hr).2
    rw [Point3.beq_iff] at st ⊢
    have t : ∀ x y w : S, (x == y) = true → (y == w) = true → (x == w) = true := fun x y w h1 h2 =>
      beq_iff.2 ⟨(beq_iff.1 h1).1, (beq_iff.1 h2).2.1, (beq_iff.1 h1).2.2.trans (beq_iff.1 h2).2.2⟩
    exact ⟨t _ _ _ (at_beq q.1.1 q.2.1 f finite_zero z) st.1, t _ _ _ (at_beq q.1.2.1 q.2.2.1 f finite_zero z) st.2.1, t _ _ _ (at_beq q.1.2.2 q.2.2.2 f finite_zero z) st.2.2⟩
  · have o := o h
    rw [Ray3.allFinite, Point3.allFinite, Vector3.allFinite] at hr
    rw [Point3.beq_iff]
    exact ⟨at_beq hr.1.1 hr.2.1 f finite_one o, at_beq hr.1.2.1 hr.2.2.1 f finite_one o, at_beq hr.1.2.2 hr.2.2.2 f finite_one o⟩

/-- **C112** (3D): the direction times itself overflows: for every point, the near end is reported. -/
theorem C112_overflow3 (r : Ray3 S) (p : Point3 S) (hr : AllFinite r) (h : ¬ IsFinite (Api.dot r.direction r.direction : S)) :
    (r.at (r.segParam p) == r.origin) = true := (C112_box3 r p hr).2.2.2.1 (div_not_fin h)
/-- **C112** (3D): the direction times itself underflows to zero (or the direction is zero): for every point, one of the ends is reported. -/
theorem C112_underflow3 (r : Ray3 S) (p : Point3 S) (hr : AllFinite r) (hf : IsFinite (Api.dot r.direction r.direction : S))
    (h : real (Api.dot r.direction r.direction : S) = 0) :
    (r.at (r.segParam p) == r.origin) = true ∨ (r.at (r.segParam p) == r.at one) = true :=
  (div_zero_cases hf h).1.imp (C112_box3 r p hr).2.2.2.1 (C112_box3 r p hr).2.2.2.2
/-- **C112** (3D): the near end is its own nearest point, whatever the direction. -/
theorem C112_origin3 (r : Ray3 S) (hr : AllFinite r) : (r.at (r.segParam r.origin) == r.origin) = true := by
  refine (C112_box3 r r.origin hr).2.2.2.1 ?_
  by_cases hd : IsFinite (Api.dot r.direction r.direction : S)
  · rw [Ray3.allFinite, Point3.allFinite, Vector3.allFinite] at hr
    have t : ∀ d o : S, IsFinite d → IsFinite o → num (d * (o - o)) = num (zero : S) := fun d o hd ho =>
      (num_mul_congr rfl (same_sub_self ho).num).trans (IEEE.num_mul_zero hd)
    have e : num (Api.dot r.direction (r.origin - r.origin : Vector3 S) : S) = num (zero : S) := by
      show num (r.direction.x * (r.origin.x - r.origin.x) + r.direction.y * (r.origin.y - r.origin.y) + r.direction.z * (r.origin.z - r.origin.z)) = _
      rw [num_add_congr (num_add_congr (t _ _ hr.2.1 hr.1.1) (t _ _ hr.2.2.1 hr.1.2.1)) (t _ _ hr.2.2.2 hr.1.2.2), num_add_congr (IEEE.num_add_zero _) rfl]
      exact IEEE.num_add_zero _
    have fa := finite_of_num e finite_zero
    have ra : real (Api.dot r.direction (r.origin - r.origin : Vector3 S) : S) = 0 := by rw [real_of_num fa finite_zero e, real_zero]
    by_cases h0 : real (Api.dot r.direction r.direction : S) = 0
    · exact (div_zero_cases hd h0).2 fa ra
    · exact zero_div_not_pos fa ra hd h0
  · exact div_not_fin hd

section
variable [Binary S]
/-- **C112** (3D): if nothing overflows or underflows, the computed parameter of the line is within 5 roundings (of which 3 in the divisor) of the
exact one, relative to the sum of the magnitudes of the terms; clamping does not add to the error. -/
theorem C112_accurate3 (r : Ray3 S) (p : Point3 S) (h : r.FootNormal p) (h0 : real r.direction.x ^ 2 + real r.direction.y ^ 2 + real r.direction.z ^ 2 ≠ 0) :
    |real (r.footParam p) - r.exactParam p| ≤ footErr S 3 * r.absParam p ∧
    |real (r.segParam p) - min (max (r.exactParam p) 0) 1| ≤ footErr S 3 * r.absParam p := by
  obtain ⟨fn, fd, ft, hn, hs, hq⟩ := h
  have hu := uro_pos (S := S)
  have pos : 0 < real r.direction.x ^ 2 + real r.direction.y ^ 2 + real r.direction.z ^ 2 := lt_of_le_of_ne (by positivity) (Ne.symm h0)
  have W : Within S 3 (real (Api.dot r.direction r.direction : S)) (real r.direction.x ^ 2 + real r.direction.y ^ 2 + real r.direction.z ^ 2) := by
    have hd : IsFinite (r.direction.x * r.direction.x + r.direction.y * r.direction.y + r.direction.z * r.direction.z) := fd
    have h1 := finite_of_add hd
    have h2 := finite_of_add h1.1
    refine Within.add (k := 2) hd ?_ ((Within.mul_self h1.2 hs.2.2).mono (sq_nonneg _) (by norm_num)) ?_ (sq_nonneg _)
    · exact Within.add h1.1 (Within.mul_self h2.1 hs.1) (Within.mul_self h2.2 hs.2.1) (sq_nonneg _) (sq_nonneg _)
    · positivity
  obtain ⟨a1, b1, ab⟩ := uro_ab (S := S) 3
  have dn : real (Api.dot r.direction r.direction : S) ≠ 0 := (lt_of_lt_of_le (mul_pos b1 pos) W.1).ne'
  have T := C59_dot_normal3 r.direction (p - r.origin : Vector3 S) fn hn.1 hn.2.1 hn.2.2
  have fs : IsFinite (p.x - r.origin.x) ∧ IsFinite (p.y - r.origin.y) ∧ IsFinite (p.z - r.origin.z) := by
    have h1 := finite_of_add (a := r.direction.x * (p.x - r.origin.x) + r.direction.y * (p.y - r.origin.y)) (b := r.direction.z * (p.z - r.origin.z)) fn
    have h2 := finite_of_add h1.1
    exact ⟨(finite_of_mul h2.1).2, (finite_of_mul h2.2).2, (finite_of_mul h1.2).2⟩
  have term : ∀ d w w' : ℝ, |w' - w| ≤ uro S * |w| → |d * w' - d * w| ≤ uro S * (|d| * |w|) ∧ |d * w'| ≤ (1 + uro S) * (|d| * |w|) := by
    intro d w w' h
    have k : |d * w' - d * w| ≤ uro S * (|d| * |w|) := by
      rw [← mul_sub, abs_mul]
      calc |d| * |w' - w| ≤ |d| * (uro S * |w|) := mul_le_mul_of_nonneg_left h (abs_nonneg _)
        _ = _ := by ring
    refine ⟨k, ?_⟩
    have := abs_sub_abs_le_abs_sub (d * w') (d * w)
    rw [abs_mul d w] at this
    linarith
  obtain ⟨tx, mx⟩ := term (real r.direction.x) _ _ (err_sub fs.1)
  obtain ⟨ty, my⟩ := term (real r.direction.y) _ _ (err_sub fs.2.1)
  obtain ⟨tz, mz⟩ := term (real r.direction.z) _ _ (err_sub fs.2.2)
  have T' : |real (Api.dot r.direction (p - r.origin : Vector3 S) : S) - (real r.direction.x * real (p.x - r.origin.x) + real r.direction.y * real (p.y - r.origin.y) + real r.direction.z * real (p.z - r.origin.z))| ≤
      ((1 + uro S) ^ 3 - 1) * (|real r.direction.x * real (p.x - r.origin.x)| + |real r.direction.y * real (p.y - r.origin.y)| + |real r.direction.z * real (p.z - r.origin.z)|) := T
  have line : |real (r.footParam p) - r.exactParam p| ≤ footErr S 3 * r.absParam p := by
    have := quot_err (u := uro S) (a := (1 + uro S) ^ 3) (b := (1 - uro S) ^ 3) (E := (1 + uro S) * (1 + uro S) ^ 3)
      (N := real r.direction.x * (real p.x - real r.origin.x) + real r.direction.y * (real p.y - real r.origin.y) + real r.direction.z * (real p.z - real r.origin.z)) (N' := real (Api.dot r.direction (p - r.origin : Vector3 S) : S))
      (A := |real r.direction.x| * |real p.x - real r.origin.x| + |real r.direction.y| * |real p.y - real r.origin.y| + |real r.direction.z| * |real p.z - real r.origin.z|) (t := real (r.footParam p)) hu.le a1 b1 ab rfl pos ?_ ?_ W.1 W.2
      (err_div_normal fn fd dn ft hq)
    · refine this.trans (le_of_eq ?_)
      unfold footErr Ray3.absParam
      rw [← pow_add, Nat.add_comm]
    · refine (abs_add_le _ _).trans ((add_le_add_left (abs_add_le _ _) _).trans (le_of_eq ?_)); rw [abs_mul, abs_mul, abs_mul]
    · generalize real (Api.dot r.direction (p - r.origin : Vector3 S) : S) = N' at *
      have k : |(real r.direction.x * real (p.x - r.origin.x) + real r.direction.y * real (p.y - r.origin.y) + real r.direction.z * real (p.z - r.origin.z)) - (real r.direction.x * (real p.x - real r.origin.x) + real r.direction.y * (real p.y - real r.origin.y) + real r.direction.z * (real p.z - real r.origin.z))| ≤
          uro S * (|real r.direction.x| * |real p.x - real r.origin.x| + |real r.direction.y| * |real p.y - real r.origin.y| + |real r.direction.z| * |real p.z - real r.origin.z|) := by
        rw [abs_le] at *
        constructor <;> linarith
      have k2 := abs_add_le (N' - (real r.direction.x * real (p.x - r.origin.x) + real r.direction.y * real (p.y - r.origin.y) + real r.direction.z * real (p.z - r.origin.z))) ((real r.direction.x * real (p.x - r.origin.x) + real r.direction.y * real (p.y - r.origin.y) + real r.direction.z * real (p.z - r.origin.z)) - (real r.direction.x * (real p.x - real r.origin.x) + real r.direction.y * (real p.y - real r.origin.y) + real r.direction.z * (real p.z - real r.origin.z)))
      rw [sub_add_sub_cancel] at k2
      have k3 : ((1 + uro S) ^ 3 - 1) * (|real r.direction.x * real (p.x - r.origin.x)| + |real r.direction.y * real (p.y - r.origin.y)| + |real r.direction.z * real (p.z - r.origin.z)|) ≤
          ((1 + uro S) ^ 3 - 1) * ((1 + uro S) * (|real r.direction.x| * |real p.x - real r.origin.x| + |real r.direction.y| * |real p.y - real r.origin.y| + |real r.direction.z| * |real p.z - real r.origin.z|)) :=
        mul_le_mul_of_nonneg_left (by linarith) (by linarith)
      calc _ ≤ _ := k2
        _ ≤ ((1 + uro S) ^ 3 - 1) * ((1 + uro S) * (|real r.direction.x| * |real p.x - real r.origin.x| + |real r.direction.y| * |real p.y - real r.origin.y| + |real r.direction.z| * |real p.z - real r.origin.z|)) + uro S * (|real r.direction.x| * |real p.x - real r.origin.x| + |real r.direction.y| * |real p.y - real r.origin.y| + |real r.direction.z| * |real p.z - real r.origin.z|) := by linarith
        _ = _ := by ring
  refine ⟨line, ?_⟩
  have g := fmax_fin ft (finite_zero (S := S))
  have e := fmin_fin g.1 (finite_one (S := S))
  have e' : real (r.segParam p) = min (max (real (r.footParam p)) 0) 1 := e.2.trans (by rw [g.2, real_zero, real_one])
  rw [e']
  exact (clamp_lip _ _).trans line
/-- **C112** (3D): accordingly for the coordinates of the computed nearest point of the line and of the segment. -/
theorem C112_point3 (r : Ray3 S) (p : Point3 S) (h : r.FootNormal p) (h0 : real r.direction.x ^ 2 + real r.direction.y ^ 2 + real r.direction.z ^ 2 ≠ 0) :
    (AllFinite (r.at (r.footParam p)) →
      |real (r.at (r.footParam p)).x - (real r.origin.x + real r.direction.x * r.exactParam p)| ≤ (1 + uro S) * ((1 + uro S) * |real r.direction.x| * (footErr S 3 * r.absParam p) + uro S * |real r.direction.x * r.exactParam p| + tiny S) + uro S * |real r.origin.x + real r.direction.x * r.exactParam p| ∧
      |real (r.at (r.footParam p)).y - (real r.origin.y + real r.direction.y * r.exactParam p)| ≤ (1 + uro S) * ((1 + uro S) * |real r.direction.y| * (footErr S 3 * r.absParam p) + uro S * |real r.direction.y * r.exactParam p| + tiny S) + uro S * |real r.origin.y + real r.direction.y * r.exactParam p| ∧
      |real (r.at (r.footParam p)).z - (real r.origin.z + real r.direction.z * r.exactParam p)| ≤ (1 + uro S) * ((1 + uro S) * |real r.direction.z| * (footErr S 3 * r.absParam p) + uro S * |real r.direction.z * r.exactParam p| + tiny S) + uro S * |real r.origin.z + real r.direction.z * r.exactParam p|) ∧
    (AllFinite (r.at (r.segParam p)) →
      |real (r.at (r.segParam p)).x - (real r.origin.x + real r.direction.x * (min (max (r.exactParam p) 0) 1))| ≤ (1 + uro S) * ((1 + uro S) * |real r.direction.x| * (footErr S 3 * r.absParam p) + uro S * |real r.direction.x * (min (max (r.exactParam p) 0) 1)| + tiny S) + uro S * |real r.origin.x + real r.direction.x * (min (max (r.exactParam p) 0) 1)| ∧
      |real (r.at (r.segParam p)).y - (real r.origin.y + real r.direction.y * (min (max (r.exactParam p) 0) 1))| ≤ (1 + uro S) * ((1 + uro S) * |real r.direction.y| * (footErr S 3 * r.absParam p) + uro S * |real r.direction.y * (min (max (r.exactParam p) 0) 1)| + tiny S) + uro S * |real r.origin.y + real r.direction.y * (min (max (r.exactParam p) 0) 1)| ∧
      |real (r.at (r.segParam p)).z - (real r.origin.z + real r.direction.z * (min (max (r.exactParam p) 0) 1))| ≤ (1 + uro S) * ((1 + uro S) * |real r.direction.z| * (footErr S 3 * r.absParam p) + uro S * |real r.direction.z * (min (max (r.exactParam p) 0) 1)| + tiny S) + uro S * |real r.origin.z + real r.direction.z * (min (max (r.exactParam p) 0) 1)|) := by
  obtain ⟨a, b⟩ := C112_accurate3 r p h h0
  constructor <;> intro f <;> rw [Point3.allFinite] at f
  · exact ⟨foot_at_err f.1 a, foot_at_err f.2.1 a, foot_at_err f.2.2 a⟩
  · exact ⟨foot_at_err f.1 b, foot_at_err f.2.1 b, foot_at_err f.2.2 b⟩
end
end VecMath
