import Verif.Spec.Step
import Verif.Props.FloatError
import Verif.Props.FloatAxis
import Verif.Props.FloatLimits
import Verif.Props.FloatZero
import Verif.Props.FloatMono
import Verif.Lemmas.Octree
/-! # C123: limited lengths and steps in floating point

(Generated by tools/gen.) -/

open Classical

namespace VecMath
open Scalar IEEE

section
variable {S : Type} [Scalar S] [IEEE S] [Binary S]
/-- Two numbers of the format, one less than the other, differ by at least a rounding. -/
theorem below_by_rounding {s L : S} (hs : IsFinite s) (hL : IsFinite L) (h0 : 0 ≤ real s) (h : real s < real L) :
    real s ≤ real L * (1 - uro S) := by
  obtain ⟨m, e, -, hm, es⟩ := isFinite_has hs
  obtain ⟨n, f, -, hn, eL⟩ := isFinite_has hL
  have hu : uro S * 2 ^ (Binary.F S).p = 1 := by
    unfold uro; rw [zpow_neg, zpow_natCast]; exact inv_mul_cancel₀ (by positivity)
  have up := uro_pos (S := S)
  -- everything over the smaller exponent
  have key : ∀ (g : ℤ) (a b : ℤ), real s = a * 2 ^ g → real L = b * 2 ^ g → b ≤ 2 ^ (Binary.F S).p → real s ≤ real L * (1 - uro S) := by
    intro g a b ha hb hb'
    have p2 : (0 : ℝ) < 2 ^ g := by positivity
    have hab : (a : ℝ) < b := by rw [ha, hb] at h; exact lt_of_mul_lt_mul_right h p2.le
    have hab' : a + 1 ≤ b := by exact_mod_cast hab
    have c1 : (a : ℝ) + 1 ≤ b := by exact_mod_cast hab'
    have c2 : (b : ℝ) ≤ 2 ^ (Binary.F S).p := by exact_mod_cast hb'
    have c3 : uro S * b ≤ 1 := by rw [← hu]; exact mul_le_mul_of_nonneg_left c2 up.le
    rw [ha, hb]
    calc (a : ℝ) * 2 ^ g ≤ (b - uro S * b) * 2 ^ g := mul_le_mul_of_nonneg_right (by linarith) p2.le
      _ = _ := by ring
  rcases le_or_gt f e with hfe | hef
  · refine key f (m * 2 ^ (e - f).toNat) n ?_ eL ((le_abs_self n).trans hn)
    rw [es]; push_cast
    rw [mul_assoc, ← zpow_natCast, Int.toNat_of_nonneg (by omega), ← zpow_add₀ (by norm_num)]; congr 2; omega
  · have eL' : real L = ((n * 2 ^ (f - e).toNat : ℤ) : ℝ) * 2 ^ e := by
      rw [eL]; push_cast
      rw [mul_assoc, ← zpow_natCast, Int.toNat_of_nonneg (by omega), ← zpow_add₀ (by norm_num)]; congr 2; omega
    by_cases hb : n * 2 ^ (f - e).toNat ≤ 2 ^ (Binary.F S).p
    · exact key e m _ es eL' hb
    · -- the larger number is even over this exponent and longer than the significand
      have ev : ∃ k : ℤ, n * 2 ^ (f - e).toNat = 2 * k := ⟨n * 2 ^ ((f - e).toNat - 1), by
        obtain ⟨j, hj⟩ : ∃ j, (f - e).toNat = j + 1 := ⟨(f - e).toNat - 1, by omega⟩
        rw [hj, Nat.add_sub_cancel, pow_succ]; ring⟩
      have pe : ∃ k : ℤ, (2 : ℤ) ^ (Binary.F S).p = 2 * k := ⟨2 ^ ((Binary.F S).p - 1), by
        have := (Binary.F S).hp
        obtain ⟨j, hj⟩ : ∃ j, (Binary.F S).p = j + 1 := ⟨(Binary.F S).p - 1, by omega⟩
        rw [hj, Nat.add_sub_cancel, pow_succ]; ring⟩
      have b2 : (2 : ℤ) ^ (Binary.F S).p + 2 ≤ n * 2 ^ (f - e).toNat := by
        obtain ⟨k, hk⟩ := ev
        obtain ⟨k', hk'⟩ := pe
        have g := not_le.1 hb
        rw [hk, hk'] at g ⊢
        omega
      have p2 : (0 : ℝ) < 2 ^ e := by positivity
      have m2 : (m : ℝ) ≤ 2 ^ (Binary.F S).p := by exact_mod_cast (le_abs_self m).trans hm
      have b3 : (2 : ℝ) ^ (Binary.F S).p + 2 ≤ ((n * 2 ^ (f - e).toNat : ℤ) : ℝ) := by exact_mod_cast b2
      have u1 := uro_le (S := S)
      rw [es, eL']
      calc (m : ℝ) * 2 ^ e ≤ (((n * 2 ^ (f - e).toNat : ℤ) : ℝ) * (1 - uro S)) * 2 ^ e := by
            refine mul_le_mul_of_nonneg_right ?_ p2.le
            have := mul_le_mul_of_nonneg_right b3 (show 0 ≤ 1 - uro S by linarith)
            nlinarith
        _ = _ := by ring
/-- Dividing by a number and multiplying by a smaller one does not make a number larger, whatever is rounded. -/
theorem shrinks {d L m : S} (hd : IsFinite d) (hL : IsFinite L) (hm : IsFinite m) (h0 : 0 ≤ real m) (h : real m < real L) (hq : IsFinite (d / L))
    (hn : Normal S (real d / real L)) : IsFinite (d / L * m) ∧ |real (d / L * m)| ≤ |real d| ∧ 0 ≤ real (d / L * m) * real d := by
  have L0 : 0 < real L := h0.trans_lt h
  have e := err_div_normal hd hL L0.ne' hq hn
  have up := uro_pos (S := S)
  have u1 := uro_le (S := S)
  have c := correct_mul hq hm
  have q1 : |real (d / L)| ≤ (1 + uro S) * (|real d| / real L) := by
    have := abs_sub_abs_le_abs_sub (real (d / L)) (real d / real L)
    rw [abs_div, abs_of_pos L0] at this e
    linarith
  have qm : |real (d / L) * real m| ≤ |real d| := by
    rw [abs_mul, abs_of_nonneg h0]
    calc |real (d / L)| * real m ≤ ((1 + uro S) * (|real d| / real L)) * (real L * (1 - uro S)) :=
          mul_le_mul q1 (below_by_rounding hm hL h0 h) h0 (by positivity)
      _ = (1 - uro S ^ 2) * |real d| := by field_simp; ring
      _ ≤ 1 * |real d| := mul_le_mul_of_nonneg_right (by nlinarith) (abs_nonneg _)
      _ = _ := one_mul _
  have sg : 0 ≤ real (d / L) * real m * real d := by
    have e2 : (real d / real L) * real d = real d ^ 2 / real L := by ring
    have : 0 ≤ real (d / L) * real d := by
      have a := abs_le.1 e
      rcases le_total 0 (real d) with s | s
      · refine mul_nonneg ?_ s
        have p := div_nonneg s L0.le
        rw [abs_of_nonneg p] at a
        nlinarith
      · refine mul_nonneg_of_nonpos_of_nonpos ?_ s
        have p := div_nonpos_of_nonpos_of_nonneg s L0.le
        rw [abs_of_nonpos p] at a
        nlinarith
    calc 0 ≤ (real (d / L) * real d) * real m := mul_nonneg this h0
      _ = _ := by ring
  have F : IsFinite (d / L * m) := c.1.2 (qm.trans_lt (finite_lt_overflow hd))
  obtain ⟨-, near⟩ := c.2 F
  have iz : InFormat S (0 : ℝ) := by have := inFormat (S := S) (finite_zero (S := S)); rwa [real_zero] at this
  have ip : InFormat S |real d| := by have := inFormat (S := S) (finite_abs.2 hd); rwa [real_abs] at this
  have im : InFormat S (-|real d|) := by have := inFormat (S := S) (finite_neg.2 (finite_abs.2 hd)); rwa [real_neg, real_abs] at this
  have np := near _ ip
  have nm := near _ im
  have nz := near _ iz
  have qb := abs_le.1 qm
  refine ⟨F, abs_le.2 ⟨?_, ?_⟩, ?_⟩
  · by_contra hc
    rw [not_le] at hc
    rw [abs_of_nonpos (by linarith), abs_of_nonpos (by linarith)] at nm
    linarith
  · by_contra hc
    rw [not_le] at hc
    rw [abs_of_nonneg (by linarith), abs_of_nonneg (by linarith)] at np
    linarith
  · by_contra hc
    rw [not_le] at hc
    rcases lt_trichotomy (real d) 0 with s | s | s
    · have x0 : real (d / L) * real m ≤ 0 := by
        by_contra k; rw [not_le] at k; nlinarith
      have c0 : 0 < real (d / L * m) := by
        by_contra k; rw [not_lt] at k; nlinarith
      rw [abs_of_nonneg (by linarith), abs_of_nonneg (by linarith)] at nz
      linarith
    · rw [s, mul_zero] at hc; exact lt_irrefl _ hc
    · have x0 : 0 ≤ real (d / L) * real m := by
        by_contra k; rw [not_le] at k; nlinarith
      have c0 : real (d / L * m) < 0 := by
        by_contra k; rw [not_lt] at k; nlinarith
      rw [abs_of_nonpos (by linarith), abs_of_nonpos (by linarith)] at nz
      linarith
/-- A quotient times a number, up to two roundings. -/
theorem scaled_within {d L m : S} (hd : IsFinite d) (hL : IsFinite L) (hm : IsFinite m) (h0 : 0 ≤ real m) (L0 : 0 < real L) (hq : IsFinite (d / L))
    (hr : IsFinite (d / L * m)) (hn : Normal S (real d / real L)) (hn' : Normal S (real (d / L) * real m)) :
    (1 - uro S) ^ 2 * (|real d| / real L * real m) ≤ |real (d / L * m)| ∧ |real (d / L * m)| ≤ (1 + uro S) ^ 2 * (|real d| / real L * real m) := by
  have e := err_div_normal hd hL L0.ne' hq hn
  have e' := err_mul_normal hr hn'
  have up := uro_pos (S := S)
  have u1 := uro_le (S := S)
  have a1 := abs_sub_abs_le_abs_sub (real (d / L)) (real d / real L)
  have a2 := abs_sub_abs_le_abs_sub (real d / real L) (real (d / L))
  have b1 := abs_sub_abs_le_abs_sub (real (d / L * m)) (real (d / L) * real m)
  have b2 := abs_sub_abs_le_abs_sub (real (d / L) * real m) (real (d / L * m))
  rw [abs_sub_comm] at a2 b2
  rw [abs_div, abs_of_pos L0] at a1 a2 e
  rw [abs_mul, abs_of_nonneg h0] at b1 b2 e'
  have x0 : 0 ≤ |real d| / real L := by positivity
  constructor
  · calc (1 - uro S) ^ 2 * (|real d| / real L * real m) = (1 - uro S) * (((1 - uro S) * (|real d| / real L)) * real m) := by ring
      _ ≤ (1 - uro S) * (|real (d / L)| * real m) := by
          refine mul_le_mul_of_nonneg_left (mul_le_mul_of_nonneg_right ?_ h0) (by linarith)
          linarith
      _ ≤ _ := by linarith
  · calc |real (d / L * m)| ≤ (1 + uro S) * (|real (d / L)| * real m) := by linarith
      _ ≤ (1 + uro S) * (((1 + uro S) * (|real d| / real L)) * real m) := by
          refine mul_le_mul_of_nonneg_left (mul_le_mul_of_nonneg_right ?_ h0) (by linarith)
          linarith
      _ = _ := by ring
/-- Adding something that points the same way as another difference, and is not larger. -/
theorem between_add {x d c : S} (hx : IsFinite x) (hd : IsFinite d) (hc : IsFinite c) (h1 : |real c| ≤ |real d|) (h2 : 0 ≤ real c * real d) :
    (0 ≤ real d → (x ≤? x + c) = true ∧ (x + c ≤? x + d) = true) ∧ (real d ≤ 0 → (x + c ≤? x) = true ∧ (x + d ≤? x + c) = true) := by
  have nx := hx.not_nan
  have n1 : ¬ IsNaN (x + c) := isNaN_add_finite hx hc.not_nan
  have n2 : ¬ IsNaN (x + d) := isNaN_add_finite hx hd.not_nan
  have n0 : ¬ IsNaN (x + zero) := isNaN_add_finite hx (finite_zero (S := S)).not_nan
  have e0 : val (x + zero) = val x := by rw [val_num, num_add_zero, ← val_num]
  have vc := hc.val
  have vd := hd.val
  have vz : val (zero : S) = ((0 : ℝ) : EReal) := by rw [(finite_zero (S := S)).val, real_zero]
  constructor
  · intro s
    have c0 : 0 ≤ real c := by
      by_contra k; rw [not_le] at k
      have d0 : real d ≠ 0 := by rintro e; rw [e, abs_zero] at h1; exact k.ne (abs_nonpos_iff.1 h1)
      have := lt_of_le_of_ne s (Ne.symm d0)
      nlinarith
    rw [abs_of_nonneg c0, abs_of_nonneg s] at h1
    refine ⟨le_iff.2 ⟨nx, n1, ?_⟩, le_iff.2 ⟨n1, n2, ?_⟩⟩
    · rw [← e0]; exact val_add_mono le_rfl (by rw [vz, vc]; exact_mod_cast c0) n0 n1
    · exact val_add_mono le_rfl (by rw [vc, vd]; exact_mod_cast h1) n1 n2
  · intro s
    have c0 : real c ≤ 0 := by
      by_contra k; rw [not_le] at k
      have d0 : real d ≠ 0 := by rintro e; rw [e, abs_zero] at h1; exact k.ne' (abs_nonpos_iff.1 h1)
      have := lt_of_le_of_ne s d0
      nlinarith
    rw [abs_of_nonpos c0, abs_of_nonpos s] at h1
    refine ⟨le_iff.2 ⟨n1, nx, ?_⟩, le_iff.2 ⟨n2, n1, ?_⟩⟩
    · rw [← e0]; exact val_add_mono le_rfl (by rw [vz, vc]; exact_mod_cast c0) n1 n0
    · exact val_add_mono le_rfl (by rw [vc, vd]; exact_mod_cast (by linarith)) n2 n1
end

section
variable {S : Type} [Scalar S] [IEEE S]
theorem finite_of_between {a c : S} (h : (zero ≤? a) = true) (h' : (a <? c) = true) (hc : IsFinite c) : IsFinite a := by
  have x := le_iff.1 h
  have y := lt_iff.1 h'
  rw [val_zero] at x
  rw [hc.val] at y
  exact finite_iff.2 ⟨x.2.1, fun e => by rw [e] at y; simp at y, fun e => by rw [e] at x; simp at x⟩
theorem lt_of_not_le {a b : S} (h : (b ≤? a) = false) (ha : ¬ IsNaN a) (hb : ¬ IsNaN b) : (a <? b) = true := by
  rw [lt_iff]
  refine ⟨ha, hb, ?_⟩
  by_contra k
  rw [Bool.eq_false_iff] at h
  exact h (le_iff.2 ⟨hb, ha, not_lt.1 k⟩)
end
section
variable {S : Type} [Scalar S] [IEEE S] [Binary S]
theorem diff_points {t p : S} (ht : IsFinite t) (hp : IsFinite p) (hd : IsFinite (t - p)) :
    ((p ≤? t) = true → 0 ≤ real (t - p)) ∧ ((t ≤? p) = true → real (t - p) ≤ 0) := by
  have e := abs_le.1 (err_sub hd)
  have u1 := uro_le (S := S)
  have up := uro_pos (S := S)
  constructor
  · intro h
    rw [ole_real hp ht] at h
    rw [abs_of_nonneg (by linarith)] at e
    nlinarith
  · intro h
    rw [ole_real ht hp] at h
    rw [abs_of_nonpos (by linarith)] at e
    nlinarith
end
theorem norm2_le_of_abs {n : ℕ} {x y : Fin n → ℝ} {c : ℝ} (hc : 0 ≤ c) (h : ∀ i, |x i| ≤ c * |y i|) : norm2 x ≤ c * norm2 y := by
  unfold norm2
  rw [← Real.sqrt_sq hc, ← Real.sqrt_mul (sq_nonneg _), Finset.mul_sum]
  refine Real.sqrt_le_sqrt (Finset.sum_le_sum fun i _ => ?_)
  rw [← sq_abs (x i), ← sq_abs (y i), ← mul_pow]
  exact pow_le_pow_left₀ (abs_nonneg _) (h i) 2
theorem le_norm2_of_abs {n : ℕ} {x y : Fin n → ℝ} {c : ℝ} (hc : 0 ≤ c) (h : ∀ i, c * |y i| ≤ |x i|) : c * norm2 y ≤ norm2 x := by
  unfold norm2
  rw [← Real.sqrt_sq hc, ← Real.sqrt_mul (sq_nonneg _), Finset.mul_sum]
  refine Real.sqrt_le_sqrt (Finset.sum_le_sum fun i _ => ?_)
  rw [← sq_abs (x i), ← sq_abs (y i), ← mul_pow]
  exact pow_le_pow_left₀ (by positivity) (h i) 2
theorem repeated_fixed {A : Type} {f : A → A} {x : A} (h : f x = x) (n : ℕ) : repeated f n x = x := by
  induction n with
  | zero => rfl
  | succ n ih => show repeated f n (f x) = x; rw [h, ih]

/-! ## Dimension 2 -/
section
variable {S : Type} [Scalar S] [IEEE S]
/-- **C123**: a vector that is not longer than the limit, and a vector with a NaN, comes back unchanged. -/
theorem C123_unchanged2 (v : Vector2 S) (m : S) (h : (m <? Api.length v) = false) : v.limit m = v := by
  unfold Vector2.limit; rw [h]; simp
theorem Point2.dist_self_zero (t : Point2 S) (ht : AllFinite t) : (Api.distance t t == zero) = true :=
  C15_float_zero2 t t ht ht (by
    rw [Point2.allFinite] at ht
    exact Point2.beq_iff.2 ⟨IEEE.beq_iff.2 ⟨ht.1.not_nan, ht.1.not_nan, rfl⟩, IEEE.beq_iff.2 ⟨ht.2.not_nan, ht.2.not_nan, rfl⟩⟩)
/-- **C123**: within reach, the target is reached exactly, and a step of at least 0 stays there. -/
theorem C123_arrive2 (t p : Point2 S) (s : S) (ht : AllFinite t) (hs : (zero ≤? s) = true) (h : (Api.distance p t ≤? s) = true) (k : ℕ) :
    repeated (Point2.towards t s) (k + 1) p = t := by
  have st : Point2.towards t s t = t := by
    have z := Point2.dist_self_zero t ht
    have : (Api.distance t t ≤? s) = true := by
      rw [beq_iff] at z; rw [le_iff] at hs ⊢
      exact ⟨z.1, hs.2.1, z.2.2 ▸ hs.2.2⟩
    unfold Point2.towards; rw [this]; simp
  show repeated (Point2.towards t s) k (Point2.towards t s p) = t
  rw [show Point2.towards t s p = t by unfold Point2.towards; rw [h]; simp]
  exact repeated_fixed st k
end
section
variable {S : Type} [Scalar S] [IEEE S] [Binary S]
/-- No component of the unit vector underflows. -/
def Vector2.UnitNormal (v : Vector2 S) : Prop := Normal S (real v.x / real (Api.length v)) ∧ Normal S (real v.y / real (Api.length v))
/-- **C123**: limiting the length of a vector enlarges no component, changes no sign, and does not make the computed length larger, whatever is rounded. -/
theorem C123_shrink2 (v : Vector2 S) (m : S) (hm : (zero ≤? m) = true) (hv : AllFinite v) (hL : IsFinite (Api.length v)) (hq : AllFinite v.normalize)
    (hn : v.UnitNormal) :
    AllFinite (v.limit m) ∧ LeAll (v.limit m).abs v.abs ∧ (∀ i, 0 ≤ (v.limit m).toReal i * v.toReal i) ∧
    (Api.length (v.limit m) ≤? Api.length v) = true := by
  have key : AllFinite (v.limit m) ∧ LeAll (v.limit m).abs v.abs ∧ ∀ i, 0 ≤ (v.limit m).toReal i * v.toReal i := by
    cases h : (m <? Api.length v)
    · rw [C123_unchanged2 v m h]
      refine ⟨hv, ?_, fun i => mul_self_nonneg _⟩
      rw [Vector2.allFinite] at hv
      rw [Vector2.leAll]
      exact ⟨(le_iff_real (finite_abs.2 hv.1) (finite_abs.2 hv.1)).2 le_rfl, (le_iff_real (finite_abs.2 hv.2) (finite_abs.2 hv.2)).2 le_rfl⟩
    · have e : v.limit m = v.normalize * m := by unfold Vector2.limit; rw [h]; simp
      have hb := lt_iff.1 h
      have hb' := le_iff.1 hm
      have fm : IsFinite m := finite_of_between hm h hL
      have m0 : 0 ≤ real m := by rw [ole_real finite_zero fm, real_zero] at hm; exact hm
      have mL : real m < real (Api.length v) := (olt_real fm hL).1 h
      rw [Vector2.allFinite] at hv hq
      rw [e]
      obtain ⟨fx, ax, sx⟩ := shrinks (d := v.x) hv.1 hL fm m0 mL hq.1 hn.1
      obtain ⟨fy, ay, sy⟩ := shrinks (d := v.y) hv.2 hL fm m0 mL hq.2 hn.2
      refine ⟨Vector2.allFinite.2 ⟨fx, fy⟩, Vector2.leAll.2 ⟨(le_iff_real (finite_abs.2 fx) (finite_abs.2 hv.1)).2 (by rw [real_abs, real_abs]; exact ax), (le_iff_real (finite_abs.2 fy) (finite_abs.2 hv.2)).2 (by rw [real_abs, real_abs]; exact ay)⟩, fun i => ?_⟩
      fin_cases i
      exacts [sx, sy]
  exact ⟨key.1, key.2.1, key.2.2, C69_length2 _ _ key.2.1⟩
/-- **C123**: the length of a limited vector is the limit up to 4 roundings, if nothing underflows. -/
theorem C123_length2 (v : Vector2 S) (m : S) (hm : (zero ≤? m) = true) (h : (m <? Api.length v) = true) (hv : AllFinite v) (hL : IsFinite (Api.length v))
    (hq : AllFinite v.normalize) (hn : v.UnitNormal) (nx : Normal S (real v.x ^ 2)) (ny : Normal S (real v.y ^ 2))
    (hr : ∀ i, Normal S (v.normalize.toReal i * real m)) :
    (1 - uro S) ^ 2 / (1 + uro S) ^ 2 * real m ≤ norm2 (v.limit m).toReal ∧ norm2 (v.limit m).toReal ≤ (1 + uro S) ^ 2 / (1 - uro S) ^ 2 * real m := by
  have e : v.limit m = v.normalize * m := by unfold Vector2.limit; rw [h]; simp
  have fm : IsFinite m := finite_of_between hm h hL
  have m0 : 0 ≤ real m := by rw [ole_real finite_zero fm, real_zero] at hm; exact hm
  have mL : real m < real (Api.length v) := (olt_real fm hL).1 h
  have L0 : 0 < real (Api.length v) := m0.trans_lt mL
  have w := C59_length2 v hL nx ny
  have en : norm2 v.toReal = √(real v.x ^ 2 + real v.y ^ 2) := by
    unfold norm2; congr 1; simp [Vector2.toReal, Fin.sum_univ_succ]
  rw [← en] at w
  rw [Vector2.allFinite] at hv hq
  rw [e]
  have up := uro_pos (S := S)
  have u1 := uro_le (S := S)
  have t0 : 0 ≤ real m / real (Api.length v) := by positivity
  have key : ∀ i, (1 - uro S) ^ 2 * (real m / real (Api.length v)) * |v.toReal i| ≤ |(v.normalize * m).toReal i| ∧
      |(v.normalize * m).toReal i| ≤ (1 + uro S) ^ 2 * (real m / real (Api.length v)) * |v.toReal i| := by
    intro i
    fin_cases i
    · have k := scaled_within (d := v.x) hv.1 hL fm m0 L0 hq.1 (shrinks hv.1 hL fm m0 mL hq.1 hn.1).1 hn.1 (hr 0)
      rw [show ∀ t : ℝ, t * (|real v.x| / real (Api.length v) * real m) = t * (real m / real (Api.length v)) * |real v.x| from fun t => by ring,
        show ∀ t : ℝ, t * (|real v.x| / real (Api.length v) * real m) = t * (real m / real (Api.length v)) * |real v.x| from fun t => by ring] at k
      exact k
    · have k := scaled_within (d := v.y) hv.2 hL fm m0 L0 hq.2 (shrinks hv.2 hL fm m0 mL hq.2 hn.2).1 hn.2 (hr 1)
      rw [show ∀ t : ℝ, t * (|real v.y| / real (Api.length v) * real m) = t * (real m / real (Api.length v)) * |real v.y| from fun t => by ring,
        show ∀ t : ℝ, t * (|real v.y| / real (Api.length v) * real m) = t * (real m / real (Api.length v)) * |real v.y| from fun t => by ring] at k
      exact k
  have hi := norm2_le_of_abs (c := (1 + uro S) ^ 2 * (real m / real (Api.length v))) (by positivity) fun i => (key i).2
  have lo := le_norm2_of_abs (c := (1 - uro S) ^ 2 * (real m / real (Api.length v))) (by positivity) fun i => (key i).1
  have p1 : 0 < (1 - uro S) ^ 2 := pow_pos (by linarith) _
  have p2 : 0 < (1 + uro S) ^ 2 := by positivity
  constructor
  · refine le_trans ?_ lo
    rw [div_mul_eq_mul_div, div_le_iff₀ p2]
    calc (1 - uro S) ^ 2 * real m = (1 - uro S) ^ 2 * (real m / real (Api.length v)) * real (Api.length v) := by field_simp
      _ ≤ (1 - uro S) ^ 2 * (real m / real (Api.length v)) * ((1 + uro S) ^ 2 * norm2 v.toReal) := mul_le_mul_of_nonneg_left w.2 (by positivity)
      _ = _ := by ring
  · refine hi.trans ?_
    rw [div_mul_eq_mul_div, le_div_iff₀ p1]
    calc (1 + uro S) ^ 2 * (real m / real (Api.length v)) * norm2 v.toReal * (1 - uro S) ^ 2 =
          (1 + uro S) ^ 2 * (real m / real (Api.length v)) * ((1 - uro S) ^ 2 * norm2 v.toReal) := by ring
      _ ≤ (1 + uro S) ^ 2 * (real m / real (Api.length v)) * real (Api.length v) := mul_le_mul_of_nonneg_left w.1 (by positivity)
      _ = _ := by field_simp
/-- **C123**: a step towards the target moves every coordinate towards the target, or leaves it, and not farther than adding the whole difference would. -/
theorem C123_between2 (t p : Point2 S) (s : S) (hs : (zero ≤? s) = true) (hp : AllFinite p) (hd : AllFinite (t - p : Vector2 S))
    (h : (Api.distance p t ≤? s) = false) (hL : IsFinite (Api.distance p t)) (hq : AllFinite (t - p : Vector2 S).normalize) (hn : (t - p : Vector2 S).UnitNormal) :
    ((p.x ≤? t.x) = true → (p.x ≤? (Point2.towards t s p).x) = true ∧ ((Point2.towards t s p).x ≤? p.x + (t.x - p.x)) = true) ∧ ((t.x ≤? p.x) = true → ((Point2.towards t s p).x ≤? p.x) = true ∧ (p.x + (t.x - p.x) ≤? (Point2.towards t s p).x) = true) ∧
    ((p.y ≤? t.y) = true → (p.y ≤? (Point2.towards t s p).y) = true ∧ ((Point2.towards t s p).y ≤? p.y + (t.y - p.y)) = true) ∧ ((t.y ≤? p.y) = true → ((Point2.towards t s p).y ≤? p.y) = true ∧ (p.y + (t.y - p.y) ≤? (Point2.towards t s p).y) = true) := by
  have e : Point2.towards t s p = p + ((t - p : Vector2 S).normalize * s : Vector2 S) := by unfold Point2.towards; rw [h]; simp
  have h' : (s <? Api.distance p t) = true := lt_of_not_le h (le_iff.1 hs).2.1 hL.not_nan
  have fm : IsFinite s := finite_of_between hs h' hL
  have m0 : 0 ≤ real s := by rw [ole_real finite_zero fm, real_zero] at hs; exact hs
  have mL : real s < real (Api.length (t - p : Vector2 S)) := (olt_real fm hL).1 h'
  rw [Point2.allFinite] at hp
  rw [Vector2.allFinite] at hd hq
  rw [e]
  obtain ⟨fx, ax, sx⟩ := shrinks (d := t.x - p.x) hd.1 hL fm m0 mL hq.1 hn.1
  have wx := between_add hp.1 hd.1 fx ax sx
  obtain ⟨fy, ay, sy⟩ := shrinks (d := t.y - p.y) hd.2 hL fm m0 mL hq.2 hn.2
  have wy := between_add hp.2 hd.2 fy ay sy
  exact ⟨fun k => wx.1 ((diff_points (finite_of_sub hd.1).1 hp.1 hd.1).1 k), fun k => wx.2 ((diff_points (finite_of_sub hd.1).1 hp.1 hd.1).2 k), fun k => wy.1 ((diff_points (finite_of_sub hd.2).1 hp.2 hd.2).1 k), fun k => wy.2 ((diff_points (finite_of_sub hd.2).1 hp.2 hd.2).2 k)⟩
end

/-! ## Dimension 3 -/
section
variable {S : Type} [Scalar S] [IEEE S]
/-- **C123**: a vector that is not longer than the limit, and a vector with a NaN, comes back unchanged. -/
theorem C123_unchanged3 (v : Vector3 S) (m : S) (h : (m <? Api.length v) = false) : v.limit m = v := by
  unfold Vector3.limit; rw [h]; simp
theorem Point3.dist_self_zero (t : Point3 S) (ht : AllFinite t) : (Api.distance t t == zero) = true :=
  C15_float_zero3 t t ht ht (by
    rw [Point3.allFinite] at ht
    exact Point3.beq_iff.2 ⟨IEEE.beq_iff.2 ⟨ht.1.not_nan, ht.1.not_nan, rfl⟩, IEEE.beq_iff.2 ⟨ht.2.1.not_nan, ht.2.1.not_nan, rfl⟩, IEEE.beq_iff.2 ⟨ht.2.2.not_nan, ht.2.2.not_nan, rfl⟩⟩)
/-- **C123**: within reach, the target is reached exactly, and a step of at least 0 stays there. -/
theorem C123_arrive3 (t p : Point3 S) (s : S) (ht : AllFinite t) (hs : (zero ≤? s) = true) (h : (Api.distance p t ≤? s) = true) (k : ℕ) :
    repeated (Point3.towards t s) (k + 1) p = t := by
  have st : Point3.towards t s t = t := by
    have z := Point3.dist_self_zero t ht
    have : (Api.distance t t ≤? s) = true := by
      rw [beq_iff] at z; rw [le_iff] at hs ⊢
      exact ⟨z.1, hs.2.1, z.2.2 ▸ hs.2.2⟩
    unfold Point3.towards; rw [this]; simp
  show repeated (Point3.towards t s) k (Point3.towards t s p) = t
  rw [show Point3.towards t s p = t by unfold Point3.towards; rw [h]; simp]
  exact repeated_fixed st k
end
section
variable {S : Type} [Scalar S] [IEEE S] [Binary S]
/-- No component of the unit vector underflows. -/
def Vector3.UnitNormal (v : Vector3 S) : Prop := Normal S (real v.x / real (Api.length v)) ∧ Normal S (real v.y / real (Api.length v)) ∧ Normal S (real v.z / real (Api.length v))
/-- **C123**: limiting the length of a vector enlarges no component, changes no sign, and does not make the computed length larger, whatever is rounded. -/
theorem C123_shrink3 (v : Vector3 S) (m : S) (hm : (zero ≤? m) = true) (hv : AllFinite v) (hL : IsFinite (Api.length v)) (hq : AllFinite v.normalize)
    (hn : v.UnitNormal) :
    AllFinite (v.limit m) ∧ LeAll (v.limit m).abs v.abs ∧ (∀ i, 0 ≤ (v.limit m).toReal i * v.toReal i) ∧
    (Api.length (v.limit m) ≤? Api.length v) = true := by
  have key : AllFinite (v.limit m) ∧ LeAll (v.limit m).abs v.abs ∧ ∀ i, 0 ≤ (v.limit m).toReal i * v.toReal i := by
    cases h : (m <? Api.length v)
    · rw [C123_unchanged3 v m h]
      refine ⟨hv, ?_, fun i => mul_self_nonneg _⟩
      rw [Vector3.allFinite] at hv
      rw [Vector3.leAll]
      exact ⟨(le_iff_real (finite_abs.2 hv.1) (finite_abs.2 hv.1)).2 le_rfl, (le_iff_real (finite_abs.2 hv.2.1) (finite_abs.2 hv.2.1)).2 le_rfl, (le_iff_real (finite_abs.2 hv.2.2) (finite_abs.2 hv.2.2)).2 le_rfl⟩
    · have e : v.limit m = v.normalize * m := by unfold Vector3.limit; rw [h]; simp
      have hb := lt_iff.1 h
      have hb' := le_iff.1 hm
      have fm : IsFinite m := finite_of_between hm h hL
      have m0 : 0 ≤ real m := by rw [ole_real finite_zero fm, real_zero] at hm; exact hm
      have mL : real m < real (Api.length v) := (olt_real fm hL).1 h
      rw [Vector3.allFinite] at hv hq
      rw [e]
      obtain ⟨fx, ax, sx⟩ := shrinks (d := v.x) hv.1 hL fm m0 mL hq.1 hn.1
      obtain ⟨fy, ay, sy⟩ := shrinks (d := v.y) hv.2.1 hL fm m0 mL hq.2.1 hn.2.1
      obtain ⟨fz, az, sz⟩ := shrinks (d := v.z) hv.2.2 hL fm m0 mL hq.2.2 hn.2.2
      refine ⟨Vector3.allFinite.2 ⟨fx, fy, fz⟩, Vector3.leAll.2 ⟨(le_iff_real (finite_abs.2 fx) (finite_abs.2 hv.1)).2 (by rw [real_abs, real_abs]; exact ax), (le_iff_real (finite_abs.2 fy) (finite_abs.2 hv.2.1)).2 (by rw [real_abs, real_abs]; exact ay), (le_iff_real (finite_abs.2 fz) (finite_abs.2 hv.2.2)).2 (by rw [real_abs, real_abs]; exact az)⟩, fun i => ?_⟩
      fin_cases i
      exacts [sx, sy, sz]
  exact ⟨key.1, key.2.1, key.2.2, C69_length3 _ _ key.2.1⟩
/-- **C123**: the length of a limited vector is the limit up to 5 roundings, if nothing underflows. -/
theorem C123_length3 (v : Vector3 S) (m : S) (hm : (zero ≤? m) = true) (h : (m <? Api.length v) = true) (hv : AllFinite v) (hL : IsFinite (Api.length v))
    (hq : AllFinite v.normalize) (hn : v.UnitNormal) (nx : Normal S (real v.x ^ 2)) (ny : Normal S (real v.y ^ 2)) (nz : Normal S (real v.z ^ 2))
    (hr : ∀ i, Normal S (v.normalize.toReal i * real m)) :
    (1 - uro S) ^ 2 / (1 + uro S) ^ 3 * real m ≤ norm2 (v.limit m).toReal ∧ norm2 (v.limit m).toReal ≤ (1 + uro S) ^ 2 / (1 - uro S) ^ 3 * real m := by
  have e : v.limit m = v.normalize * m := by unfold Vector3.limit; rw [h]; simp
  have fm : IsFinite m := finite_of_between hm h hL
  have m0 : 0 ≤ real m := by rw [ole_real finite_zero fm, real_zero] at hm; exact hm
  have mL : real m < real (Api.length v) := (olt_real fm hL).1 h
  have L0 : 0 < real (Api.length v) := m0.trans_lt mL
  have w := C59_length3 v hL nx ny nz
  have en : norm2 v.toReal = √(real v.x ^ 2 + real v.y ^ 2 + real v.z ^ 2) := by
    unfold norm2; congr 1; simp [Vector3.toReal, Fin.sum_univ_succ, add_assoc]
  rw [← en] at w
  rw [Vector3.allFinite] at hv hq
  rw [e]
  have up := uro_pos (S := S)
  have u1 := uro_le (S := S)
  have t0 : 0 ≤ real m / real (Api.length v) := by positivity
  have key : ∀ i, (1 - uro S) ^ 2 * (real m / real (Api.length v)) * |v.toReal i| ≤ |(v.normalize * m).toReal i| ∧
      |(v.normalize * m).toReal i| ≤ (1 + uro S) ^ 2 * (real m / real (Api.length v)) * |v.toReal i| := by
    intro i
    fin_cases i
    · have k := scaled_within (d := v.x) hv.1 hL fm m0 L0 hq.1 (shrinks hv.1 hL fm m0 mL hq.1 hn.1).1 hn.1 (hr 0)
      rw [show ∀ t : ℝ, t * (|real v.x| / real (Api.length v) * real m) = t * (real m / real (Api.length v)) * |real v.x| from fun t => by ring,
        show ∀ t : ℝ, t * (|real v.x| / real (Api.length v) * real m) = t * (real m / real (Api.length v)) * |real v.x| from fun t => by ring] at k
      exact k
    · have k := scaled_within (d := v.y) hv.2.1 hL fm m0 L0 hq.2.1 (shrinks hv.2.1 hL fm m0 mL hq.2.1 hn.2.1).1 hn.2.1 (hr 1)
      rw [show ∀ t : ℝ, t * (|real v.y| / real (Api.length v) * real m) = t * (real m / real (Api.length v)) * |real v.y| from fun t => by ring,
        show ∀ t : ℝ, t * (|real v.y| / real (Api.length v) * real m) = t * (real m / real (Api.length v)) * |real v.y| from fun t => by ring] at k
      exact k
    · have k := scaled_within (d := v.z) hv.2.2 hL fm m0 L0 hq.2.2 (shrinks hv.2.2 hL fm m0 mL hq.2.2 hn.2.2).1 hn.2.2 (hr 2)
      rw [show ∀ t : ℝ, t * (|real v.z| / real (Api.length v) * real m) = t * (real m / real (Api.length v)) * |real v.z| from fun t => by ring,
        show ∀ t : ℝ, t * (|real v.z| / real (Api.length v) * real m) = t * (real m / real (Api.length v)) * |real v.z| from fun t => by ring] at k
      exact k
  have hi := norm2_le_of_abs (c := (1 + uro S) ^ 2 * (real m / real (Api.length v))) (by positivity) fun i => (key i).2
  have lo := le_norm2_of_abs (c := (1 - uro S) ^ 2 * (real m / real (Api.length v))) (by positivity) fun i => (key i).1
  have p1 : 0 < (1 - uro S) ^ 3 := pow_pos (by linarith) _
  have p2 : 0 < (1 + uro S) ^ 3 := by positivity
  constructor
  · refine le_trans ?_ lo
    rw [div_mul_eq_mul_div, div_le_iff₀ p2]
    calc (1 - uro S) ^ 2 * real m = (1 - uro S) ^ 2 * (real m / real (Api.length v)) * real (Api.length v) := by field_simp
      _ ≤ (1 - uro S) ^ 2 * (real m / real (Api.length v)) * ((1 + uro S) ^ 3 * norm2 v.toReal) := mul_le_mul_of_nonneg_left w.2 (by positivity)
      _ = _ := by ring
  · refine hi.trans ?_
    rw [div_mul_eq_mul_div, le_div_iff₀ p1]
    calc (1 + uro S) ^ 2 * (real m / real (Api.length v)) * norm2 v.toReal * (1 - uro S) ^ 3 =
          (1 + uro S) ^ 2 * (real m / real (Api.length v)) * ((1 - uro S) ^ 3 * norm2 v.toReal) := by ring
      _ ≤ (1 + uro S) ^ 2 * (real m / real (Api.length v)) * real (Api.length v) := mul_le_mul_of_nonneg_left w.1 (by positivity)
      _ = _ := by field_simp
/-- **C123**: a step towards the target moves every coordinate towards the target, or leaves it, and not farther than adding the whole difference would. -/
theorem C123_between3 (t p : Point3 S) (s : S) (hs : (zero ≤? s) = true) (hp : AllFinite p) (hd : AllFinite (t - p : Vector3 S))
    (h : (Api.distance p t ≤? s) = false) (hL : IsFinite (Api.distance p t)) (hq : AllFinite (t - p : Vector3 S).normalize) (hn : (t - p : Vector3 S).UnitNormal) :
    ((p.x ≤? t.x) = true → (p.x ≤? (Point3.towards t s p).x) = true ∧ ((Point3.towards t s p).x ≤? p.x + (t.x - p.x)) = true) ∧ ((t.x ≤? p.x) = true → ((Point3.towards t s p).x ≤? p.x) = true ∧ (p.x + (t.x - p.x) ≤? (Point3.towards t s p).x) = true) ∧
    ((p.y ≤? t.y) = true → (p.y ≤? (Point3.towards t s p).y) = true ∧ ((Point3.towards t s p).y ≤? p.y + (t.y - p.y)) = true) ∧ ((t.y ≤? p.y) = true → ((Point3.towards t s p).y ≤? p.y) = true ∧ (p.y + (t.y - p.y) ≤? (Point3.towards t s p).y) = true) ∧
    ((p.z ≤? t.z) = true → (p.z ≤? (Point3.towards t s p).z) = true ∧ ((Point3.towards t s p).z ≤? p.z + (t.z - p.z)) = true) ∧ ((t.z ≤? p.z) = true → ((Point3.towards t s p).z ≤? p.z) = true ∧ (p.z + (t.z - p.z) ≤? (Point3.towards t s p).z) = true) := by
  have e : Point3.towards t s p = p + ((t - p : Vector3 S).normalize * s : Vector3 S) := by unfold Point3.towards; rw [h]; simp
  have h' : (s <? Api.distance p t) = true := lt_of_not_le h (le_iff.1 hs).2.1 hL.not_nan
  have fm : IsFinite s := finite_of_between hs h' hL
  have m0 : 0 ≤ real s := by rw [ole_real finite_zero fm, real_zero] at hs; exact hs
  have mL : real s < real (Api.length (t - p : Vector3 S)) := (olt_real fm hL).1 h'
  rw [Point3.allFinite] at hp
  rw [Vector3.allFinite] at hd hq
  rw [e]
  obtain ⟨fx, ax, sx⟩ := shrinks (d := t.x - p.x) hd.1 hL fm m0 mL hq.1 hn.1
  have wx := between_add hp.1 hd.1 fx ax sx
  obtain ⟨fy, ay, sy⟩ := shrinks (d := t.y - p.y) hd.2.1 hL fm m0 mL hq.2.1 hn.2.1
  have wy := between_add hp.2.1 hd.2.1 fy ay sy
  obtain ⟨fz, az, sz⟩ := shrinks (d := t.z - p.z) hd.2.2 hL fm m0 mL hq.2.2 hn.2.2
  have wz := between_add hp.2.2 hd.2.2 fz az sz
  exact ⟨fun k => wx.1 ((diff_points (finite_of_sub hd.1).1 hp.1 hd.1).1 k), fun k => wx.2 ((diff_points (finite_of_sub hd.1).1 hp.1 hd.1).2 k), fun k => wy.1 ((diff_points (finite_of_sub hd.2.1).1 hp.2.1 hd.2.1).1 k), fun k => wy.2 ((diff_points (finite_of_sub hd.2.1).1 hp.2.1 hd.2.1).2 k), fun k => wz.1 ((diff_points (finite_of_sub hd.2.2).1 hp.2.2 hd.2.2).1 k), fun k => wz.2 ((diff_points (finite_of_sub hd.2.2).1 hp.2.2 hd.2.2).2 k)⟩
end

end VecMath
