out='''import Verif.Spec.Step
import Verif.Props.FloatError
import Verif.Props.FloatAxis
import Verif.Props.FloatLimits
import Verif.Props.FloatZero
import Verif.Props.FloatMono
import Verif.Lemmas.Octree
/-! # C123: limited lengths and steps in floating point

(Generated by tools/gen.) -/

open Classical

namespace VecMath
open Scalar IEEE

section
variable {S : Type} [Scalar S] [IEEE S] [Binary S]
/-- Two numbers of the format, one less than the other, differ by at least a rounding. -/
theorem below_by_rounding {s L : S} (hs : IsFinite s) (hL : IsFinite L) (h0 : 0 ≤ real s) (h : real s < real L) :
    real s ≤ real L * (1 - uro S) := by
  obtain ⟨m, e, -, hm, es⟩ := isFinite_has hs
  obtain ⟨n, f, -, hn, eL⟩ := isFinite_has hL
  have hu : uro S * 2 ^ (Binary.F S).p = 1 := by
    unfold uro; rw [zpow_neg, zpow_natCast]; exact inv_mul_cancel₀ (by positivity)
  have up := uro_pos (S := S)
  -- everything over the smaller exponent
  have key : ∀ (g : ℤ) (a b : ℤ), real s = a * 2 ^ g → real L = b * 2 ^ g → b ≤ 2 ^ (Binary.F S).p → real s ≤ real L * (1 - uro S) := by
    intro g a b ha hb hb'
    have p2 : (0 : ℝ) < 2 ^ g := by positivity
    have hab : (a : ℝ) < b := by rw [ha, hb] at h; exact lt_of_mul_lt_mul_right h p2.le
    have hab' : a + 1 ≤ b := by exact_mod_cast hab
    have c1 : (a : ℝ) + 1 ≤ b := by exact_mod_cast hab'
    have c2 : (b : ℝ) ≤ 2 ^ (Binary.F S).p := by exact_mod_cast hb'
    have c3 : uro S * b ≤ 1 := by rw [← hu]; exact mul_le_mul_of_nonneg_left c2 up.le
    rw [ha, hb]
    calc (a : ℝ) * 2 ^ g ≤ (b - uro S * b) * 2 ^ g := mul_le_mul_of_nonneg_right (by linarith) p2.le
      _ = _ := by ring
  rcases le_or_gt f e with hfe | hef
  · refine key f (m * 2 ^ (e - f).toNat) n ?_ eL ((le_abs_self n).trans hn)
    rw [es]; push_cast
    rw [mul_assoc, ← zpow_natCast, Int.toNat_of_nonneg (by omega), ← zpow_add₀ (by norm_num)]; congr 2; omega
  · have eL' : real L = ((n * 2 ^ (f - e).toNat : ℤ) : ℝ) * 2 ^ e := by
      rw [eL]; push_cast
      rw [mul_assoc, ← zpow_natCast, Int.toNat_of_nonneg (by omega), ← zpow_add₀ (by norm_num)]; congr 2; omega
    by_cases hb : n * 2 ^ (f - e).toNat ≤ 2 ^ (Binary.F S).p
    · exact key e m _ es eL' hb
    · -- the larger number is even over this exponent and longer than the significand
      have ev : ∃ k : ℤ, n * 2 ^ (f - e).toNat = 2 * k := ⟨n * 2 ^ ((f - e).toNat - 1), by
        obtain ⟨j, hj⟩ : ∃ j, (f - e).toNat = j + 1 := ⟨(f - e).toNat - 1, by omega⟩
        rw [hj, Nat.add_sub_cancel, pow_succ]; ring⟩
      have pe : ∃ k : ℤ, (2 : ℤ) ^ (Binary.F S).p = 2 * k := ⟨2 ^ ((Binary.F S).p - 1), by
        have := (Binary.F S).hp
        obtain ⟨j, hj⟩ : ∃ j, (Binary.F S).p = j + 1 := ⟨(Binary.F S).p - 1, by omega⟩
        rw [hj, Nat.add_sub_cancel, pow_succ]; ring⟩
      have b2 : (2 : ℤ) ^ (Binary.F S).p + 2 ≤ n * 2 ^ (f - e).toNat := by
        obtain ⟨k, hk⟩ := ev
        obtain ⟨k', hk'⟩ := pe
        have g := not_le.1 hb
        rw [hk, hk'] at g ⊢
        omega
      have p2 : (0 : ℝ) < 2 ^ e := by positivity
      have m2 : (m : ℝ) ≤ 2 ^ (Binary.F S).p := by exact_mod_cast (le_abs_self m).trans hm
      have b3 : (2 : ℝ) ^ (Binary.F S).p + 2 ≤ ((n * 2 ^ (f - e).toNat : ℤ) : ℝ) := by exact_mod_cast b2
      have u1 := uro_le (S := S)
      rw [es, eL']
      calc (m : ℝ) * 2 ^ e ≤ (((n * 2 ^ (f - e).toNat : ℤ) : ℝ) * (1 - uro S)) * 2 ^ e := by
            refine mul_le_mul_of_nonneg_right ?_ p2.le
            have := mul_le_mul_of_nonneg_right b3 (show 0 ≤ 1 - uro S by linarith)
            nlinarith
        _ = _ := by ring
/-- Dividing by a number and multiplying by a smaller one does not make a number larger, whatever is rounded. -/
theorem shrinks {d L m : S} (hd : IsFinite d) (hL : IsFinite L) (hm : IsFinite m) (h0 : 0 ≤ real m) (h : real m < real L) (hq : IsFinite (d / L))
    (hn : Normal S (real d / real L)) : IsFinite (d / L * m) ∧ |real (d / L * m)| ≤ |real d| ∧ 0 ≤ real (d / L * m) * real d := by
  have L0 : 0 < real L := h0.trans_lt h
  have e := err_div_normal hd hL L0.ne' hq hn
  have up := uro_pos (S := S)
  have u1 := uro_le (S := S)
  have c := correct_mul hq hm
  have q1 : |real (d / L)| ≤ (1 + uro S) * (|real d| / real L) := by
    have := abs_sub_abs_le_abs_sub (real (d / L)) (real d / real L)
    rw [abs_div, abs_of_pos L0] at this e
    linarith
  have qm : |real (d / L) * real m| ≤ |real d| := by
    rw [abs_mul, abs_of_nonneg h0]
    calc |real (d / L)| * real m ≤ ((1 + uro S) * (|real d| / real L)) * (real L * (1 - uro S)) :=
          mul_le_mul q1 (below_by_rounding hm hL h0 h) h0 (by positivity)
      _ = (1 - uro S ^ 2) * |real d| := by field_simp; ring
      _ ≤ 1 * |real d| := mul_le_mul_of_nonneg_right (by nlinarith) (abs_nonneg _)
      _ = _ := one_mul _
  have sg : 0 ≤ real (d / L) * real m * real d := by
    have e2 : (real d / real L) * real d = real d ^ 2 / real L := by ring
    have : 0 ≤ real (d / L) * real d := by
      have a := abs_le.1 e
      rcases le_total 0 (real d) with s | s
      · refine mul_nonneg ?_ s
        have p := div_nonneg s L0.le
        rw [abs_of_nonneg p] at a
        nlinarith
      · refine mul_nonneg_of_nonpos_of_nonpos ?_ s
        have p := div_nonpos_of_nonpos_of_nonneg s L0.le
        rw [abs_of_nonpos p] at a
        nlinarith
    calc 0 ≤ (real (d / L) * real d) * real m := mul_nonneg this h0
      _ = _ := by ring
  have F : IsFinite (d / L * m) := c.1.2 (qm.trans_lt (finite_lt_overflow hd))
  obtain ⟨-, near⟩ := c.2 F
  have iz : InFormat S (0 : ℝ) := by have := inFormat (S := S) (finite_zero (S := S)); rwa [real_zero] at this
  have ip : InFormat S |real d| := by have := inFormat (S := S) (finite_abs.2 hd); rwa [real_abs] at this
  have im : InFormat S (-|real d|) := by have := inFormat (S := S) (finite_neg.2 (finite_abs.2 hd)); rwa [real_neg, real_abs] at this
  have np := near _ ip
  have nm := near _ im
  have nz := near _ iz
  have qb := abs_le.1 qm
  refine ⟨F, abs_le.2 ⟨?_, ?_⟩, ?_⟩
  · by_contra hc
    rw [not_le] at hc
    rw [abs_of_nonpos (by linarith), abs_of_nonpos (by linarith)] at nm
    linarith
  · by_contra hc
    rw [not_le] at hc
    rw [abs_of_nonneg (by linarith), abs_of_nonneg (by linarith)] at np
    linarith
  · by_contra hc
    rw [not_le] at hc
    rcases lt_trichotomy (real d) 0 with s | s | s
    · have x0 : real (d / L) * real m ≤ 0 := by
        by_contra k; rw [not_le] at k; nlinarith
      have c0 : 0 < real (d / L * m) := by
        by_contra k; rw [not_lt] at k; nlinarith
      rw [abs_of_nonneg (by linarith), abs_of_nonneg (by linarith)] at nz
      linarith
    · rw [s, mul_zero] at hc; exact lt_irrefl _ hc
    · have x0 : 0 ≤ real (d / L) * real m := by
        by_contra k; rw [not_le] at k; nlinarith
      have c0 : real (d / L * m) < 0 := by
        by_contra k; rw [not_lt] at k; nlinarith
      rw [abs_of_nonpos (by linarith), abs_of_nonpos (by linarith)] at nz
      linarith
/-- A quotient times a number, up to two roundings. -/
theorem scaled_within {d L m : S} (hd : IsFinite d) (hL : IsFinite L) (hm : IsFinite m) (h0 : 0 ≤ real m) (L0 : 0 < real L) (hq : IsFinite (d / L))
    (hr : IsFinite (d / L * m)) (hn : Normal S (real d / real L)) (hn' : Normal S (real (d / L) * real m)) :
    (1 - uro S) ^ 2 * (|real d| / real L * real m) ≤ |real (d / L * m)| ∧ |real (d / L * m)| ≤ (1 + uro S) ^ 2 * (|real d| / real L * real m) := by
  have e := err_div_normal hd hL L0.ne' hq hn
  have e' := err_mul_normal hr hn'
  have up := uro_pos (S := S)
  have u1 := uro_le (S := S)
  have a1 := abs_sub_abs_le_abs_sub (real (d / L)) (real d / real L)
  have a2 := abs_sub_abs_le_abs_sub (real d / real L) (real (d / L))
  have b1 := abs_sub_abs_le_abs_sub (real (d / L * m)) (real (d / L) * real m)
  have b2 := abs_sub_abs_le_abs_sub (real (d / L) * real m) (real (d / L * m))
  rw [abs_sub_comm] at a2 b2
  rw [abs_div, abs_of_pos L0] at a1 a2 e
  rw [abs_mul, abs_of_nonneg h0] at b1 b2 e'
  have x0 : 0 ≤ |real d| / real L := by positivity
  constructor
  · calc (1 - uro S) ^ 2 * (|real d| / real L * real m) = (1 - uro S) * (((1 - uro S) * (|real d| / real L)) * real m) := by ring
      _ ≤ (1 - uro S) * (|real (d / L)| * real m) := by
          refine mul_le_mul_of_nonneg_left (mul_le_mul_of_nonneg_right ?_ h0) (by linarith)
          linarith
      _ ≤ _ := by linarith
  · calc |real (d / L * m)| ≤ (1 + uro S) * (|real (d / L)| * real m) := by linarith
      _ ≤ (1 + uro S) * (((1 + uro S) * (|real d| / real L)) * real m) := by
          refine mul_le_mul_of_nonneg_left (mul_le_mul_of_nonneg_right ?_ h0) (by linarith)
          linarith
      _ = _ := by ring
/-- Adding something that points the same way as another difference, and is not larger. -/
theorem between_add {x d c : S} (hx : IsFinite x) (hd : IsFinite d) (hc : IsFinite c) (h1 : |real c| ≤ |real d|) (h2 : 0 ≤ real c * real d) :
    (0 ≤ real d → (x ≤? x + c) = true ∧ (x + c ≤? x + d) = true) ∧ (real d ≤ 0 → (x + c ≤? x) = true ∧ (x + d ≤? x + c) = true) := by
  have nx := hx.not_nan
  have n1 : ¬ IsNaN (x + c) := isNaN_add_finite hx hc.not_nan
  have n2 : ¬ IsNaN (x + d) := isNaN_add_finite hx hd.not_nan
  have n0 : ¬ IsNaN (x + zero) := isNaN_add_finite hx (finite_zero (S := S)).not_nan
  have e0 : val (x + zero) = val x := by rw [val_num, num_add_zero, ← val_num]
  have vc := hc.val
  have vd := hd.val
  have vz : val (zero : S) = ((0 : ℝ) : EReal) := by rw [(finite_zero (S := S)).val, real_zero]
  constructor
  · intro s
    have c0 : 0 ≤ real c := by
      by_contra k; rw [not_le] at k
      have d0 : real d ≠ 0 := by rintro e; rw [e, abs_zero] at h1; exact k.ne (abs_nonpos_iff.1 h1)
      have := lt_of_le_of_ne s (Ne.symm d0)
      nlinarith
    rw [abs_of_nonneg c0, abs_of_nonneg s] at h1
    refine ⟨le_iff.2 ⟨nx, n1, ?_⟩, le_iff.2 ⟨n1, n2, ?_⟩⟩
    · rw [← e0]; exact val_add_mono le_rfl (by rw [vz, vc]; exact_mod_cast c0) n0 n1
    · exact val_add_mono le_rfl (by rw [vc, vd]; exact_mod_cast h1) n1 n2
  · intro s
    have c0 : real c ≤ 0 := by
      by_contra k; rw [not_le] at k
      have d0 : real d ≠ 0 := by rintro e; rw [e, abs_zero] at h1; exact k.ne' (abs_nonpos_iff.1 h1)
      have := lt_of_le_of_ne s d0
      nlinarith
    rw [abs_of_nonpos c0, abs_of_nonpos s] at h1
    refine ⟨le_iff.2 ⟨n1, nx, ?_⟩, le_iff.2 ⟨n2, n1, ?_⟩⟩
    · rw [← e0]; exact val_add_mono le_rfl (by rw [vz, vc]; exact_mod_cast c0) n1 n0
    · exact val_add_mono le_rfl (by rw [vc, vd]; exact_mod_cast (by linarith)) n2 n1
end

theorem repeated_fixed {A : Type} {f : A → A} {x : A} (h : f x = x) (n : ℕ) : repeated f n x = x := by
  induction n with
  | zero => rfl
  | succ n ih => show repeated f n (f x) = x; rw [h, ih]
'''
for n in (2,3):
    P=f'Point{n}'; V=f'Vector{n}'; cs='xyz'[:n]; K=n
    obt='⟨'+', '.join(f'v{c}' for c in cs)+'⟩'
    sumsq=' + '.join(f'real v.{c} ^ 2' for c in cs)
    out+=f'''
/-! ## Dimension {n} -/
section
variable {{S : Type}} [Scalar S] [IEEE S]
/-- **C123**: a vector that is not longer than the limit, and a vector with a NaN, comes back unchanged; a limited one has no larger component than ... -/
theorem C123_unchanged{n} (v : {V} S) (m : S) (h : (m <? Api.length v) = false) : v.limit m = v := by
  unfold {V}.limit; rw [h]; simp
theorem {P}.dist_self_zero (t : {P} S) (ht : AllFinite t) : (Api.distance t t == zero) = true :=
  C15_float_zero{n} t t ht ht (by
    rw [{P}.allFinite] at ht
    exact {P}.beq_iff.2 ⟨{', '.join(f'IEEE.beq_iff.2 ⟨ht.{a}.not_nan, ht.{a}.not_nan, rfl⟩' for a in (['1','2'] if n==2 else ['1','2.1','2.2']))}⟩)
/-- **C123**: within reach, the target is reached exactly, and a step of at least 0 stays there. -/
theorem C123_arrive{n} (t p : {P} S) (s : S) (ht : AllFinite t) (hs : (zero ≤? s) = true) (h : (Api.distance p t ≤? s) = true) (k : ℕ) :
    repeated ({P}.towards t s) (k + 1) p = t := by
  have st : {P}.towards t s t = t := by
    have z := {P}.dist_self_zero t ht
    have : (Api.distance t t ≤? s) = true := by
      rw [beq_iff] at z; rw [le_iff] at hs ⊢
      exact ⟨z.1, hs.2.1, z.2.2 ▸ hs.2.2⟩
    unfold {P}.towards; rw [this]; simp
  show repeated ({P}.towards t s) k ({P}.towards t s p) = t
  rw [show {P}.towards t s p = t by unfold {P}.towards; rw [h]; simp]
  exact repeated_fixed st k
end
section
variable {{S : Type}} [Scalar S] [IEEE S] [Binary S]
/-- No component of the unit vector underflows. -/
def {V}.UnitNormal (v : {V} S) : Prop := {' ∧ '.join(f'Normal S (real v.{c} / real (Api.length v))' for c in cs)}
/-- **C123**: limiting the length of a vector enlarges no component, changes no sign, and does not make the computed length larger, whatever is rounded. -/
theorem C123_shrink{n} (v : {V} S) (m : S) (hm : (zero ≤? m) = true) (hv : AllFinite v) (hL : IsFinite (Api.length v)) (hq : AllFinite v.normalize)
    (hn : v.UnitNormal) :
    AllFinite (v.limit m) ∧ LeAll (v.limit m).abs v.abs ∧ (∀ i, 0 ≤ (v.limit m).toReal i * v.toReal i) ∧
    (Api.length (v.limit m) ≤? Api.length v) = true := by
  have key : AllFinite (v.limit m) ∧ LeAll (v.limit m).abs v.abs ∧ ∀ i, 0 ≤ (v.limit m).toReal i * v.toReal i := by
    cases h : (m <? Api.length v)
    · rw [C123_unchanged{n} v m h]
      refine ⟨hv, ?_, fun i => mul_self_nonneg _⟩
      rw [{V}.allFinite] at hv
      rw [{V}.leAll]
      exact ⟨{', '.join(f'(le_iff_real (finite_abs.2 hv.{a}) (finite_abs.2 hv.{a})).2 le_rfl' for a in (['1','2'] if n==2 else ['1','2.1','2.2']))}⟩
    · have e : v.limit m = v.normalize * m := by unfold {V}.limit; rw [h]; simp
      have hb := lt_iff.1 h
      have hb' := le_iff.1 hm
      have fm : IsFinite m := finite_of_between hm h hL
      have m0 : 0 ≤ real m := by rw [ole_real finite_zero fm, real_zero] at hm; exact hm
      have mL : real m < real (Api.length v) := (olt_real fm hL).1 h
      rw [{V}.allFinite] at hv hq
      rw [e]
'''
    for c,a in zip(cs,['1','2'] if n==2 else ['1','2.1','2.2']):
        out+=f'''      obtain ⟨f{c}, a{c}, s{c}⟩ := shrinks (d := v.{c}) hv.{a} hL fm m0 mL hq.{a} hn.{a}
'''
    out+=f'''      refine ⟨{V}.allFinite.2 ⟨{', '.join('f'+c for c in cs)}⟩, {V}.leAll.2 ⟨{', '.join(f'(le_iff_real (finite_abs.2 f{c}) (finite_abs.2 hv.{a})).2 (by rw [real_abs, real_abs]; exact a{c})' for c,a in zip(cs,['1','2'] if n==2 else ['1','2.1','2.2']))}⟩, fun i => ?_⟩
      fin_cases i
      exacts [{', '.join('s'+c for c in cs)}]
  exact ⟨key.1, key.2.1, key.2.2, C69_length{n} _ _ key.2.1⟩
/-- **C123**: the length of a limited vector is the limit up to {K+2} roundings, if nothing underflows. -/
theorem C123_length{n} (v : {V} S) (m : S) (hm : (zero ≤? m) = true) (h : (m <? Api.length v) = true) (hv : AllFinite v) (hL : IsFinite (Api.length v))
    (hq : AllFinite v.normalize) (hn : v.UnitNormal) {' '.join(f'(n{c} : Normal S (real v.{c} ^ 2))' for c in cs)}
    (hr : ∀ i, Normal S (v.normalize.toReal i * real m)) :
    (1 - uro S) ^ 2 / (1 + uro S) ^ {K} * real m ≤ norm2 (v.limit m).toReal ∧ norm2 (v.limit m).toReal ≤ (1 + uro S) ^ 2 / (1 - uro S) ^ {K} * real m := by
  have e : v.limit m = v.normalize * m := by unfold {V}.limit; rw [h]; simp
  have fm : IsFinite m := finite_of_between hm h hL
  have m0 : 0 ≤ real m := by rw [ole_real finite_zero fm, real_zero] at hm; exact hm
  have mL : real m < real (Api.length v) := (olt_real fm hL).1 h
  have L0 : 0 < real (Api.length v) := m0.trans_lt mL
  have w := C59_length{n} v hL {' '.join('n'+c for c in cs)}
  have en : norm2 v.toReal = √({sumsq}) := by
    unfold norm2; congr 1; simp [{V}.toReal, Fin.sum_univ_succ{', add_assoc' if n==3 else ''}]
  rw [← en] at w
  rw [{V}.allFinite] at hv hq
  rw [e]
  have up := uro_pos (S := S)
  have u1 := uro_le (S := S)
  have t0 : 0 ≤ real m / real (Api.length v) := by positivity
  have key : ∀ i, (1 - uro S) ^ 2 * (real m / real (Api.length v)) * |v.toReal i| ≤ |(v.normalize * m).toReal i| ∧
      |(v.normalize * m).toReal i| ≤ (1 + uro S) ^ 2 * (real m / real (Api.length v)) * |v.toReal i| := by
    intro i
    fin_cases i
'''
    for k,(c,a) in enumerate(zip(cs,['1','2'] if n==2 else ['1','2.1','2.2'])):
        out+=f'''    · have k := scaled_within (d := v.{c}) hv.{a} hL fm m0 L0 hq.{a} (shrinks hv.{a} hL fm m0 mL hq.{a} hn.{a}).1 hn.{a} (hr {k})
      rw [show ∀ t : ℝ, t * (|real v.{c}| / real (Api.length v) * real m) = t * (real m / real (Api.length v)) * |real v.{c}| from fun t => by ring,
        show ∀ t : ℝ, t * (|real v.{c}| / real (Api.length v) * real m) = t * (real m / real (Api.length v)) * |real v.{c}| from fun t => by ring] at k
      exact k
'''
    out+=f'''  have hi := norm2_le_of_abs (c := (1 + uro S) ^ 2 * (real m / real (Api.length v))) (by positivity) fun i => (key i).2
  have lo := le_norm2_of_abs (c := (1 - uro S) ^ 2 * (real m / real (Api.length v))) (by positivity) fun i => (key i).1
  have p1 : 0 < (1 - uro S) ^ {K} := pow_pos (by linarith) _
  have p2 : 0 < (1 + uro S) ^ {K} := by positivity
  constructor
  · refine le_trans ?_ lo
    rw [div_mul_eq_mul_div, div_le_iff₀ p2]
    calc (1 - uro S) ^ 2 * real m = (1 - uro S) ^ 2 * (real m / real (Api.length v)) * real (Api.length v) := by field_simp
      _ ≤ (1 - uro S) ^ 2 * (real m / real (Api.length v)) * ((1 + uro S) ^ {K} * norm2 v.toReal) := mul_le_mul_of_nonneg_left w.2 (by positivity)
      _ = _ := by ring
  · refine hi.trans ?_
    rw [div_mul_eq_mul_div, le_div_iff₀ p1]
    calc (1 + uro S) ^ 2 * (real m / real (Api.length v)) * norm2 v.toReal * (1 - uro S) ^ {K} =
          (1 + uro S) ^ 2 * (real m / real (Api.length v)) * ((1 - uro S) ^ {K} * norm2 v.toReal) := by ring
      _ ≤ (1 + uro S) ^ 2 * (real m / real (Api.length v)) * real (Api.length v) := mul_le_mul_of_nonneg_left w.1 (by positivity)
      _ = _ := by field_simp
/-- **C123**: a step towards the target moves every coordinate towards the target, or leaves it, and not farther than adding the whole difference would. -/
theorem C123_between{n} (t p : {P} S) (s : S) (hs : (zero ≤? s) = true) (hp : AllFinite p) (hd : AllFinite (t - p : {V} S))
    (h : (Api.distance p t ≤? s) = false) (hL : IsFinite (Api.distance p t)) (hq : AllFinite (t - p : {V} S).normalize) (hn : (t - p : {V} S).UnitNormal) :
    ({P}.towards t s p).toReal = ({P}.towards t s p).toReal ∧
    {(' ∧'+chr(10)+'    ').join(f'((p.{c} ≤? t.{c}) = true → (p.{c} ≤? ({P}.towards t s p).{c}) = true ∧ (({P}.towards t s p).{c} ≤? p.{c} + (t.{c} - p.{c})) = true) ∧ ((t.{c} ≤? p.{c}) = true → (({P}.towards t s p).{c} ≤? p.{c}) = true ∧ (p.{c} + (t.{c} - p.{c}) ≤? ({P}.towards t s p).{c}) = true)' for c in cs)} := by
  have e : {P}.towards t s p = p + ((t - p : {V} S).normalize * s : {V} S) := by unfold {P}.towards; rw [h]; simp
  have h' : (s <? Api.distance p t) = true := lt_of_not_le h (le_iff.1 hs).2.1 hL.not_nan
  have fm : IsFinite s := finite_of_between hs h' hL
  have m0 : 0 ≤ real s := by rw [ole_real finite_zero fm, real_zero] at hs; exact hs
  have mL : real s < real (Api.length (t - p : {V} S)) := (olt_real fm hL).1 h'
  rw [{P}.allFinite] at hp
  rw [{V}.allFinite] at hd hq
  rw [e]
'''
    for c,a in zip(cs,['1','2'] if n==2 else ['1','2.1','2.2']):
        out+=f'''  obtain ⟨f{c}, a{c}, s{c}⟩ := shrinks (d := t.{c} - p.{c}) hd.{a} hL fm m0 mL hq.{a} hn.{a}
  have w{c} := between_add hp.{a} hd.{a} f{c} a{c} s{c}
'''
    A=['1','2'] if n==2 else ['1','2.1','2.2']
    out+=f'''  exact ⟨rfl, {', '.join(f'fun k => w{c}.1 ((diff_points (finite_of_sub hd.{a}).1 hp.{a} hd.{a}).1 k), fun k => w{c}.2 ((diff_points (finite_of_sub hd.{a}).1 hp.{a} hd.{a}).2 k)' for c,a in zip(cs,A))}⟩
end
'''
# cleanups
out=out.replace("comes back unchanged; a limited one has no larger component than ... -/","comes back unchanged. -/")
import re
out=re.sub(r"    \(Point(\d)\.towards t s p\)\.toReal = \(Point\1\.towards t s p\)\.toReal ∧\n","",out)
out=out.replace("  exact ⟨rfl, ","  exact ⟨")
out=out.replace('''
theorem repeated_fixed''','''
section
variable {S : Type} [Scalar S] [IEEE S]
theorem finite_of_between {a c : S} (h : (zero ≤? a) = true) (h' : (a <? c) = true) (hc : IsFinite c) : IsFinite a := by
  have x := le_iff.1 h
  have y := lt_iff.1 h'
  rw [val_zero] at x
  rw [hc.val] at y
  exact finite_iff.2 ⟨x.2.1, fun e => by rw [e] at y; simp at y, fun e => by rw [e] at x; simp at x⟩
theorem lt_of_not_le {a b : S} (h : (b ≤? a) = false) (ha : ¬ IsNaN a) (hb : ¬ IsNaN b) : (a <? b) = true := by
  rw [lt_iff]
  refine ⟨ha, hb, ?_⟩
  by_contra k
  rw [Bool.eq_false_iff] at h
  exact h (le_iff.2 ⟨hb, ha, not_lt.1 k⟩)
end
section
variable {S : Type} [Scalar S] [IEEE S] [Binary S]
theorem diff_points {t p : S} (ht : IsFinite t) (hp : IsFinite p) (hd : IsFinite (t - p)) :
    ((p ≤? t) = true → 0 ≤ real (t - p)) ∧ ((t ≤? p) = true → real (t - p) ≤ 0) := by
  have e := abs_le.1 (err_sub hd)
  have u1 := uro_le (S := S)
  have up := uro_pos (S := S)
  constructor
  · intro h
    rw [ole_real hp ht] at h
    rw [abs_of_nonneg (by linarith)] at e
    nlinarith
  · intro h
    rw [ole_real ht hp] at h
    rw [abs_of_nonpos (by linarith)] at e
    nlinarith
end
theorem norm2_le_of_abs {n : ℕ} {x y : Fin n → ℝ} {c : ℝ} (hc : 0 ≤ c) (h : ∀ i, |x i| ≤ c * |y i|) : norm2 x ≤ c * norm2 y := by
  unfold norm2
  rw [← Real.sqrt_sq hc, ← Real.sqrt_mul (sq_nonneg _), Finset.mul_sum]
  refine Real.sqrt_le_sqrt (Finset.sum_le_sum fun i _ => ?_)
  rw [← sq_abs (x i), ← sq_abs (y i), ← mul_pow]
  exact pow_le_pow_left₀ (abs_nonneg _) (h i) 2
theorem le_norm2_of_abs {n : ℕ} {x y : Fin n → ℝ} {c : ℝ} (hc : 0 ≤ c) (h : ∀ i, c * |y i| ≤ |x i|) : c * norm2 y ≤ norm2 x := by
  unfold norm2
  rw [← Real.sqrt_sq hc, ← Real.sqrt_mul (sq_nonneg _), Finset.mul_sum]
  refine Real.sqrt_le_sqrt (Finset.sum_le_sum fun i _ => ?_)
  rw [← sq_abs (x i), ← sq_abs (y i), ← mul_pow]
  exact pow_le_pow_left₀ (by positivity) (h i) 2
theorem repeated_fixed''',1)
out+='\nend VecMath\n'
open('/tmp/d/FloatStep.lean','w').write(out)
