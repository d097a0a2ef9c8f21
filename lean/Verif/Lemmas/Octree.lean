import Verif.Lemmas.Bisect
import Verif.Spec.Octree
import Verif.Props.FloatBoxMeasure
import Verif.Props.FloatMono
/-!
# Bisecting one dimension of a box
-/
open Classical
set_option linter.unusedSectionVars false

namespace VecMath
open Scalar IEEE
variable {S : Type} [Scalar S] [IEEE S] [B : Binary S]

/-- A finite, ordered interval whose extent does not overflow. -/
structure Iv (lo hi : S) : Prop where
  fl : IsFinite lo
  fh : IsFinite hi
  le : real lo ≤ real hi
  ext : IsFinite (hi - lo)

/-- the computed center of an interval -/
def mid (lo hi : S) : S := lo + (hi - lo) * Scalar.half

theorem ole_real {a b : S} (ha : IsFinite a) (hb : IsFinite b) : (a ≤? b) = true ↔ real a ≤ real b := by
  rw [le_of_not_nan ha.not_nan hb.not_nan, ha.val, hb.val, EReal.coe_le_coe_iff]
theorem olt_real {a b : S} (ha : IsFinite a) (hb : IsFinite b) : (a <? b) = true ↔ real a < real b := by
  rw [lt_of_not_nan ha.not_nan hb.not_nan, ha.val, hb.val, EReal.coe_lt_coe_iff]
theorem obeq_real {a b : S} (ha : IsFinite a) (hb : IsFinite b) : (a == b) = true ↔ real a = real b := by
  rw [beq_of_not_nan ha.not_nan hb.not_nan, ha.val, hb.val, EReal.coe_eq_coe_iff]

/-- what lies between finite numbers is finite -/
theorem ofinite_between {a b c : S} (ha : IsFinite a) (hc : IsFinite c) (h1 : (a ≤? b) = true) (h2 : (b ≤? c) = true) :
    IsFinite b := by
  rw [le_iff] at h1 h2
  rw [finite_iff]
  refine ⟨h1.2.1, fun h => ?_, fun h => ?_⟩
  · have := h2.2.2; rw [h, hc.val] at this; exact absurd this (by simp)
  · have := h1.2.2; rw [h, ha.val] at this; exact absurd this (by simp)
theorem ole_of_lt' {a b : S} (h : (a <? b) = true) : (a ≤? b) = true := by
  rw [lt_iff] at h; rw [le_iff]; exact ⟨h.1, h.2.1, h.2.2.le⟩

namespace Iv
variable {lo hi a b : S}

theorem of (hl : IsFinite lo) (hh : IsFinite hi) (h : (lo ≤? hi) = true) (hd : IsFinite (hi - lo)) : Iv lo hi :=
  ⟨hl, hh, (ole_real hl hh).1 h, hd⟩

/-- sub-intervals -/
theorem sub (h : Iv lo hi) (ha : IsFinite a) (hb : IsFinite b) (h1 : real lo ≤ real a) (h2 : real a ≤ real b)
    (h3 : real b ≤ real hi) : Iv a b := by
  refine ⟨ha, hb, h2, (correct_sub hb ha).1.2 ?_⟩
  have := (correct_sub h.fh h.fl).1.1 h.ext
  rw [abs_of_nonneg (by linarith)] at this ⊢
  linarith

theorem mid_in (h : Iv lo hi) : IsFinite (mid lo hi) ∧ real lo ≤ real (mid lo hi) ∧ real (mid lo hi) ≤ real hi := by
  have k := center1 h.fl h.fh ((ole_real h.fl h.fh).2 h.le) h.ext
  have f : IsFinite (mid lo hi) := ofinite_between h.fl h.fh k.1 k.2
  exact ⟨f, (ole_real h.fl f).1 k.1, (ole_real f h.fh).1 k.2⟩

theorem mid_real (h : Iv lo hi) : real (mid lo hi) =
    B.F.rnd (real lo + B.F.rnd (B.F.rnd (real hi - real lo) / 2)) := by
  have f := h.mid_in.1
  have f2 := (finite_of_add f).2
  rw [mid, real_add f, real_mul f2, real_half, real_sub h.ext]
  simp only [rnd_eq]
  ring_nf

/-- **Progress**: with a number strictly between, the center is strictly between. -/
theorem mid_strict (h : Iv lo hi) (hm : ¬ Adjacent lo hi) :
    (real lo < real (mid lo hi) ∧ real (mid lo hi) < real hi) ∧
    (4 ≤ B.F.p → real (mid lo hi) - real lo ≤ 7 / 8 * (real hi - real lo) ∧
      real hi - real (mid lo hi) ≤ 7 / 8 * (real hi - real lo)) := by
  obtain ⟨m, h1, h2⟩ := not_not.1 hm
  have fm := ofinite_between h.fl h.fh (ole_of_lt' h1) (ole_of_lt' h2)
  have e := err_sub h.ext
  rw [abs_of_nonneg (sub_nonneg.2 h.le), real_sub h.ext, rnd_eq] at e
  have k := Fmt.bisect (isFinite_has h.fl) (isFinite_has fm) (isFinite_has h.fh) ((olt_real h.fl fm).1 h1)
    ((olt_real fm h.fh).1 h2) e (uro_le (S := S))
  rw [← h.mid_real] at k
  refine ⟨k.1, fun hp => k.2 ?_⟩
  unfold uro
  calc (2 : ℝ) ^ (-(B.F.p : ℤ)) ≤ 2 ^ (-4 : ℤ) := Fmt.z_le (by omega)
    _ = 1 / 16 := by norm_num

/-- Without, the center is one of the ends. -/
theorem mid_adjacent (h : Iv lo hi) (hm : Adjacent lo hi) : real (mid lo hi) = real lo ∨ real (mid lo hi) = real hi := by
  obtain ⟨f, h1, h2⟩ := h.mid_in
  by_contra hc
  push_neg at hc
  exact hm ⟨mid lo hi, (olt_real h.fl f).2 (lt_of_le_of_ne h1 (Ne.symm hc.1)), (olt_real f h.fh).2 (lt_of_le_of_ne h2 hc.2)⟩

theorem adjacent_sub (h : Iv lo hi) (hm : Adjacent lo hi) (ha : IsFinite a) (hb : IsFinite b) (h1 : real lo ≤ real a)
    (h3 : real b ≤ real hi) : Adjacent a b := by
  rintro ⟨m, k1, k2⟩
  have fm := ofinite_between ha hb (ole_of_lt' k1) (ole_of_lt' k2)
  exact hm ⟨m, (olt_real h.fl fm).2 (h1.trans_lt ((olt_real ha fm).1 k1)), (olt_real fm h.fh).2 (((olt_real fm hb).1 k2).trans_le h3)⟩

/-- two quanta fit between numbers that are not neighbours -/
theorem two_quanta (h : Iv lo hi) (hm : ¬ Adjacent lo hi) : 2 * (2 : ℝ) ^ B.F.emin ≤ real hi - real lo := by
  obtain ⟨m, h1, h2⟩ := not_not.1 hm
  have fm := ofinite_between h.fl h.fh (ole_of_lt' h1) (ole_of_lt' h2)
  have a := (olt_real h.fl fm).1 h1
  have b := (olt_real fm h.fh).1 h2
  have c := B.F.quantum_le (B.F.sub_quantum (isFinite_has fm) (isFinite_has h.fl)) (by linarith)
  have d := B.F.quantum_le (B.F.sub_quantum (isFinite_has h.fh) (isFinite_has fm)) (by linarith)
  rw [abs_of_pos (by linarith)] at c d
  linarith
end Iv

/-- One dimension of a cell: from the center to one of the ends. -/
structure Kid (lo hi lo' hi' : S) : Prop where
  fl : IsFinite lo'
  fh : IsFinite hi'
  cases : (real lo' = real lo ∧ real hi' = real (mid lo hi)) ∨ (real lo' = real (mid lo hi) ∧ real hi' = real hi)

theorem fmin_real {a b : S} (ha : IsFinite a) (hb : IsFinite b) : IsFinite (fmin a b) ∧ real (fmin a b) = min (real a) (real b) := by
  rcases (den_fmin a b).2.2 ha.not_nan hb.not_nan with h | h
  · have h2 := h.2
    rw [show (den a).ereal = _ from ha.val, show (den b).ereal = _ from hb.val, EReal.coe_le_coe_iff] at h2
    refine ⟨by unfold IsFinite; rw [h.1]; exact ha, ?_⟩
    rw [min_eq_left h2]; unfold real; rw [h.1]
  · have h2 := h.2
    rw [show (den a).ereal = _ from ha.val, show (den b).ereal = _ from hb.val, EReal.coe_le_coe_iff] at h2
    refine ⟨by unfold IsFinite; rw [h.1]; exact hb, ?_⟩
    rw [min_eq_right h2]; unfold real; rw [h.1]
theorem fmax_real {a b : S} (ha : IsFinite a) (hb : IsFinite b) : IsFinite (fmax a b) ∧ real (fmax a b) = max (real a) (real b) := by
  rcases (den_fmax a b).2.2 ha.not_nan hb.not_nan with h | h
  · have h2 := h.2
    rw [show (den a).ereal = _ from ha.val, show (den b).ereal = _ from hb.val, EReal.coe_le_coe_iff] at h2
    refine ⟨by unfold IsFinite; rw [h.1]; exact ha, ?_⟩
    rw [max_eq_left h2]; unfold real; rw [h.1]
  · have h2 := h.2
    rw [show (den a).ereal = _ from ha.val, show (den b).ereal = _ from hb.val, EReal.coe_le_coe_iff] at h2
    refine ⟨by unfold IsFinite; rw [h.1]; exact hb, ?_⟩
    rw [max_eq_right h2]; unfold real; rw [h.1]

theorem Iv.kid_lo {lo hi : S} (h : Iv lo hi) : real (fmin (mid lo hi) lo) = real lo ∧ real (fmax (mid lo hi) lo) = real (mid lo hi) ∧
    Kid lo hi (fmin (mid lo hi) lo) (fmax (mid lo hi) lo) := by
  obtain ⟨f, h1, h2⟩ := h.mid_in
  obtain ⟨a, a'⟩ := fmin_real f h.fl
  obtain ⟨b, b'⟩ := fmax_real f h.fl
  rw [min_eq_right h1] at a'
  rw [max_eq_left h1] at b'
  exact ⟨a', b', a, b, .inl ⟨a', b'⟩⟩
theorem Iv.kid_hi {lo hi : S} (h : Iv lo hi) : real (fmin (mid lo hi) hi) = real (mid lo hi) ∧ real (fmax (mid lo hi) hi) = real hi ∧
    Kid lo hi (fmin (mid lo hi) hi) (fmax (mid lo hi) hi) := by
  obtain ⟨f, h1, h2⟩ := h.mid_in
  obtain ⟨a, a'⟩ := fmin_real f h.fh
  obtain ⟨b, b'⟩ := fmax_real f h.fh
  rw [min_eq_left h2] at a'
  rw [max_eq_right h2] at b'
  exact ⟨a', b', a, b, .inr ⟨a', b'⟩⟩

namespace Kid
variable {lo hi lo' hi' : S}
theorem in_ (h : Iv lo hi) (k : Kid lo hi lo' hi') : real lo ≤ real lo' ∧ real lo' ≤ real hi' ∧ real hi' ≤ real hi := by
  obtain ⟨f, h1, h2⟩ := h.mid_in
  rcases k.cases with ⟨a, b⟩ | ⟨a, b⟩ <;> rw [a, b]
  · exact ⟨le_rfl, h1, h2⟩
  · exact ⟨h1, h2, le_rfl⟩
theorem iv (h : Iv lo hi) (k : Kid lo hi lo' hi') : Iv lo' hi' := by
  obtain ⟨a, b, c⟩ := k.in_ h
  exact h.sub k.fl k.fh a b c
theorem shrink (h : Iv lo hi) (k : Kid lo hi lo' hi') (hp : 4 ≤ B.F.p) (hm : ¬ Adjacent lo hi) :
    real hi' - real lo' ≤ 7 / 8 * (real hi - real lo) := by
  have := (h.mid_strict hm).2 hp
  rcases k.cases with ⟨a, b⟩ | ⟨a, b⟩ <;> rw [a, b]
  · exact this.1
  · exact this.2
end Kid

/-- `n` halvings of one dimension -/
inductive Kids : ℕ → S → S → S → S → Prop
  | zero (lo hi : S) : Kids 0 lo hi lo hi
  | succ {n : ℕ} {lo hi a b lo' hi' : S} : Kid lo hi a b → Kids n a b lo' hi' → Kids (n + 1) lo hi lo' hi'

theorem Kids.main {n : ℕ} {lo hi lo' hi' : S} (h : Iv lo hi) (k : Kids n lo hi lo' hi') :
    Iv lo' hi' ∧ real lo ≤ real lo' ∧ real hi' ≤ real hi ∧
    (4 ≤ B.F.p → Adjacent lo' hi' ∨ real hi' - real lo' ≤ (7 / 8) ^ n * (real hi - real lo)) := by
  induction k with
  | zero lo hi => exact ⟨h, le_rfl, le_rfl, fun _ => .inr (by simp)⟩
  | @succ n lo hi a b lo' hi' k ks ih =>
    obtain ⟨i1, i2, i3, i4⟩ := ih (k.iv h)
    obtain ⟨k1, k2, k3⟩ := k.in_ h
    refine ⟨i1, k1.trans i2, i3.trans k3, fun hp => ?_⟩
    by_cases hm : Adjacent lo hi
    · exact .inl (h.adjacent_sub hm i1.fl i1.fh (k1.trans i2) (i3.trans k3))
    · refine (i4 hp).imp_right fun h5 => h5.trans ?_
      rw [pow_succ, mul_assoc]
      exact mul_le_mul_of_nonneg_left (k.shrink h hp hm) (by positivity)

/-- the number of halvings after which nothing is left to halve: 1662 for `f32`, 12588 for `f64` -/
theorem Kids.depth {n : ℕ} {lo hi lo' hi' : S} (h : Iv lo hi) (k : Kids n lo hi lo' hi') (hp : 4 ≤ B.F.p)
    (hn : 6 * (B.F.emax - B.F.emin) ≤ n) : Adjacent lo' hi' := by
  obtain ⟨i, i1, i2, i3⟩ := k.main h
  rcases i3 hp with h1 | h1
  · exact h1
  by_contra hc
  have h2 := i.two_quanta hc
  have h3 : real hi - real lo < 2 * 2 ^ B.F.emax := by
    have a := abs_lt.1 (inFormat h.fl).2
    have b := abs_lt.1 (inFormat h.fh).2
    linarith
  obtain ⟨t, ht⟩ := Int.eq_ofNat_of_zero_le (show 0 ≤ B.F.emax - B.F.emin by have := B.F.hmax; have := B.F.emin_le; omega)
  have h4 : ((7 : ℝ) / 8) ^ n ≤ (1 / 2) ^ t := by
    calc ((7 : ℝ) / 8) ^ n ≤ (7 / 8) ^ (6 * t) := pow_le_pow_of_le_one (by norm_num) (by norm_num) (by omega)
      _ = ((7 / 8) ^ 6) ^ t := by rw [pow_mul]
      _ ≤ (1 / 2) ^ t := pow_le_pow_left₀ (by norm_num) (by norm_num) t
  have h5 : (2 : ℝ) ^ B.F.emax = 2 ^ t * 2 ^ B.F.emin := by
    rw [← zpow_natCast, ← Fmt.z_add]; congr 1
    have : (B.F.emax - B.F.emin) = (t : ℤ) := ht
    omega
  have h6 : ((1 : ℝ) / 2) ^ t * 2 ^ t = 1 := by rw [← mul_pow]; norm_num
  have hz := Fmt.z_pos B.F.emin
  have h0 : 0 ≤ real hi - real lo := sub_nonneg.2 h.le
  have h7 : (7 / 8 : ℝ) ^ n * (real hi - real lo) ≤ (1 / 2) ^ t * (real hi - real lo) := mul_le_mul_of_nonneg_right h4 h0
  have h8 : (1 / 2 : ℝ) ^ t * (real hi - real lo) < (1 / 2) ^ t * (2 * 2 ^ B.F.emax) := mul_lt_mul_of_pos_left h3 (by positivity)
  have h9 : (1 / 2 : ℝ) ^ t * (2 * 2 ^ B.F.emax) = 2 * 2 ^ B.F.emin := by
    rw [h5]; calc _ = 2 * (((1 : ℝ) / 2) ^ t * 2 ^ t) * 2 ^ B.F.emin := by ring
      _ = _ := by rw [h6]; ring
  linarith

end VecMath
