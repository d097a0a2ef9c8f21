import Verif.Spec.Scaling
import Verif.Lemmas.Symm
import Verif.Lemmas.Round
/-! # Lemmas for C74 -/

open Classical

namespace VecMath
open Scalar IEEE

namespace Fmt
variable (F : Fmt)

theorem z_ne (k : ℤ) : (2 : ℝ) ^ k ≠ 0 := (z_pos k).ne'
theorem log_scale {x : ℝ} (hx : x ≠ 0) (k : ℤ) : Int.log 2 |2 ^ k * x| = Int.log 2 |x| + k := by
  have e : |2 ^ k * x| = 2 ^ k * |x| := by rw [abs_mul, abs_of_pos (z_pos k)]
  refine le_antisymm ?_ ?_
  · have := log_lt (x := 2 ^ k * x) (k := Int.log 2 |x| + k + 1) (mul_ne_zero (z_ne k) hx) (by
      rw [e, show Int.log 2 |x| + k + 1 = k + (Int.log 2 |x| + 1) by ring, z_add]
      exact mul_lt_mul_of_pos_left (lt_log x) (z_pos k))
    omega
  · refine log_ge ?_
    rw [e, add_comm, z_add]
    exact mul_le_mul_of_nonneg_left (log_le hx) (z_pos k).le
/-- Rounding commutes with scaling in the normal range. -/
theorem rnd_scale {x : ℝ} {k : ℤ} (h : x = 0 ∨ (2 : ℝ) ^ (F.emin + F.p - 1) ≤ |x|)
    (h' : 2 ^ k * x = 0 ∨ (2 : ℝ) ^ (F.emin + F.p - 1) ≤ |2 ^ k * x|) : F.rnd (2 ^ k * x) = 2 ^ k * F.rnd x := by
  by_cases hx : x = 0
  · rw [hx, mul_zero, rnd_zero, mul_zero]
  have hx' : 2 ^ k * x ≠ 0 := mul_ne_zero (z_ne k) hx
  have h1 := log_ge (h.resolve_left hx)
  have h2 := log_ge (h'.resolve_left hx')
  have e1 : F.ex x = Int.log 2 |x| - (F.p - 1) := by unfold ex; omega
  have e2 : F.ex (2 ^ k * x) = F.ex x + k := by
    rw [e1]; unfold ex; rw [log_scale hx] at *; omega
  unfold rnd
  rw [e2, z_add]
  have : 2 ^ k * x / (2 ^ F.ex x * 2 ^ k) = x / 2 ^ F.ex x := by
    have := z_ne k; have := z_ne (F.ex x); field_simp
  rw [this]; ring
theorem has_scale {x : ℝ} {k : ℤ} (hk : 0 ≤ k) (h : F.Has x) : F.Has (2 ^ k * x) := by
  obtain ⟨m, e, he, hm, rfl⟩ := h
  exact ⟨m, e + k, by omega, hm, by rw [z_add]; ring⟩
theorem Has.mult {F : Fmt} {x : ℝ} (h : F.Has x) : ∃ n : ℤ, x = n * 2 ^ F.emin := by
  obtain ⟨m, e, he, -, rfl⟩ := h
  refine ⟨m * 2 ^ (e - F.emin).toNat, ?_⟩
  have := z_int (show 0 ≤ e - F.emin by omega)
  push_cast at this ⊢
  rw [this, mul_assoc, ← z_add, sub_add_cancel]
/-- A sum of floats in the subnormal range is exact. -/
theorem has_sum {a b : ℝ} (ha : F.Has a) (hb : F.Has b) (h : |a + b| < (2 : ℝ) ^ (F.emin + F.p - 1)) : F.Has (a + b) := by
  obtain ⟨m, hm⟩ := ha.mult
  obtain ⟨n, hn⟩ := hb.mult
  refine ⟨m + n, F.emin, le_rfl, ?_, by rw [hm, hn]; push_cast; ring⟩
  have e : a + b = ((m + n : ℤ) : ℝ) * 2 ^ F.emin := by rw [hm, hn]; push_cast; ring
  rw [e, abs_mul, abs_of_pos (z_pos _), show F.emin + F.p - 1 = (F.p - 1) + F.emin by ring, z_add] at h
  have h1 := lt_of_mul_lt_mul_right h (z_pos _).le
  have h2 : (2 : ℝ) ^ ((F.p : ℤ) - 1) ≤ 2 ^ (F.p : ℤ) := z_le (by omega)
  rw [zpow_natCast] at h2
  have h3 := (h1.trans_le h2).le
  exact_mod_cast h3
theorem rnd_scale_sum {a b : ℝ} {k : ℤ} (ha : F.Has a) (hb : F.Has b) (ha' : F.Has (2 ^ k * a)) (hb' : F.Has (2 ^ k * b)) :
    F.rnd (2 ^ k * (a + b)) = 2 ^ k * F.rnd (a + b) := by
  have up : ∀ {a b : ℝ} {k : ℤ}, 0 ≤ k → F.Has a → F.Has b → F.rnd (2 ^ k * (a + b)) = 2 ^ k * F.rnd (a + b) := by
    intro a b k hk ha hb
    by_cases h : |a + b| < (2 : ℝ) ^ (F.emin + F.p - 1)
    · have := F.has_sum ha hb h
      rw [F.rnd_of_has this, F.rnd_of_has (F.has_scale hk this)]
    · rw [not_lt] at h
      refine F.rnd_scale (.inr h) (.inr (h.trans ?_))
      rw [abs_mul, abs_of_pos (z_pos k)]
      have : (1 : ℝ) ≤ 2 ^ k := by rw [show (1 : ℝ) = 2 ^ (0 : ℤ) by simp]; exact z_le hk
      exact le_mul_of_one_le_left (abs_nonneg _) this
  rcases le_total 0 k with hk | hk
  · exact up hk ha hb
  · have := up (k := -k) (by omega) ha' hb'
    have e : (2 : ℝ) ^ (-k) * (2 ^ k * a + 2 ^ k * b) = a + b := by
      rw [← mul_add, ← mul_assoc, ← z_add]; simp
    rw [e] at this
    rw [this, ← mul_add, ← mul_assoc, ← z_add]; simp
end Fmt

namespace Val
variable {k j : ℤ} {v : Val}
@[simp] theorem scaled_nan : Val.scaled k .nan = .nan := rfl
@[simp] theorem scaled_inf {s} : Val.scaled k (.inf s) = .inf s := rfl
@[simp] theorem scaled_nzero : Val.scaled k .nzero = .nzero := rfl
@[simp] theorem scaled_fin {x} : Val.scaled k (.fin x) = .fin (2 ^ k * x) := rfl
@[simp] theorem scaled_mkZero {s} : Val.scaled k (.mkZero s) = .mkZero s := by unfold mkZero; split_ifs <;> simp
@[simp] theorem scaled_real : (v.scaled k).real = 2 ^ k * v.real := by cases v <;> simp [Val.real]
@[simp] theorem scaled_isFin : (v.scaled k).IsFin ↔ v.IsFin := by cases v <;> simp [IsFin]
theorem zneg_iff {x : ℝ} : 2 ^ k * x < 0 ↔ x < 0 :=
  ⟨fun h => by by_contra h'; exact absurd h (not_lt.2 (mul_nonneg (Fmt.z_pos k).le (not_lt.1 h'))),
    fun h => mul_neg_of_pos_of_neg (Fmt.z_pos k) h⟩
@[simp] theorem scaled_neg? : (v.scaled k).neg? = v.neg? := by cases v <;> simp [neg?, zneg_iff]
theorem scaled_zero (v : Val) : v.scaled 0 = v := by cases v <;> simp
theorem scaled_scaled : (v.scaled k).scaled j = v.scaled (j + k) := by cases v <;> simp [Fmt.z_add, mul_assoc]
theorem scaled_negv : (v.scaled k).neg = v.neg.scaled k := by
  cases v <;> simp [neg, Fmt.z_ne]
  split_ifs <;> simp
theorem scaled_abs : (v.scaled k).abs = v.abs.scaled k := by
  cases v <;> simp [abs, abs_mul]
theorem scaled_ereal : (v.scaled k).ereal = ((2 ^ k : ℝ) : EReal) * v.ereal := by
  rcases v with _ | (_ | _) | _ | x <;> simp only [scaled_nan, scaled_inf, scaled_nzero, scaled_fin, ereal, mul_zero]
  · rw [EReal.coe_mul_top_of_pos (Fmt.z_pos k)]
  · rw [EReal.coe_mul_bot_of_pos (Fmt.z_pos k)]
  · rw [EReal.coe_mul]
theorem scaled_eq_nan : v.scaled k = .nan ↔ v = .nan := by cases v <;> simp
theorem scaled_canon : (v.scaled k).canon = v.canon.scaled k := by cases v <;> simp [canon]
end Val

namespace Rounding
variable (A : Rounding)
theorem finish_scale {s : Bool} {x : ℝ} {k : ℤ} (h : A.rnd (2 ^ k * x) = 2 ^ k * A.rnd x)
    (hf : (A.finish s x).IsFin ↔ (A.finish s (2 ^ k * x)).IsFin) : A.finish s (2 ^ k * x) = (A.finish s x).scaled k := by
  rw [finish_isFin, finish_isFin] at hf
  have hz := Fmt.z_ne k
  unfold finish
  rw [h] at hf ⊢
  simp only [mul_eq_zero, hz, false_or]
  by_cases h1 : x = 0
  · simp [h1]
  by_cases h2 : A.rnd x = 0
  · simp [h1, h2, Val.zneg_iff]
  by_cases h3 : A.fits (A.rnd x)
  · simp [h1, h2, h3, hf.1 h3]
  · have h4 : ¬ A.fits (2 ^ k * A.rnd x) := fun h => h3 (hf.2 h)
    simp [h1, h2, h3, h4, Val.zneg_iff]
end Rounding

section
variable {S : Type} [Scalar S] [IEEE S] {k j : ℤ} {a b a' b' : S}

theorem Scaled.isFinite (h : Scaled k a a') : IsFinite a' ↔ IsFinite a := by unfold IsFinite; rw [h, Val.scaled_isFin]
theorem Scaled.isNaN (h : Scaled k a a') : IsNaN a' ↔ IsNaN a := by unfold IsNaN; rw [h, Val.scaled_eq_nan]
theorem Scaled.real (h : Scaled k a a') : real a' = 2 ^ k * real a := by unfold IEEE.real; rw [h, Val.scaled_real]
theorem Scaled.val (h : Scaled k a a') : val a' = ((2 ^ k : ℝ) : EReal) * val a := by unfold IEEE.val; rw [h, Val.scaled_ereal]
theorem Scaled.num (h : Scaled k a a') : num a' = (num a).scaled k := by unfold IEEE.num; rw [h, Val.scaled_canon]
theorem Scaled.refl (a : S) : Scaled 0 a a := (Val.scaled_zero _).symm
theorem scaled_zero_iff : Scaled 0 a b ↔ Same b a := by unfold Scaled Same; rw [Val.scaled_zero]
theorem Scaled.neg (h : Scaled k a a') : Scaled k (-a) (-a') := by unfold Scaled; rw [den_neg, den_neg, h, Val.scaled_negv]
theorem Scaled.abs (h : Scaled k a a') : Scaled k (Scalar.abs a) (Scalar.abs a') := by
  unfold Scaled; rw [den_abs, den_abs, h, Val.scaled_abs]
theorem zmul_mono (k : ℤ) : StrictMono fun x : EReal => ((2 ^ k : ℝ) : EReal) * x := by
  have hp := Fmt.z_pos k
  intro x y h
  show ((2 ^ k : ℝ) : EReal) * x < ((2 ^ k : ℝ) : EReal) * y
  induction x <;> induction y <;>
    simp_all [EReal.coe_mul_top_of_pos, EReal.coe_mul_bot_of_pos, ← EReal.coe_mul]
theorem Scaled.le (h : Scaled k a a') (h' : Scaled k b b') : (a' ≤? b') = (a ≤? b) := by
  rw [Bool.eq_iff_iff, le_iff, le_iff, h.isNaN, h'.isNaN, h.val, h'.val, (zmul_mono k).le_iff_le]
theorem Scaled.lt (h : Scaled k a a') (h' : Scaled k b b') : (a' <? b') = (a <? b) := by
  rw [Bool.eq_iff_iff, lt_iff, lt_iff, h.isNaN, h'.isNaN, h.val, h'.val, (zmul_mono k).lt_iff_lt]
end

section
variable {S : Type} [Scalar S] [IEEE S] [Binary S] {k j : ℤ} {a b a' b' : S}

theorem has_den {x : ℝ} (h : den a = .fin x) : (Binary.F S).Has x := by
  have := (IEEE.rep h).1
  rw [show (IEEE.A S).rnd = (Binary.F S).rnd by rw [Binary.eq]; rfl] at this
  exact (Fmt.rnd_eq_iff _).1 this
theorem has_real (a : S) : (Binary.F S).Has (real a) := by
  rcases h : den a with _ | s | _ | x
  · exact ⟨0, (Binary.F S).emin, le_rfl, by simp, by simp [real, h, Val.real]⟩
  · exact ⟨0, (Binary.F S).emin, le_rfl, by simp, by simp [real, h, Val.real]⟩
  · exact ⟨0, (Binary.F S).emin, le_rfl, by simp, by simp [real, h, Val.real]⟩
  · have := has_den h; unfold real; rw [h]; exact this
theorem rndA : (IEEE.A S).rnd = (Binary.F S).rnd := by rw [Binary.eq]; rfl

/-- Sums scale without any underflow condition. -/
theorem Scaled.add (h : Scaled k a a') (h' : Scaled k b b') (hf : Alike (a + b) (a' + b')) : Scaled k (a + b) (a' + b') := by
  have r1 := has_real a; have r2 := has_real b; have r3 := has_real a'; have r4 := has_real b'
  rw [h.real] at r3; rw [h'.real] at r4
  have hr := Fmt.rnd_scale_sum _ r1 r2 r3 r4
  unfold Alike IsFinite at hf
  unfold Scaled at *
  unfold IEEE.real at hr
  rw [den_add, den_add, h, h'] at *
  rcases ha : den a with _ | s | _ | x <;> rcases hb : den b with _ | t | _ | y <;> rw [ha, hb] at hr hf <;>
    simp only [Rounding.add, Val.scaled_nan, Val.scaled_inf, Val.scaled_nzero, Val.scaled_fin] at hf ⊢
  · split_ifs <;> simp
  all_goals
    simp only [Val.real] at hr hf ⊢
    simp only [Val.neg?, Val.zneg_iff] at hf ⊢
    first
    | (rw [← mul_add] at hf ⊢; exact Rounding.finish_scale _ (by rw [rndA]; exact hr) hf)
    | (rw [zero_add, zero_add] at *; exact Rounding.finish_scale _ (by rw [rndA]; exact hr) hf)
    | (rw [add_zero, add_zero] at *; exact Rounding.finish_scale _ (by rw [rndA]; exact hr) hf)
    | (rw [add_zero] at *; exact (by simp [Rounding.finish]))
theorem Scaled.sub (h : Scaled k a a') (h' : Scaled k b b') (hf : Alike (a - b) (a' - b')) : Scaled k (a - b) (a' - b') := by
  have e : ∀ x y : S, den (x - y) = den (x + -y) := fun x y => by rw [den_sub, den_add, den_neg]; rfl
  have := h.add h'.neg (by unfold Alike IsFinite at *; rwa [e, e] at hf)
  unfold Scaled at *; rw [e, e, this]
theorem Scaled.mul (h : Scaled j a a') (h' : Scaled k b b') (n : Normal S (IEEE.real a * IEEE.real b))
    (n' : Normal S (IEEE.real a' * IEEE.real b')) (hf : Alike (a * b) (a' * b')) : Scaled (j + k) (a * b) (a' * b') := by
  have hr : (Binary.F S).rnd (2 ^ (j + k) * (IEEE.real a * IEEE.real b)) = 2 ^ (j + k) * (Binary.F S).rnd (IEEE.real a * IEEE.real b) := by
    refine Fmt.rnd_scale _ n ?_
    rw [h.real, h'.real] at n'
    rwa [show (2 : ℝ) ^ j * IEEE.real a * (2 ^ k * IEEE.real b) = 2 ^ (j + k) * (IEEE.real a * IEEE.real b) by rw [Fmt.z_add]; ring] at n'
  unfold Alike IsFinite at hf
  unfold Scaled at *
  unfold IEEE.real at hr
  rw [den_mul, den_mul, h, h'] at *
  have hj := Fmt.z_ne j; have hk := Fmt.z_ne k
  rcases ha : den a with _ | s | _ | x <;> rcases hb : den b with _ | t | _ | y <;> rw [ha, hb] at hr hf <;>
    simp only [Rounding.mul, Val.scaled_nan, Val.scaled_inf, Val.scaled_nzero, Val.scaled_fin, Val.real, Val.neg?, Val.zneg_iff,
      mul_eq_zero, hj, hk, false_or, mul_zero, zero_mul, if_true] at hf hr ⊢
  all_goals first
    | (split_ifs <;> simp; done)
    | (simp [Rounding.finish]; done)
    | (by_cases hy : y = 0 <;> simp [hy]; done)
    | (by_cases hx : x = 0 <;> simp [hx]; done)
    | (rw [show (2 : ℝ) ^ j * x * (2 ^ k * y) = 2 ^ (j + k) * (x * y) by rw [Fmt.z_add]; ring] at *
       exact Rounding.finish_scale _ (by rw [rndA]; exact hr) hf)
theorem Scaled.div (h : Scaled j a a') (h' : Scaled k b b') (n : j = k ∨ Normal S (IEEE.real a / IEEE.real b) ∧
    Normal S (IEEE.real a' / IEEE.real b')) (hf : Alike (a / b) (a' / b') ∨ j = k) : Scaled (j - k) (a / b) (a' / b') := by
  have e : ∀ x y : ℝ, (2 : ℝ) ^ j * x / (2 ^ k * y) = 2 ^ (j - k) * (x / y) := fun x y => by
    rw [zpow_sub₀ (by norm_num)]
    have := Fmt.z_ne k
    by_cases hy : y = 0
    · simp [hy]
    · field_simp
  have hr : (Binary.F S).rnd (2 ^ (j - k) * (IEEE.real a / IEEE.real b)) = 2 ^ (j - k) * (Binary.F S).rnd (IEEE.real a / IEEE.real b) := by
    rcases n with rfl | ⟨n, n'⟩
    · simp
    refine Fmt.rnd_scale _ n ?_
    rwa [h.real, h'.real, e] at n'
  unfold Alike IsFinite at hf
  unfold Scaled at *
  unfold IEEE.real at hr
  rw [den_div, den_div, h, h'] at *
  have hj := Fmt.z_ne j; have hk := Fmt.z_ne k
  rcases ha : den a with _ | s | _ | x <;> rcases hb : den b with _ | t | _ | y <;> rw [ha, hb] at hr hf <;>
    simp only [Rounding.div, Val.scaled_nan, Val.scaled_inf, Val.scaled_nzero, Val.scaled_fin, Val.real, Val.neg?, Val.zneg_iff,
      mul_eq_zero, hj, hk, false_or, if_true, e, Val.scaled_mkZero] at hf hr ⊢
  all_goals first
    | (simp; done)
    | (by_cases hy : y = 0 <;> simp [hy, Rounding.finish]; done)
    | (by_cases hx : x = 0 <;> simp [hx, Rounding.finish]; done)
    | (by_cases hy : y = 0
       · by_cases hx : x = 0 <;> simp [hx, hy]
       simp only [hy, if_false] at hf ⊢
       refine Rounding.finish_scale _ (by rw [rndA]; exact hr) ?_
       rcases hf with hf | rfl
       · exact hf
       · simp)
/-- Quotients of numbers on the same scale are the same, with no condition at all. -/
theorem Scaled.div_same (h : Scaled k a a') (h' : Scaled k b b') : Same (a / b) (a' / b') := by
  have := h.div h' (.inl rfl) (.inr rfl)
  rw [sub_self, scaled_zero_iff] at this
  exact this.symm
/-- Square roots scale with no condition at all. -/
theorem Scaled.sqrt (h : Scaled (2 * k) a a') : Scaled k (Scalar.sqrt a) (Scalar.sqrt a') := by
  unfold Scaled
  have h0 := h
  unfold Scaled at h
  rw [den_sqrt, den_sqrt, h]
  rcases ha : den a with _ | s | _ | x
  · rfl
  · simp only [Val.scaled_inf, Rounding.sqrt]; split_ifs <;> rfl
  · rfl
  simp only [Val.scaled_fin, Rounding.sqrt, Val.zneg_iff]
  split_ifs with hx
  · rfl
  rw [not_lt] at hx
  have fin : ∀ {c : S}, IsFinite c → 0 ≤ IEEE.real c → ((IEEE.A S).finish false √(IEEE.real c)).IsFin := by
    intro c hc h0
    rw [Rounding.finish_isFin]
    have hrep : (IEEE.A S).Rep (IEEE.real c) := hc.rep
    rcases le_total (IEEE.real c) 1 with hl | hl
    · refine (IEEE.A S).fits_mono ?_ (IEEE.A S).fits_two
      have h1 : √(IEEE.real c) ≤ 2 := by
        refine (Real.sqrt_le_sqrt hl).trans (by simp)
      have := (IEEE.A S).rnd_mono h1
      rw [(IEEE.A S).rnd_two] at this
      rw [abs_of_nonneg, abs_of_nonneg (by norm_num)]
      · exact this
      · exact Rounding.rnd_nonneg _ (Real.sqrt_nonneg _)
    · refine (IEEE.A S).fits_mono ?_ hrep.2
      have h1 : √(IEEE.real c) ≤ IEEE.real c := by
        rw [Real.sqrt_le_left h0]; nlinarith
      have := (IEEE.A S).rnd_mono h1
      rw [hrep.1] at this
      rw [abs_of_nonneg, abs_of_nonneg h0]
      · exact this
      · exact Rounding.rnd_nonneg _ (Real.sqrt_nonneg _)
  have fa : IsFinite a := by unfold IsFinite; rw [ha]; trivial
  have ra : IEEE.real a = x := by unfold IEEE.real; rw [ha]; rfl
  have fa' : IsFinite a' := h0.isFinite.2 fa
  have ra' : IEEE.real a' = 2 ^ (2 * k) * x := by rw [h0.real, ra]
  have ha' : 0 ≤ IEEE.real a' := by rw [ra']; exact mul_nonneg (Fmt.z_pos _).le hx
  have es : √(2 ^ (2 * k) * x) = 2 ^ k * √x := by
    rw [Real.sqrt_mul (Fmt.z_pos _).le, two_mul, Fmt.z_add, Real.sqrt_mul_self (Fmt.z_pos _).le]
  have n1 := normal_sqrt fa (by rw [ra]; exact hx)
  have n2 := normal_sqrt fa' ha'
  have f1 := fin fa (by rw [ra]; exact hx)
  have f2 := fin fa' ha'
  rw [ra'] at n2 f2
  rw [ra] at n1 f1
  rw [es] at n2 f2 ⊢
  refine Rounding.finish_scale _ ?_ ⟨fun _ => f2, fun _ => f1⟩
  rw [rndA]; exact Fmt.rnd_scale _ n1 n2
end

section
variable {S : Type} [Scalar S] [IEEE S] {k j : ℤ} {a b a' b' : S}

theorem scaledNum_iff : ScaledNum k a a' ↔ IEEE.num a' = (IEEE.num a).scaled k := by
  constructor
  · rintro (⟨h1, h2⟩ | ⟨h1, h2, h3⟩)
    · unfold IsNaN at h1 h2; unfold IEEE.num; rw [h1, h2]; rfl
    · unfold IEEE.val at h3
      rw [← Val.scaled_ereal] at h3
      unfold IEEE.num
      rw [← Val.scaled_canon, Val.canon_eq_iff]
      exact .inr ⟨h2, fun h => h1 (Val.scaled_eq_nan.1 h), h3⟩
  · intro h
    unfold IEEE.num at h
    rw [← Val.scaled_canon, Val.canon_eq_iff] at h
    rcases h with ⟨h1, h2⟩ | ⟨h1, h2, h3⟩
    · exact .inl ⟨Val.scaled_eq_nan.1 h2, h1⟩
    · refine .inr ⟨fun h => h2 (Val.scaled_eq_nan.2 h), h1, ?_⟩
      rw [Val.scaled_ereal] at h3; exact h3
theorem Scaled.toNum (h : Scaled k a a') : ScaledNum k a a' := scaledNum_iff.2 h.num
theorem ScaledNum.isNaN (h : ScaledNum k a a') : IsNaN a' ↔ IsNaN a := by
  rcases h with ⟨h1, h2⟩ | ⟨h1, h2, -⟩ <;> tauto
theorem ScaledNum.val (h : ScaledNum k a a') (hn : ¬ IsNaN a) : val a' = ((2 ^ k : ℝ) : EReal) * val a := by
  rcases h with ⟨h1, h2⟩ | ⟨h1, h2, h⟩
  · exact absurd h1 hn
  · exact h
theorem ScaledNum.le (h : ScaledNum k a a') (h' : ScaledNum k b b') : (a' ≤? b') = (a ≤? b) := by
  rw [Bool.eq_iff_iff, le_iff, le_iff, h.isNaN, h'.isNaN]
  refine and_congr_right fun n => and_congr_right fun n' => ?_
  rw [h.val n, h'.val n', (zmul_mono k).le_iff_le]
theorem ScaledNum.lt (h : ScaledNum k a a') (h' : ScaledNum k b b') : (a' <? b') = (a <? b) := by
  rw [Bool.eq_iff_iff, lt_iff, lt_iff, h.isNaN, h'.isNaN]
  refine and_congr_right fun n => and_congr_right fun n' => ?_
  rw [h.val n, h'.val n', (zmul_mono k).lt_iff_lt]
theorem ScaledNum.of (hn : IsNaN a' ↔ IsNaN a) (h : ¬ IsNaN a → IEEE.val a' = ((2 ^ k : ℝ) : EReal) * IEEE.val a) : ScaledNum k a a' := by
  by_cases ha : IsNaN a
  · exact .inl ⟨ha, hn.2 ha⟩
  · exact .inr ⟨ha, fun h => ha (hn.1 h), h ha⟩
theorem ScaledNum.min (h : ScaledNum k a a') (h' : ScaledNum k b b') : ScaledNum k (fmin a b) (fmin a' b') := by
  refine .of (by rw [isNaN_min, isNaN_min, h.isNaN, h'.isNaN]) fun hn => ?_
  by_cases ha : IsNaN a
  · rw [(min_nan_left ha).val, (min_nan_left (h.isNaN.2 ha)).val]
    exact h'.val fun hb => hn (isNaN_min.2 ⟨ha, hb⟩)
  by_cases hb : IsNaN b
  · rw [(min_nan_right hb).val, (min_nan_right (h'.isNaN.2 hb)).val]
    exact h.val ha
  rw [val_min ha hb, val_min (fun x => ha (h.isNaN.1 x)) (fun x => hb (h'.isNaN.1 x)), h.val ha, h'.val hb]
  exact ((zmul_mono k).monotone.map_min).symm
theorem ScaledNum.max (h : ScaledNum k a a') (h' : ScaledNum k b b') : ScaledNum k (fmax a b) (fmax a' b') := by
  refine .of (by rw [isNaN_max, isNaN_max, h.isNaN, h'.isNaN]) fun hn => ?_
  by_cases ha : IsNaN a
  · rw [(max_nan_left ha).val, (max_nan_left (h.isNaN.2 ha)).val]
    exact h'.val fun hb => hn (isNaN_max.2 ⟨ha, hb⟩)
  by_cases hb : IsNaN b
  · rw [(max_nan_right hb).val, (max_nan_right (h'.isNaN.2 hb)).val]
    exact h.val ha
  rw [val_max ha hb, val_max (fun x => ha (h.isNaN.1 x)) (fun x => hb (h'.isNaN.1 x)), h.val ha, h'.val hb]
  exact ((zmul_mono k).monotone.map_max).symm
theorem ScaledNum.loVal (h : ScaledNum k a a') : loVal a' = ((2 ^ k : ℝ) : EReal) * loVal a := by
  unfold VecMath.loVal
  by_cases ha : IsNaN a
  · rw [if_pos ha, if_pos (h.isNaN.2 ha), EReal.coe_mul_bot_of_pos (Fmt.z_pos k)]
  · rw [if_neg ha, if_neg (fun x => ha (h.isNaN.1 x)), h.val ha]
theorem ScaledNum.hiVal (h : ScaledNum k a a') : hiVal a' = ((2 ^ k : ℝ) : EReal) * hiVal a := by
  unfold VecMath.hiVal
  by_cases ha : IsNaN a
  · rw [if_pos ha, if_pos (h.isNaN.2 ha), EReal.coe_mul_top_of_pos (Fmt.z_pos k)]
  · rw [if_neg ha, if_neg (fun x => ha (h.isNaN.1 x)), h.val ha]
theorem stretch_max2 (x y : EReal) : Max.max (Max.max 0 (((2 ^ k : ℝ) : EReal) * x)) (((2 ^ k : ℝ) : EReal) * y) =
    ((2 ^ k : ℝ) : EReal) * Max.max (Max.max 0 x) y := by
  have m : ∀ x y : EReal, ((2 ^ k : ℝ) : EReal) * Max.max x y = _ := fun x y => (zmul_mono k).monotone.map_max
  rw [m, m, mul_zero]
theorem stretch_max3 (x y z : EReal) : Max.max (Max.max (Max.max 0 (((2 ^ k : ℝ) : EReal) * x)) (((2 ^ k : ℝ) : EReal) * y))
    (((2 ^ k : ℝ) : EReal) * z) = ((2 ^ k : ℝ) : EReal) * Max.max (Max.max (Max.max 0 x) y) z := by
  have m : ∀ x y : EReal, ((2 ^ k : ℝ) : EReal) * Max.max x y = _ := fun x y => (zmul_mono k).monotone.map_max
  rw [m, m, m, mul_zero]
theorem stretch_min2 (x y : EReal) : Min.min (Min.min ⊤ (((2 ^ k : ℝ) : EReal) * x)) (((2 ^ k : ℝ) : EReal) * y) =
    ((2 ^ k : ℝ) : EReal) * Min.min (Min.min ⊤ x) y := by
  have m : ∀ x y : EReal, ((2 ^ k : ℝ) : EReal) * Min.min x y = _ := fun x y => (zmul_mono k).monotone.map_min
  rw [m, m, EReal.coe_mul_top_of_pos (Fmt.z_pos k)]
theorem stretch_min3 (x y z : EReal) : Min.min (Min.min (Min.min ⊤ (((2 ^ k : ℝ) : EReal) * x)) (((2 ^ k : ℝ) : EReal) * y))
    (((2 ^ k : ℝ) : EReal) * z) = ((2 ^ k : ℝ) : EReal) * Min.min (Min.min (Min.min ⊤ x) y) z := by
  have m : ∀ x y : EReal, ((2 ^ k : ℝ) : EReal) * Min.min x y = _ := fun x y => (zmul_mono k).monotone.map_min
  rw [m, m, m, EReal.coe_mul_top_of_pos (Fmt.z_pos k)]
theorem scaledHit_of2 {b b' : BoundingBox2 S} {r r' : Ray2 S} (h1 : startVal2 b' r' = ((2 ^ k : ℝ) : EReal) * startVal2 b r)
    (h2 : stopVal2 b' r' = ((2 ^ k : ℝ) : EReal) * stopVal2 b r) : ScaledHit k (Api.intersect b r) (Api.intersect b' r') := by
  have p := hit_iff2 b r
  have q := hit_iff2 b' r'
  show ScaledHit k (b.intersectRay r) (b'.intersectRay r')
  rw [h1, h2, (zmul_mono k).le_iff_le] at q
  by_cases h : startVal2 b r ≤ stopVal2 b r
  · obtain ⟨i, e, a1, a2, a3, a4⟩ := p.1 h
    obtain ⟨j, e', b1, b2, b3, b4⟩ := q.1 h
    rw [e, e']
    exact ⟨a1, a2, b1, b2, by rw [b3, a3], by rw [b4, a4]⟩
  · rw [p.2 h, q.2 h]; trivial
theorem scaledHit_of3 {b b' : BoundingBox3 S} {r r' : Ray3 S} (h1 : startVal3 b' r' = ((2 ^ k : ℝ) : EReal) * startVal3 b r)
    (h2 : stopVal3 b' r' = ((2 ^ k : ℝ) : EReal) * stopVal3 b r) : ScaledHit k (Api.intersect b r) (Api.intersect b' r') := by
  have p := hit_iff3 b r
  have q := hit_iff3 b' r'
  show ScaledHit k (b.intersectRay r) (b'.intersectRay r')
  rw [h1, h2, (zmul_mono k).le_iff_le] at q
  by_cases h : startVal3 b r ≤ stopVal3 b r
  · obtain ⟨i, e, a1, a2, a3, a4⟩ := p.1 h
    obtain ⟨j, e', b1, b2, b3, b4⟩ := q.1 h
    rw [e, e']
    exact ⟨a1, a2, b1, b2, by rw [b3, a3], by rw [b4, a4]⟩
  · rw [p.2 h, q.2 h]; trivial
end
end VecMath
