import Verif.Lemmas.CurveReal
import Verif.Lemmas.Num
import Verif.Props.FloatRayMono
/-! # C118: interpolation and Bézier curves in floating point -/

open Classical

namespace VecMath
open Scalar IEEE

section
variable {S : Type} [Scalar S]
/-- One coordinate of an interpolation. -/
def mix1 (t a b : S) : S := a + (b - a) * t
theorem curve_x2 (t : S) (c : ℕ → Point2 S) (k i : ℕ) : (casteljau (Point2.mix t) c k i).x = casteljau (mix1 t) (fun j => (c j).x) k i := by
  induction k generalizing i with
  | zero => rfl
  | succ k ih => show mix1 t _ _ = mix1 t _ _; rw [← ih, ← ih]
theorem curve_y2 (t : S) (c : ℕ → Point2 S) (k i : ℕ) : (casteljau (Point2.mix t) c k i).y = casteljau (mix1 t) (fun j => (c j).y) k i := by
  induction k generalizing i with
  | zero => rfl
  | succ k ih => show mix1 t _ _ = mix1 t _ _; rw [← ih, ← ih]
theorem curve_x3 (t : S) (c : ℕ → Point3 S) (k i : ℕ) : (casteljau (Point3.mix t) c k i).x = casteljau (mix1 t) (fun j => (c j).x) k i := by
  induction k generalizing i with
  | zero => rfl
  | succ k ih => show mix1 t _ _ = mix1 t _ _; rw [← ih, ← ih]
theorem curve_y3 (t : S) (c : ℕ → Point3 S) (k i : ℕ) : (casteljau (Point3.mix t) c k i).y = casteljau (mix1 t) (fun j => (c j).y) k i := by
  induction k generalizing i with
  | zero => rfl
  | succ k ih => show mix1 t _ _ = mix1 t _ _; rw [← ih, ← ih]
theorem curve_z3 (t : S) (c : ℕ → Point3 S) (k i : ℕ) : (casteljau (Point3.mix t) c k i).z = casteljau (mix1 t) (fun j => (c j).z) k i := by
  induction k generalizing i with
  | zero => rfl
  | succ k ih => show mix1 t _ _ = mix1 t _ _; rw [← ih, ← ih]
end

section
variable {S : Type} [Scalar S] [IEEE S]
theorem finite_of_mix {t a b : S} (h : IsFinite (mix1 t a b)) : IsFinite a ∧ IsFinite b ∧ IsFinite t ∧ IsFinite (b - a) ∧ IsFinite ((b - a) * t) := by
  have h1 := finite_of_add h
  have h2 := finite_of_mul h1.2
  exact ⟨h1.1, (finite_of_sub h2.1).1, h2.2, h2.1, h1.2⟩

/-- At `0`: the first point. -/
theorem casteljau_start {c : ℕ → S} {n : ℕ} (h : ∀ j < n, IsFinite (c (j + 1) - c j)) {t : S} (ht : num t = num (zero : S)) (k i : ℕ) (hk : i + k ≤ n) :
    num (casteljau (mix1 t) c k i) = num (c i) := by
  induction k generalizing i with
  | zero => rfl
  | succ k ih =>
    show num (_ + (_ - _) * t) = _
    have e := num_sub_congr (ih (i + 1) (by omega)) (ih i (by omega))
    rw [num_add_congr (ih i (by omega)) (num_mul_congr e ht), IEEE.num_add, IEEE.num_mul, IEEE.num_zero, IEEE.nmul_zero (h i (by omega)),
      IEEE.nadd_zero]
/-- At `1`: the last point, if the differences are exact. -/
theorem casteljau_end {c : ℕ → S} {n : ℕ} (h : ∀ j < n, num (c j + (c (j + 1) - c j)) = num (c (j + 1))) {t : S} (ht : num t = num (one : S))
    (k i : ℕ) (hk : i + k ≤ n) : num (casteljau (mix1 t) c k i) = num (c (i + k)) := by
  induction k generalizing i with
  | zero => rfl
  | succ k ih =>
    show num (_ + (_ - _) * t) = _
    have e := num_sub_congr (ih (i + 1) (by omega)) (ih i (by omega))
    rw [num_add_congr (ih i (by omega)) ((num_mul_congr e ht).trans (IEEE.num_mul_one _)), show i + 1 + k = i + k + 1 by omega, h _ (by omega),
      Nat.add_assoc]
end

section
variable {S : Type} [Scalar S] [IEEE S] [Binary S]
theorem mixErr_pos : 0 < mixErr S := by have := uro_pos (S := S); unfold mixErr; positivity

/-- The parts of one interpolation: the step before the last addition. -/
theorem step_err {t a b : S} {M : ℝ} (h0 : 0 ≤ real t) (h1 : real t ≤ 1) (ha : |real a| ≤ M) (hb : |real b| ≤ M)
    (hd : IsFinite (b - a)) (hm : IsFinite ((b - a) * t)) :
    |real ((b - a) * t) - (real b - real a) * real t| ≤ 2 * uro S * M + uro S * (2 * (1 + uro S) * M) + tiny S := by
  have hu := uro_pos (S := S)
  have e1 := err_sub hd
  have e2 := err_mul hm
  have hM : 0 ≤ M := (abs_nonneg _).trans ha
  have k : |real b - real a| ≤ 2 * M := by have := abs_sub (real b) (real a); linarith
  have k1 : |real (b - a) - (real b - real a)| ≤ uro S * (2 * M) := e1.trans (by gcongr)
  have k2 : |real (b - a)| ≤ 2 * (1 + uro S) * M := by
    have := abs_sub_abs_le_abs_sub (real (b - a)) (real b - real a)
    linarith
  have k3 : |real (b - a) * real t| ≤ 2 * (1 + uro S) * M := by
    rw [abs_mul, abs_of_nonneg h0]
    exact (mul_le_of_le_one_right (abs_nonneg _) h1).trans k2
  have k4 : |real ((b - a) * t) - real (b - a) * real t| ≤ uro S * (2 * (1 + uro S) * M) + tiny S :=
    e2.trans (by gcongr)
  have k5 : |real (b - a) * real t - (real b - real a) * real t| ≤ uro S * (2 * M) := by
    rw [← sub_mul, abs_mul, abs_of_nonneg h0]
    exact (mul_le_of_le_one_right (abs_nonneg _) h1).trans k1
  have := abs_sub_le (real ((b - a) * t)) (real (b - a) * real t) ((real b - real a) * real t)
  linarith
theorem mixR_abs {x a b M : ℝ} (h0 : 0 ≤ x) (h1 : x ≤ 1) (ha : |a| ≤ M) (hb : |b| ≤ M) : |mixR x a b| ≤ M := by
  rw [abs_le] at *
  unfold mixR
  constructor <;> nlinarith
/-- One interpolation. -/
theorem mix_err {t a b : S} {M : ℝ} (h : IsFinite (mix1 t a b)) (h0 : 0 ≤ real t) (h1 : real t ≤ 1) (ha : |real a| ≤ M) (hb : |real b| ≤ M) :
    |real (mix1 t a b) - mixR (real t) (real a) (real b)| ≤ mixErr S * M + (1 + uro S) * tiny S := by
  obtain ⟨-, -, -, fd, fm⟩ := finite_of_mix h
  have hu := uro_pos (S := S)
  have s := step_err h0 h1 ha hb fd fm
  have e := err_add h
  have hM : 0 ≤ M := (abs_nonneg _).trans ha
  have r := mixR_abs h0 h1 ha hb
  set m := real ((b - a) * t)
  have e' : |real (mix1 t a b) - (real a + m)| ≤ uro S * |real a + m| := e
  have k : |real a + m - mixR (real t) (real a) (real b)| ≤ 2 * uro S * M + uro S * (2 * (1 + uro S) * M) + tiny S := by
    unfold mixR
    rw [add_sub_add_left_eq_sub]; exact s
  have k1 : |real a + m| ≤ M + (2 * uro S * M + uro S * (2 * (1 + uro S) * M) + tiny S) := by
    have := abs_sub_abs_le_abs_sub (real a + m) (mixR (real t) (real a) (real b))
    linarith
  have k2 := e'.trans (mul_le_mul_of_nonneg_left k1 hu.le)
  have := abs_sub_le (real (mix1 t a b)) (real a + m) (mixR (real t) (real a) (real b))
  unfold mixErr
  nlinarith

/-- How large the numbers in row `k` can be. -/
noncomputable def rowSize (S : Type) [Scalar S] [IEEE S] [Binary S] (M : ℝ) (k : ℕ) : ℝ := (1 + mixErr S) ^ k * (M + k * ((1 + uro S) * tiny S))
theorem rowSize_succ {M : ℝ} (k : ℕ) : rowSize S M k + (mixErr S * rowSize S M k + (1 + uro S) * tiny S) ≤ rowSize S M (k + 1) := by
  unfold rowSize
  have e := mixErr_pos (S := S)
  have hu := uro_pos (S := S)
  have ht := tiny_pos (S := S)
  have p : 1 ≤ (1 + mixErr S) ^ (k + 1) := one_le_pow₀ (by linarith)
  have q : (1 + uro S) * tiny S ≤ (1 + mixErr S) ^ (k + 1) * ((1 + uro S) * tiny S) := le_mul_of_one_le_left (by positivity) p
  push_cast
  rw [pow_succ] at *
  nlinarith
theorem casteljau_err {t : S} {c : ℕ → S} {M : ℝ} (h0 : 0 ≤ real t) (h1 : real t ≤ 1) (k i : ℕ) (h : IsFinite (casteljau (mix1 t) c k i))
    (hc : ∀ j, i ≤ j → j ≤ i + k → |real (c j)| ≤ M) :
    |real (casteljau (mix1 t) c k i)| ≤ rowSize S M k ∧
    |real (casteljau (mix1 t) c k i) - casteljau (mixR (real t)) (fun j => real (c j)) k i| ≤ rowSize S M k - M := by
  induction k generalizing i with
  | zero =>
    have : rowSize S M 0 = M := by simp [rowSize]
    rw [this]
    refine ⟨hc i le_rfl le_rfl, ?_⟩
    show |real (c i) - real (c i)| ≤ _
    simp
  | succ k ih =>
    have h' : IsFinite (mix1 t (casteljau (mix1 t) c k i) (casteljau (mix1 t) c k (i + 1))) := h
    obtain ⟨fa, fb, -⟩ := finite_of_mix h'
    obtain ⟨a1, a2⟩ := ih i fa fun j p q => hc j p (by omega)
    obtain ⟨b1, b2⟩ := ih (i + 1) fb fun j p q => hc j (by omega) (by omega)
    have e := mix_err h' h0 h1 a1 b1
    have r := mixR_abs h0 h1 a1 b1
    have r' := mixR_abs h0 h1 a2 b2
    have g := rowSize_succ (S := S) (M := M) k
    show |real (mix1 t _ _)| ≤ _ ∧ |real (mix1 t _ _) - mixR _ _ _| ≤ _
    set a := casteljau (mix1 t) c k i
    set b := casteljau (mix1 t) c k (i + 1)
    set a' := casteljau (mixR (real t)) (fun j => real (c j)) k i
    set b' := casteljau (mixR (real t)) (fun j => real (c j)) k (i + 1)
    have r'' : |mixR (real t) (real a) (real b) - mixR (real t) a' b'| ≤ rowSize S M k - M := by
      have : mixR (real t) (real a) (real b) - mixR (real t) a' b' = mixR (real t) (real a - a') (real b - b') := by unfold mixR; ring
      rw [this]; exact r'
    constructor
    · have := abs_sub_abs_le_abs_sub (real (mix1 t a b)) (mixR (real t) (real a) (real b))
      linarith
    · have := abs_sub_le (real (mix1 t a b)) (mixR (real t) (real a) (real b)) (mixR (real t) a' b')
      linarith
/-- Nothing overflows. -/
theorem casteljau_finite {t : S} {c : ℕ → S} {M : ℝ} (ht : IsFinite t) (h0 : 0 ≤ real t) (h1 : real t ≤ 1) (k i : ℕ)
    (hf : ∀ j, i ≤ j → j ≤ i + k → IsFinite (c j)) (hc : ∀ j, i ≤ j → j ≤ i + k → |real (c j)| ≤ M) (hM : 3 * rowSize S M k < overflowAt S) :
    IsFinite (casteljau (mix1 t) c k i) := by
  induction k generalizing i with
  | zero => exact hf i le_rfl le_rfl
  | succ k ih =>
    have g := rowSize_succ (S := S) (M := M) k
    have hM0 : 0 ≤ M := (abs_nonneg _).trans (hc i le_rfl (by omega))
    have e0 := mixErr_pos (S := S)
    have hu := uro_pos (S := S)
    have hu' := uro_le (S := S)
    have ht0 := tiny_pos (S := S)
    have p0 : 0 ≤ rowSize S M k := by unfold rowSize; positivity
    have p1 : 0 ≤ mixErr S * rowSize S M k + (1 + uro S) * tiny S := by positivity
    have fa := ih i (fun j p q => hf j p (by omega)) (fun j p q => hc j p (by omega)) (by linarith)
    have fb := ih (i + 1) (fun j p q => hf j (by omega) (by omega)) (fun j p q => hc j (by omega) (by omega)) (by linarith)
    have a1 := (casteljau_err h0 h1 k i fa fun j p q => hc j p (by omega)).1
    have b1 := (casteljau_err h0 h1 k (i + 1) fb fun j p q => hc j (by omega) (by omega)).1
    show IsFinite (mix1 t _ _)
    set a := casteljau (mix1 t) c k i
    set b := casteljau (mix1 t) c k (i + 1)
    set G := rowSize S M k
    have d1 : |real b - real a| ≤ 2 * G := by have := abs_sub (real b) (real a); linarith
    have fd : IsFinite (b - a) := (correct_sub fb fa).1.2 (by linarith)
    have d2 : |real (b - a)| ≤ 2 * (1 + uro S) * G := by
      have := abs_sub_abs_le_abs_sub (real (b - a)) (real b - real a)
      have := err_sub fd
      nlinarith
    have fm : IsFinite ((b - a) * t) := (correct_mul fd ht).1.2 (by
      rw [abs_mul, abs_of_nonneg h0]
      have : |real (b - a)| * real t ≤ |real (b - a)| := mul_le_of_le_one_right (abs_nonneg _) h1
      nlinarith)
    refine (correct_add fa fm).1.2 ?_
    have s := step_err h0 h1 a1 b1 fd fm
    have r := mixR_abs h0 h1 a1 b1
    have k : |real a + real ((b - a) * t) - mixR (real t) (real a) (real b)| ≤ 2 * uro S * G + uro S * (2 * (1 + uro S) * G) + tiny S := by
      unfold mixR
      rw [add_sub_add_left_eq_sub]; exact s
    have := abs_sub_abs_le_abs_sub (real a + real ((b - a) * t)) (mixR (real t) (real a) (real b))
    have q : 2 * uro S * G + uro S * (2 * (1 + uro S) * G) + tiny S ≤ mixErr S * G + (1 + uro S) * tiny S := by
      unfold mixErr
      have : 0 ≤ uro S * tiny S := by positivity
      have : 0 ≤ uro S * G := by positivity
      have : 0 ≤ uro S ^ 2 * G := by positivity
      have : 0 ≤ uro S ^ 3 * G := by positivity
      nlinarith
    linarith
/-- Grid numbers: nothing is rounded. -/
theorem casteljau_grid {t : S} {c : ℕ → S} {e : ℤ} {m N n : ℕ} (hN : 0 < N) (ht : G (-(m : ℤ)) (2 ^ m) t (real t)) (h0 : 0 ≤ real t)
    (hF : Fits S (e - m * n) (3 * (2 ^ (m * n) * N))) (he : e + (Binary.F S).p < (Binary.F S).emax) (k i : ℕ) (hk : k ≤ n)
    (hc : ∀ j, i ≤ j → j ≤ i + k → G e N (c j) (real (c j))) :
    G (e - m * k) (2 ^ (m * k) * N) (casteljau (mix1 t) c k i) (casteljau (mixR (real t)) (fun j => real (c j)) k i) := by
  have h1 : real t ≤ 1 := by
    obtain ⟨q, hq, e⟩ := ht.on
    rw [e, zpow_neg, zpow_natCast, ← div_eq_mul_inv, div_le_one (by positivity)]
    have : (q : ℝ) ≤ ((2 ^ m : ℕ) : ℝ) := by exact_mod_cast (le_abs_self q).trans hq
    simpa using this
  induction k generalizing i with
  | zero =>
    have := hc i le_rfl le_rfl
    simp only [casteljau]
    have e0 : e = e - m * (0 : ℕ) := by simp
    have n0 : 2 ^ (m * 0) * N = N := by simp
    rw [n0, ← e0]; exact this
  | succ k ih =>
    have ga := ih i (by omega) fun j p q => hc j p (by omega)
    have gb := ih (i + 1) (by omega) fun j p q => hc j (by omega) (by omega)
    have two : (2 : ℕ) ^ (m * (k + 1)) = 2 ^ (m * k) * 2 ^ m := by rw [← pow_add]; congr 1
    have le1 : 2 ^ (m * (k + 1)) * N ≤ 2 ^ (m * n) * N := Nat.mul_le_mul_right _ (Nat.pow_le_pow_right (by omega) (Nat.mul_le_mul_left _ hk))
    have le0 : 2 ^ (m * k) * N ≤ 2 ^ (m * (k + 1)) * N := Nat.mul_le_mul_right _ (Nat.pow_le_pow_right (by omega) (Nat.mul_le_mul_left _ (by omega)))
    have mk : (m : ℤ) * (k + 1 : ℕ) ≤ m * n := by exact_mod_cast Nat.mul_le_mul_left m hk
    have mk' : (m : ℤ) * k ≤ m * (k + 1 : ℕ) := by push_cast; nlinarith
    have mk0 : 0 ≤ (m : ℤ) * k := by positivity
    have fits : ∀ {f : ℤ} {K : ℕ}, e - m * n ≤ f → f ≤ e → K ≤ 3 * (2 ^ (m * n) * N) → Fits S f K := fun {f K} p q r =>
      ⟨hF.1.trans p, r.trans hF.2.1, by omega⟩
    show G _ _ (mix1 t _ _) (mixR _ _ _)
    set a := casteljau (mix1 t) c k i
    set b := casteljau (mix1 t) c k (i + 1)
    set a' := casteljau (mixR (real t)) (fun j => real (c j)) k i
    set b' := casteljau (mixR (real t)) (fun j => real (c j)) k (i + 1)
    have g1 := gb.sub ga (fits (by omega) (by omega) (by omega))
    have kk : e - (m : ℤ) * k + -(m : ℤ) = e - m * (k + 1 : ℕ) := by push_cast; ring
    have m0 : (0 : ℤ) ≤ m := by positivity
    have g2 := (g1.mul ht (fits (by rw [kk]; linarith) (by rw [kk]; linarith) (by
      calc (2 ^ (m * k) * N + 2 ^ (m * k) * N) * 2 ^ m = 2 * (2 ^ (m * (k + 1)) * N) := by rw [two]; ring
        _ ≤ 3 * (2 ^ (m * n) * N) := by omega))).exp kk
    have ga' : G (e - m * (k + 1 : ℕ)) (2 ^ (m * (k + 1)) * N) a a' := by
      refine ⟨ga.ex, ?_⟩
      obtain ⟨q, hq, h⟩ := ga.on
      refine ⟨q * 2 ^ m, ?_, ?_⟩
      · rw [abs_mul, abs_of_pos (by positivity : (0 : ℤ) < 2 ^ m)]
        have : |q| * 2 ^ m ≤ ((2 ^ (m * k) * N : ℕ) : ℤ) * 2 ^ m := Int.mul_le_mul_of_nonneg_right hq (by positivity)
        refine this.trans (le_of_eq ?_)
        rw [two]; push_cast; ring
      · rw [h]; push_cast
        rw [show e - (m : ℤ) * k = m + (e - m * (k + 1)) by ring, zpow_add₀ (by norm_num), zpow_natCast]; ring
    have g3 := ga'.add g2 (fits (by linarith) (by linarith) (by rw [two] at le1 ⊢; nlinarith))
    refine ⟨g3.ex, ?_⟩
    obtain ⟨q, -, h⟩ := g3.on
    refine ⟨q, ?_, h⟩
    have bd : ∀ {x : ℝ}, OnGrid (e - m * k) (2 ^ (m * k) * N) x → |x| ≤ ((2 ^ (m * k) * N : ℕ) : ℝ) * 2 ^ (e - (m : ℤ) * k) := by
      rintro x ⟨r, hr, rfl⟩
      rw [abs_mul, abs_of_pos (Fmt.z_pos _)]
      have : |(r : ℝ)| ≤ ((2 ^ (m * k) * N : ℕ) : ℝ) := by exact_mod_cast hr
      have := Fmt.z_pos (e - (m : ℤ) * k)
      gcongr
    have := mixR_abs h0 h1 (bd ga.on) (bd gb.on)
    have e1 : mixR (real t) a' b' = q * 2 ^ (e - (m : ℤ) * (k + 1 : ℕ)) := h
    rw [e1, abs_mul, abs_of_pos (Fmt.z_pos _)] at this
    have e2 : ((2 ^ (m * k) * N : ℕ) : ℝ) * 2 ^ (e - (m : ℤ) * k) = ((2 ^ (m * (k + 1)) * N : ℕ) : ℝ) * 2 ^ (e - (m : ℤ) * (k + 1 : ℕ)) := by
      rw [two]; push_cast
      rw [show e - (m : ℤ) * k = m + (e - m * (k + 1)) by ring, zpow_add₀ (by norm_num), zpow_natCast]; ring
    rw [e2] at this
    have := le_of_mul_le_mul_right this (Fmt.z_pos _)
    exact_mod_cast this
end

end VecMath
