import Verif.Lemmas.CurveReal
import Verif.Lemmas.Num
import Verif.Props.FloatCorners
import Verif.Props.FloatRayMono
/-! # C118: interpolation and Bézier curves in floating point -/

open Classical

namespace VecMath
open Scalar IEEE

section
variable {S : Type} [Scalar S]
/-- One coordinate of an interpolation. -/
def mix1 (t a b : S) : S := a + (b - a) * t
theorem curve_x2 (t : S) (c : ℕ → Point2 S) (k i : ℕ) : (casteljau (Point2.mix t) c k i).x = casteljau (mix1 t) (fun j => (c j).x) k i := by
  induction k generalizing i with
  | zero => rfl
  | succ k ih => show mix1 t _ _ = mix1 t _ _; rw [← ih, ← ih]
theorem curve_y2 (t : S) (c : ℕ → Point2 S) (k i : ℕ) : (casteljau (Point2.mix t) c k i).y = casteljau (mix1 t) (fun j => (c j).y) k i := by
  induction k generalizing i with
  | zero => rfl
  | succ k ih => show mix1 t _ _ = mix1 t _ _; rw [← ih, ← ih]
theorem curve_x3 (t : S) (c : ℕ → Point3 S) (k i : ℕ) : (casteljau (Point3.mix t) c k i).x = casteljau (mix1 t) (fun j => (c j).x) k i := by
  induction k generalizing i with
  | zero => rfl
  | succ k ih => show mix1 t _ _ = mix1 t _ _; rw [← ih, ← ih]
theorem curve_y3 (t : S) (c : ℕ → Point3 S) (k i : ℕ) : (casteljau (Point3.mix t) c k i).y = casteljau (mix1 t) (fun j => (c j).y) k i := by
  induction k generalizing i with
  | zero => rfl
  | succ k ih => show mix1 t _ _ = mix1 t _ _; rw [← ih, ← ih]
theorem curve_z3 (t : S) (c : ℕ → Point3 S) (k i : ℕ) : (casteljau (Point3.mix t) c k i).z = casteljau (mix1 t) (fun j => (c j).z) k i := by
  induction k generalizing i with
  | zero => rfl
  | succ k ih => show mix1 t _ _ = mix1 t _ _; rw [← ih, ← ih]
end

section
variable {S : Type} [Scalar S] [IEEE S]
theorem finite_of_mix {t a b : S} (h : IsFinite (mix1 t a b)) : IsFinite a ∧ IsFinite b ∧ IsFinite t ∧ IsFinite (b - a) ∧ IsFinite ((b - a) * t) := by
  have h1 := finite_of_add h
  have h2 := finite_of_mul h1.2
  exact ⟨h1.1, (finite_of_sub h2.1).1, h2.2, h2.1, h1.2⟩

/-- At `0`: the first point. -/
theorem casteljau_start {c : ℕ → S} {n : ℕ} (h : ∀ j < n, IsFinite (c (j + 1) - c j)) {t : S} (ht : num t = num (zero : S)) (k i : ℕ) (hk : i + k ≤ n) :
    num (casteljau (mix1 t) c k i) = num (c i) := by
  induction k generalizing i with
  | zero => rfl
  | succ k ih =>
    show num (_ + (_ - _) * t) = _
    have e := num_sub_congr (ih (i + 1) (by omega)) (ih i (by omega))
    rw [num_add_congr (ih i (by omega)) (num_mul_congr e ht), IEEE.num_add, IEEE.num_mul, IEEE.num_zero, IEEE.nmul_zero (h i (by omega)),
      IEEE.nadd_zero]
/-- At `1`: the last point, if the differences are exact. -/
theorem casteljau_end {c : ℕ → S} {n : ℕ} (h : ∀ j < n, num (c j + (c (j + 1) - c j)) = num (c (j + 1))) {t : S} (ht : num t = num (one : S))
    (k i : ℕ) (hk : i + k ≤ n) : num (casteljau (mix1 t) c k i) = num (c (i + k)) := by
  induction k generalizing i with
  | zero => rfl
  | succ k ih =>
    show num (_ + (_ - _) * t) = _
    have e := num_sub_congr (ih (i + 1) (by omega)) (ih i (by omega))
    rw [num_add_congr (ih i (by omega)) ((num_mul_congr e ht).trans (IEEE.num_mul_one _)), show i + 1 + k = i + k + 1 by omega, h _ (by omega),
      Nat.add_assoc]
end

section
variable {S : Type} [Scalar S] [IEEE S] [Binary S]
theorem mixErr_pos : 0 < mixErr S := by have := uro_pos (S := S); unfold mixErr; positivity

/-- The parts of one interpolation: the step before the last addition. -/
theorem step_err {t a b : S} {M : ℝ} (h0 : 0 ≤ real t) (h1 : real t ≤ 1) (ha : |real a| ≤ M) (hb : |real b| ≤ M)
    (hd : IsFinite (b - a)) (hm : IsFinite ((b - a) * t)) :
    |real ((b - a) * t) - (real b - real a) * real t| ≤ 2 * uro S * M + uro S * (2 * (1 + uro S) * M) + tiny S := by
  have hu := uro_pos (S := S)
  have e1 := err_sub hd
  have e2 := err_mul hm
  have hM : 0 ≤ M := (abs_nonneg _).trans ha
  have k : |real b - real a| ≤ 2 * M := by have := abs_sub (real b) (real a); linarith
  have k1 : |real (b - a) - (real b - real a)| ≤ uro S * (2 * M) := e1.trans (by gcongr)
  have k2 : |real (b - a)| ≤ 2 * (1 + uro S) * M := by
    have := abs_sub_abs_le_abs_sub (real (b - a)) (real b - real a)
    linarith
  have k3 : |real (b - a) * real t| ≤ 2 * (1 + uro S) * M := by
    rw [abs_mul, abs_of_nonneg h0]
    exact (mul_le_of_le_one_right (abs_nonneg _) h1).trans k2
  have k4 : |real ((b - a) * t) - real (b - a) * real t| ≤ uro S * (2 * (1 + uro S) * M) + tiny S :=
    e2.trans (by gcongr)
  have k5 : |real (b - a) * real t - (real b - real a) * real t| ≤ uro S * (2 * M) := by
    rw [← sub_mul, abs_mul, abs_of_nonneg h0]
    exact (mul_le_of_le_one_right (abs_nonneg _) h1).trans k1
  have := abs_sub_le (real ((b - a) * t)) (real (b - a) * real t) ((real b - real a) * real t)
  linarith
theorem mixR_abs {x a b M : ℝ} (h0 : 0 ≤ x) (h1 : x ≤ 1) (ha : |a| ≤ M) (hb : |b| ≤ M) : |mixR x a b| ≤ M := by
  rw [abs_le] at *
  unfold mixR
  constructor <;> nlinarith
/-- One interpolation. -/
theorem mix_err {t a b : S} {M : ℝ} (h : IsFinite (mix1 t a b)) (h0 : 0 ≤ real t) (h1 : real t ≤ 1) (ha : |real a| ≤ M) (hb : |real b| ≤ M) :
    |real (mix1 t a b) - mixR (real t) (real a) (real b)| ≤ mixErr S * M + (1 + uro S) * tiny S := by
  obtain ⟨-, -, -, fd, fm⟩ := finite_of_mix h
  have hu := uro_pos (S := S)
  have s := step_err h0 h1 ha hb fd fm
  have e := err_add h
  have hM : 0 ≤ M := (abs_nonneg _).trans ha
  have r := mixR_abs h0 h1 ha hb
  set m := real ((b - a) * t)
  have e' : |real (mix1 t a b) - (real a + m)| ≤ uro S * |real a + m| := e
  have k : |real a + m - mixR (real t) (real a) (real b)| ≤ 2 * uro S * M + uro S * (2 * (1 + uro S) * M) + tiny S := by
    unfold mixR
    rw [add_sub_add_left_eq_sub]; exact s
  have k1 : |real a + m| ≤ M + (2 * uro S * M + uro S * (2 * (1 + uro S) * M) + tiny S) := by
    have := abs_sub_abs_le_abs_sub (real a + m) (mixR (real t) (real a) (real b))
    linarith
  have k2 := e'.trans (mul_le_mul_of_nonneg_left k1 hu.le)
  have := abs_sub_le (real (mix1 t a b)) (real a + m) (mixR (real t) (real a) (real b))
  unfold mixErr
  nlinarith

/-- How large the numbers in row `k` can be. -/
noncomputable def rowSize (S : Type) [Scalar S] [IEEE S] [Binary S] (M : ℝ) (k : ℕ) : ℝ := (1 + mixErr S) ^ k * (M + k * ((1 + uro S) * tiny S))
theorem rowSize_succ {M : ℝ} (k : ℕ) : rowSize S M k + (mixErr S * rowSize S M k + (1 + uro S) * tiny S) ≤ rowSize S M (k + 1) := by
  unfold rowSize
  have e := mixErr_pos (S := S)
  have hu := uro_pos (S := S)
  have ht := tiny_pos (S := S)
  have p : 1 ≤ (1 + mixErr S) ^ (k + 1) := one_le_pow₀ (by linarith)
  have q : (1 + uro S) * tiny S ≤ (1 + mixErr S) ^ (k + 1) * ((1 + uro S) * tiny S) := le_mul_of_one_le_left (by positivity) p
  push_cast
  rw [pow_succ] at *
  nlinarith
theorem casteljau_err {t : S} {c : ℕ → S} {M : ℝ} (h0 : 0 ≤ real t) (h1 : real t ≤ 1) (k i : ℕ) (h : IsFinite (casteljau (mix1 t) c k i))
    (hc : ∀ j, i ≤ j → j ≤ i + k → |real (c j)| ≤ M) :
    |real (casteljau (mix1 t) c k i)| ≤ rowSize S M k ∧
    |real (casteljau (mix1 t) c k i) - casteljau (mixR (real t)) (fun j => real (c j)) k i| ≤ rowSize S M k - M := by
  induction k generalizing i with
  | zero =>
    have : rowSize S M 0 = M := by simp [rowSize]
    rw [this]
    refine ⟨hc i le_rfl le_rfl, ?_⟩
    show |real (c i) - real (c i)| ≤ _
    simp
  | succ k ih =>
    have h' : IsFinite (mix1 t (casteljau (mix1 t) c k i) (casteljau (mix1 t) c k (i + 1))) := h
    obtain ⟨fa, fb, -⟩ := finite_of_mix h'
    obtain ⟨a1, a2⟩ := ih i fa fun j p q => hc j p (by omega)
    obtain ⟨b1, b2⟩ := ih (i + 1) fb fun j p q => hc j (by omega) (by omega)
    have e := mix_err h' h0 h1 a1 b1
    have r := mixR_abs h0 h1 a1 b1
    have r' := mixR_abs h0 h1 a2 b2
    have g := rowSize_succ (S := S) (M := M) k
    show |real (mix1 t _ _)| ≤ _ ∧ |real (mix1 t _ _) - mixR _ _ _| ≤ _
    set a := casteljau (mix1 t) c k i
    set b := casteljau (mix1 t) c k (i + 1)
    set a' := casteljau (mixR (real t)) (fun j => real (c j)) k i
    set b' := casteljau (mixR (real t)) (fun j => real (c j)) k (i + 1)
    have r'' : |mixR (real t) (real a) (real b) - mixR (real t) a' b'| ≤ rowSize S M k - M := by
      have : mixR (real t) (real a) (real b) - mixR (real t) a' b' = mixR (real t) (real a - a') (real b - b') := by unfold mixR; ring
      rw [this]; exact r'
    constructor
    · have := abs_sub_abs_le_abs_sub (real (mix1 t a b)) (mixR (real t) (real a) (real b))
      linarith
    · have := abs_sub_le (real (mix1 t a b)) (mixR (real t) (real a) (real b)) (mixR (real t) a' b')
      linarith
/-- Nothing overflows. -/
theorem casteljau_finite {t : S} {c : ℕ → S} {M : ℝ} (ht : IsFinite t) (h0 : 0 ≤ real t) (h1 : real t ≤ 1) (k i : ℕ)
    (hf : ∀ j, i ≤ j → j ≤ i + k → IsFinite (c j)) (hc : ∀ j, i ≤ j → j ≤ i + k → |real (c j)| ≤ M) (hM : 3 * rowSize S M k < overflowAt S) :
    IsFinite (casteljau (mix1 t) c k i) := by
  induction k generalizing i with
  | zero => exact hf i le_rfl le_rfl
  | succ k ih =>
    have g := rowSize_succ (S := S) (M := M) k
    have hM0 : 0 ≤ M := (abs_nonneg _).trans (hc i le_rfl (by omega))
    have e0 := mixErr_pos (S := S)
    have hu := uro_pos (S := S)
    have hu' := uro_le (S := S)
    have ht0 := tiny_pos (S := S)
    have p0 : 0 ≤ rowSize S M k := by unfold rowSize; positivity
    have p1 : 0 ≤ mixErr S * rowSize S M k + (1 + uro S) * tiny S := by positivity
    have fa := ih i (fun j p q => hf j p (by omega)) (fun j p q => hc j p (by omega)) (by linarith)
    have fb := ih (i + 1) (fun j p q => hf j (by omega) (by omega)) (fun j p q => hc j (by omega) (by omega)) (by linarith)
    have a1 := (casteljau_err h0 h1 k i fa fun j p q => hc j p (by omega)).1
    have b1 := (casteljau_err h0 h1 k (i + 1) fb fun j p q => hc j (by omega) (by omega)).1
    show IsFinite (mix1 t _ _)
    set a := casteljau (mix1 t) c k i
    set b := casteljau (mix1 t) c k (i + 1)
    set G := rowSize S M k
    have d1 : |real b - real a| ≤ 2 * G := by have := abs_sub (real b) (real a); linarith
    have fd : IsFinite (b - a) := (correct_sub fb fa).1.2 (by linarith)
    have d2 : |real (b - a)| ≤ 2 * (1 + uro S) * G := by
      have := abs_sub_abs_le_abs_sub (real (b - a)) (real b - real a)
      have := err_sub fd
      nlinarith
    have fm : IsFinite ((b - a) * t) := (correct_mul fd ht).1.2 (by
      rw [abs_mul, abs_of_nonneg h0]
      have : |real (b - a)| * real t ≤ |real (b - a)| := mul_le_of_le_one_right (abs_nonneg _) h1
      nlinarith)
    refine (correct_add fa fm).1.2 ?_
    have s := step_err h0 h1 a1 b1 fd fm
    have r := mixR_abs h0 h1 a1 b1
    have k : |real a + real ((b - a) * t) - mixR (real t) (real a) (real b)| ≤ 2 * uro S * G + uro S * (2 * (1 + uro S) * G) + tiny S := by
      unfold mixR
      rw [add_sub_add_left_eq_sub]; exact s
    have := abs_sub_abs_le_abs_sub (real a + real ((b - a) * t)) (mixR (real t) (real a) (real b))
    have q : 2 * uro S * G + uro S * (2 * (1 + uro S) * G) + tiny S ≤ mixErr S * G + (1 + uro S) * tiny S := by
      unfold mixErr
      have : 0 ≤ uro S * tiny S := by positivity
      have : 0 ≤ uro S * G := by positivity
      have : 0 ≤ uro S ^ 2 * G := by positivity
      have : 0 ≤ uro S ^ 3 * G := by positivity
      nlinarith
    linarith
/-- Grid numbers: nothing is rounded. -/
theorem casteljau_grid {t : S} {c : ℕ → S} {e : ℤ} {m N n : ℕ} (hN : 0 < N) (ht : G (-(m : ℤ)) (2 ^ m) t (real t)) (h0 : 0 ≤ real t)
    (hF : Fits S (e - m * n) (3 * (2 ^ (m * n) * N))) (he : e + (Binary.F S).p < (Binary.F S).emax) (k i : ℕ) (hk : k ≤ n)
    (hc : ∀ j, i ≤ j → j ≤ i + k → G e N (c j) (real (c j))) :
    G (e - m * k) (2 ^ (m * k) * N) (casteljau (mix1 t) c k i) (casteljau (mixR (real t)) (fun j => real (c j)) k i) := by
  have h1 : real t ≤ 1 := by
    obtain ⟨q, hq, e⟩ := ht.on
    rw [e, zpow_neg, zpow_natCast, ← div_eq_mul_inv, div_le_one (by positivity)]
    have : (q : ℝ) ≤ ((2 ^ m : ℕ) : ℝ) := by exact_mod_cast (le_abs_self q).trans hq
    simpa using this
  induction k generalizing i with
  | zero =>
    have := hc i le_rfl le_rfl
    simp only [casteljau]
    have e0 : e = e - m * (0 : ℕ) := by simp
    have n0 : 2 ^ (m * 0) * N = N := by simp
    rw [n0, ← e0]; exact this
  | succ k ih =>
    have ga := ih i (by omega) fun j p q => hc j p (by omega)
    have gb := ih (i + 1) (by omega) fun j p q => hc j (by omega) (by omega)
    have two : (2 : ℕ) ^ (m * (k + 1)) = 2 ^ (m * k) * 2 ^ m := by rw [← pow_add]; congr 1
    have le1 : 2 ^ (m * (k + 1)) * N ≤ 2 ^ (m * n) * N := Nat.mul_le_mul_right _ (Nat.pow_le_pow_right (by omega) (Nat.mul_le_mul_left _ hk))
    have le0 : 2 ^ (m * k) * N ≤ 2 ^ (m * (k + 1)) * N := Nat.mul_le_mul_right _ (Nat.pow_le_pow_right (by omega) (Nat.mul_le_mul_left _ (by omega)))
    have mk : (m : ℤ) * (k + 1 : ℕ) ≤ m * n := by exact_mod_cast Nat.mul_le_mul_left m hk
    have mk' : (m : ℤ) * k ≤ m * (k + 1 : ℕ) := by push_cast; nlinarith
    have mk0 : 0 ≤ (m : ℤ) * k := by positivity
    have fits : ∀ {f : ℤ} {K : ℕ}, e - m * n ≤ f → f ≤ e → K ≤ 3 * (2 ^ (m * n) * N) → Fits S f K := fun {f K} p q r =>
      ⟨hF.1.trans p, r.trans hF.2.1, by omega⟩
    show G _ _ (mix1 t _ _) (mixR _ _ _)
    set a := casteljau (mix1 t) c k i
    set b := casteljau (mix1 t) c k (i + 1)
    set a' := casteljau (mixR (real t)) (fun j => real (c j)) k i
    set b' := casteljau (mixR (real t)) (fun j => real (c j)) k (i + 1)
    have g1 := gb.sub ga (fits (by omega) (by omega) (by omega))
    have kk : e - (m : ℤ) * k + -(m : ℤ) = e - m * (k + 1 : ℕ) := by push_cast; ring
    have m0 : (0 : ℤ) ≤ m := by positivity
    have g2 := (g1.mul ht (fits (by rw [kk]; linarith) (by rw [kk]; linarith) (by
      calc (2 ^ (m * k) * N + 2 ^ (m * k) * N) * 2 ^ m = 2 * (2 ^ (m * (k + 1)) * N) := by rw [two]; ring
        _ ≤ 3 * (2 ^ (m * n) * N) := by omega))).exp kk
    have ga' : G (e - m * (k + 1 : ℕ)) (2 ^ (m * (k + 1)) * N) a a' := by
      refine ⟨ga.ex, ?_⟩
      obtain ⟨q, hq, h⟩ := ga.on
      refine ⟨q * 2 ^ m, ?_, ?_⟩
      · rw [abs_mul, abs_of_pos (by positivity : (0 : ℤ) < 2 ^ m)]
        have : |q| * 2 ^ m ≤ ((2 ^ (m * k) * N : ℕ) : ℤ) * 2 ^ m := Int.mul_le_mul_of_nonneg_right hq (by positivity)
        refine this.trans (le_of_eq ?_)
        rw [two]; push_cast; ring
      · rw [h]; push_cast
        rw [show e - (m : ℤ) * k = m + (e - m * (k + 1)) by ring, zpow_add₀ (by norm_num), zpow_natCast]; ring
    have g3 := ga'.add g2 (fits (by linarith) (by linarith) (by rw [two] at le1 ⊢; nlinarith))
    refine ⟨g3.ex, ?_⟩
    obtain ⟨q, -, h⟩ := g3.on
    refine ⟨q, ?_, h⟩
    have bd : ∀ {x : ℝ}, OnGrid (e - m * k) (2 ^ (m * k) * N) x → |x| ≤ ((2 ^ (m * k) * N : ℕ) : ℝ) * 2 ^ (e - (m : ℤ) * k) := by
      rintro x ⟨r, hr, rfl⟩
      rw [abs_mul, abs_of_pos (Fmt.z_pos _)]
      have : |(r : ℝ)| ≤ ((2 ^ (m * k) * N : ℕ) : ℝ) := by exact_mod_cast hr
      have := Fmt.z_pos (e - (m : ℤ) * k)
      gcongr
    have := mixR_abs h0 h1 (bd ga.on) (bd gb.on)
    have e1 : mixR (real t) a' b' = q * 2 ^ (e - (m : ℤ) * (k + 1 : ℕ)) := h
    rw [e1, abs_mul, abs_of_pos (Fmt.z_pos _)] at this
    have e2 : ((2 ^ (m * k) * N : ℕ) : ℝ) * 2 ^ (e - (m : ℤ) * k) = ((2 ^ (m * (k + 1)) * N : ℕ) : ℝ) * 2 ^ (e - (m : ℤ) * (k + 1 : ℕ)) := by
      rw [two]; push_cast
      rw [show e - (m : ℤ) * k = m + (e - m * (k + 1)) by ring, zpow_add₀ (by norm_num), zpow_natCast]; ring
    rw [e2] at this
    have := le_of_mul_le_mul_right this (Fmt.z_pos _)
    exact_mod_cast this
end


section
variable {S : Type} [Scalar S] [IEEE S]

theorem unit_real {t : S} (h0 : (zero ≤? t) = true) (h1 : (t ≤? one) = true) : IsFinite t ∧ 0 ≤ real t ∧ real t ≤ 1 := by
  have f := finite_btw finite_zero finite_one h0 h1
  have a := (le_fin finite_zero f).1 h0
  have b := (le_fin f finite_one).1 h1
  rw [real_zero] at a
  rw [real_one] at b
  exact ⟨f, a, b⟩
theorem Point2.num_of_beq {p q : Point2 S} (h : (p == q) = true) : num p.x = num q.x ∧ num p.y = num q.y := by
  rw [Point2.beq_iff] at h
  exact ⟨IEEE.num_of_beq h.1, IEEE.num_of_beq h.2⟩
theorem Point3.num_of_beq {p q : Point3 S} (h : (p == q) = true) : num p.x = num q.x ∧ num p.y = num q.y ∧ num p.z = num q.z := by
  rw [Point3.beq_iff] at h
  exact ⟨IEEE.num_of_beq h.1, IEEE.num_of_beq h.2.1, IEEE.num_of_beq h.2.2⟩
theorem Point2.beq_of_num {p q : Point2 S} (h : num p.x = num q.x ∧ num p.y = num q.y) (n : NoNaN q) : (p == q) = true := by
  rw [Point2.noNaN] at n
  rw [Point2.beq_iff]
  exact ⟨beq_of_num' h.1 n.1, beq_of_num' h.2 n.2⟩
theorem Point3.beq_of_num {p q : Point3 S} (h : num p.x = num q.x ∧ num p.y = num q.y ∧ num p.z = num q.z) (n : NoNaN q) : (p == q) = true := by
  rw [Point3.noNaN] at n
  rw [Point3.beq_iff]
  exact ⟨beq_of_num' h.1 n.1, beq_of_num' h.2.1 n.2.1, beq_of_num' h.2.2 n.2.2⟩
/-- A point of the curve lies between bounds on the control points. -/
theorem in_bezier {c : ℕ → S} {n : ℕ} {x : ℝ} {r lo hi : S} (x0 : 0 ≤ x) (x1 : x ≤ 1) (hf : ∀ j ≤ n, IsFinite (c j)) (hr : IsFinite r)
    (e : real r = bezier (fun j => real (c j)) n x) (h : ∀ j ≤ n, In1 lo hi (c j)) : In1 lo hi r := by
  obtain ⟨i, hi', mi⟩ := Finset.exists_min_image (Finset.range (n + 1)) (fun j => real (c j)) ⟨0, by simp⟩
  obtain ⟨k, hk, mk⟩ := Finset.exists_max_image (Finset.range (n + 1)) (fun j => real (c j)) ⟨0, by simp⟩
  have hi'' : i ≤ n := by simpa [Nat.lt_succ_iff] using hi'
  have hk' : k ≤ n := by simpa [Nat.lt_succ_iff] using hk
  have B := bezier_between (c := fun j => real (c j)) (n := n) (lo := real (c i)) (hi := real (c k)) x0 x1 fun j q =>
    ⟨mi j (by simpa [Nat.lt_succ_iff] using q), mk j (by simpa [Nat.lt_succ_iff] using q)⟩
  rw [← e] at B
  exact ⟨le_trans' (h i hi'').1 ((le_fin (hf i hi'') hr).2 B.1), le_trans' ((le_fin hr (hf k hk')).2 B.2) (h k hk').2⟩
end

section
variable {S : Type} [Scalar S] [IEEE S] [Binary S]

/-- **C118**: the computed point of a curve is close to the Bézier curve. -/
theorem C118_error2 (c : ℕ → Point2 S) (n : ℕ) (t : S) (M : ℝ) (h0 : (zero ≤? t) = true) (h1 : (t ≤? one) = true)
    (hf : AllFinite (Point2.curve c n t)) (hM : ∀ j ≤ n, ∀ i, |(c j).toReal i| ≤ M) (i : Fin 2) :
    |(Point2.curve c n t).toReal i - bezier (fun j => (c j).toReal i) n (real t)| ≤ curveErr S n M := by
  obtain ⟨-, r0, r1⟩ := unit_real h0 h1
  rw [Point2.allFinite] at hf
  rw [← casteljau_bezier]
  unfold Point2.curve at *
  rw [curve_x2, curve_y2] at hf
  have k := fun (f : Point2 S → S) (h : IsFinite (casteljau (mix1 t) (fun j => f (c j)) n 0)) (hM : ∀ j ≤ n, |real (f (c j))| ≤ M) =>
    (casteljau_err r0 r1 n 0 h fun j _ q => hM j (by omega)).2
  fin_cases i
  · show |real (casteljau (Point2.mix t) c n 0).x - casteljau _ (fun j => real (c j).x) n 0| ≤ _
    rw [curve_x2]; exact k (·.x) hf.1 fun j q => hM j q 0
  · show |real (casteljau (Point2.mix t) c n 0).y - casteljau _ (fun j => real (c j).y) n 0| ≤ _
    rw [curve_y2]; exact k (·.y) hf.2 fun j q => hM j q 1
/-- **C118**: if the control points are not too large, nothing overflows. -/
theorem C118_finite2 (c : ℕ → Point2 S) (n : ℕ) (t : S) (M : ℝ) (h0 : (zero ≤? t) = true) (h1 : (t ≤? one) = true)
    (hf : ∀ j ≤ n, AllFinite (c j)) (hM : ∀ j ≤ n, ∀ i, |(c j).toReal i| ≤ M) (hO : 3 * (M + curveErr S n M) < overflowAt S) :
    AllFinite (Point2.curve c n t) := by
  obtain ⟨ft, r0, r1⟩ := unit_real h0 h1
  have hO' : 3 * rowSize S M n < overflowAt S := by
    have : M + curveErr S n M = rowSize S M n := by unfold curveErr rowSize; ring
    rwa [← this]
  unfold Point2.curve
  rw [Point2.allFinite, curve_x2, curve_y2]
  have k := fun (f : Point2 S → S) (h : ∀ j ≤ n, IsFinite (f (c j))) (hM : ∀ j ≤ n, |real (f (c j))| ≤ M) =>
    casteljau_finite (c := fun j => f (c j)) ft r0 r1 n 0 (fun j _ q => h j (by omega)) (fun j _ q => hM j (by omega)) hO'
  simp only [Point2.allFinite] at hf
  exact ⟨k (·.x) (fun j q => (hf j q).1) fun j q => hM j q 0, k (·.y) (fun j q => (hf j q).2) fun j q => hM j q 1⟩
/-- **C118**: every curve starts in its first control point, if the steps between the control points do not overflow. -/
theorem C118_start2 (c : ℕ → Point2 S) (n : ℕ) (t : S) (ht : (t == zero) = true) (h : AllFinite (c 0)) (hd : ∀ j < n, AllFinite (c (j + 1) - c j)) :
    (Point2.curve c n t == c 0) = true := by
  rw [Point2.allFinite] at h
  simp only [Vector2.allFinite] at hd
  have k := fun (f : Point2 S → S) (hd : ∀ j < n, IsFinite (f (c (j + 1)) - f (c j))) =>
    casteljau_start (c := fun j => f (c j)) hd (num_of_beq ht) n 0 (by omega)
  refine Point2.beq_of_num ?_ (Point2.noNaN.2 ⟨h.1.not_nan, h.2.not_nan⟩)
  unfold Point2.curve
  rw [curve_x2, curve_y2]
  exact ⟨k (·.x) fun j q => (hd j q).1, k (·.y) fun j q => (hd j q).2⟩
/-- **C118**: a curve ends in its last control point, if stepping from each control point to the next arrives there. -/
theorem C118_end2 (c : ℕ → Point2 S) (n : ℕ) (t : S) (ht : (t == one) = true) (h : NoNaN (c n))
    (hd : ∀ j < n, (c j + (c (j + 1) - c j) == c (j + 1)) = true) : (Point2.curve c n t == c n) = true := by
  have hd' := fun j q => Point2.num_of_beq (hd j q)
  have k := fun (f : Point2 S → S) (hd : ∀ j < n, num (f (c j) + (f (c (j + 1)) - f (c j))) = num (f (c (j + 1)))) =>
    (casteljau_end (c := fun j => f (c j)) hd (num_of_beq ht) n 0 (by omega)).trans (by rw [Nat.zero_add])
  refine Point2.beq_of_num ?_ h
  unfold Point2.curve
  rw [curve_x2, curve_y2]
  exact ⟨k (·.x) fun j q => (hd' j q).1, k (·.y) fun j q => (hd' j q).2⟩
/-- **C118**: interpolation stays inside every box that holds the first point and the point computed for `1`. -/
theorem C118_between2 (p q : Point2 S) (hp : AllFinite p) (hd : AllFinite (q - p)) (t : S) (h0 : (zero ≤? t) = true) (h1 : (t ≤? one) = true)
    (b : BoundingBox2 S) (bp : b.isInside p = true) (bq : b.isInside (Point2.mix one p q) = true) : b.isInside (Point2.mix t p q) = true := by
  obtain ⟨ft, -⟩ := unit_real h0 h1
  have hr : AllFinite (Ray2.new p (q - p)) := Ray2.allFinite.2 ⟨hp, hd⟩
  refine C88_convex2 (Ray2.new p (q - p)) hr b zero t one finite_zero ft finite_one h0 h1 ?_ bq
  have e : ((Point2.mix zero p q) == p) = true :=
    C118_start2 (fun j => if j = 0 then p else q) 1 zero (beq_self_iff.2 finite_zero.not_nan) (by simpa using hp) (fun j hj => by
      obtain rfl : j = 0 := by omega
      simpa using hd)
  obtain ⟨ex, ey⟩ := Point2.num_of_beq e
  have : b.isInside (Point2.mix zero p q) = b.isInside p := by
    simp only [BoundingBox2.isInside, le_congr rfl ex, le_congr ex rfl, le_congr rfl ey, le_congr ey rfl]
  exact this.trans bp
/-- **C118**: if the second point is reached without rounding, interpolation stays between the two points. -/
theorem C118_segment2 (p q : Point2 S) (hp : AllFinite p) (hd : AllFinite (q - p)) (hq : (p + (q - p) == q) = true) (t : S)
    (h0 : (zero ≤? t) = true) (h1 : (t ≤? one) = true) (b : BoundingBox2 S) (bp : b.isInside p = true) (bq : b.isInside q = true) :
    b.isInside (Point2.mix t p q) = true := by
  refine C118_between2 p q hp hd t h0 h1 b bp ?_
  obtain ⟨ex, ey⟩ := Point2.num_of_beq hq
  have k : ∀ x y : S, num (x + (y - x)) = num y → num (x + (y - x) * one) = num y := fun x y h => (num_add_congr rfl (IEEE.num_mul_one _)).trans h
  have : b.isInside (Point2.mix one p q) = b.isInside q := by
    have kx : num (Point2.mix one p q).x = num q.x := k _ _ ex
    have ky : num (Point2.mix one p q).y = num q.y := k _ _ ey
    simp only [BoundingBox2.isInside, le_congr rfl kx, le_congr kx rfl, le_congr rfl ky, le_congr ky rfl]
  exact this.trans bq
/-- **C118**: on data with few bits, at a parameter `j / 2^m`, nothing is rounded, and the point is inside every box that holds the control points. -/
theorem C118_grid2 (c : ℕ → Point2 S) (n : ℕ) (t : S) (e : ℤ) (m N : ℕ) (hN : 0 < N) (h0 : (zero ≤? t) = true) (ht : IsFinite t)
    (gt : OnGrid (-(m : ℤ)) (2 ^ m) (real t)) (hf : ∀ j ≤ n, AllFinite (c j)) (gc : ∀ j ≤ n, ∀ i, OnGrid e N ((c j).toReal i))
    (hF : Fits S (e - m * n) (3 * (2 ^ (m * n) * N))) (he : Fits S e N) :
    AllFinite (Point2.curve c n t) ∧ (∀ i, (Point2.curve c n t).toReal i = bezier (fun j => (c j).toReal i) n (real t)) ∧
    ∀ b : BoundingBox2 S, (∀ j ≤ n, b.isInside (c j) = true) → b.isInside (Point2.curve c n t) = true := by
  have r0 : 0 ≤ real t := by have := (le_fin finite_zero ht).1 h0; rwa [real_zero] at this
  simp only [Point2.allFinite] at hf
  have k := fun (f : Point2 S → S) (hf : ∀ j ≤ n, IsFinite (f (c j))) (gc : ∀ j ≤ n, OnGrid e N (real (f (c j)))) =>
    (casteljau_grid (c := fun j => f (c j)) hN (.of ht gt) r0 hF he.2.2 n 0 le_rfl fun j _ q => .of (hf j (by omega)) (gc j (by omega))).ex
  have r1 : real t ≤ 1 := by
    obtain ⟨q, hq, e⟩ := gt
    rw [e, zpow_neg, zpow_natCast, ← div_eq_mul_inv, div_le_one (by positivity)]
    have : (q : ℝ) ≤ ((2 ^ m : ℕ) : ℝ) := by exact_mod_cast (le_abs_self q).trans hq
    simpa using this
  have kx := k (·.x) (fun j q => (hf j q).1) fun j q => gc j q 0
  rw [← curve_x2, casteljau_bezier] at kx
  have ky := k (·.y) (fun j q => (hf j q).2) fun j q => gc j q 1
  rw [← curve_y2, casteljau_bezier] at ky
  refine ⟨Point2.allFinite.2 ⟨kx.1, ky.1⟩, ?_, ?_⟩
  · intro i
    fin_cases i
    exacts [kx.2, ky.2]
  · intro b hb
    simp only [isInside2_iff] at hb ⊢
    exact ⟨in_bezier r0 r1 (fun j q => (hf j q).1) kx.1 kx.2 fun j q => (hb j q).1, in_bezier r0 r1 (fun j q => (hf j q).2) ky.1 ky.2 fun j q => (hb j q).2⟩

/-- **C118**: the computed point of a curve is close to the Bézier curve. -/
theorem C118_error3 (c : ℕ → Point3 S) (n : ℕ) (t : S) (M : ℝ) (h0 : (zero ≤? t) = true) (h1 : (t ≤? one) = true)
    (hf : AllFinite (Point3.curve c n t)) (hM : ∀ j ≤ n, ∀ i, |(c j).toReal i| ≤ M) (i : Fin 3) :
    |(Point3.curve c n t).toReal i - bezier (fun j => (c j).toReal i) n (real t)| ≤ curveErr S n M := by
  obtain ⟨-, r0, r1⟩ := unit_real h0 h1
  rw [Point3.allFinite] at hf
  rw [← casteljau_bezier]
  unfold Point3.curve at *
  rw [curve_x3, curve_y3, curve_z3] at hf
  have k := fun (f : Point3 S → S) (h : IsFinite (casteljau (mix1 t) (fun j => f (c j)) n 0)) (hM : ∀ j ≤ n, |real (f (c j))| ≤ M) =>
    (casteljau_err r0 r1 n 0 h fun j _ q => hM j (by omega)).2
  fin_cases i
  · show |real (casteljau (Point3.mix t) c n 0).x - casteljau _ (fun j => real (c j).x) n 0| ≤ _
    rw [curve_x3]; exact k (·.x) hf.1 fun j q => hM j q 0
  · show |real (casteljau (Point3.mix t) c n 0).y - casteljau _ (fun j => real (c j).y) n 0| ≤ _
    rw [curve_y3]; exact k (·.y) hf.2.1 fun j q => hM j q 1
  · show |real (casteljau (Point3.mix t) c n 0).z - casteljau _ (fun j => real (c j).z) n 0| ≤ _
    rw [curve_z3]; exact k (·.z) hf.2.2 fun j q => hM j q 2
/-- **C118**: if the control points are not too large, nothing overflows. -/
theorem C118_finite3 (c : ℕ → Point3 S) (n : ℕ) (t : S) (M : ℝ) (h0 : (zero ≤? t) = true) (h1 : (t ≤? one) = true)
    (hf : ∀ j ≤ n, AllFinite (c j)) (hM : ∀ j ≤ n, ∀ i, |(c j).toReal i| ≤ M) (hO : 3 * (M + curveErr S n M) < overflowAt S) :
    AllFinite (Point3.curve c n t) := by
  obtain ⟨ft, r0, r1⟩ := unit_real h0 h1
  have hO' : 3 * rowSize S M n < overflowAt S := by
    have : M + curveErr S n M = rowSize S M n := by unfold curveErr rowSize; ring
    rwa [← this]
  unfold Point3.curve
  rw [Point3.allFinite, curve_x3, curve_y3, curve_z3]
  have k := fun (f : Point3 S → S) (h : ∀ j ≤ n, IsFinite (f (c j))) (hM : ∀ j ≤ n, |real (f (c j))| ≤ M) =>
    casteljau_finite (c := fun j => f (c j)) ft r0 r1 n 0 (fun j _ q => h j (by omega)) (fun j _ q => hM j (by omega)) hO'
  simp only [Point3.allFinite] at hf
  exact ⟨k (·.x) (fun j q => (hf j q).1) fun j q => hM j q 0, k (·.y) (fun j q => (hf j q).2.1) fun j q => hM j q 1, k (·.z) (fun j q => (hf j q).2.2) fun j q => hM j q 2⟩
/-- **C118**: every curve starts in its first control point, if the steps between the control points do not overflow. -/
theorem C118_start3 (c : ℕ → Point3 S) (n : ℕ) (t : S) (ht : (t == zero) = true) (h : AllFinite (c 0)) (hd : ∀ j < n, AllFinite (c (j + 1) - c j)) :
    (Point3.curve c n t == c 0) = true := by
  rw [Point3.allFinite] at h
  simp only [Vector3.allFinite] at hd
  have k := fun (f : Point3 S → S) (hd : ∀ j < n, IsFinite (f (c (j + 1)) - f (c j))) =>
    casteljau_start (c := fun j => f (c j)) hd (num_of_beq ht) n 0 (by omega)
  refine Point3.beq_of_num ?_ (Point3.noNaN.2 ⟨h.1.not_nan, h.2.1.not_nan, h.2.2.not_nan⟩)
  unfold Point3.curve
  rw [curve_x3, curve_y3, curve_z3]
  exact ⟨k (·.x) fun j q => (hd j q).1, k (·.y) fun j q => (hd j q).2.1, k (·.z) fun j q => (hd j q).2.2⟩
/-- **C118**: a curve ends in its last control point, if stepping from each control point to the next arrives there. -/
theorem C118_end3 (c : ℕ → Point3 S) (n : ℕ) (t : S) (ht : (t == one) = true) (h : NoNaN (c n))
    (hd : ∀ j < n, (c j + (c (j + 1) - c j) == c (j + 1)) = true) : (Point3.curve c n t == c n) = true := by
  have hd' := fun j q => Point3.num_of_beq (hd j q)
  have k := fun (f : Point3 S → S) (hd : ∀ j < n, num (f (c j) + (f (c (j + 1)) - f (c j))) = num (f (c (j + 1)))) =>
    (casteljau_end (c := fun j => f (c j)) hd (num_of_beq ht) n 0 (by omega)).trans (by rw [Nat.zero_add])
  refine Point3.beq_of_num ?_ h
  unfold Point3.curve
  rw [curve_x3, curve_y3, curve_z3]
  exact ⟨k (·.x) fun j q => (hd' j q).1, k (·.y) fun j q => (hd' j q).2.1, k (·.z) fun j q => (hd' j q).2.2⟩
/-- **C118**: interpolation stays inside every box that holds the first point and the point computed for `1`. -/
theorem C118_between3 (p q : Point3 S) (hp : AllFinite p) (hd : AllFinite (q - p)) (t : S) (h0 : (zero ≤? t) = true) (h1 : (t ≤? one) = true)
    (b : BoundingBox3 S) (bp : b.isInside p = true) (bq : b.isInside (Point3.mix one p q) = true) : b.isInside (Point3.mix t p q) = true := by
  obtain ⟨ft, -⟩ := unit_real h0 h1
  have hr : AllFinite (Ray3.new p (q - p)) := Ray3.allFinite.2 ⟨hp, hd⟩
  refine C88_convex3 (Ray3.new p (q - p)) hr b zero t one finite_zero ft finite_one h0 h1 ?_ bq
  have e : ((Point3.mix zero p q) == p) = true :=
    C118_start3 (fun j => if j = 0 then p else q) 1 zero (beq_self_iff.2 finite_zero.not_nan) (by simpa using hp) (fun j hj => by
      obtain rfl : j = 0 := by omega
      simpa using hd)
  obtain ⟨ex, ey, ez⟩ := Point3.num_of_beq e
  have : b.isInside (Point3.mix zero p q) = b.isInside p := by
    simp only [BoundingBox3.isInside, le_congr rfl ex, le_congr ex rfl, le_congr rfl ey, le_congr ey rfl, le_congr rfl ez, le_congr ez rfl]
  exact this.trans bp
/-- **C118**: if the second point is reached without rounding, interpolation stays between the two points. -/
theorem C118_segment3 (p q : Point3 S) (hp : AllFinite p) (hd : AllFinite (q - p)) (hq : (p + (q - p) == q) = true) (t : S)
    (h0 : (zero ≤? t) = true) (h1 : (t ≤? one) = true) (b : BoundingBox3 S) (bp : b.isInside p = true) (bq : b.isInside q = true) :
    b.isInside (Point3.mix t p q) = true := by
  refine C118_between3 p q hp hd t h0 h1 b bp ?_
  obtain ⟨ex, ey, ez⟩ := Point3.num_of_beq hq
  have k : ∀ x y : S, num (x + (y - x)) = num y → num (x + (y - x) * one) = num y := fun x y h => (num_add_congr rfl (IEEE.num_mul_one _)).trans h
  have : b.isInside (Point3.mix one p q) = b.isInside q := by
    have kx : num (Point3.mix one p q).x = num q.x := k _ _ ex
    have ky : num (Point3.mix one p q).y = num q.y := k _ _ ey
    have kz : num (Point3.mix one p q).z = num q.z := k _ _ ez
    simp only [BoundingBox3.isInside, le_congr rfl kx, le_congr kx rfl, le_congr rfl ky, le_congr ky rfl, le_congr rfl kz, le_congr kz rfl]
  exact this.trans bq
/-- **C118**: on data with few bits, at a parameter `j / 2^m`, nothing is rounded, and the point is inside every box that holds the control points. -/
theorem C118_grid3 (c : ℕ → Point3 S) (n : ℕ) (t : S) (e : ℤ) (m N : ℕ) (hN : 0 < N) (h0 : (zero ≤? t) = true) (ht : IsFinite t)
    (gt : OnGrid (-(m : ℤ)) (2 ^ m) (real t)) (hf : ∀ j ≤ n, AllFinite (c j)) (gc : ∀ j ≤ n, ∀ i, OnGrid e N ((c j).toReal i))
    (hF : Fits S (e - m * n) (3 * (2 ^ (m * n) * N))) (he : Fits S e N) :
    AllFinite (Point3.curve c n t) ∧ (∀ i, (Point3.curve c n t).toReal i = bezier (fun j => (c j).toReal i) n (real t)) ∧
    ∀ b : BoundingBox3 S, (∀ j ≤ n, b.isInside (c j) = true) → b.isInside (Point3.curve c n t) = true := by
  have r0 : 0 ≤ real t := by have := (le_fin finite_zero ht).1 h0; rwa [real_zero] at this
  simp only [Point3.allFinite] at hf
  have k := fun (f : Point3 S → S) (hf : ∀ j ≤ n, IsFinite (f (c j))) (gc : ∀ j ≤ n, OnGrid e N (real (f (c j)))) =>
    (casteljau_grid (c := fun j => f (c j)) hN (.of ht gt) r0 hF he.2.2 n 0 le_rfl fun j _ q => .of (hf j (by omega)) (gc j (by omega))).ex
  have r1 : real t ≤ 1 := by
    obtain ⟨q, hq, e⟩ := gt
    rw [e, zpow_neg, zpow_natCast, ← div_eq_mul_inv, div_le_one (by positivity)]
    have : (q : ℝ) ≤ ((2 ^ m : ℕ) : ℝ) := by exact_mod_cast (le_abs_self q).trans hq
    simpa using this
  have kx := k (·.x) (fun j q => (hf j q).1) fun j q => gc j q 0
  rw [← curve_x3, casteljau_bezier] at kx
  have ky := k (·.y) (fun j q => (hf j q).2.1) fun j q => gc j q 1
  rw [← curve_y3, casteljau_bezier] at ky
  have kz := k (·.z) (fun j q => (hf j q).2.2) fun j q => gc j q 2
  rw [← curve_z3, casteljau_bezier] at kz
  refine ⟨Point3.allFinite.2 ⟨kx.1, ky.1, kz.1⟩, ?_, ?_⟩
  · intro i
    fin_cases i
    exacts [kx.2, ky.2, kz.2]
  · intro b hb
    simp only [isInside3_iff] at hb ⊢
    exact ⟨in_bezier r0 r1 (fun j q => (hf j q).1) kx.1 kx.2 fun j q => (hb j q).1, in_bezier r0 r1 (fun j q => (hf j q).2.1) ky.1 ky.2 fun j q => (hb j q).2.1, in_bezier r0 r1 (fun j q => (hf j q).2.2) kz.1 kz.2 fun j q => (hb j q).2.2⟩
end

end VecMath
