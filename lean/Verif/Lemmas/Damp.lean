import Verif.Spec.Damp
import Verif.Lemmas.Bisect
import Verif.Lemmas.Scale
import Verif.Lemmas.Perturb
import Verif.Lemmas.Near
import Verif.Props.FloatZero
/-! # Lemmas for C100: one step of a history of `*=` and `/=`, and histories of one scalar -/

open Classical

namespace VecMath
open Scalar IEEE

namespace Fmt
variable (F : Fmt)
/-- the error relative to the result -/
theorem rnd_err_result {y : ℝ} (h : (2 : ℝ) ^ (F.emin + F.p - 1) ≤ |F.rnd y|) : |F.rnd y - y| ≤ F.u * |F.rnd y| := by
  have u0 := F.u_pos
  by_cases hn : (2 : ℝ) ^ (F.emin + F.p - 1) ≤ |y|
  · have hy : y ≠ 0 := by
      rintro rfl
      rw [abs_zero] at hn
      exact absurd hn (not_le.2 (z_pos _))
    have e1 := F.rnd_err y
    have l1 := log_ge hn
    have ee : F.ex y = Int.log 2 |y| - (F.p - 1) := by unfold ex; omega
    have hp := F.hp
    have hb : (2 : ℝ) ^ Int.log 2 |y| ≤ |F.rnd y| := by
      have hh : F.Has (2 ^ Int.log 2 |y|) := F.has_zpow (by omega)
      have := F.rnd_mono (log_le hy)
      rw [F.rnd_of_has hh] at this
      refine this.trans ?_
      rcases abs_choice y with h | h <;> rw [h]
      · exact le_abs_self _
      · rw [F.rnd_neg]; exact neg_le_abs _
    refine e1.trans (le_trans (le_of_eq ?_) (mul_le_mul_of_nonneg_left hb u0.le))
    rw [ee]
    unfold u
    rw [← z_add]
    congr 1
    ring
  · have e1 := F.rnd_err y
    have hp := F.hp
    have ee : F.ex y = F.emin := by
      by_cases hy : y = 0
      · exfalso
        rw [hy, F.rnd_zero, abs_zero] at h
        exact absurd h (not_le.2 (z_pos _))
      have := log_lt hy (not_le.1 hn)
      unfold ex; omega
    refine e1.trans (le_trans (le_of_eq ?_) (mul_le_mul_of_nonneg_left h u0.le))
    rw [ee]
    unfold u
    rw [← z_add]
    congr 1
    ring
/-- scaling by a power of two is exact as long as the result is in the normal range -/
theorem has_pow_mul {x : ℝ} {j : ℤ} (hx : F.Has x) (h : (2 : ℝ) ^ (F.emin + F.p - 1) ≤ |x * 2 ^ j|) : F.Has (x * 2 ^ j) := by
  obtain ⟨m, e, he, hm, rfl⟩ := hx
  have hp := F.hp
  have eq : (m : ℝ) * 2 ^ e * 2 ^ j = m * 2 ^ (e + j) := by rw [z_add]; ring
  rw [eq] at h ⊢
  by_cases hl : F.emin ≤ e + j
  · exact ⟨m, e + j, hl, hm, rfl⟩
  have hle : e + j ≤ F.emin - 1 := by omega
  rw [abs_mul, abs_of_pos (z_pos _)] at h
  have hm' : |(m : ℝ)| ≤ 2 ^ (F.p : ℤ) := by rw [zpow_natCast]; exact_mod_cast hm
  have h1 : |(m : ℝ)| * 2 ^ (e + j) ≤ 2 ^ (F.p : ℤ) * 2 ^ (F.emin - 1) :=
    mul_le_mul hm' (z_le hle) (z_pos _).le (z_pos _).le
  have h2 : (2 : ℝ) ^ (F.p : ℤ) * 2 ^ (F.emin - 1) = 2 ^ (F.emin + F.p - 1) := by rw [← z_add]; congr 1; ring
  have h3 : |(m : ℝ) * 2 ^ (e + j)| = 2 ^ (F.emin + F.p - 1) := by
    rw [abs_mul, abs_of_pos (z_pos _)]; exact le_antisymm (h1.trans h2.le) h
  have hh := F.has_zpow (k := F.emin + F.p - 1) (by omega)
  rcases abs_eq (z_pos _).le |>.1 h3 with h4 | h4
  · rw [h4]; exact hh
  · rw [h4]; exact hh.neg
end Fmt

section
variable {S : Type} [Scalar S] [IEEE S] [Binary S] {x : S} {f : Factor S} {l : List (Factor S)}

theorem Factor.correct (hx : IsFinite x) (hf : f.Ok) : Correct (f.apply x) (real x * f.exact) := by
  cases f with
  | times s => exact correct_mul hx hf
  | over s => exact correct_div hx hf.1 hf.2
theorem Factor.real_apply (hx : IsFinite x) (hf : f.Ok) (h : IsFinite (f.apply x)) :
    real (f.apply x) = (Binary.F S).rnd (real x * f.exact) := by
  rw [← rnd_eq]
  cases f with
  | times s => exact real_mul h
  | over s => exact real_div hx hf.1 hf.2 h
theorem Factor.step (hx : IsFinite x) (hf : f.Ok) (h : |real x * f.exact| < overflowAt S) :
    IsFinite (f.apply x) ∧ real (f.apply x) = (Binary.F S).rnd (real x * f.exact) := by
  have := (Factor.correct hx hf).1.2 h
  exact ⟨this, Factor.real_apply hx hf this⟩
theorem abs_rnd_le {y : ℝ} (hx : IsFinite x) (h : |y| ≤ |real x|) : |(Binary.F S).rnd y| ≤ |real x| := by
  have e : (Binary.F S).Has |real x| := by
    rcases abs_choice (real x) with h | h <;> rw [h]
    exacts [isFinite_has hx, (isFinite_has hx).neg]
  rw [abs_le] at h ⊢
  have h1 := (Binary.F S).rnd_mono h.1
  have h2 := (Binary.F S).rnd_mono h.2
  rw [(Binary.F S).rnd_neg, (Binary.F S).rnd_of_has e] at h1
  rw [(Binary.F S).rnd_of_has e] at h2
  exact ⟨h1, h2⟩
/-- a factor of at most 1 does not let a number grow -/
theorem Factor.shrinks (hx : IsFinite x) (hf : f.Ok) (h : |f.exact| ≤ 1) : IsFinite (f.apply x) ∧ |real (f.apply x)| ≤ |real x| := by
  have hb : |real x * f.exact| ≤ |real x| := by
    rw [abs_mul]; exact mul_le_of_le_one_right (abs_nonneg _) h
  obtain ⟨h1, h2⟩ := Factor.step hx hf (hb.trans_lt (finite_lt_overflow hx))
  exact ⟨h1, by rw [h2]; exact abs_rnd_le hx hb⟩
theorem rescale_cons : rescale x (f :: l) = rescale (f.apply x) l := rfl
theorem rescale_nil : rescale x [] = x := rfl
theorem total_cons : total (f :: l) = f.exact * total l := by simp [total]
theorem rescale_shrinks (hx : IsFinite x) (h : ∀ f ∈ l, f.Ok ∧ |f.exact| ≤ 1) :
    IsFinite (rescale x l) ∧ |real (rescale x l)| ≤ |real x| := by
  induction l generalizing x with
  | nil => exact ⟨hx, le_rfl⟩
  | cons f l ih =>
    have hf := h f (by simp)
    obtain ⟨h1, h2⟩ := Factor.shrinks hx hf.1 hf.2
    obtain ⟨h3, h4⟩ := ih h1 (fun g hg => h g (by simp [hg]))
    exact ⟨h3, h4.trans h2⟩

/-- more than half of a number is not rounded to zero -/
theorem Factor.keeps (hx : IsFinite x) (hf : f.Ok) (h1 : 1 / 2 < f.exact) (h2 : f.exact ≤ 1) :
    (0 < real x → 0 < real (f.apply x)) ∧ (real x < 0 → real (f.apply x) < 0) := by
  have hs := Factor.step hx hf (by
    rw [abs_mul, abs_of_pos (show 0 < f.exact by linarith)]
    exact (mul_le_of_le_one_right (abs_nonneg _) h2).trans_lt (finite_lt_overflow hx))
  have ne : real x ≠ 0 → (Binary.F S).rnd (real x * f.exact) ≠ 0 := by
    intro h0 hz
    rw [Fmt.rnd_eq_zero_iff, abs_mul, abs_of_pos (show 0 < f.exact by linarith)] at hz
    have q := Fmt.quantum_le (Binary.F S) (isFinite_has hx).quantum h0
    have e : (2 : ℝ) ^ (Binary.F S).emin = 2 * 2 ^ ((Binary.F S).emin - 1) := by
      rw [← zpow_one_add₀ (by norm_num)]; congr 1; ring
    have : |real x| * (1 / 2) < |real x| * f.exact := mul_lt_mul_of_pos_left h1 (abs_pos.2 h0)
    linarith
  constructor
  · intro h0
    rw [hs.2]
    exact lt_of_le_of_ne ((Binary.F S).rnd_nonneg (mul_nonneg h0.le (by linarith))) (ne h0.ne').symm
  · intro h0
    rw [hs.2]
    have := (Binary.F S).rnd_nonneg (x := -(real x * f.exact)) (by nlinarith)
    rw [(Binary.F S).rnd_neg] at this
    exact lt_of_le_of_ne (by linarith) (ne h0.ne)
theorem rescale_keeps (hx : IsFinite x) (h : ∀ f ∈ l, f.Ok ∧ 1 / 2 < f.exact ∧ f.exact ≤ 1) :
    (0 < real x → 0 < real (rescale x l)) ∧ (real x < 0 → real (rescale x l) < 0) := by
  induction l generalizing x with
  | nil => exact ⟨id, id⟩
  | cons f l ih =>
    have hf := h f (by simp)
    obtain ⟨h1, h2⟩ := Factor.keeps hx hf.1 hf.2.1 hf.2.2
    have hs := Factor.shrinks hx hf.1 (by rw [abs_of_pos (by linarith)]; exact hf.2.2)
    obtain ⟨h3, h4⟩ := ih hs.1 (fun g hg => h g (by simp [hg]))
    exact ⟨fun h => h3 (h1 h), fun h => h4 (h2 h)⟩

/-- halving a bound -/
theorem Factor.halves {k : ℤ} (hx : IsFinite x) (hf : f.Ok) (h : |f.exact| ≤ 1 / 2) (hk : (Binary.F S).emin < k) (hb : |real x| ≤ 2 ^ k) :
    IsFinite (f.apply x) ∧ |real (f.apply x)| ≤ 2 ^ (k - 1) := by
  have h0 : |real x * f.exact| ≤ 2 ^ (k - 1) := by
    rw [abs_mul]
    have e : (2 : ℝ) ^ k = 2 * 2 ^ (k - 1) := by
      rw [← zpow_one_add₀ (by norm_num)]; congr 1; ring
    have := mul_le_mul hb h (abs_nonneg _) (Fmt.z_pos k).le
    linarith
  have fin := (Factor.shrinks hx hf (h.trans (by norm_num))).1
  refine ⟨fin, ?_⟩
  rw [Factor.real_apply hx hf fin]
  have hh := (Binary.F S).has_zpow (k := k - 1) (by omega)
  rw [abs_le] at h0 ⊢
  have h1 := (Binary.F S).rnd_mono h0.1
  have h2 := (Binary.F S).rnd_mono h0.2
  rw [(Binary.F S).rnd_neg, (Binary.F S).rnd_of_has hh] at h1
  rw [(Binary.F S).rnd_of_has hh] at h2
  exact ⟨h1, h2⟩
theorem Factor.vanishes (hx : IsFinite x) (hf : f.Ok) (h : |f.exact| ≤ 1 / 2) (hb : |real x| ≤ 2 ^ (Binary.F S).emin) :
    real (f.apply x) = 0 := by
  rw [Factor.real_apply hx hf (Factor.shrinks hx hf (h.trans (by norm_num))).1, Fmt.rnd_eq_zero_iff, abs_mul]
  have e : (2 : ℝ) ^ (Binary.F S).emin = 2 * 2 ^ ((Binary.F S).emin - 1) := by
    rw [← zpow_one_add₀ (by norm_num)]; congr 1; ring
  have := mul_le_mul hb h (abs_nonneg _) (Fmt.z_pos _).le
  linarith
theorem rescale_vanishes {k : ℤ} (hx : IsFinite x) (h : ∀ f ∈ l, f.Ok ∧ |f.exact| ≤ 1 / 2) (hk : (Binary.F S).emin ≤ k) (hb : |real x| ≤ 2 ^ k)
    (hl : k - (Binary.F S).emin + 1 ≤ l.length) : IsFinite (rescale x l) ∧ real (rescale x l) = 0 := by
  induction l generalizing x k with
  | nil => simp at hl; omega
  | cons f l ih =>
    have hf := h f (by simp)
    have ht : ∀ g ∈ l, g.Ok ∧ |g.exact| ≤ 1 / 2 := fun g hg => h g (by simp [hg])
    by_cases hk' : (Binary.F S).emin < k
    · obtain ⟨h1, h2⟩ := Factor.halves hx hf.1 hf.2 hk' hb
      exact ih h1 ht (k := k - 1) (by omega) h2 (by simp at hl; omega)
    · have e : k = (Binary.F S).emin := by omega
      rw [e] at hb
      have h1 := Factor.vanishes hx hf.1 hf.2 hb
      have h2 := (Factor.shrinks hx hf.1 (hf.2.trans (by norm_num))).1
      have := rescale_shrinks h2 (fun g hg => ⟨(ht g hg).1, (ht g hg).2.trans (by norm_num)⟩)
      rw [h1, abs_zero] at this
      exact ⟨this.1, abs_eq_zero.1 (le_antisymm this.2 (abs_nonneg _))⟩

/-- powers of two are exact while the exact value stays in range -/
theorem rescale_exact (hx : IsFinite x) (h : ∀ f ∈ l, f.Ok ∧ ∃ j : ℤ, f.exact = 2 ^ j)
    (hr : ∀ l', l' <+: l → l' ≠ [] → minNormal S ≤ |real x * total l'| ∧ |real x * total l'| < overflowAt S) :
    Exactly (rescale x l) (real x * total l) := by
  induction l generalizing x with
  | nil => exact ⟨hx, by simp [total, rescale_nil]⟩
  | cons f l ih =>
    obtain ⟨hf, j, hj⟩ := h f (by simp)
    have h1 := hr [f] ⟨l, rfl⟩ (by simp)
    simp only [total, List.map_cons, List.map_nil, List.prod_cons, List.prod_nil, mul_one] at h1
    obtain ⟨h2, h3⟩ := Factor.step hx hf h1.2
    have e : real (f.apply x) = real x * f.exact := by
      rw [h3, hj]
      rw [hj] at h1
      exact (Binary.F S).rnd_of_has ((Binary.F S).has_pow_mul (isFinite_has hx) h1.1)
    have := ih h2 (fun g hg => h g (by simp [hg])) (fun l' hl' hne => by
      have := hr (f :: l') (by simpa using hl') (by simp)
      rwa [total_cons, ← mul_assoc, ← e] at this)
    rw [e] at this
    rw [rescale_cons, total_cons, ← mul_assoc]
    exact this

/-- the relative error of a history without underflow -/
theorem rescale_accurate (hx : IsFinite x) (h : ∀ f ∈ l, f.Ok)
    (hr : ∀ l', l' <+: l → l' ≠ [] → IsFinite (rescale x l') ∧ minNormal S ≤ |real (rescale x l')|) :
    ∃ θ : ℝ, real (rescale x l) = θ * (real x * total l) ∧ 1 / (1 + uro S) ^ l.length ≤ θ ∧ θ ≤ 1 / (1 - uro S) ^ l.length := by
  induction l generalizing x with
  | nil => exact ⟨1, by simp [total, rescale_nil], by simp, by simp⟩
  | cons f l ih =>
    have hf := h f (by simp)
    have h1 := hr [f] ⟨l, rfl⟩ (by simp)
    rw [rescale_cons, rescale_nil] at h1
    have h2 := Factor.real_apply hx hf h1.1
    obtain ⟨θ, e1, e2, e3⟩ := ih h1.1 (fun g hg => h g (by simp [hg])) (fun l' hl' hne => by
      have := hr (f :: l') (by simpa using hl') (by simp)
      rwa [rescale_cons] at this)
    have u0 := uro_pos (S := S)
    have u1 := uro_le (S := S)
    have er := (Binary.F S).rnd_err_result (y := real x * f.exact) (by rw [← h2]; exact h1.2)
    rw [← h2] at er
    have er : |real (f.apply x) - real x * f.exact| ≤ uro S * |real (f.apply x)| := er
    have r0 : real (f.apply x) ≠ 0 := by
      intro hz
      have := h1.2
      rw [hz, abs_zero] at this
      have : 0 < minNormal S := by unfold minNormal; positivity
      linarith
    obtain ⟨δ, hδ⟩ : ∃ δ, real x * f.exact = real (f.apply x) * δ := ⟨real x * f.exact / real (f.apply x), by field_simp⟩
    have bδ : |1 - δ| ≤ uro S := by
      have : |real (f.apply x) - real x * f.exact| = |1 - δ| * |real (f.apply x)| := by
        rw [hδ, ← abs_mul]; congr 1; ring
      rw [this] at er
      exact le_of_mul_le_mul_right er (abs_pos.2 r0)
    rw [abs_le] at bδ
    have δ0 : 0 < δ := by linarith
    have θ0 : 0 < θ := lt_of_lt_of_le (by positivity) e2
    refine ⟨θ * (1 / δ), ?_, ?_, ?_⟩
    · rw [rescale_cons, e1, total_cons, ← mul_assoc (real x), hδ]
      field_simp
    · rw [List.length_cons, pow_succ, ← one_div_mul_one_div]
      exact mul_le_mul e2 (one_div_le_one_div_of_le δ0 (by linarith)) (by positivity) θ0.le
    · rw [List.length_cons, pow_succ, ← one_div_mul_one_div]
      exact mul_le_mul e3 (one_div_le_one_div_of_le (by linarith) (by linarith)) (by positivity) (by
        have : 0 < 1 - uro S := by linarith
        positivity)

/-- a constant factor between 1/2 and 1 ends in a value that does not change any more -/
theorem rescale_stuck (hx : IsFinite x) (hf : f.Ok) (h1 : 1 / 2 < f.exact) (h2 : f.exact ≤ 1) :
    ∃ N, ∀ n, N ≤ n → real (rescale x (List.replicate n f)) = real (rescale x (List.replicate N f)) := by
  have hok : ∀ n, ∀ g ∈ List.replicate n f, g.Ok ∧ 1 / 2 < g.exact ∧ g.exact ≤ 1 := by
    intro n g hg
    rw [(List.mem_replicate.1 hg).2]
    exact ⟨hf, h1, h2⟩
  have hok' : ∀ n, ∀ g ∈ List.replicate n f, g.Ok ∧ |g.exact| ≤ 1 := fun n g hg => by
    obtain ⟨a, b, c⟩ := hok n g hg
    exact ⟨a, by rwa [abs_of_pos (by linarith)]⟩
  have hfin : ∀ n, IsFinite (rescale x (List.replicate n f)) := fun n => (rescale_shrinks hx (hok' n)).1
  have succ : ∀ n m, rescale x (List.replicate (n + m) f) = rescale (rescale x (List.replicate n f)) (List.replicate m f) := by
    intro n m
    unfold rescale
    rw [List.replicate_add, List.foldl_append]
  choose a ha using fun n => (isFinite_has (hfin n)).quantum
  have anti : ∀ n m, n ≤ m → (a m).natAbs ≤ (a n).natAbs := by
    intro n m hnm
    obtain ⟨k, rfl⟩ := Nat.exists_eq_add_of_le hnm
    have := (rescale_shrinks (hfin n) (hok' k)).2
    rw [← succ, ha, ha, abs_mul, abs_mul] at this
    have := le_of_mul_le_mul_right this (abs_pos.2 (Fmt.z_pos _).ne')
    rw [← Int.cast_abs, ← Int.cast_abs, Int.cast_le, Int.abs_eq_natAbs, Int.abs_eq_natAbs] at this
    omega
  obtain ⟨N, hN⟩ := Nat.sInf_mem (s := Set.range fun n => (a n).natAbs) ⟨_, 0, rfl⟩
  refine ⟨N, fun n hn => ?_⟩
  have e : (a n).natAbs = (a N).natAbs := le_antisymm (anti N n hn) (by
    have hN : (a N).natAbs = _ := hN
    rw [hN]; exact Nat.sInf_le ⟨n, rfl⟩)
  obtain ⟨k, rfl⟩ := Nat.exists_eq_add_of_le hn
  have sg := rescale_keeps (hfin N) (hok k)
  rw [← succ] at sg
  have e' : |real (rescale x (List.replicate (N + k) f))| = |real (rescale x (List.replicate N f))| := by
    rw [ha, ha, abs_mul, abs_mul, ← Int.cast_abs, ← Int.cast_abs, Int.abs_eq_natAbs, Int.abs_eq_natAbs, e]
  rcases lt_trichotomy (real (rescale x (List.replicate N f))) 0 with h | h | h
  · have := sg.2 h
    rw [abs_of_neg h, abs_of_neg this] at e'
    linarith
  · rw [h, abs_zero, abs_eq_zero] at e'
    rw [e', h]
  · have := sg.1 h
    rwa [abs_of_pos h, abs_of_pos this] at e'
end
end VecMath
