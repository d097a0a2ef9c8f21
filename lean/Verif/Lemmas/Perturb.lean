import Verif.Spec.LookAt
import Verif.Lemmas.Frob2
import Verif.Lemmas.FinBound
import Verif.Props.FloatErrorMat
import Verif.Props.FloatError
import Verif.Lemmas.Fl
/-! # Perturbation of unit vectors and cross products -/

namespace VecMath
open Scalar IEEE

section
variable {n : ℕ}

theorem norm2_sub_comm (u v : Fin n → ℝ) : norm2 (u - v) = norm2 (v - u) := by rw [← norm2_neg, neg_sub]
theorem norm2_tri (u v w : Fin n → ℝ) : norm2 (u - w) ≤ norm2 (u - v) + norm2 (v - w) := by
  have := norm2_add (u - v) (v - w)
  rwa [sub_add_sub_cancel] at this
theorem norm2_le_add (u v : Fin n → ℝ) : norm2 u ≤ norm2 v + norm2 (u - v) := by
  have := norm2_add v (u - v)
  rwa [add_sub_cancel] at this
theorem abs_le_norm2 (v : Fin n → ℝ) (i : Fin n) : |v i| ≤ norm2 v :=
  Real.abs_le_sqrt (Finset.single_le_sum (f := fun i => v i ^ 2) (fun j _ => sq_nonneg _) (Finset.mem_univ i))
theorem norm2_smul' (c : ℝ) (v : Fin n → ℝ) : norm2 (c • v) = |c| * norm2 v := by
  unfold norm2
  simp only [Pi.smul_apply, smul_eq_mul, mul_pow, ← Finset.mul_sum]
  rw [Real.sqrt_mul (sq_nonneg _), Real.sqrt_sq_eq_abs]
theorem unit_eq (v : Fin n → ℝ) : unit v = (norm2 v)⁻¹ • v := by
  ext i; simp [unit, div_eq_inv_mul]
theorem norm2_unit {v : Fin n → ℝ} (h : 0 < norm2 v) : norm2 (unit v) = 1 := by
  rw [unit_eq, norm2_smul', abs_of_pos (inv_pos.2 h), inv_mul_cancel₀ h.ne']
theorem unit_smul {v : Fin n → ℝ} {c : ℝ} (hc : 0 < c) : unit (c • v) = unit v := by
  rw [unit_eq, unit_eq, norm2_smul', abs_of_pos hc, smul_smul, mul_inv]
  congr 1
  field_simp
/-- Directions of nearby vectors. -/
theorem unit_near {v w : Fin n → ℝ} (hv : 0 < norm2 v) (hw : 0 < norm2 w) :
    norm2 (unit v - unit w) ≤ 2 * norm2 (v - w) / norm2 w := by
  have e : unit v - unit w = (norm2 w)⁻¹ • (v - w) + ((norm2 v)⁻¹ - (norm2 w)⁻¹) • v := by
    rw [unit_eq, unit_eq, smul_sub, sub_smul]; abel
  rw [e]
  refine (norm2_add _ _).trans ?_
  rw [norm2_smul', norm2_smul', abs_of_pos (inv_pos.2 hw)]
  have h2 : |(norm2 v)⁻¹ - (norm2 w)⁻¹| * norm2 v = (norm2 w)⁻¹ * |norm2 w - norm2 v| := by
    rw [inv_sub_inv hv.ne' hw.ne', abs_div, abs_mul, abs_of_pos hv, abs_of_pos hw]
    field_simp
  rw [h2]
  have h3 := norm2_abs_sub w v
  rw [norm2_sub_comm] at h3
  have := mul_le_mul_of_nonneg_left h3 (inv_pos.2 hw).le
  rw [div_eq_inv_mul]; linarith
end

theorem norm2_sq3 (v : Fin 3 → ℝ) : norm2 v ^ 2 = v 0 ^ 2 + v 1 ^ 2 + v 2 ^ 2 := by
  rw [norm2_sq, Fin.sum_univ_three]
theorem norm2_cross (a b : Fin 3 → ℝ) : norm2 (crossProduct a b) ≤ norm2 a * norm2 b := by
  refine abs_le_of_sq_le_sq' ?_ (mul_nonneg (norm2_nonneg _) (norm2_nonneg _)) |>.2
  rw [mul_pow, norm2_sq3, norm2_sq3, norm2_sq3, cross_apply]
  simp only [Matrix.cons_val_zero, Matrix.cons_val_one, Matrix.cons_val]
  nlinarith [sq_nonneg (a 0 * b 0 + a 1 * b 1 + a 2 * b 2)]
/-- Perturbing both factors of a cross product. -/
theorem cross_near {a b A B : Fin 3 → ℝ} :
    norm2 (crossProduct a b - crossProduct A B) ≤ norm2 (a - A) * norm2 b + norm2 A * norm2 (b - B) := by
  have e : crossProduct a b - crossProduct A B = crossProduct (a - A) b + crossProduct A (b - B) := by
    simp [map_sub, LinearMap.sub_apply]
  rw [e]
  exact (norm2_add _ _).trans (add_le_add (norm2_cross _ _) (norm2_cross _ _))

variable {S : Type} [Scalar S] [IEEE S] [Binary S]

theorem Standard.ample (h : Standard S) : Ample S := ⟨h.uro.trans (by norm_num), h.overflow⟩
theorem minNormal_eq : minNormal S * uro S = tiny S := by
  unfold minNormal uro tiny
  rw [← zpow_add₀ (by norm_num)]
  congr 1; ring
theorem tiny_le_uro : tiny S ≤ uro S := by
  have := one_normal (S := S)
  have hu := uro_pos (S := S)
  rw [← minNormal_eq]; nlinarith
theorem finite_sqrt_of {a : S} (ha : IsFinite a) (h0 : 0 ≤ real a) (h : √(real a) < overflowAt S) : IsFinite (Scalar.sqrt a) := by
  unfold IsFinite real at *
  rw [den_sqrt]
  revert ha h0 h
  cases den a with
  | nan => intro ha; exact ha.elim
  | inf s => intro ha; exact ha.elim
  | nzero => intro _ _ _; simp [Rounding.sqrt]
  | fin x =>
    intro _ h0 h
    simp only [Val.real] at h0 h
    have : ¬ x < 0 := not_lt.2 h0
    simp only [Rounding.sqrt, this, if_false]
    rw [Rounding.finish_isFin, Binary.eq]
    refine ((Binary.F S).fits_rnd_iff _).2 ?_
    rw [abs_of_nonneg (Real.sqrt_nonneg _)]; exact h

theorem sqrt3_le : √(3 : ℝ) ≤ 7 / 4 := by
  rw [Real.sqrt_le_left (by norm_num)]; norm_num

/-- one component of `normalize` -/
theorem quot_near {x L : S} {N : ℝ} (hS : Standard S) (hx : IsFinite x) (hL : IsFinite L) (hN : 0 < N) (hxN : |real x| ≤ N)
    (h : |real L - N| ≤ 73 / 10 * uro S * N) :
    IsFinite (x / L) ∧ |real (x / L) - real x / N| ≤ 9 * uro S * |real x / N| + tiny S := by
  have hu := uro_pos (S := S)
  have hu1 := hS.uro
  obtain ⟨h1, h2⟩ := abs_le.1 h
  have hL0 : 99 / 100 * N ≤ real L := by nlinarith
  have hLp : 0 < real L := by linarith [mul_pos (show (0:ℝ) < 99 / 100 by norm_num) hN]
  have hq : |real x / real L| ≤ 100 / 99 * |real x / N| := by
    rw [abs_div, abs_div, abs_of_pos hLp, abs_of_pos hN, div_le_iff₀ hLp]
    have : |real x| = |real x| / N * N := by field_simp
    have p : 0 ≤ |real x| / N := by positivity
    nlinarith
  have hone : |real x / N| ≤ 1 := by rw [abs_div, abs_of_pos hN, div_le_one hN]; exact hxN
  have hf : IsFinite (x / L) := (correct_div hx hL hLp.ne').1.2 (by have := hS.overflow; linarith)
  refine ⟨hf, ?_⟩
  have e := err_div hx hL hLp.ne' hf
  have hd : |real x / real L - real x / N| ≤ 73 / 10 * uro S * (100 / 99) * |real x / N| := by
    have : real x / real L - real x / N = real x / real L * ((N - real L) / N) := by field_simp
    rw [this, abs_mul, abs_div (N - real L), abs_of_pos hN]
    have h3 : |N - real L| / N ≤ 73 / 10 * uro S := by rw [div_le_iff₀ hN, abs_sub_comm]; exact h
    have := mul_le_mul hq h3 (by positivity) (by positivity)
    linarith
  have := abs_sub_le (real (x / L)) (real x / real L) (real x / N)
  have p := mul_le_mul_of_nonneg_left hq hu.le
  have q : 0 ≤ uro S * |real x / N| := by positivity
  linarith

theorem length_near3 {v : Vector3 S} (hS : Standard S) (h : IsFinite (Api.length v)) (hn : minNormal S ≤ norm2 v.toReal ^ 2) :
    |real (Api.length v) - norm2 v.toReal| ≤ 73 / 10 * uro S * norm2 v.toReal := by
  have hu := uro_pos (S := S)
  have hu1 := hS.uro
  have hN := norm2_nonneg v.toReal
  set N := norm2 v.toReal
  have hsq : N ^ 2 = real v.x * real v.x + real v.y * real v.y + real v.z * real v.z := by
    rw [norm2_sq3]; simp [Vector3.toReal, sq]
  have hd : IsFinite (v.x * v.x + v.y * v.y + v.z * v.z) := (finite_of_sqrt h).1
  have e := row3 hd
  rw [abs_mul_self, abs_mul_self, abs_mul_self, ← hsq] at e
  have ht : tiny S ≤ uro S * N ^ 2 := by rw [← minNormal_eq]; nlinarith
  have hN2 : 0 ≤ N ^ 2 := sq_nonneg _
  have e' : |real (v.x * v.x + v.y * v.y + v.z * v.z) - N ^ 2| ≤ 61 / 10 * uro S * N ^ 2 := by
    refine e.trans ?_
    have h1 : (1 + uro S) ^ 3 - 1 ≤ 301 / 100 * uro S := by nlinarith [sq_nonneg (uro S)]
    have h2 : (1 + uro S) ^ 2 ≤ 101 / 100 := by nlinarith
    have := mul_le_mul_of_nonneg_right h1 hN2
    have ht0 := tiny_pos (S := S)
    have := mul_le_mul_of_nonneg_right h2 (by positivity : 0 ≤ 3 * tiny S)
    nlinarith
  have hq0 := (finite_of_sqrt h).2
  have e1 : |real (Api.length v) - √(real (v.x * v.x + v.y * v.y + v.z * v.z))| ≤ uro S * √(real (v.x * v.x + v.y * v.y + v.z * v.z)) :=
    err_sqrt h
  change 0 ≤ real (v.x * v.x + v.y * v.y + v.z * v.z) at hq0
  set q := real (v.x * v.x + v.y * v.y + v.z * v.z)
  have hs := Real.sqrt_nonneg q
  have hsq' := Real.sq_sqrt hq0
  have e2 : |√q - N| ≤ 61 / 10 * uro S * N := by
    rcases hN.eq_or_lt with h0 | h0
    · rw [← h0] at e' ⊢
      simp only [ne_eq, OfNat.ofNat_ne_zero, not_false_eq_true, zero_pow, sub_zero, mul_zero, abs_nonpos_iff] at e' ⊢
      rw [e']; simp
    · have : |√q - N| * N ≤ 61 / 10 * uro S * N * N := by
        have h1 : |√q - N| * N ≤ |√q - N| * (√q + N) := mul_le_mul_of_nonneg_left (by linarith) (abs_nonneg _)
        have h2 : |√q - N| * (√q + N) = |q - N ^ 2| := by
          rw [show q - N ^ 2 = (√q - N) * (√q + N) by linear_combination -hsq', abs_mul, abs_of_nonneg (by linarith : 0 ≤ √q + N)]
        nlinarith
      exact le_of_mul_le_mul_right this h0
  have h3 : √q ≤ 101 / 100 * N := by
    have := (abs_le.1 e2).2; nlinarith
  have := abs_sub_le (real (Api.length v)) (√q) N
  nlinarith

/-- In 3D, `normalize` is within 11 units of roundoff of the exact unit vector whenever the squared length is
a normal number and does not overflow; nothing is asked of the single coordinates. -/
theorem normalize_near3 {v : Vector3 S} (hS : Standard S) (h : IsFinite (Api.length v)) (hn : minNormal S ≤ norm2 v.toReal ^ 2) :
    AllFinite v.normalize ∧ norm2 (v.normalize.toReal - unit v.toReal) ≤ 11 * uro S := by
  have hu := uro_pos (S := S)
  have ht0 := tiny_pos (S := S)
  have hl := length_near3 hS h hn
  have hmn : 0 < minNormal S := by unfold minNormal; positivity
  have hN : 0 < norm2 v.toReal := by
    rcases (norm2_nonneg v.toReal).eq_or_lt with h0 | h0
    · rw [← h0] at hn; norm_num at hn; linarith
    · exact h0
  have hd : IsFinite (v.x * v.x + v.y * v.y + v.z * v.z) := (finite_of_sqrt h).1
  have h1 := finite_of_add hd
  have h2 := finite_of_add h1.1
  obtain ⟨fx, ex⟩ := quot_near hS (finite_of_mul h2.1).1 h hN (abs_le_norm2 v.toReal 0) hl
  obtain ⟨fy, ey⟩ := quot_near hS (finite_of_mul h2.2).1 h hN (abs_le_norm2 v.toReal 1) hl
  obtain ⟨fz, ez⟩ := quot_near hS (finite_of_mul h1.2).1 h hN (abs_le_norm2 v.toReal 2) hl
  refine ⟨Vector3.allFinite.2 ⟨fx, fy, fz⟩, ?_⟩
  have hm : ∀ i, |(v.normalize.toReal - unit v.toReal) i| ≤ ((fun i => 9 * uro S * |unit v.toReal i|) + fun _ => tiny S : Fin 3 → ℝ) i := by
    intro i; fin_cases i
    · exact ex
    · exact ey
    · exact ez
  refine (norm2_mono hm).trans ((norm2_add _ _).trans ?_)
  rw [norm2_smul _ (by positivity) , norm2_abs, norm2_unit hN, norm2_const _ ht0.le]
  have := sqrt3_le
  have := tiny_le_uro (S := S)
  push_cast
  nlinarith

theorem cross_err3 {a b : Vector3 S} {A B : ℝ} (h : AllFinite (Api.cross a b : Vector3 S)) (hS : Standard S)
    (hA : norm2 a.toReal ≤ A) (hB : norm2 b.toReal ≤ B) (hAB : A * B ≤ 27 / 20) :
    norm2 ((Api.cross a b : Vector3 S).toReal - crossProduct a.toReal b.toReal) ≤ 9 * uro S := by
  have hu := uro_pos (S := S)
  have hu1 := hS.uro
  have ht0 := tiny_pos (S := S)
  have ht1 := tiny_le_uro (S := S)
  obtain ⟨h1, h2, h3⟩ := C61_cross3 a b h
  have hA0 := (norm2_nonneg _).trans hA
  have hB0 := (norm2_nonneg _).trans hB
  have key : ∀ x y z w : ℝ, x ^ 2 + y ^ 2 ≤ A ^ 2 → z ^ 2 + w ^ 2 ≤ B ^ 2 → |x * w| + |y * z| ≤ A * B := by
    intro x y z w h1 h2
    rw [abs_mul, abs_mul]
    refine abs_le_of_sq_le_sq' ?_ (mul_nonneg hA0 hB0) |>.2
    have e1 : |x| ^ 2 + |y| ^ 2 ≤ A ^ 2 := by rwa [sq_abs, sq_abs]
    have e2 : |w| ^ 2 + |z| ^ 2 ≤ B ^ 2 := by rw [sq_abs, sq_abs]; linarith
    have := mul_le_mul e1 e2 (by positivity) (sq_nonneg A)
    nlinarith [sq_nonneg (|x| * |z| - |y| * |w|)]
  have hsa : real a.x ^ 2 + real a.y ^ 2 + real a.z ^ 2 ≤ A ^ 2 := by
    have := norm2_sq3 a.toReal
    simp only [Vector3.toReal, Matrix.cons_val_zero, Matrix.cons_val_one, Matrix.cons_val] at this
    rw [← this]; exact pow_le_pow_left₀ (norm2_nonneg _) hA 2
  have hsb : real b.x ^ 2 + real b.y ^ 2 + real b.z ^ 2 ≤ B ^ 2 := by
    have := norm2_sq3 b.toReal
    simp only [Vector3.toReal, Matrix.cons_val_zero, Matrix.cons_val_one, Matrix.cons_val] at this
    rw [← this]; exact pow_le_pow_left₀ (norm2_nonneg _) hB 2
  have fin : ∀ {E s : ℝ}, 0 ≤ s → s ≤ A * B → |E| ≤ ((1 + uro S) ^ 2 - 1) * s + 2 * (1 + uro S) * tiny S → |E| ≤ 24 / 5 * uro S := by
    intro E s hs0 hs hE
    have h1 : (1 + uro S) ^ 2 - 1 ≤ 2001 / 1000 * uro S := by nlinarith
    have := mul_le_mul h1 (hs.trans hAB) hs0 (by positivity)
    nlinarith
  have hm : ∀ i, |((Api.cross a b : Vector3 S).toReal - crossProduct a.toReal b.toReal) i| ≤ (fun _ => 24 / 5 * uro S : Fin 3 → ℝ) i := by
    intro i
    have sa := sq_nonneg (real a.x)
    have sa' := sq_nonneg (real a.y)
    have sa'' := sq_nonneg (real a.z)
    have sb := sq_nonneg (real b.x)
    have sb' := sq_nonneg (real b.y)
    have sb'' := sq_nonneg (real b.z)
    rw [cross_apply]
    fin_cases i
    · exact fin (by positivity) (key _ _ _ _ (by linarith) (by linarith)) h1
    · exact fin (by positivity) (key _ _ _ _ (by linarith) (by linarith)) h2
    · exact fin (by positivity) (key _ _ _ _ (by linarith) (by linarith)) h3
  refine (norm2_mono hm).trans ?_
  rw [norm2_const _ (by positivity)]
  have := sqrt3_le
  push_cast
  nlinarith

end VecMath
