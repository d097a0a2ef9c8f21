import Verif.Spec.Reflect
import Verif.Lemmas.Approx
import Verif.Lemmas.Symm
import Verif.Lemmas.Near
import Verif.Lemmas.Fl
import Verif.Props.FloatBasis
import Verif.Props.FloatVector
import Verif.Props.FloatInvAffine
import Verif.Props.FloatRangeAcc
import Mathlib.Analysis.InnerProductSpace.PiL2
/-!
# Rejection and reflection in floating point (layer F): C109

(Generated by tools/gen.)
-/

open Classical

namespace VecMath
open Scalar IEEE

theorem sqrt_sum_le {k : ℕ} (f : Fin k → ℝ) : √(∑ i, f i ^ 2) ≤ ∑ i, |f i| := by
  refine Real.sqrt_le_iff.2 ⟨Finset.sum_nonneg fun i _ => abs_nonneg _, ?_⟩
  have := Finset.sum_sq_le_sq_sum_of_nonneg (s := Finset.univ) (f := fun i => |f i|) (fun i _ => abs_nonneg _)
  simpa using this
theorem sqrt_sub_le {k : ℕ} (f g : Fin k → ℝ) : |√(∑ i, f i ^ 2) - √(∑ i, g i ^ 2)| ≤ ∑ i, |f i - g i| := by
  have e : ∀ h : Fin k → ℝ, √(∑ i, h i ^ 2) = ‖WithLp.toLp 2 h‖ := fun h => by
    rw [EuclideanSpace.norm_eq]; simp
  rw [e, e]
  refine (abs_norm_sub_norm_le _ _).trans ?_
  rw [← WithLp.toLp_sub, ← e]
  exact sqrt_sum_le (f - g)
theorem sqrt_sub_sqrt_le {a b c : ℝ} (ha : 0 ≤ a) (hb : 0 ≤ b) (h : |a - b| ≤ c * b) : |√a - √b| ≤ c * √b := by
  rcases hb.eq_or_lt with rfl | hb'
  · have : a = 0 := by simpa using h
    simp [this]
  have sb := Real.sqrt_pos.2 hb'
  have e : √a - √b = (a - b) / (√a + √b) := by
    rw [eq_div_iff (by positivity)]; nlinarith [Real.sq_sqrt ha, Real.sq_sqrt hb]
  rw [e, abs_div, abs_of_pos (show 0 < √a + √b by positivity), div_le_iff₀ (by positivity)]
  refine h.trans ?_
  have c0 : 0 ≤ c := by
    have := (abs_nonneg _).trans h
    by_contra q; push Not at q; nlinarith
  nlinarith [Real.sq_sqrt hb, mul_nonneg c0 (mul_nonneg sb.le (Real.sqrt_nonneg a))]
theorem mirror_len {k : ℕ} (v n : Fin k → ℝ) {e : ℝ} (h : |∑ i, n i ^ 2 - 1| ≤ e) :
    |√(∑ i, (v i - 2 * (∑ j, v j * n j) * n i) ^ 2) - √(∑ i, v i ^ 2)| ≤ 4 * e * (1 + e) * √(∑ i, v i ^ 2) := by
  have e0 := (abs_nonneg _).trans h
  refine sqrt_sub_sqrt_le (Finset.sum_nonneg fun i _ => sq_nonneg _) (Finset.sum_nonneg fun i _ => sq_nonneg _) ?_
  set s := ∑ j, v j * n j with hs
  have q : ∑ i, (v i - 2 * s * n i) ^ 2 = ∑ i, v i ^ 2 - 4 * s * s + 4 * s ^ 2 * ∑ i, n i ^ 2 := by
    have : ∀ i, (v i - 2 * s * n i) ^ 2 = v i ^ 2 - 4 * s * (v i * n i) + 4 * s ^ 2 * n i ^ 2 := fun i => by ring
    simp only [this, Finset.sum_add_distrib, Finset.sum_sub_distrib, ← Finset.mul_sum]
    rw [← hs]
  have cs : s ^ 2 ≤ (∑ i, v i ^ 2) * ∑ i, n i ^ 2 := Finset.sum_mul_sq_le_sq_mul_sq _ _ _
  have V : 0 ≤ ∑ i, v i ^ 2 := Finset.sum_nonneg fun i _ => sq_nonneg _
  set N := ∑ i, n i ^ 2
  have : ∑ i, (v i - 2 * s * n i) ^ 2 - ∑ i, v i ^ 2 = 4 * s ^ 2 * (N - 1) := by rw [q]; ring
  rw [this, abs_mul, abs_of_nonneg (by positivity : 0 ≤ 4 * s ^ 2)]
  have N1 : N ≤ 1 + e := by have := (abs_le.1 h).2; linarith
  have s2 : s ^ 2 ≤ (∑ i, v i ^ 2) * (1 + e) := cs.trans (by gcongr)
  calc 4 * s ^ 2 * |N - 1| ≤ 4 * ((∑ i, v i ^ 2) * (1 + e)) * e := by gcongr
    _ = _ := by ring
theorem reject_perp {k : ℕ} (v n : Fin k → ℝ) {e : ℝ} (h : |∑ i, n i ^ 2 - 1| ≤ e) :
    |∑ i, (v i - 1 * (∑ j, v j * n j) * n i) * n i| ≤ |∑ j, v j * n j| * e := by
  set s := ∑ j, v j * n j with hs
  have q : ∑ i, (v i - 1 * s * n i) * n i = s * (1 - ∑ i, n i ^ 2) := by
    have : ∀ i, (v i - 1 * s * n i) * n i = v i * n i - s * n i ^ 2 := fun i => by ring
    simp only [this, Finset.sum_sub_distrib, ← Finset.mul_sum]
    rw [← hs]; ring
  rw [q, abs_mul, abs_sub_comm 1]
  gcongr

section
variable {S : Type} [Scalar S] [IEEE S]

theorem num_flip_mul {a b b' : S} (h : num b' = num (-b)) : num (-a * b') = num (a * b) :=
  (num_mul_congr rfl h).trans (((same_neg_mul a (-b)).trans ((same_mul_neg a b).neg.trans (same_neg_neg _)))).num
theorem num_neg_mul' {a b b' : S} (h : num b' = num (-b)) : num (a * b') = num (-(a * b)) :=
  (num_mul_congr rfl h).trans (same_mul_neg a b).num
theorem num_neg_add' {a b a' b' : S} (h : num a' = num (-a)) (h' : num b' = num (-b)) : num (a' + b') = num (-(a + b)) :=
  (num_add_congr h h').trans (num_neg_add a b)
theorem num_neg_sub' {a b b' : S} (h : num b' = num (-b)) : num (-a - b') = num (-(a - b)) :=
  (num_sub_congr rfl h).trans (num_neg_sub a b)
end

section
variable {S : Type} [Scalar S] [IEEE S] [Binary S]

theorem unit_bounds {u x : ℝ} {m : ℕ} (u0 : 0 ≤ u) (u1 : u < 1) (hl : (1 - u) ^ 2 / (1 + u) ^ m ≤ x) (hr : x ≤ (1 + u) ^ 2 / (1 - u) ^ m) (hm : 2 ≤ m) :
    |x - 1| ≤ (1 + u) ^ 2 / (1 - u) ^ m - 1 := by
  have p : 0 < 1 - u := by linarith
  have q : 0 < 1 + u := by linarith
  set a := (1 + u) ^ 2 / (1 - u) ^ m with ha
  set b := (1 - u) ^ 2 / (1 + u) ^ m with hb
  have a0 : 0 < a := by positivity
  have b0 : 0 < b := by positivity
  have ab : 1 ≤ a * b := by
    have : a * b = ((1 + u) * (1 - u)) ^ 2 / ((1 + u) * (1 - u)) ^ m := by
      rw [ha, hb, div_mul_div_comm, mul_pow, mul_pow, mul_comm ((1 - u) ^ m)]
    rw [this, one_le_div (by positivity)]
    exact pow_le_pow_of_le_one (by positivity) (by nlinarith) hm
  have : 2 ≤ a + b := by nlinarith [sq_nonneg (a - b)]
  rw [abs_le]; constructor <;> linarith
/-- Doubling is exact unless it overflows. -/
theorem real_double {a : S} (h : IsFinite (a + a)) : real (a + a) = real a + real a := by
  have ha := (finite_of_add h).1
  have c := correct_add ha ha
  obtain ⟨m, e, he, hm, hx⟩ := isFinite_has ha
  have hh : (Binary.F S).Has (real a + real a) := ⟨m, e + 1, by omega, hm, by rw [hx, zpow_add₀ (by norm_num)]; ring⟩
  have hf : InFormat S (real a + real a) := by
    refine ⟨hh, ?_⟩
    have := ((Binary.F S).fits_rnd_iff (real a + real a)).2 (c.1.1 h)
    rw [(Binary.F S).rnd_of_has hh] at this; exact this
  have := (c.2 h).2 _ hf
  rw [sub_self, abs_zero, abs_nonpos_iff] at this
  linarith
theorem num_minus_double {a : S} (h : IsFinite (a + a)) : num (a - (a + a)) = num (-a) := by
  have ha := (finite_of_add h).1
  have c := correct_sub ha h
  have e : real a - real (a + a) = -real a := by rw [real_double h]; ring
  rw [e] at c
  have hf : IsFinite (a - (a + a)) := c.1.2 (by rw [abs_neg]; exact finite_lt_overflow ha)
  refine num_of_real hf (finite_neg.2 ha) ?_
  have f := inFormat (finite_neg.2 ha)
  rw [IEEE.real_neg] at f ⊢
  have := (c.2 hf).2 _ f
  rw [sub_self, abs_zero, abs_nonpos_iff] at this
  linarith
theorem num_minus_self {a b : S} (ha : IsFinite a) (h : num b = num a) : num (a - b) = num (zero : S) := by
  have hb := finite_of_num h ha
  have c := correct_sub ha hb
  have e := real_of_num hb ha h
  rw [e, sub_self] at c
  have hf : IsFinite (a - b) := c.1.2 (by rw [abs_zero]; exact (abs_nonneg _).trans_lt (finite_lt_overflow ha))
  refine num_of_real hf finite_zero ?_
  have f := inFormat (S := S) finite_zero
  rw [real_zero] at f ⊢
  have := (c.2 hf).2 _ f
  simpa using this
theorem reflect_comp {k : ℕ} {t x A : ℝ} {v n d : S} (hd : Approx k t d x A) (h : IsFinite (v - n * (d + d))) :
    |real (v - n * (d + d)) - (real v - 2 * x * real n)| ≤
      ((1 + uro S) ^ (k + 3) - 1) * (|real v| + 2 * A * |real n|) + ((1 + uro S) ^ 3 * (2 * t) * |real n| + (1 + uro S) * tiny S) := by
  have h1 := (finite_of_sub h).2
  have h2 := (finite_of_mul h1).2
  have q := (((Approx.exact v).mono (Nat.zero_le (k + 1 + 1)) le_rfl).sub ((hd.add hd h2).exact_mul h1) h).2
  refine le_trans (le_of_eq (congrArg _root_.abs ?_)) (q.trans (le_of_eq ?_)) <;> ring
theorem reject_comp {k : ℕ} {t x A : ℝ} {v n d : S} (hd : Approx k t d x A) (h : IsFinite (v - n * d)) :
    |real (v - n * d) - (real v - 1 * x * real n)| ≤
      ((1 + uro S) ^ (k + 2) - 1) * (|real v| + 1 * A * |real n|) + ((1 + uro S) ^ 2 * t * |real n| + (1 + uro S) * tiny S) := by
  have h1 := (finite_of_sub h).2
  have q := (((Approx.exact v).mono (Nat.zero_le (k + 1)) le_rfl).sub (hd.exact_mul h1) h).2
  refine le_trans (le_of_eq (congrArg _root_.abs ?_)) (q.trans (le_of_eq ?_)) <;> ring
end

/-! ## Dimension 2 -/
section
variable {S : Type} [Scalar S] [IEEE S]
theorem Vector2.num_dot_neg_right (v n : Vector2 S) : num (Api.dot v (-n) : S) = num (-(Api.dot v n : S)) := by
  have H : ∀ a b : S, num (a * -b) = num (-(a * b)) := fun a b => (same_mul_neg a b).num
  exact num_neg_add' (H _ _) (H _ _)
theorem Vector2.num_dot_neg_left (v n : Vector2 S) : num (Api.dot (-v) n : S) = num (-(Api.dot v n : S)) := by
  have H : ∀ a b : S, num (-a * b) = num (-(a * b)) := fun a b => (same_neg_mul a b).num
  exact num_neg_add' (H _ _) (H _ _)
/-- **C109** (2D): turning the normal around does not change a reflection or a rejection at all, and turning the vector
around exactly turns it around. -/
theorem C109_flip2 (v n : Vector2 S) :
    (NoNaN (v.reflect n) → (v.reflect (-n) == v.reflect n) = true ∧ ((-v).reflect n == -(v.reflect n)) = true) ∧
    (NoNaN (v.reject n) → (v.reject (-n) == v.reject n) = true ∧ ((-v).reject n == -(v.reject n)) = true) := by
  have r := Vector2.num_dot_neg_right v n
  have l := Vector2.num_dot_neg_left v n
  have r2 := num_neg_add' r r
  have l2 := num_neg_add' l l
  refine ⟨fun h => ?_, fun h => ?_⟩ <;> rw [Vector2.noNaN] at h <;> refine ⟨Vector2.beq_iff.2 ?_, Vector2.beq_iff.2 ?_⟩
  · exact ⟨beq_of_num' (num_sub_congr rfl (num_flip_mul r2)) h.1, beq_of_num' (num_sub_congr rfl (num_flip_mul r2)) h.2⟩
  · exact ⟨beq_of_num' (num_neg_sub' (num_neg_mul' l2)) (fun q => h.1 (isNaN_neg.1 q)), beq_of_num' (num_neg_sub' (num_neg_mul' l2)) (fun q => h.2 (isNaN_neg.1 q))⟩
  · exact ⟨beq_of_num' (num_sub_congr rfl (num_flip_mul r)) h.1, beq_of_num' (num_sub_congr rfl (num_flip_mul r)) h.2⟩
  · exact ⟨beq_of_num' (num_neg_sub' (num_neg_mul' l)) (fun q => h.1 (isNaN_neg.1 q)), beq_of_num' (num_neg_sub' (num_neg_mul' l)) (fun q => h.2 (isNaN_neg.1 q))⟩
end

section
variable {S : Type} [Scalar S] [IEEE S] [Binary S]
theorem Vector2.approx_dot {v n : Vector2 S} (h : IsFinite (Api.dot v n : S)) :
    Approx 2 ((2 : ℕ) * (1 + uro S) ^ 1 * tiny S) (Api.dot v n : S) (∑ j, v.toReal j * n.toReal j) (∑ j, |v.toReal j| * |n.toReal j|) := by
  have t0 := (tiny_pos (S := S)).le
  have := Approx.acc t0 le_rfl (Approx.prod (finite_of_add h).1).start (Approx.prod (finite_of_add h).2) h
  refine (this.mono le_rfl le_rfl).congr ?_ ?_ <;> rw [Fin.sum_univ_two] <;> rfl
/-- **C109** (2D): the error of every component of a finite reflection. -/
theorem C109_error_reflect2 (v n : Vector2 S) (h : AllFinite (v.reflect n)) (i : Fin 2) :
    |(v.reflect n).toReal i - mirrored 2 v.toReal n.toReal i| ≤ reflectErr S v.toReal n.toReal i := by
  rw [Vector2.allFinite] at h
  have hd := Vector2.approx_dot (finite_of_add (finite_of_mul (finite_of_sub h.1).2).2).1
  unfold mirrored reflectErr mirroredAbs gam
  fin_cases i
  · refine (reflect_comp hd h.1).trans (le_of_eq ?_)
    show _ = ((1 + uro S) ^ (2 + 3) - 1) * (|real v.x| + 2 * (∑ j, |v.toReal j| * |n.toReal j|) * |real n.x|) + (2 * ((2 : ℕ) : ℝ) * (1 + uro S) ^ (2 + 2) * |real n.x| + (1 + uro S)) * tiny S
    push_cast; ring
  · refine (reflect_comp hd h.2).trans (le_of_eq ?_)
    show _ = ((1 + uro S) ^ (2 + 3) - 1) * (|real v.y| + 2 * (∑ j, |v.toReal j| * |n.toReal j|) * |real n.y|) + (2 * ((2 : ℕ) : ℝ) * (1 + uro S) ^ (2 + 2) * |real n.y| + (1 + uro S)) * tiny S
    push_cast; ring
/-- **C109** (2D): the error of every component of a finite rejection. -/
theorem C109_error_reject2 (v n : Vector2 S) (h : AllFinite (v.reject n)) (i : Fin 2) :
    |(v.reject n).toReal i - mirrored 1 v.toReal n.toReal i| ≤ rejectErr S v.toReal n.toReal i := by
  rw [Vector2.allFinite] at h
  have hd := Vector2.approx_dot (finite_of_mul (finite_of_sub h.1).2).2
  unfold mirrored rejectErr mirroredAbs gam
  fin_cases i
  · refine (reject_comp hd h.1).trans (le_of_eq ?_)
    show _ = ((1 + uro S) ^ (2 + 2) - 1) * (|real v.x| + 1 * (∑ j, |v.toReal j| * |n.toReal j|) * |real n.x|) + (((2 : ℕ) : ℝ) * (1 + uro S) ^ (2 + 1) * |real n.x| + (1 + uro S)) * tiny S
    push_cast; ring
  · refine (reject_comp hd h.2).trans (le_of_eq ?_)
    show _ = ((1 + uro S) ^ (2 + 2) - 1) * (|real v.y| + 1 * (∑ j, |v.toReal j| * |n.toReal j|) * |real n.y|) + (((2 : ℕ) : ℝ) * (1 + uro S) ^ (2 + 1) * |real n.y| + (1 + uro S)) * tiny S
    push_cast; ring
/-- **C109** (2D): a nonzero vector of moderate components is normalized to a usable normal. -/
theorem C109_normalized2 {k : ℕ} (m : Vector2 S) (hm : Moderate k m) (h0 : m.toReal ≠ 0) (hR : Room S (2 * k) 2) (hR' : Room S k 2)
    (hk : (Binary.F S).emin + (Binary.F S).p - 1 ≤ -(2 * k + 1 : ℤ)) :
    AllFinite m.normalize ∧ |∑ i, m.normalize.toReal i ^ 2 - 1| ≤ (1 + uro S) ^ 2 / (1 - uro S) ^ 4 - 1 := by
  obtain ⟨f, -, l, r, -⟩ := C86_normalize_accurate2 m hm h0 hR hR' hk
  exact ⟨f, unit_bounds (uro_pos (S := S)).le (by have := uro_le (S := S); linarith) l r (by norm_num)⟩
/-- **C109** (2D): a finite reflection has the length of the vector, up to the rounding errors and the error of the
length of the normal. -/
theorem C109_length2 (v n : Vector2 S) (h : AllFinite (v.reflect n)) {e : ℝ} (he : |∑ i, n.toReal i ^ 2 - 1| ≤ e) :
    |√(∑ i, (v.reflect n).toReal i ^ 2) - √(∑ i, v.toReal i ^ 2)| ≤
      ∑ i, reflectErr S v.toReal n.toReal i + 4 * e * (1 + e) * √(∑ i, v.toReal i ^ 2) := by
  have h1 := sqrt_sub_le (v.reflect n).toReal (mirrored 2 v.toReal n.toReal)
  have h2 := mirror_len v.toReal n.toReal he
  have h3 := Finset.sum_le_sum fun i (_ : i ∈ Finset.univ) => C109_error_reflect2 v n h i
  exact (abs_sub_le _ _ _).trans (add_le_add (h1.trans h3) h2)
/-- **C109** (2D): a finite rejection is perpendicular to the normal, up to the rounding errors and the error of the
length of the normal. -/
theorem C109_perp2 (v n : Vector2 S) (h : AllFinite (v.reject n)) {e : ℝ} (he : |∑ i, n.toReal i ^ 2 - 1| ≤ e) :
    |∑ i, (v.reject n).toReal i * n.toReal i| ≤
      ∑ i, rejectErr S v.toReal n.toReal i * |n.toReal i| + |∑ i, v.toReal i * n.toReal i| * e := by
  have h2 := reject_perp v.toReal n.toReal he
  have e1 : ∑ i, (v.reject n).toReal i * n.toReal i = ∑ i, ((v.reject n).toReal i - mirrored 1 v.toReal n.toReal i) * n.toReal i +
      ∑ i, mirrored 1 v.toReal n.toReal i * n.toReal i := by
    rw [← Finset.sum_add_distrib]; exact Finset.sum_congr rfl fun i _ => by ring
  rw [e1]
  refine (abs_add_le _ _).trans (add_le_add ((Finset.abs_sum_le_sum_abs _ _).trans (Finset.sum_le_sum fun i _ => ?_)) h2)
  rw [abs_mul]
  exact mul_le_mul_of_nonneg_right (C109_error_reject2 v n h i) (abs_nonneg _)
/-- **C109** (2D): reflection at an axis negates that component and leaves the others, exactly, unless doubling the
component overflows. -/
theorem C109_axis_reflect2 (v : Vector2 S) (hv : AllFinite v) (d : Dimension2) (hd : IsFinite (v.index d + v.index d)) (e : Dimension2) :
    ((v.reflect (Vector2.axis d)).index e == if e = d then -v.index e else v.index e) = true := by
  have D := num_of_beq (C101_dot2 v hv d).2
  have D2 := num_add_congr D D
  have f2 := finite_of_num D2 hd
  rw [Vector2.allFinite] at hv
  have nm := num_minus_double hd
  have k1 : ∀ a : S, num (a - (one : S) * (Api.dot v (Vector2.axis d : Vector2 S) + Api.dot v (Vector2.axis d : Vector2 S))) = num (a - (v.index d + v.index d)) :=
    fun a => num_sub_congr rfl ((IEEE.num_one_mul _).trans D2)
  have k0 : ∀ a : S, num (a - (zero : S) * (Api.dot v (Vector2.axis d : Vector2 S) + Api.dot v (Vector2.axis d : Vector2 S))) = num a :=
    fun a => n_sub0 (IEEE.num_zero_mul f2)
  obtain ⟨h0, h1⟩ := hv
  cases d <;> cases e <;> refine beq_of_num' ?_ (by simp only [reduceCtorEq, if_true, if_false]; first | exact IsFinite.not_nan (by assumption) | exact (finite_neg.2 (by assumption)).not_nan) <;>
    simp only [reduceCtorEq, if_true, if_false] <;> first | exact k0 _ | exact (k1 _).trans nm
/-- **C109** (2D): so reflecting at an axis twice gives back exactly the vector. -/
theorem C109_axis_twice2 (v : Vector2 S) (hv : AllFinite v) (d : Dimension2) (hd : IsFinite (v.index d + v.index d)) :
    ((v.reflect (Vector2.axis d)).reflect (Vector2.axis d) == v) = true := by
  have H := fun e => num_of_beq (C109_axis_reflect2 v hv d hd e)
  have Hd := H d
  rw [if_pos rfl] at Hd
  have hv' := hv
  rw [Vector2.allFinite] at hv'
  have fi : ∀ e, IsFinite (v.index e) := fun e => by cases e <;> simp only [Vector2.index, hv']
  have fr : ∀ e, IsFinite ((v.reflect (Vector2.axis d)).index e) := fun e => by
    refine finite_of_num (H e) ?_
    split_ifs
    · exact finite_neg.2 (fi e)
    · exact fi e
  have fr' : AllFinite (v.reflect (Vector2.axis d)) := Vector2.allFinite.2 ⟨fr .X, fr .Y⟩
  have dd : num ((v.reflect (Vector2.axis d)).index d + (v.reflect (Vector2.axis d)).index d) = num (-(v.index d + v.index d)) := num_neg_add' Hd Hd
  have hd' := finite_of_num dd (finite_neg.2 hd)
  have H2 := fun e => num_of_beq (C109_axis_reflect2 _ fr' d hd' e)
  have key : ∀ e, (((v.reflect (Vector2.axis d)).reflect (Vector2.axis d)).index e == v.index e) = true := fun e => by
    refine beq_of_num' ((H2 e).trans ?_) (fi e).not_nan
    have := H e
    split_ifs at this ⊢ with q
    · exact (num_neg_congr this).trans (same_neg_neg _).num
    · exact this
  exact Vector2.beq_iff.2 ⟨key .X, key .Y⟩
/-- **C109** (2D): rejection from an axis makes that component zero and leaves the others, exactly. -/
theorem C109_axis_reject2 (v : Vector2 S) (hv : AllFinite v) (d : Dimension2) (e : Dimension2) :
    ((v.reject (Vector2.axis d)).index e == if e = d then zero else v.index e) = true := by
  have D := num_of_beq (C101_dot2 v hv d).2
  rw [Vector2.allFinite] at hv
  have fi : ∀ e, IsFinite (v.index e) := fun e => by cases e <;> simp only [Vector2.index, hv]
  have f2 := finite_of_num D (fi d)
  have nm : num (v.index d - v.index d) = num (zero : S) := num_minus_self (fi d) rfl
  have k1 : ∀ a : S, num (a - (one : S) * Api.dot v (Vector2.axis d : Vector2 S)) = num (a - v.index d) :=
    fun a => num_sub_congr rfl ((IEEE.num_one_mul _).trans D)
  have k0 : ∀ a : S, num (a - (zero : S) * Api.dot v (Vector2.axis d : Vector2 S)) = num a :=
    fun a => n_sub0 (IEEE.num_zero_mul f2)
  have fz := finite_zero (S := S)
  obtain ⟨h0, h1⟩ := hv
  cases d <;> cases e <;> refine beq_of_num' ?_ (by simp only [reduceCtorEq, if_true, if_false]; exact IsFinite.not_nan (by assumption)) <;>
    simp only [reduceCtorEq, if_true, if_false] <;> first | exact k0 _ | exact (k1 _).trans nm
end

/-! ## Dimension 3 -/
section
variable {S : Type} [Scalar S] [IEEE S]
theorem Vector3.num_dot_neg_right (v n : Vector3 S) : num (Api.dot v (-n) : S) = num (-(Api.dot v n : S)) := by
  have H : ∀ a b : S, num (a * -b) = num (-(a * b)) := fun a b => (same_mul_neg a b).num
  exact num_neg_add' (num_neg_add' (H _ _) (H _ _)) (H _ _)
theorem Vector3.num_dot_neg_left (v n : Vector3 S) : num (Api.dot (-v) n : S) = num (-(Api.dot v n : S)) := by
  have H : ∀ a b : S, num (-a * b) = num (-(a * b)) := fun a b => (same_neg_mul a b).num
  exact num_neg_add' (num_neg_add' (H _ _) (H _ _)) (H _ _)
/-- **C109** (3D): turning the normal around does not change a reflection or a rejection at all, and turning the vector
around exactly turns it around. -/
theorem C109_flip3 (v n : Vector3 S) :
    (NoNaN (v.reflect n) → (v.reflect (-n) == v.reflect n) = true ∧ ((-v).reflect n == -(v.reflect n)) = true) ∧
    (NoNaN (v.reject n) → (v.reject (-n) == v.reject n) = true ∧ ((-v).reject n == -(v.reject n)) = true) := by
  have r := Vector3.num_dot_neg_right v n
  have l := Vector3.num_dot_neg_left v n
  have r2 := num_neg_add' r r
  have l2 := num_neg_add' l l
  refine ⟨fun h => ?_, fun h => ?_⟩ <;> rw [Vector3.noNaN] at h <;> refine ⟨Vector3.beq_iff.2 ?_, Vector3.beq_iff.2 ?_⟩
  · exact ⟨beq_of_num' (num_sub_congr rfl (num_flip_mul r2)) h.1, beq_of_num' (num_sub_congr rfl (num_flip_mul r2)) h.2.1, beq_of_num' (num_sub_congr rfl (num_flip_mul r2)) h.2.2⟩
  · exact ⟨beq_of_num' (num_neg_sub' (num_neg_mul' l2)) (fun q => h.1 (isNaN_neg.1 q)), beq_of_num' (num_neg_sub' (num_neg_mul' l2)) (fun q => h.2.1 (isNaN_neg.1 q)), beq_of_num' (num_neg_sub' (num_neg_mul' l2)) (fun q => h.2.2 (isNaN_neg.1 q))⟩
  · exact ⟨beq_of_num' (num_sub_congr rfl (num_flip_mul r)) h.1, beq_of_num' (num_sub_congr rfl (num_flip_mul r)) h.2.1, beq_of_num' (num_sub_congr rfl (num_flip_mul r)) h.2.2⟩
  · exact ⟨beq_of_num' (num_neg_sub' (num_neg_mul' l)) (fun q => h.1 (isNaN_neg.1 q)), beq_of_num' (num_neg_sub' (num_neg_mul' l)) (fun q => h.2.1 (isNaN_neg.1 q)), beq_of_num' (num_neg_sub' (num_neg_mul' l)) (fun q => h.2.2 (isNaN_neg.1 q))⟩
end

section
variable {S : Type} [Scalar S] [IEEE S] [Binary S]
theorem Vector3.approx_dot {v n : Vector3 S} (h : IsFinite (Api.dot v n : S)) :
    Approx 3 ((3 : ℕ) * (1 + uro S) ^ 2 * tiny S) (Api.dot v n : S) (∑ j, v.toReal j * n.toReal j) (∑ j, |v.toReal j| * |n.toReal j|) := by
  have t0 := (tiny_pos (S := S)).le
  have := Approx.acc t0 (by norm_num) (Approx.acc t0 le_rfl (Approx.prod (finite_of_add (finite_of_add h).1).1).start (Approx.prod (finite_of_add (finite_of_add h).1).2) (finite_of_add h).1) (Approx.prod (finite_of_add h).2) h
  refine (this.mono le_rfl le_rfl).congr ?_ ?_ <;> rw [Fin.sum_univ_three] <;> rfl
/-- **C109** (3D): the error of every component of a finite reflection. -/
theorem C109_error_reflect3 (v n : Vector3 S) (h : AllFinite (v.reflect n)) (i : Fin 3) :
    |(v.reflect n).toReal i - mirrored 2 v.toReal n.toReal i| ≤ reflectErr S v.toReal n.toReal i := by
  rw [Vector3.allFinite] at h
  have hd := Vector3.approx_dot (finite_of_add (finite_of_mul (finite_of_sub h.1).2).2).1
  unfold mirrored reflectErr mirroredAbs gam
  fin_cases i
  · refine (reflect_comp hd h.1).trans (le_of_eq ?_)
    show _ = ((1 + uro S) ^ (3 + 3) - 1) * (|real v.x| + 2 * (∑ j, |v.toReal j| * |n.toReal j|) * |real n.x|) + (2 * ((3 : ℕ) : ℝ) * (1 + uro S) ^ (3 + 2) * |real n.x| + (1 + uro S)) * tiny S
    push_cast; ring
  · refine (reflect_comp hd h.2.1).trans (le_of_eq ?_)
    show _ = ((1 + uro S) ^ (3 + 3) - 1) * (|real v.y| + 2 * (∑ j, |v.toReal j| * |n.toReal j|) * |real n.y|) + (2 * ((3 : ℕ) : ℝ) * (1 + uro S) ^ (3 + 2) * |real n.y| + (1 + uro S)) * tiny S
    push_cast; ring
  · refine (reflect_comp hd h.2.2).trans (le_of_eq ?_)
    show _ = ((1 + uro S) ^ (3 + 3) - 1) * (|real v.z| + 2 * (∑ j, |v.toReal j| * |n.toReal j|) * |real n.z|) + (2 * ((3 : ℕ) : ℝ) * (1 + uro S) ^ (3 + 2) * |real n.z| + (1 + uro S)) * tiny S
    push_cast; ring
/-- **C109** (3D): the error of every component of a finite rejection. -/
theorem C109_error_reject3 (v n : Vector3 S) (h : AllFinite (v.reject n)) (i : Fin 3) :
    |(v.reject n).toReal i - mirrored 1 v.toReal n.toReal i| ≤ rejectErr S v.toReal n.toReal i := by
  rw [Vector3.allFinite] at h
  have hd := Vector3.approx_dot (finite_of_mul (finite_of_sub h.1).2).2
  unfold mirrored rejectErr mirroredAbs gam
  fin_cases i
  · refine (reject_comp hd h.1).trans (le_of_eq ?_)
    show _ = ((1 + uro S) ^ (3 + 2) - 1) * (|real v.x| + 1 * (∑ j, |v.toReal j| * |n.toReal j|) * |real n.x|) + (((3 : ℕ) : ℝ) * (1 + uro S) ^ (3 + 1) * |real n.x| + (1 + uro S)) * tiny S
    push_cast; ring
  · refine (reject_comp hd h.2.1).trans (le_of_eq ?_)
    show _ = ((1 + uro S) ^ (3 + 2) - 1) * (|real v.y| + 1 * (∑ j, |v.toReal j| * |n.toReal j|) * |real n.y|) + (((3 : ℕ) : ℝ) * (1 + uro S) ^ (3 + 1) * |real n.y| + (1 + uro S)) * tiny S
    push_cast; ring
  · refine (reject_comp hd h.2.2).trans (le_of_eq ?_)
    show _ = ((1 + uro S) ^ (3 + 2) - 1) * (|real v.z| + 1 * (∑ j, |v.toReal j| * |n.toReal j|) * |real n.z|) + (((3 : ℕ) : ℝ) * (1 + uro S) ^ (3 + 1) * |real n.z| + (1 + uro S)) * tiny S
    push_cast; ring
/-- **C109** (3D): a nonzero vector of moderate components is normalized to a usable normal. -/
theorem C109_normalized3 {k : ℕ} (m : Vector3 S) (hm : Moderate k m) (h0 : m.toReal ≠ 0) (hR : Room S (2 * k) 3) (hR' : Room S k 2)
    (hk : (Binary.F S).emin + (Binary.F S).p - 1 ≤ -(2 * k + 1 : ℤ)) :
    AllFinite m.normalize ∧ |∑ i, m.normalize.toReal i ^ 2 - 1| ≤ (1 + uro S) ^ 2 / (1 - uro S) ^ 5 - 1 := by
  obtain ⟨f, -, l, r, -⟩ := C86_normalize_accurate3 m hm h0 hR hR' hk
  exact ⟨f, unit_bounds (uro_pos (S := S)).le (by have := uro_le (S := S); linarith) l r (by norm_num)⟩
/-- **C109** (3D): a finite reflection has the length of the vector, up to the rounding errors and the error of the
length of the normal. -/
theorem C109_length3 (v n : Vector3 S) (h : AllFinite (v.reflect n)) {e : ℝ} (he : |∑ i, n.toReal i ^ 2 - 1| ≤ e) :
    |√(∑ i, (v.reflect n).toReal i ^ 2) - √(∑ i, v.toReal i ^ 2)| ≤
      ∑ i, reflectErr S v.toReal n.toReal i + 4 * e * (1 + e) * √(∑ i, v.toReal i ^ 2) := by
  have h1 := sqrt_sub_le (v.reflect n).toReal (mirrored 2 v.toReal n.toReal)
  have h2 := mirror_len v.toReal n.toReal he
  have h3 := Finset.sum_le_sum fun i (_ : i ∈ Finset.univ) => C109_error_reflect3 v n h i
  exact (abs_sub_le _ _ _).trans (add_le_add (h1.trans h3) h2)
/-- **C109** (3D): a finite rejection is perpendicular to the normal, up to the rounding errors and the error of the
length of the normal. -/
theorem C109_perp3 (v n : Vector3 S) (h : AllFinite (v.reject n)) {e : ℝ} (he : |∑ i, n.toReal i ^ 2 - 1| ≤ e) :
    |∑ i, (v.reject n).toReal i * n.toReal i| ≤
      ∑ i, rejectErr S v.toReal n.toReal i * |n.toReal i| + |∑ i, v.toReal i * n.toReal i| * e := by
  have h2 := reject_perp v.toReal n.toReal he
  have e1 : ∑ i, (v.reject n).toReal i * n.toReal i = ∑ i, ((v.reject n).toReal i - mirrored 1 v.toReal n.toReal i) * n.toReal i +
      ∑ i, mirrored 1 v.toReal n.toReal i * n.toReal i := by
    rw [← Finset.sum_add_distrib]; exact Finset.sum_congr rfl fun i _ => by ring
  rw [e1]
  refine (abs_add_le _ _).trans (add_le_add ((Finset.abs_sum_le_sum_abs _ _).trans (Finset.sum_le_sum fun i _ => ?_)) h2)
  rw [abs_mul]
  exact mul_le_mul_of_nonneg_right (C109_error_reject3 v n h i) (abs_nonneg _)
/-- **C109** (3D): reflection at an axis negates that component and leaves the others, exactly, unless doubling the
component overflows. -/
theorem C109_axis_reflect3 (v : Vector3 S) (hv : AllFinite v) (d : Dimension3) (hd : IsFinite (v.index d + v.index d)) (e : Dimension3) :
    ((v.reflect (Vector3.axis d)).index e == if e = d then -v.index e else v.index e) = true := by
  have D := num_of_beq (C101_dot3 v hv d).2
  have D2 := num_add_congr D D
  have f2 := finite_of_num D2 hd
  rw [Vector3.allFinite] at hv
  have nm := num_minus_double hd
  have k1 : ∀ a : S, num (a - (one : S) * (Api.dot v (Vector3.axis d : Vector3 S) + Api.dot v (Vector3.axis d : Vector3 S))) = num (a - (v.index d + v.index d)) :=
    fun a => num_sub_congr rfl ((IEEE.num_one_mul _).trans D2)
  have k0 : ∀ a : S, num (a - (zero : S) * (Api.dot v (Vector3.axis d : Vector3 S) + Api.dot v (Vector3.axis d : Vector3 S))) = num a :=
    fun a => n_sub0 (IEEE.num_zero_mul f2)
  obtain ⟨h0, h1, h2⟩ := hv
  cases d <;> cases e <;> refine beq_of_num' ?_ (by simp only [reduceCtorEq, if_true, if_false]; first | exact IsFinite.not_nan (by assumption) | exact (finite_neg.2 (by assumption)).not_nan) <;>
    simp only [reduceCtorEq, if_true, if_false] <;> first | exact k0 _ | exact (k1 _).trans nm
/-- **C109** (3D): so reflecting at an axis twice gives back exactly the vector. -/
theorem C109_axis_twice3 (v : Vector3 S) (hv : AllFinite v) (d : Dimension3) (hd : IsFinite (v.index d + v.index d)) :
    ((v.reflect (Vector3.axis d)).reflect (Vector3.axis d) == v) = true := by
  have H := fun e => num_of_beq (C109_axis_reflect3 v hv d hd e)
  have Hd := H d
  rw [if_pos rfl] at Hd
  have hv' := hv
  rw [Vector3.allFinite] at hv'
  have fi : ∀ e, IsFinite (v.index e) := fun e => by cases e <;> simp only [Vector3.index, hv']
  have fr : ∀ e, IsFinite ((v.reflect (Vector3.axis d)).index e) := fun e => by
    refine finite_of_num (H e) ?_
    split_ifs
    · exact finite_neg.2 (fi e)
    · exact fi e
  have fr' : AllFinite (v.reflect (Vector3.axis d)) := Vector3.allFinite.2 ⟨fr .X, fr .Y, fr .Z⟩
  have dd : num ((v.reflect (Vector3.axis d)).index d + (v.reflect (Vector3.axis d)).index d) = num (-(v.index d + v.index d)) := num_neg_add' Hd Hd
  have hd' := finite_of_num dd (finite_neg.2 hd)
  have H2 := fun e => num_of_beq (C109_axis_reflect3 _ fr' d hd' e)
  have key : ∀ e, (((v.reflect (Vector3.axis d)).reflect (Vector3.axis d)).index e == v.index e) = true := fun e => by
    refine beq_of_num' ((H2 e).trans ?_) (fi e).not_nan
    have := H e
    split_ifs at this ⊢ with q
    · exact (num_neg_congr this).trans (same_neg_neg _).num
    · exact this
  exact Vector3.beq_iff.2 ⟨key .X, key .Y, key .Z⟩
/-- **C109** (3D): rejection from an axis makes that component zero and leaves the others, exactly. -/
theorem C109_axis_reject3 (v : Vector3 S) (hv : AllFinite v) (d : Dimension3) (e : Dimension3) :
    ((v.reject (Vector3.axis d)).index e == if e = d then zero else v.index e) = true := by
  have D := num_of_beq (C101_dot3 v hv d).2
  rw [Vector3.allFinite] at hv
  have fi : ∀ e, IsFinite (v.index e) := fun e => by cases e <;> simp only [Vector3.index, hv]
  have f2 := finite_of_num D (fi d)
  have nm : num (v.index d - v.index d) = num (zero : S) := num_minus_self (fi d) rfl
  have k1 : ∀ a : S, num (a - (one : S) * Api.dot v (Vector3.axis d : Vector3 S)) = num (a - v.index d) :=
    fun a => num_sub_congr rfl ((IEEE.num_one_mul _).trans D)
  have k0 : ∀ a : S, num (a - (zero : S) * Api.dot v (Vector3.axis d : Vector3 S)) = num a :=
    fun a => n_sub0 (IEEE.num_zero_mul f2)
  have fz := finite_zero (S := S)
  obtain ⟨h0, h1, h2⟩ := hv
  cases d <;> cases e <;> refine beq_of_num' ?_ (by simp only [reduceCtorEq, if_true, if_false]; exact IsFinite.not_nan (by assumption)) <;>
    simp only [reduceCtorEq, if_true, if_false] <;> first | exact k0 _ | exact (k1 _).trans nm
end

end VecMath
