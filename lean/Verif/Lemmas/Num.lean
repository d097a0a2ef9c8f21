import Verif.Lemmas.Float
/-!
# Numbers up to the sign of zero

`num s` is the datum of `s` with `-0` replaced by `+0`. Two scalars have the same `num` exactly when both
are NaN or they are `==`; the arithmetic operations (other than division by zero) respect it.
-/

open Classical

namespace VecMath
open Scalar IEEE

/-- Forget the sign of zero. -/
def Val.canon : Val → Val
  | .nzero => .fin 0
  | v => v

namespace Val
@[simp] theorem canon_nan : canon nan = nan := rfl
@[simp] theorem canon_inf (s) : canon (inf s) = inf s := rfl
@[simp] theorem canon_fin (x) : canon (fin x) = fin x := rfl
@[simp] theorem canon_nzero : canon nzero = fin 0 := rfl
@[simp] theorem canon_mkZero (s) : canon (mkZero s) = fin 0 := by cases s <;> rfl
@[simp] theorem canon_mk (s x) : canon (mk s x) = fin x := by
  unfold mk; split_ifs with h <;> simp [h]
@[simp] theorem canon_canon (v : Val) : canon (canon v) = canon v := by cases v <;> rfl
@[simp] theorem canon_eq_nan {v : Val} : canon v = nan ↔ v = nan := by cases v <;> simp
@[simp] theorem canon_real (v : Val) : (canon v).real = v.real := by cases v <;> rfl
@[simp] theorem canon_ereal (v : Val) : (canon v).ereal = v.ereal := by cases v <;> simp
@[simp] theorem canon_isFin (v : Val) : (canon v).IsFin ↔ v.IsFin := by cases v <;> simp
theorem canon_of_isFin {v : Val} (h : v.IsFin) : canon v = fin v.real := by
  rcases v with _ | _ | _ | _ <;> first | rfl | exact h.elim
theorem canon_eq_iff {a b : Val} : canon a = canon b ↔ (a = nan ∧ b = nan) ∨
    (a ≠ nan ∧ b ≠ nan ∧ a.ereal = b.ereal) := by
  rcases a with _ | (_|_) | _ | x <;> rcases b with _ | (_|_) | _ | y <;> simp
  norm_cast
end Val

namespace Rounding
variable (A : Rounding)

theorem canon_finish (s t : Bool) (x : ℝ) : (A.finish s x).canon = (A.finish t x).canon := by
  unfold finish; split_ifs <;> simp

theorem canon_add {a b a' b' : Val} (h : a.canon = a'.canon) (h' : b.canon = b'.canon) :
    (A.add a b).canon = (A.add a' b').canon := by
  have key : ∀ a b : Val, (A.add a b).canon = (A.add a.canon b.canon).canon := by
    intro a b
    rcases a with _ | s | _ | x <;> rcases b with _ | t | _ | y <;> simp [add] <;>
      exact A.canon_finish _ _ _
  rw [key, key a', h, h']
theorem canon_mul {a b a' b' : Val} (h : a.canon = a'.canon) (h' : b.canon = b'.canon) :
    (A.mul a b).canon = (A.mul a' b').canon := by
  have key : ∀ a b : Val, (A.mul a b).canon = (A.mul a.canon b.canon).canon := by
    intro a b
    rcases a with _ | s | _ | x <;> rcases b with _ | t | _ | y <;> simp [mul]
  rw [key, key a', h, h']
theorem canon_neg {a a' : Val} (h : a.canon = a'.canon) : a.neg.canon = a'.neg.canon := by
  have key : ∀ a : Val, a.neg.canon = a.canon.neg.canon := by
    intro a
    rcases a with _ | s | _ | x <;> simp [Val.neg]
  rw [key, key a', h]
theorem canon_abs {a a' : Val} (h : a.canon = a'.canon) : a.abs.canon = a'.abs.canon := by
  have key : ∀ a : Val, a.abs.canon = a.canon.abs.canon := by
    intro a
    rcases a with _ | s | _ | x <;> simp [Val.abs]
  rw [key, key a', h]
theorem canon_sub {a b a' b' : Val} (h : a.canon = a'.canon) (h' : b.canon = b'.canon) :
    (A.sub a b).canon = (A.sub a' b').canon := A.canon_add h (canon_neg h')
theorem canon_sqrt {a a' : Val} (h : a.canon = a'.canon) : (A.sqrt a).canon = (A.sqrt a').canon := by
  have key : ∀ a : Val, (A.sqrt a).canon = (A.sqrt a.canon).canon := by
    intro a
    rcases a with _ | s | _ | x <;> simp [Rounding.sqrt]
  rw [key, key a', h]
/-- Division respects the number as long as the denominator is not zero. -/
theorem canon_div {a b a' b' : Val} (h : a.canon = a'.canon) (h' : b.canon = b'.canon)
    (hb : b.ereal ≠ 0) : (A.div a b).canon = (A.div a' b').canon := by
  have key : ∀ a b : Val, b.ereal ≠ 0 → (A.div a b).canon = (A.div a.canon b.canon).canon := by
    intro a b hb
    rcases a with _ | s | _ | x <;> rcases b with _ | t | _ | y <;> simp at hb <;>
      simp [div, hb]
  have hb' : b'.ereal ≠ 0 := by
    have := congrArg Val.ereal h'
    rw [Val.canon_ereal, Val.canon_ereal] at this
    rwa [← this]
  rw [key _ _ hb, key a' _ hb', h, h']

end Rounding

namespace IEEE
variable {S : Type} [Scalar S] [IEEE S]

/-- The datum up to the sign of zero. -/
noncomputable def num (s : S) : Val := (den s).canon

theorem num_eq_iff {a b : S} : num a = num b ↔ (IsNaN a ∧ IsNaN b) ∨ (a == b) = true := by
  rw [beq_iff]; exact Val.canon_eq_iff
theorem isNaN_iff_num {a : S} : IsNaN a ↔ num a = .nan := by
  unfold IsNaN num; exact Val.canon_eq_nan.symm
theorem beq_iff_num {a b : S} : (a == b) = true ↔ num a = num b ∧ ¬ IsNaN a := by
  rw [num_eq_iff, beq_iff]; tauto
theorem beq_of_num {a b : S} (h : num a = num b) (ha : ¬ IsNaN a) : (a == b) = true :=
  beq_iff_num.2 ⟨h, ha⟩
theorem beq_of_num' {a b : S} (h : num a = num b) (hb : ¬ IsNaN b) : (a == b) = true :=
  beq_iff_num.2 ⟨h, by rwa [isNaN_iff_num, h, ← isNaN_iff_num]⟩
theorem num_of_beq {a b : S} (h : (a == b) = true) : num a = num b := (beq_iff_num.1 h).1
theorem val_num (a : S) : val a = (num a).ereal := by simp [val, num]
theorem num_finite {a : S} (h : IsFinite a) : num a = .fin (real a) := Val.canon_of_isFin h
theorem Same.num {a b : S} (h : Same a b) : num a = num b := congrArg Val.canon h

theorem num_add_congr {a b a' b' : S} (h : num a = num a') (h' : num b = num b') :
    num (a + b) = num (a' + b') := by
  unfold num; rw [den_add, den_add]; exact Rounding.canon_add _ h h'
theorem num_sub_congr {a b a' b' : S} (h : num a = num a') (h' : num b = num b') :
    num (a - b) = num (a' - b') := by
  unfold num; rw [den_sub, den_sub]; exact Rounding.canon_sub _ h h'
theorem num_mul_congr {a b a' b' : S} (h : num a = num a') (h' : num b = num b') :
    num (a * b) = num (a' * b') := by
  unfold num; rw [den_mul, den_mul]; exact Rounding.canon_mul _ h h'
theorem num_neg_congr {a a' : S} (h : num a = num a') : num (-a) = num (-a') := by
  unfold num; rw [den_neg, den_neg]; exact Rounding.canon_neg h
theorem num_abs_congr {a a' : S} (h : num a = num a') : num (Scalar.abs a) = num (Scalar.abs a') := by
  unfold num; rw [den_abs, den_abs]; exact Rounding.canon_abs h
theorem num_sqrt_congr {a a' : S} (h : num a = num a') :
    num (Scalar.sqrt a) = num (Scalar.sqrt a') := by
  unfold num; rw [den_sqrt, den_sqrt]; exact Rounding.canon_sqrt _ h
theorem num_div_congr {a b a' b' : S} (h : num a = num a') (h' : num b = num b') (hb : val b ≠ 0) :
    num (a / b) = num (a' / b') := by
  unfold num; rw [den_div, den_div]; exact Rounding.canon_div _ h h' hb
theorem le_congr {a b a' b' : S} (h : num a = num a') (h' : num b = num b') :
    (a ≤? b) = (a' ≤? b') := by
  rw [Bool.eq_iff_iff, le_iff, le_iff]; simp only [isNaN_iff_num, val_num, h, h']
theorem lt_congr {a b a' b' : S} (h : num a = num a') (h' : num b = num b') :
    (a <? b) = (a' <? b') := by
  rw [Bool.eq_iff_iff, lt_iff, lt_iff]; simp only [isNaN_iff_num, val_num, h, h']
theorem beq_congr {a b a' b' : S} (h : num a = num a') (h' : num b = num b') :
    (a == b) = (a' == b') := by
  rw [Bool.eq_iff_iff, beq_iff, beq_iff]; simp only [isNaN_iff_num, val_num, h, h']

theorem num_add_zero (a : S) : num (a + zero) = num a := by
  by_cases h : IsNaN a
  · rw [isNaN_iff_num.1 h, isNaN_iff_num.1 (isNaN_add_left h)]
  · exact num_of_beq (add_zero_beq h)
theorem num_zero_add (a : S) : num (zero + a) = num a := (same_add_comm _ _).num.trans (num_add_zero a)
theorem num_zero_mul {a : S} (h : IsFinite a) : num (zero * a) = num (zero : S) := by
  have := zero_mul_finite (finite_zero (S := S)) h real_zero
  rw [num_finite this.1, this.2, num_finite finite_zero, real_zero]
theorem num_mul_zero {a : S} (h : IsFinite a) : num (a * zero) = num (zero : S) :=
  (same_mul_comm _ _).num.trans (num_zero_mul h)
theorem num_one_mul (a : S) : num (one * a) = num a := (same_one_mul a).num
theorem num_mul_one (a : S) : num (a * one) = num a := (same_mul_one a).num
theorem num_div_one (a : S) : num (a / one) = num a := (same_div_one a).num
/-- `x / w` where `w` is numerically one. -/
theorem num_div_of_one {a b w : S} (h : num a = num b) (hw : num w = num (one : S)) :
    num (a / w) = num b := by
  have : val w ≠ 0 := by rw [val_num, hw, ← val_num, val_one]; norm_num
  rw [num_div_congr h hw this, num_div_one]

/-! The same facts as rewriting rules on data. -/

/-- Addition up to the sign of zero. -/
noncomputable def nadd (A : Rounding) (u v : Val) : Val := (A.add u v).canon
/-- Multiplication up to the sign of zero. -/
noncomputable def nmul (A : Rounding) (u v : Val) : Val := (A.mul u v).canon

theorem num_add (a b : S) : num (a + b) = nadd (IEEE.A S) (num a) (num b) := by
  unfold num nadd; rw [den_add]; exact Rounding.canon_add _ (by simp) (by simp)
theorem num_mul (a b : S) : num (a * b) = nmul (IEEE.A S) (num a) (num b) := by
  unfold num nmul; rw [den_mul]; exact Rounding.canon_mul _ (by simp) (by simp)
theorem num_zero : num (zero : S) = .fin 0 := by rw [num_finite finite_zero, real_zero]
theorem num_one : num (one : S) = .fin 1 := by rw [num_finite finite_one, real_one]
theorem nadd_zero (a : S) : nadd (IEEE.A S) (num a) (.fin 0) = num a := by
  rw [← num_zero (S := S), ← num_add, num_add_zero]
theorem zero_nadd (a : S) : nadd (IEEE.A S) (.fin 0) (num a) = num a := by
  rw [← num_zero (S := S), ← num_add, num_zero_add]
theorem nmul_one (a : S) : nmul (IEEE.A S) (num a) (.fin 1) = num a := by
  rw [← num_one (S := S), ← num_mul, num_mul_one]
theorem one_nmul (a : S) : nmul (IEEE.A S) (.fin 1) (num a) = num a := by
  rw [← num_one (S := S), ← num_mul, num_one_mul]
theorem nmul_zero {a : S} (h : IsFinite a) : nmul (IEEE.A S) (num a) (.fin 0) = .fin 0 := by
  rw [← num_zero (S := S), ← num_mul, num_mul_zero h]
theorem zero_nmul {a : S} (h : IsFinite a) : nmul (IEEE.A S) (.fin 0) (num a) = .fin 0 := by
  rw [← num_zero (S := S), ← num_mul, num_zero_mul h]
theorem nadd_00 : nadd (IEEE.A S) (.fin 0) (.fin 0) = .fin 0 := by
  simpa only [num_zero] using nadd_zero (zero : S)
theorem nadd_01 : nadd (IEEE.A S) (.fin 0) (.fin 1) = .fin 1 := by
  simpa only [num_one] using zero_nadd (one : S)
theorem nadd_10 : nadd (IEEE.A S) (.fin 1) (.fin 0) = .fin 1 := by
  simpa only [num_one] using nadd_zero (one : S)
theorem nmul_00 : nmul (IEEE.A S) (.fin 0) (.fin 0) = .fin 0 := by
  simpa only [num_zero] using nmul_zero (finite_zero (S := S))
theorem nmul_01 : nmul (IEEE.A S) (.fin 0) (.fin 1) = .fin 0 := by
  simpa only [num_zero] using nmul_one (zero : S)
theorem nmul_10 : nmul (IEEE.A S) (.fin 1) (.fin 0) = .fin 0 := by
  simpa only [num_zero] using one_nmul (zero : S)
theorem nmul_11 : nmul (IEEE.A S) (.fin 1) (.fin 1) = .fin 1 := by
  simpa only [num_one] using one_nmul (one : S)

theorem nadd_mul_zero (a b : S) :
    nadd (IEEE.A S) (nmul (IEEE.A S) (num a) (num b)) (.fin 0) = nmul (IEEE.A S) (num a) (num b) := by
  rw [← num_mul, nadd_zero]
theorem zero_nadd_mul (a b : S) :
    nadd (IEEE.A S) (.fin 0) (nmul (IEEE.A S) (num a) (num b)) = nmul (IEEE.A S) (num a) (num b) := by
  rw [← num_mul, zero_nadd]
theorem nadd_neg {a : S} (h : IsFinite a) : nadd (IEEE.A S) (num a) (num (-a)) = .fin 0 := by
  rw [← num_add, ← (same_sub a a).num, (same_sub_self h).num, num_zero]
theorem neg_nadd {a : S} (h : IsFinite a) : nadd (IEEE.A S) (num (-a)) (num a) = .fin 0 := by
  rw [← num_add, (same_add_comm _ _).num, ← (same_sub a a).num, (same_sub_self h).num, num_zero]

theorem isNaN_add_finite {a b : S} (ha : IsFinite a) (hb : ¬ IsNaN b) : ¬ IsNaN (a + b) := by
  intro h
  unfold IsNaN at h hb; unfold IsFinite at ha
  rw [den_add, Rounding.add_eq_nan] at h
  rcases h with h | h | ⟨s, h, h'⟩
  · rw [h] at ha; exact ha
  · exact hb h
  · rw [h] at ha; exact ha
theorem isNaN_mul_finite {a b : S} (ha : IsFinite a) (hb : IsFinite b) : ¬ IsNaN (a * b) := by
  unfold IsNaN; rw [mul_finite ha hb]; unfold Rounding.finish Val.mkZero
  split_ifs <;> simp
/-- One divided by a zero is an infinity. -/
theorem one_div_zero_val {s : S} (h : (s == zero) = true) : ∃ t, den (one / s) = .inf t := by
  rw [beq_iff, val_zero] at h
  have hf : (den s).IsFin := Val.isFin_iff.2 ⟨h.1, by
    rw [show (den s).ereal = 0 from h.2.2]; simp⟩
  have h0 : (den s).real = 0 := by
    have := Val.IsFin.ereal hf
    rw [show (den s).ereal = 0 from h.2.2] at this
    exact_mod_cast this.symm
  exact ⟨_, by rw [den_div, den_one, Rounding.div_fin _ (by simp) hf, if_pos h0, if_neg (by simp)]⟩

/-- Rewrite `num` of a sum of products with literal zeros and ones. -/
macro "num_simp" "[" hs:Lean.Parser.Tactic.simpLemma,* "]" : tactic =>
  `(tactic| simp only [num_add, num_mul, num_zero, num_one, nadd_zero, zero_nadd, nmul_one, one_nmul,
    nmul_zero, zero_nmul, nadd_00, nadd_01, nadd_10, nmul_00, nmul_01, nmul_10, nmul_11,
    nadd_mul_zero, zero_nadd_mul, nadd_neg, neg_nadd, $hs,*])

end IEEE

end VecMath
