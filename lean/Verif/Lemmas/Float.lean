import Verif.Lemmas.Proj
/-! # Scalar lemmas for layer F: squares, sums of squares, square roots, integer rounding -/

open Classical

namespace VecMath
open Scalar

namespace IEEE
variable {S : Type} [Scalar S] [IEEE S]

theorem isNaN_mul_self {a : S} : IsNaN (a * a) ↔ IsNaN a := by
  unfold IsNaN; rw [den_mul]; exact (Rounding.mul_self _ _).1
theorem val_mul_self_nonneg (a : S) : 0 ≤ val (a * a) := by
  unfold val; rw [den_mul]; exact (Rounding.mul_self _ _).2
theorem isNaN_add_left {a b : S} (h : IsNaN a) : IsNaN (a + b) := by
  unfold IsNaN at *; rw [den_add, h]; simp
theorem isNaN_add_right {a b : S} (h : IsNaN b) : IsNaN (a + b) := by
  unfold IsNaN at *; rw [den_add, h]; simp
theorem isNaN_sub_left {a b : S} (h : IsNaN a) : IsNaN (a - b) := by
  unfold IsNaN at *; rw [den_sub, h]; simp [Rounding.sub]
theorem isNaN_sub_right {a b : S} (h : IsNaN b) : IsNaN (a - b) := by
  unfold IsNaN at *; rw [den_sub, h]; simp [Rounding.sub]
theorem isNaN_mul_left {a b : S} (h : IsNaN a) : IsNaN (a * b) := by
  unfold IsNaN at *; rw [den_mul, h]; simp
theorem isNaN_mul_right {a b : S} (h : IsNaN b) : IsNaN (a * b) := by
  unfold IsNaN at *; rw [den_mul, h]; simp
theorem isNaN_div_left {a b : S} (h : IsNaN a) : IsNaN (a / b) := by
  unfold IsNaN at *; rw [den_div, h]; simp
theorem isNaN_div_right {a b : S} (h : IsNaN b) : IsNaN (a / b) := by
  unfold IsNaN at *; rw [den_div, h]; simp
theorem add_nonneg {a b : S} (ha : ¬ IsNaN a) (hb : ¬ IsNaN b) (ha' : 0 ≤ val a) (hb' : 0 ≤ val b) :
    ¬ IsNaN (a + b) ∧ 0 ≤ val (a + b) := by
  unfold IsNaN val at *; rw [den_add]; exact Rounding.add_nonneg _ ha hb ha' hb'
theorem isNaN_sub_comm {a b : S} : IsNaN (a - b) ↔ IsNaN (b - a) := by
  unfold IsNaN; rw [den_sub, den_sub, Rounding.sub_eq_nan, Rounding.sub_eq_nan]
  constructor <;> rintro (h | h | ⟨s, h, h'⟩) <;> simp_all

theorem isNaN_sub_finite {a b : S} (ha : IsFinite a) (hb : ¬ IsNaN b) : ¬ IsNaN (b - a) := by
  unfold IsNaN at *; rw [den_sub, Rounding.sub_eq_nan]
  rintro (h | h | ⟨s, h, h'⟩)
  · exact hb h
  · exact ha.not_nan h
  · unfold IsFinite at ha; rw [h'] at ha; exact ha

/-- Squares only depend on the magnitude. -/
theorem same_sq {a b : S} (ha : ¬ IsNaN a) (hb : ¬ IsNaN b) (h : val a = val b ∨ val a = - val b) :
    Same (a * a) (b * b) := by
  unfold Same; rw [den_mul, den_mul]
  unfold IsNaN val at *
  generalize den a = x at *
  generalize den b = y at *
  have fin_case : ∀ {x y : Val}, x.IsFin → y.IsFin → (x.ereal = y.ereal ∨ x.ereal = - y.ereal) →
      (IEEE.A S).mul x x = (IEEE.A S).mul y y := by
    intro x y hx hy h
    rw [Rounding.mul_fin _ hx hx, Rounding.mul_fin _ hy hy]
    rw [hx.ereal, hy.ereal] at h
    have : x.real * x.real = y.real * y.real := by
      rcases h with h | h
      · have : x.real = y.real := by exact_mod_cast h
        rw [this]
      · have : x.real = - y.real := by exact_mod_cast h
        rw [this]; ring
    rw [this]; simp
  induction x using Val.cases_inf_fin with
  | hn => exact absurd rfl ha
  | hi s => induction y using Val.cases_inf_fin with
    | hn => exact absurd rfl hb
    | hi t => simp
    | hf y hy => rw [hy.ereal] at h; cases s <;> simp [← EReal.coe_neg] at h
  | hf x hx => induction y using Val.cases_inf_fin with
    | hn => exact absurd rfl hb
    | hi t => rw [hx.ereal] at h; cases t <;> simp at h
    | hf y hy => exact fin_case hx hy h

theorem val_abs (a : S) : val (Scalar.abs a) = val a ∨ val (Scalar.abs a) = - val a := by
  unfold val; rw [den_abs]
  rcases Val.abs_eq (a := den a) with h | h
  · left; rw [h]
  · right; rw [h, Val.neg_ereal]

theorem val_abs_eq_max {a : S} : val (Scalar.abs a) = max (val a) (- val a) := by
  have h0 := val_abs_nonneg a
  rcases val_abs a with h | h
  · rw [h] at h0 ⊢
    rw [max_eq_left]
    calc -val a ≤ -0 := EReal.neg_le_neg_iff.2 h0
      _ = 0 := by simp
      _ ≤ val a := h0
  · rw [h] at h0 ⊢
    rw [max_eq_right]
    have := EReal.neg_le_neg_iff.2 h0
    simp at this
    exact this.trans h0

theorem isNaN_sqrt_nonneg {a : S} (h : 0 ≤ val a) : IsNaN (Scalar.sqrt a) ↔ IsNaN a := by
  constructor
  · intro h'
    by_contra hn
    unfold IsNaN val at *; rw [den_sqrt] at h'
    exact (Rounding.sqrt_nonneg _ hn h).1 h'
  · intro h'; unfold IsNaN at *; rw [den_sqrt, h']; rfl
theorem val_sqrt_nonneg {a : S} (hn : ¬ IsNaN a) (h : 0 ≤ val a) : 0 ≤ val (Scalar.sqrt a) := by
  unfold IsNaN val at *; rw [den_sqrt]
  exact (Rounding.sqrt_nonneg _ hn h).2
theorem val_sqrt_mono {a b : S} (ha : ¬ IsNaN a) (hb : ¬ IsNaN b) (h0 : 0 ≤ val a)
    (h : val a ≤ val b) : val (Scalar.sqrt a) ≤ val (Scalar.sqrt b) := by
  unfold IsNaN val at *; rw [den_sqrt, den_sqrt]
  exact Rounding.sqrt_mono _ ha hb h0 h

theorem same_sub_sq (a b : S) : Same ((a - b) * (a - b)) ((b - a) * (b - a)) := by
  by_cases h : IsNaN (a - b)
  · have h' := isNaN_sub_comm.1 h
    exact (isNaN_mul_self.2 h).trans (isNaN_mul_self.2 h').symm
  · have h' : ¬ IsNaN (b - a) := fun h' => h (isNaN_sub_comm.1 h')
    have := (beq_iff.1 (sub_neg_beq h)).2.2
    exact same_sq h h' (.inr (by simpa using this))

/-! ### Magnitudes of vectors -/

theorem sumsq2 {a b : S} : (IsNaN (a * a + b * b) ↔ IsNaN a ∨ IsNaN b) ∧
    (¬ IsNaN (a * a + b * b) → 0 ≤ val (a * a + b * b)) := by
  by_cases ha : IsNaN a
  · have := isNaN_add_left (b := b * b) (isNaN_mul_self.2 ha)
    simp [ha, this]
  by_cases hb : IsNaN b
  · have := isNaN_add_right (a := a * a) (isNaN_mul_self.2 hb)
    simp [hb, this]
  have := add_nonneg (mt isNaN_mul_self.1 ha) (mt isNaN_mul_self.1 hb) (val_mul_self_nonneg a)
    (val_mul_self_nonneg b)
  simp [ha, hb, this]

theorem sumsq3 {a b c : S} : (IsNaN (a * a + b * b + c * c) ↔ IsNaN a ∨ IsNaN b ∨ IsNaN c) ∧
    (¬ IsNaN (a * a + b * b + c * c) → 0 ≤ val (a * a + b * b + c * c)) := by
  by_cases hab : IsNaN (a * a + b * b)
  · have := isNaN_add_left (b := c * c) hab
    rw [(sumsq2).1] at hab
    simp [this]; tauto
  by_cases hc : IsNaN c
  · have := isNaN_add_right (a := a * a + b * b) (isNaN_mul_self.2 hc)
    simp [hc, this]
  have := add_nonneg hab (mt isNaN_mul_self.1 hc) (sumsq2.2 hab) (val_mul_self_nonneg c)
  rw [sumsq2.1] at hab
  simp [hc, this]; tauto

theorem dot_self_isNaN2 {v : Vector2 S} : IsNaN (Api.dot v v) ↔ ¬ NoNaN v := by
  rw [Vector2.dot_def, sumsq2.1, Vector2.noNaN]; tauto
theorem dot_self_isNaN3 {v : Vector3 S} : IsNaN (Api.dot v v) ↔ ¬ NoNaN v := by
  rw [Vector3.dot_def, sumsq3.1, Vector3.noNaN]; tauto
theorem dot_self_nonneg2 {v : Vector2 S} (h : NoNaN v) : 0 ≤ val (Api.dot v v) :=
  sumsq2.2 (mt dot_self_isNaN2.1 (not_not.2 h))
theorem dot_self_nonneg3 {v : Vector3 S} (h : NoNaN v) : 0 ≤ val (Api.dot v v) :=
  sumsq3.2 (mt dot_self_isNaN3.1 (not_not.2 h))
theorem length_isNaN2 {v : Vector2 S} : IsNaN (Api.length v) ↔ ¬ NoNaN v := by
  by_cases h : NoNaN v
  · rw [Vector2.length_def, isNaN_sqrt_nonneg (dot_self_nonneg2 h), dot_self_isNaN2]
  · have := dot_self_isNaN2.2 h
    simp only [h, not_false_eq_true, iff_true]
    unfold IsNaN at *; rw [Vector2.length_def, den_sqrt, this]; rfl
theorem length_isNaN3 {v : Vector3 S} : IsNaN (Api.length v) ↔ ¬ NoNaN v := by
  by_cases h : NoNaN v
  · rw [Vector3.length_def, isNaN_sqrt_nonneg (dot_self_nonneg3 h), dot_self_isNaN3]
  · have := dot_self_isNaN3.2 h
    simp only [h, not_false_eq_true, iff_true]
    unfold IsNaN at *; rw [Vector3.length_def, den_sqrt, this]; rfl

/-! ### Integer rounding -/

theorem rep_int_floor {x : ℝ} (h : (IEEE.A S).Rep x) : (IEEE.A S).Rep (⌊x⌋ : ℝ) :=
  ⟨(IEEE.A S).rnd_floor h.1, (IEEE.A S).fits_floor h.1 h.2⟩
theorem rep_int_ceil {x : ℝ} (h : (IEEE.A S).Rep x) : (IEEE.A S).Rep (⌈x⌉ : ℝ) := by
  have := (rep_int_floor (S := S) h.neg).neg
  rw [Int.floor_neg] at this; simpa using this

theorem toInt_spec {f : ℝ → ℤ} (h0 : f 0 = 0) {a : S} {g : S} (hg : den g = (den a).toInt f)
    (h : IsFinite a) : IsFinite g ∧ real g = f (real a) := by
  unfold IsFinite real at *
  rw [hg]
  refine Val.IsFin.cases (P := fun v => (v.toInt f).IsFin ∧ (v.toInt f).real = f v.real) h ?_ ?_
  · simp [Val.toInt, h0]
  · intro x; simp [Val.toInt]

theorem truncR_zero : Val.truncR 0 = 0 := by simp [Val.truncR]
theorem roundR_zero : Val.roundR 0 = 0 := by simp [Val.roundR]; norm_num

theorem rep_trunc {x : ℝ} (h : (IEEE.A S).Rep x) : (IEEE.A S).Rep (Val.truncR x : ℝ) := by
  unfold Val.truncR; split_ifs
  · exact rep_int_floor h
  · exact rep_int_ceil h

theorem rep_fract {x : ℝ} (h : (IEEE.A S).Rep x) : (IEEE.A S).Rep (x - Val.truncR x) := by
  have key : ∀ y, 0 ≤ y → (IEEE.A S).Rep y → (IEEE.A S).Rep (y - ⌊y⌋) := fun y hy hr =>
    ⟨(IEEE.A S).rnd_fract hy hr.1, (IEEE.A S).fits_mono (by
      show |Int.fract y| ≤ |1|
      rw [abs_of_nonneg (Int.fract_nonneg y), abs_one]; exact (Int.fract_lt_one y).le)
      (IEEE.A S).fits_one⟩
  unfold Val.truncR; split_ifs with h0
  · exact key x h0 h
  · have := (key (-x) (by linarith) h.neg).neg
    rw [Int.floor_neg] at this
    convert this using 1; push_cast; ring

end IEEE

end VecMath
