import Verif.Props.FloatInvAffine
import Verif.Props.FloatSideEx
import Verif.Lemmas.FloatSlab
import Verif.Props.FloatExact
import Verif.Lemmas.Fl
import Verif.Props.FloatExamples3
/-!
# C108: concrete `f32` cases, and an inverse that divides by zero
-/

open Classical

namespace VecMath
open Scalar IEEE

/-- A linear part with determinant 5, and no translation. -/
noncomputable def lostW : Matrix4x4 F32 := Matrix4x4.new #v[
  int32 5, zero, zero, zero,
  zero, int32 4094, int32 4093, zero,
  zero, int32 4095, int32 4094, zero,
  zero, zero, zero, one]

theorem exactly_zero108 : Exactly (zero : F32) 0 := ⟨finite_zero, real_zero⟩
theorem exactly_one108 : Exactly (one : F32) 1 := ⟨finite_one, real_one⟩
theorem finite_lostW : AllFinite lostW := by
  rw [Matrix4x4.allFinite]
  intro i hi
  interval_cases i <;> first | exact finite_zero | exact finite_one | trivial
theorem affine_lostW : lostW.toReal 3 = ![0, 0, 0, 1] := by
  funext j
  fin_cases j
  · exact real_zero
  · exact real_zero
  · exact real_zero
  · exact real_one
theorem bound_lostW (i j : Fin 4) : |lostW.toReal i j| ≤ 4095 := by
  have a5 : |((5 : ℤ) : ℝ)| ≤ 4095 := by norm_num
  have a3 : |((4093 : ℤ) : ℝ)| ≤ 4095 := by norm_num
  have a4 : |((4094 : ℤ) : ℝ)| ≤ 4095 := by norm_num
  have a6 : |((4095 : ℤ) : ℝ)| ≤ 4095 := by norm_num
  have z : |real (zero : F32)| ≤ 4095 := by rw [real_zero]; norm_num
  have o : |real (one : F32)| ≤ 4095 := by rw [real_one]; norm_num
  fin_cases i <;> fin_cases j <;> first | exact z | exact a5 | exact a3 | exact a4 | exact a6 | exact o
theorem moderate_lostW : lostW.Moderate := C108_moderate3 lostW 4095 finite_lostW bound_lostW (by
  have := big32 (x := 4095 * 4095) (by norm_num)
  rwa [abs_of_pos (by norm_num)] at this)
theorem int_mul32 {x y : F32} {a b : ℤ} (hx : Exactly x a) (hy : Exactly y b) (h : |a * b| ≤ 16777216) : Exactly (x * y) ((a * b : ℤ) : ℝ) := by
  refine exec_mul hx hy ?_ ?_ <;> rw [← Int.cast_mul]
  · exact rnd_int32 h
  · refine big32 ?_
    rw [← Int.cast_abs]
    exact_mod_cast h.trans (by norm_num)
theorem int_add32' {x y : F32} {a b : ℤ} (hx : Exactly x a) (hy : Exactly y b) (h : |a + b| ≤ 16777216) : Exactly (x + y) ((a + b : ℤ) : ℝ) := by
  refine exec_add hx hy ?_ ?_ <;> rw [← Int.cast_add]
  · exact rnd_int32 h
  · refine big32 ?_
    rw [← Int.cast_abs]
    exact_mod_cast h.trans (by norm_num)
theorem int_sub32' {x y : F32} {a b : ℤ} (hx : Exactly x a) (hy : Exactly y b) (h : |a - b| ≤ 16777216) : Exactly (x - y) ((a - b : ℤ) : ℝ) := by
  refine exec_sub hx hy ?_ ?_ <;> rw [← Int.cast_sub]
  · exact rnd_int32 h
  · refine big32 ?_
    rw [← Int.cast_abs]
    exact_mod_cast h.trans (by norm_num)
theorem int_zero32 : Exactly (zero : F32) ((0 : ℤ) : ℝ) := ⟨finite_zero, by rw [real_zero, Int.cast_zero]⟩
theorem int_neg32 {x : F32} {a : ℤ} (hx : Exactly x a) : Exactly (-x) ((-a : ℤ) : ℝ) := ⟨finite_neg.2 hx.1, by rw [IEEE.real_neg, hx.2, Int.cast_neg]⟩
theorem linDet_lostW : Exactly lostW.linDet ((5 : ℤ) : ℝ) := by
  have z := int_zero32
  have p1 : Exactly ((int32 4094 : F32) * int32 4094 - int32 4093 * int32 4095) ((1 : ℤ) : ℝ) :=
    int_sub32' (int_mul32 exactly_int exactly_int (by norm_num)) (int_mul32 exactly_int exactly_int (by norm_num)) (by norm_num)
  have p2 : Exactly (zero * int32 4094 - int32 4093 * zero : F32) ((0 : ℤ) : ℝ) :=
    int_sub32' (int_mul32 z exactly_int (by norm_num)) (int_mul32 exactly_int z (by norm_num)) (by norm_num)
  have p3 : Exactly (zero * int32 4095 - int32 4094 * zero : F32) ((0 : ℤ) : ℝ) :=
    int_sub32' (int_mul32 z exactly_int (by norm_num)) (int_mul32 exactly_int z (by norm_num)) (by norm_num)
  exact int_add32' (int_add32' (int_mul32 (x := int32 5) (a := 5) (b := 1) exactly_int p1 (by norm_num)) (int_mul32 (a := 0) (b := -0) z (int_neg32 p2) (by norm_num)) (by norm_num))
    (int_mul32 (a := 0) (b := 0) z p3 (by norm_num)) (by norm_num)
theorem linSarrus_lostW : Exactly lostW.linSarrus 0 := by
  have z := int_zero32
  have p1 : Exactly ((int32 5 : F32) * int32 4094 * int32 4094) 83804176 := by
    refine exec_mul (int_mul32 (x := int32 5) (y := int32 4094) (a := 5) (b := 4094) exactly_int exactly_int (by norm_num)) exactly_int ?_ (big32 (by norm_num))
    have := Fmt.rnd_lit_even binary32 (x := 83804180) 26 3 10475522 (by decide) (by decide) (by norm_num) (by norm_num) (by norm_num) (by norm_num)
    norm_num at this ⊢
    exact this
  have p2 : Exactly ((int32 5 : F32) * int32 4093 * int32 4095) 83804176 := by
    refine exec_mul (int_mul32 (x := int32 5) (y := int32 4093) (a := 5) (b := 4093) exactly_int exactly_int (by norm_num)) exactly_int ?_ (big32 (by norm_num))
    have := Fmt.rnd_lit binary32 (x := 83804175) 26 3 10475522 (by decide) (by norm_num) (by norm_num) (by norm_num) (by norm_num)
    norm_num at this ⊢
    exact this
  have r1 : (Binary.F F32).rnd (83804176 : ℝ) = 83804176 := by
    have := Fmt.rnd_lit binary32 (x := 83804176) 26 3 10475522 (by decide) (by norm_num) (by norm_num) (by norm_num) (by norm_num)
    norm_num at this ⊢
    exact this
  have b1 : |(83804176 : ℝ)| < overflowAt F32 := big32 (by norm_num)
  have q1 : Exactly (zero * int32 4093 * zero : F32) 0 := by
    have := int_mul32 (int_mul32 z (exactly_int (n := 4093) (h := by norm_num)) (by norm_num)) z (by norm_num); simpa using this
  have q2 : Exactly (zero * zero * int32 4095 : F32) 0 := by
    have := int_mul32 (int_mul32 z z (by norm_num)) (exactly_int (n := 4095) (h := by norm_num)) (by norm_num); simpa using this
  have q3 : Exactly (zero * zero * int32 4094 : F32) 0 := by
    have := int_mul32 (int_mul32 z z (by norm_num)) (exactly_int (n := 4094) (h := by norm_num)) (by norm_num); simpa using this
  have q4 : Exactly (zero * int32 4094 * zero : F32) 0 := by
    have := int_mul32 (int_mul32 z (exactly_int (n := 4094) (h := by norm_num)) (by norm_num)) z (by norm_num); simpa using this
  have s1 := exec_add (z := 83804176) p1 q1 (by rw [add_zero]; exact r1) (by rw [add_zero]; exact b1)
  have s2 := exec_add (z := 83804176) s1 q2 (by rw [add_zero]; exact r1) (by rw [add_zero]; exact b1)
  have r0 : (Binary.F F32).rnd (0 : ℝ) = 0 := by have := rnd_int32 (n := 0) (by norm_num); simpa using this
  have b0 : |(0 : ℝ)| < overflowAt F32 := big32 (by norm_num)
  have s3 := exec_sub (z := 0) s2 p2 (by rw [sub_self]; exact r0) (by rw [sub_self]; exact b0)
  have s4 := exec_sub (z := 0) s3 q3 (by rw [sub_self]; exact r0) (by rw [sub_self]; exact b0)
  exact exec_sub (z := 0) s4 q4 (by rw [sub_self]; exact r0) (by rw [sub_self]; exact b0)

theorem not_finite_div_num0 {a w : F32} (h : num w = num (zero : F32)) : ¬ IsFinite (a / w) := by
  have fw := finite_of_num h finite_zero
  have rw0 : real w = 0 := (real_of_num fw finite_zero h).trans real_zero
  intro hf
  by_cases ha : IsFinite a
  · by_cases h0 : real a = 0
    · exact hf.not_nan (nan_div_zero ha fw h0 rw0)
    · obtain h' := den_div_zero ha fw h0 rw0
      unfold IsFinite at hf; rw [h'] at hf; exact hf
  · unfold IsFinite at hf ha
    rw [den_div] at hf
    cases e : den a with
    | nan => rw [e] at hf; exact hf
    | inf s => rw [e, Rounding.div_inf_fin _ s fw] at hf; exact hf
    | nzero => rw [e] at ha; exact ha trivial
    | fin r => rw [e] at ha; exact ha trivial

/-- **C108**: an affine `f32` matrix whose determinant is exactly 5, computed as 5 without rounding error, whose `inverse` is
`Ok` but maps every point to something that is not finite. -/
theorem C108_lost_w : lostW.linPart.det = 5 ∧ (lostW.linDet == int32 5) = true ∧
    ∃ n, lostW.inverse = .ok n ∧ (n.m[15] == zero) = true ∧
      ∀ p : Point3 F32, AllFinite p → ¬ IsFinite (n * p).x ∧ ¬ IsFinite (n * p).y ∧ ¬ IsFinite (n * p).z := by
  have d := linDet_lostW
  have hz : (lostW.linDet == zero) = false := by
    rw [Bool.eq_false_iff, Ne, obeq_real d.1 finite_zero, d.2, real_zero]; norm_num
  refine ⟨?_, ?_, ?_⟩
  · rw [Matrix.det_fin_three]
    show real (int32 5) * real (int32 4094) * real (int32 4094) - real (int32 5) * real (int32 4093) * real (int32 4095)
      - real (zero : F32) * real (zero : F32) * real (int32 4094) + real (zero : F32) * real (int32 4093) * real (zero : F32)
      + real (zero : F32) * real (zero : F32) * real (int32 4095) - real (zero : F32) * real (int32 4094) * real (zero : F32) = 5
    simp only [real_int32, real_zero]; norm_num
  · rw [obeq_real d.1 finite_int32, d.2, real_int32]
  · obtain ⟨n, hn, -, -, -, -, -, -, -, -, -, e12, e13, e14, e15⟩ := (C108_affine3 lostW finite_lostW affine_lostW moderate_lostW d.1).2 hz
    have s := linSarrus_lostW
    have e15 := e15 s.1.not_nan
    have z15 : (n.m[15] == zero) = true := by
      have := quot_zero (x := lostW.linSarrus) (num_of_real s.1 finite_zero (by rw [s.2, real_zero])) rfl d.1 hz
      exact beq_of_num' ((num_of_beq e15).trans (num_of_beq this)) finite_zero.not_nan
    refine ⟨n, hn, z15, fun p hp => ?_⟩
    rw [Point3.allFinite] at hp
    have w : num (n.m[12] * p.x + n.m[13] * p.y + n.m[14] * p.z + n.m[15]) = num (zero : F32) := by
      have c : ∀ {a x : F32}, (a == zero) = true → IsFinite x → num (a * x) = num (zero : F32) := fun h hx =>
        (same_mul_comm _ _).num.trans (nz_mul hx (num_of_beq h))
      rw [n_add0 (num_of_beq z15), n_add0 (c e14 hp.2.2), n_add0 (c e13 hp.2.1)]
      exact c e12 hp.1
    exact ⟨not_finite_div_num0 w, not_finite_div_num0 w, not_finite_div_num0 w⟩

/-! ### Cases that meet the hypotheses -/
theorem shear_last : shear.toReal 2 = ![0, 0, 1] := by
  rw [shear_real]; rfl
theorem moderate_shear : shear.Moderate := C108_moderate2 shear 4 finite_shear (fun i j => by
  rw [shear_real]; fin_cases i <;> fin_cases j <;> norm_num) (by
  have := big32 (x := 4 * 4) (by norm_num)
  rwa [abs_of_pos (by norm_num)] at this)
theorem linDet_shear : Exactly shear.linDet ((1 : ℤ) : ℝ) :=
  int_sub32' (int_mul32 (x := int32 1) (y := int32 1) exactly_int exactly_int (by norm_num))
    (int_mul32 (x := int32 2) (y := int32 0) exactly_int exactly_int (by norm_num)) (by norm_num)
example := C108_affine2 shear finite_shear shear_last moderate_shear linDet_shear.1
example : ∃ n, shear.inverse = .ok n ∧ n.toReal 2 = ![0, 0, 1] := by
  obtain ⟨n, h, hf, -⟩ := shear_inverse
  exact ⟨n, h, (C108_point2 shear n finite_shear shear_last moderate_shear linDet_shear.1 h hf).1⟩
/-- The linear part of the shear, moved elsewhere. -/
noncomputable def shear' : Matrix3x3 F32 :=
  ⟨#v[int32 1, int32 2, int32 300, int32 0, int32 1, int32 (-40), int32 0, int32 0, int32 1]⟩
theorem finite_shear' : AllFinite shear' := by
  rw [Matrix3x3.allFinite, forall_lt_9]
  exact ⟨trivial, trivial, trivial, trivial, trivial, trivial, trivial, trivial, trivial⟩
theorem shear'_real : shear'.toReal = !![1, 2, 300; 0, 1, -40; 0, 0, 1] := by
  ext i j
  fin_cases i <;> fin_cases j <;> simp [shear', Matrix3x3.toReal, real_int32]
example : ∃ x y, shear.inverse = .ok x ∧ shear'.inverse = .ok y ∧ x.SameLinear y := by
  have := C108_same_linear2 shear shear' finite_shear finite_shear' shear_last (by rw [shear'_real]; rfl) moderate_shear
    (C108_moderate2 shear' 300 finite_shear' (fun i j => by
      rw [shear'_real]; fin_cases i <;> fin_cases j <;> norm_num) (by
      have := big32 (x := 300 * 300) (by norm_num)
      rwa [abs_of_pos (by norm_num)] at this)) linDet_shear.1 (fun i j hi hj => by
      have r : ∀ n h, ((int32 n h : F32) == int32 n h) = true := fun n h => beq_of_num' rfl finite_int32.not_nan
      interval_cases i <;> interval_cases j <;> exact r _ (by norm_num))
  rcases this with h | h
  · obtain ⟨n, hn, -⟩ := shear_inverse
    rw [hn] at h; cases h.1
  · exact h
theorem shear3_real : shear3.toReal = !![1, 2, 0, 3; 0, 1, -1, 4; 0, 0, 1, 1; 0, 0, 0, 1] := by
  ext i j
  fin_cases i <;> fin_cases j <;> simp [shear3, Matrix4x4.toReal, real_int32]
theorem shear3_right : shear3.toReal * !![1, -2, -2, 7; 0, 1, 1, -5; 0, 0, 1, -1; 0, 0, 0, 1] = 1 := by
  rw [shear3_real]
  ext i j
  fin_cases i <;> fin_cases j <;> simp [Matrix.mul_apply, Fin.sum_univ_four] <;> norm_num
theorem shear3_inverse : ∃ r, shear3.inverse = .ok r ∧ AllFinite r := by
  have hi := Matrix.inv_eq_right_inv shear3_right
  obtain ⟨r, h, hf, -⟩ := C68_inverse4x4 (d := 0) (K := 7) shear3 finite_shear3 grid_shear3 (fits_f32 (by norm_num)) (fits_f32 (by norm_num))
    (fits_f32 (by norm_num)) (IsUnit.of_mul_eq_one _ shear3_right) (by
      rw [hi]
      intro i j
      have g : ∀ n : ℤ, |n| ≤ 7 → OnGrid 0 7 (n : ℝ) := fun n hn => OnGrid.int hn
      fin_cases i <;> fin_cases j
      · exact (g 1 (by norm_num)).congr (by simp)
      · exact (g (-2) (by norm_num)).congr (by simp)
      · exact (g (-2) (by norm_num)).congr (by simp)
      · exact (g 7 (by norm_num)).congr (by simp)
      · exact (g 0 (by norm_num)).congr (by simp)
      · exact (g 1 (by norm_num)).congr (by simp)
      · exact (g 1 (by norm_num)).congr (by simp)
      · exact (g (-5) (by norm_num)).congr (by simp)
      · exact (g 0 (by norm_num)).congr (by simp)
      · exact (g 0 (by norm_num)).congr (by simp)
      · exact (g 1 (by norm_num)).congr (by simp)
      · exact (g (-1) (by norm_num)).congr (by simp)
      · exact (g 0 (by norm_num)).congr (by simp)
      · exact (g 0 (by norm_num)).congr (by simp)
      · exact (g 0 (by norm_num)).congr (by simp)
      · exact (g 1 (by norm_num)).congr (by simp)) (fits_f32 (by norm_num))
  exact ⟨r, h, hf⟩
theorem bound_shear3 (i j : Fin 4) : |shear3.toReal i j| ≤ 4 := by
  rw [shear3_real]; fin_cases i <;> fin_cases j <;> norm_num
theorem moderate_shear3 : shear3.Moderate := C108_moderate3 shear3 4 finite_shear3 bound_shear3 (by
  have := big32 (x := 4 * 4) (by norm_num)
  rwa [abs_of_pos (by norm_num)] at this)
theorem shear3_last : shear3.toReal 3 = ![0, 0, 0, 1] := by rw [shear3_real]; rfl
theorem linDet_shear3 : Exactly shear3.linDet ((1 : ℤ) : ℝ) := by
  have p : ∀ a b c d : ℤ, ∀ ha hb hc hd, |a * b| ≤ 16 → |c * d| ≤ 16 → |a * b - c * d| ≤ 32 →
      Exactly (int32 a ha * int32 b hb - int32 c hc * int32 d hd : F32) ((a * b - c * d : ℤ) : ℝ) := fun a b c d ha hb hc hd h1 h2 h3 =>
    int_sub32' (int_mul32 exactly_int exactly_int (h1.trans (by norm_num))) (int_mul32 exactly_int exactly_int (h2.trans (by norm_num))) (h3.trans (by norm_num))
  have p1 := p 1 1 (-1) 0 (by norm_num) (by norm_num) (by norm_num) (by norm_num) (by norm_num) (by norm_num) (by norm_num)
  have p2 := int_neg32 (p 0 1 (-1) 0 (by norm_num) (by norm_num) (by norm_num) (by norm_num) (by norm_num) (by norm_num) (by norm_num))
  have p3 := p 0 0 1 0 (by norm_num) (by norm_num) (by norm_num) (by norm_num) (by norm_num) (by norm_num) (by norm_num)
  have q1 := int_mul32 (exactly_int (n := 1) (h := by norm_num)) p1 (by norm_num)
  have q2 := int_mul32 (exactly_int (n := 2) (h := by norm_num)) p2 (by norm_num)
  have q3 := int_mul32 (exactly_int (n := 0) (h := by norm_num)) p3 (by norm_num)
  exact int_add32' (int_add32' q1 q2 (by norm_num)) q3 (by norm_num)
theorem linSarrus_shear3 : IsFinite shear3.linSarrus := by
  have p : ∀ a b c : ℤ, ∀ ha hb hc, |a * b| ≤ 16 → |a * b * c| ≤ 16 →
      Exactly (int32 a ha * int32 b hb * int32 c hc : F32) ((a * b * c : ℤ) : ℝ) := fun a b c ha hb hc h1 h2 =>
    int_mul32 (int_mul32 exactly_int exactly_int (h1.trans (by norm_num))) exactly_int (h2.trans (by norm_num))
  have p1 := p 1 1 1 (by norm_num) (by norm_num) (by norm_num) (by norm_num) (by norm_num)
  have p2 := p 2 (-1) 0 (by norm_num) (by norm_num) (by norm_num) (by norm_num) (by norm_num)
  have p3 := p 0 0 0 (by norm_num) (by norm_num) (by norm_num) (by norm_num) (by norm_num)
  have p4 := p 1 (-1) 0 (by norm_num) (by norm_num) (by norm_num) (by norm_num) (by norm_num)
  have p5 := p 2 0 1 (by norm_num) (by norm_num) (by norm_num) (by norm_num) (by norm_num)
  have p6 := p 0 1 0 (by norm_num) (by norm_num) (by norm_num) (by norm_num) (by norm_num)
  exact (int_sub32' (int_sub32' (int_sub32' (int_add32' (int_add32' p1 p2 (by norm_num)) p3 (by norm_num)) p4 (by norm_num)) p5 (by norm_num)) p6 (by norm_num)).1
example := C108_affine3 shear3 finite_shear3 shear3_last moderate_shear3 linDet_shear3.1
example : ∃ n, shear3.inverse = .ok n ∧
    |n.toReal 3 3 - 1| * |real shear3.linDet| ≤ (1 + uro F32) * twoDets F32 shear3.linPart 4 + (uro F32 + tiny F32) * |real shear3.linDet| := by
  obtain ⟨n, h, hf⟩ := shear3_inverse
  exact ⟨n, h, C108_w3 shear3 n 4 finite_shear3 shear3_last moderate_shear3 linDet_shear3.1 linSarrus_shear3
    (fun i j => bound_shear3 i.castSucc j.castSucc) h hf⟩
/-- The linear part of the shear, moved elsewhere. -/
noncomputable def shear3' : Matrix4x4 F32 :=
  ⟨#v[int32 1, int32 2, int32 0, int32 300, int32 0, int32 1, int32 (-1), int32 (-40), int32 0, int32 0, int32 1, int32 7,
    int32 0, int32 0, int32 0, int32 1]⟩
theorem finite_shear3' : AllFinite shear3' := by
  rw [Matrix4x4.allFinite, forall_lt_16]
  exact ⟨trivial, trivial, trivial, trivial, trivial, trivial, trivial, trivial, trivial, trivial, trivial, trivial,
    trivial, trivial, trivial, trivial⟩
theorem shear3'_real : shear3'.toReal = !![1, 2, 0, 300; 0, 1, -1, -40; 0, 0, 1, 7; 0, 0, 0, 1] := by
  ext i j
  fin_cases i <;> fin_cases j <;> simp [shear3', Matrix4x4.toReal, real_int32]
example : ∃ x y, shear3.inverse = .ok x ∧ shear3'.inverse = .ok y ∧ x.SameLinear y := by
  have := C108_same_linear3 shear3 shear3' finite_shear3 finite_shear3' shear3_last (by rw [shear3'_real]; rfl) moderate_shear3
    (C108_moderate3 shear3' 300 finite_shear3' (fun i j => by
      rw [shear3'_real]; fin_cases i <;> fin_cases j <;> norm_num) (by
      have := big32 (x := 300 * 300) (by norm_num)
      rwa [abs_of_pos (by norm_num)] at this)) linDet_shear3.1 (fun i j hi hj => by
      have r : ∀ n h, ((int32 n h : F32) == int32 n h) = true := fun n h => beq_of_num' rfl finite_int32.not_nan
      interval_cases i <;> interval_cases j <;> exact r _ (by norm_num))
  rcases this with h | h
  · obtain ⟨n, hn, -⟩ := shear3_inverse
    rw [hn] at h; cases h.1
  · exact h
example := C108_translate2 v34 finite_v34
example := C108_translate3 v236 finite_v236
example : ∃ n, (Matrix3x3.new #v[one, Fl.big binary32, zero, zero, one, Fl.big binary32, zero, zero, one]).inverse = .ok n ∧ AllNaN n := by
  refine C108_overflow2 (Fl.big binary32) Fl.finite_big ?_
  rw [(correct_mul (S := F32) (a := Fl.big binary32) (b := Fl.big binary32) Fl.finite_big Fl.finite_big).1, not_lt, ← pow_two, abs_pow, sq_abs]
  exact Fl.big_sq
end VecMath
