import Verif.Spec.RoundTrip
import Verif.Props.FloatErrorMat
import Verif.Props.FloatInverse
import Verif.Props.FloatMatrix
import Verif.Props.FloatTurns
import Verif.Props.FloatExamples
import Verif.Lemmas.Frob
/-!
# Layer F: transforming there and back (C84)
-/

open Classical

namespace VecMath
open Scalar IEEE

section
variable {S : Type} [Scalar S] [IEEE S] [Binary S]

/-- Two approximate matrix-vector products in a row. -/
theorem trip_core {n : ℕ} {B A : Matrix (Fin n) (Fin n) ℝ} {x q r : Fin n → ℝ} {m : ℕ} {s : ℝ} (hs : 0 ≤ s)
    (h1 : ∀ j, |q j - ∑ k, A j k * x k| ≤ ((1 + uro S) ^ m - 1) * ∑ k, |A j k * x k| + s) (i : Fin n)
    (h2 : |r i - ∑ j, B i j * q j| ≤ ((1 + uro S) ^ m - 1) * ∑ j, |B i j * q j| + s) :
    |r i - x i| ≤ tripErr S B A x m s i := by
  have hu := uro_pos (S := S)
  have hg1 : (1 : ℝ) ≤ (1 + uro S) ^ m := one_le_pow₀ (by linarith)
  have pe : (1 + uro S) ^ (2 * m) = ((1 + uro S) ^ m) ^ 2 := by rw [mul_comm, pow_mul]
  unfold tripErr
  rw [pe]
  generalize (1 + uro S) ^ m = G at *
  have hq : ∀ j, |q j| ≤ G * (∑ k, |A j k * x k|) + s := by
    intro j
    have a := abs_sub_abs_le_abs_sub (q j) (∑ k, A j k * x k)
    have b := Finset.abs_sum_le_sum_abs (fun k => A j k * x k) Finset.univ
    have c := h1 j
    linarith
  have e : r i - x i = (r i - ∑ j, B i j * q j) + ∑ j, B i j * (q j - ∑ k, A j k * x k) + ∑ k, (B * A - 1) i k * x k := by
    have e1 : ∑ k, (B * A - 1) i k * x k = (∑ j, B i j * ∑ k, A j k * x k) - x i := by
      have : ∀ k, (B * A - 1) i k * x k = (∑ j, B i j * (A j k * x k)) - (1 : Matrix (Fin n) (Fin n) ℝ) i k * x k := by
        intro k
        rw [Matrix.sub_apply, Matrix.mul_apply, sub_mul, Finset.sum_mul]
        simp only [mul_assoc]
      simp only [this, Finset.sum_sub_distrib]
      congr 1
      · rw [Finset.sum_comm]; simp only [Finset.mul_sum]
      · simp [Matrix.one_apply]
    have e2 : ∑ j, B i j * (q j - ∑ k, A j k * x k) = (∑ j, B i j * q j) - ∑ j, B i j * ∑ k, A j k * x k := by
      simp only [mul_sub, Finset.sum_sub_distrib]
    rw [e1, e2]; ring
  have t1 : ∑ j, |B i j * q j| ≤ G * spread B A x i + s * ∑ j, |B i j| := by
    unfold spread
    rw [Finset.mul_sum, Finset.mul_sum, ← Finset.sum_add_distrib]
    refine Finset.sum_le_sum fun j _ => ?_
    rw [abs_mul]
    have := mul_le_mul_of_nonneg_left (hq j) (abs_nonneg (B i j))
    linarith
  have t2 : |∑ j, B i j * (q j - ∑ k, A j k * x k)| ≤ (G - 1) * spread B A x i + s * ∑ j, |B i j| := by
    refine (Finset.abs_sum_le_sum_abs _ _).trans ?_
    unfold spread
    rw [Finset.mul_sum, Finset.mul_sum, ← Finset.sum_add_distrib]
    refine Finset.sum_le_sum fun j _ => ?_
    rw [abs_mul]
    have := mul_le_mul_of_nonneg_left (h1 j) (abs_nonneg (B i j))
    linarith
  have t3 : |∑ k, (B * A - 1) i k * x k| ≤ lost B A x i := by
    refine (Finset.abs_sum_le_sum_abs _ _).trans (le_of_eq ?_)
    unfold lost
    simp only [abs_mul]
  have t4 := mul_le_mul_of_nonneg_left t1 (sub_nonneg.2 hg1)
  rw [e]
  refine (abs_add_le _ _).trans (le_trans (add_le_add_left (abs_add_le _ _) _) ?_)
  have h3 := h2.trans (add_le_add_left t4 s)
  refine (add_le_add (add_le_add h3 t2) t3).trans (le_of_eq ?_)
  ring

omit [Binary S] in
theorem beq_trans_num {a b c : S} (h : (a == b) = true) (h' : (b == c) = true) : (a == c) = true :=
  beq_iff_num.2 ⟨(num_of_beq h).trans (num_of_beq h'), (beq_iff_num.1 h).2⟩

theorem residual_left {n : ℕ} {A R : Matrix (Fin n) (Fin n) ℝ} {E : Fin n → Fin n → ℝ}
    (h : ∀ i j, |R i j * A.det - A.adjugate i j| ≤ E i j) (i j : Fin n) :
    |(R * A) i j - (1 : Matrix (Fin n) (Fin n) ℝ) i j| * |A.det| ≤ ∑ k, E i k * |A k j| := by
  have e := congrFun (congrFun (Matrix.adjugate_mul A) i) j
  rw [Matrix.mul_apply, Matrix.smul_apply, smul_eq_mul] at e
  have e2 : ((R * A) i j - (1 : Matrix (Fin n) (Fin n) ℝ) i j) * A.det =
      ∑ k, (R i k * A.det - A.adjugate i k) * A k j := by
    rw [sub_mul, mul_comm ((1 : Matrix (Fin n) (Fin n) ℝ) i j), ← e, Matrix.mul_apply, Finset.sum_mul,
      ← Finset.sum_sub_distrib]
    exact Finset.sum_congr rfl fun k _ => by ring
  rw [← abs_mul, e2]
  refine (Finset.abs_sum_le_sum_abs _ _).trans (Finset.sum_le_sum fun k _ => ?_)
  rw [abs_mul]
  exact mul_le_mul_of_nonneg_right (h i k) (abs_nonneg _)

omit [Binary S] in
/-- **C84**: little is lost when the two matrices are close to a rotation (or reflection) and its transpose. -/
theorem C84_orthogonal {n : ℕ} {B A Q : Matrix (Fin n) (Fin n) ℝ} {ε : ℝ} (hQ : Orthogonal Q) (hA : size (A - Q) ≤ ε)
    (hB : size (B - Q.transpose) ≤ ε) (x : Fin n → ℝ) (i : Fin n) : lost B A x i ≤ ε * (2 + ε) * norm2 x := by
  have hε : 0 ≤ ε := (size_nonneg _).trans hA
  have e : B * A - 1 = (B - Q.transpose) * Q + (Q.transpose * (A - Q) + (B - Q.transpose) * (A - Q)) := by
    rw [← hQ.1]; noncomm_ring
  have h1 : size (B * A - 1) ≤ ε * (2 + ε) := by
    rw [e]
    have a := size_add (A := (B - Q.transpose) * Q) (B := Q.transpose * (A - Q) + (B - Q.transpose) * (A - Q))
    have b := size_add (A := Q.transpose * (A - Q)) (B := (B - Q.transpose) * (A - Q))
    have c := size_mul (A := B - Q.transpose) (B := A - Q)
    rw [size_orth_right hQ.2] at a
    rw [size_orth (Q := Q.transpose) (by rw [Matrix.transpose_transpose]; exact hQ.2)] at b
    have d := mul_le_mul hB hA (size_nonneg _) hε
    nlinarith
  have h2 : lost B A x i ≤ size (B * A - 1) * norm2 x := by
    unfold lost
    have := Real.sum_mul_le_sqrt_mul_sqrt Finset.univ (fun k => |(B * A - 1) i k|) (fun k => |x k|)
    refine this.trans ?_
    simp only [sq_abs]
    refine mul_le_mul_of_nonneg_right (Real.sqrt_le_sqrt ?_) (Real.sqrt_nonneg _)
    exact Finset.single_le_sum (f := fun i => ∑ k, (B * A - 1) i k ^ 2)
      (fun i _ => Finset.sum_nonneg fun j _ => sq_nonneg _) (Finset.mem_univ i)
  exact h2.trans (mul_le_mul_of_nonneg_right h1 (Real.sqrt_nonneg _))

/-- Adding an offset and subtracting it again. -/
theorem trip_translate {x v q : S} (e : real q = real (x + v)) (h : IsFinite (x + v)) (h' : IsFinite (q + -v)) :
    |real (q + -v) - real x| ≤ uro S * |real x| + (1 + uro S) * uro S * |real x + real v| := by
  have hu := uro_pos (S := S)
  have a := err_add h
  have b := err_add h'
  rw [real_neg, e] at b
  have c : |real (x + v) + -real v| ≤ |real x| + uro S * |real x + real v| := by
    have : real (x + v) + -real v = real x + (real (x + v) - (real x + real v)) := by ring
    rw [this]; exact (abs_add_le _ _).trans (by linarith)
  have d : real (q + -v) - real x = (real (q + -v) - (real (x + v) + -real v)) + (real (x + v) - (real x + real v)) := by
    ring
  rw [d]
  refine (abs_add_le _ _).trans ?_
  nlinarith [mul_le_mul_of_nonneg_left c hu.le]

/-- Multiplying by a factor and by its reciprocal. -/
theorem trip_scale {x s q : S} (e : real q = real (s * x)) (h0 : real s ≠ 0) (hi : IsFinite (recip s)) (h : IsFinite (s * x))
    (h' : IsFinite (recip s * q)) (n1 : Normal S (1 / real s)) (n2 : Normal S (real s * real x))
    (n3 : Normal S (real (recip s) * real (s * x))) :
    |real (recip s * q) - real x| ≤ ((1 + uro S) ^ 3 - 1) * |real x| := by
  have hu := uro_pos (S := S)
  have hs := (finite_of_mul h).1
  have a := err_mul_normal h n2
  have b := err_mul_normal h' (by rw [e]; exact n3)
  rw [e] at b
  have c := err_div_normal finite_one hs h0 hi (by rw [real_one]; exact n1)
  rw [real_one] at c
  change |real (recip s) - 1 / real s| ≤ _ at c
  have S0 : 0 < |real s| := abs_pos.2 h0
  -- relative forms
  have a2 : |real (s * x) / real s - real x| ≤ uro S * |real x| := by
    have : real (s * x) / real s - real x = (real (s * x) - real s * real x) / real s := by field_simp
    rw [this, abs_div, div_le_iff₀ S0]
    rw [abs_mul] at a; linarith
  have c2 : |real (recip s) * real s - 1| ≤ uro S := by
    have : real (recip s) * real s - 1 = (real (recip s) - 1 / real s) * real s := by field_simp
    rw [this, abs_mul]
    refine (mul_le_mul_of_nonneg_right c S0.le).trans (le_of_eq ?_)
    rw [abs_div, abs_one]; field_simp
  set y := real (s * x) / real s with hy
  have e1 : real (recip s) * real (s * x) = (real (recip s) * real s) * y := by rw [hy]; field_simp
  have y1 : |y| ≤ (1 + uro S) * |real x| := by
    have := abs_sub_abs_le_abs_sub y (real x); linarith
  have p1 : |real (recip s) * real (s * x) - real x| ≤ ((1 + uro S) ^ 2 - 1) * |real x| := by
    have : real (recip s) * real (s * x) - real x = (real (recip s) * real s - 1) * y + (y - real x) := by rw [e1]; ring
    rw [this]
    refine (abs_add_le _ _).trans ?_
    rw [abs_mul]
    have := mul_le_mul c2 y1 (abs_nonneg _) hu.le
    nlinarith
  have p2 : |real (recip s) * real (s * x)| ≤ (1 + uro S) ^ 2 * |real x| := by
    have := abs_sub_abs_le_abs_sub (real (recip s) * real (s * x)) (real x); linarith
  have d : real (recip s * q) - real x =
    (real (recip s * q) - real (recip s) * real (s * x)) + (real (recip s) * real (s * x) - real x) := by ring
  rw [d]
  refine (abs_add_le _ _).trans ?_
  have := mul_le_mul_of_nonneg_left p2 hu.le
  nlinarith

/-! ### 2D -/

theorem Point2.homog_castSucc (p : Point2 S) (i : Fin 2) : p.homog i.castSucc = p.toReal i := by fin_cases i <;> rfl
theorem Point2.homog_last (p : Point2 S) : p.homog (Fin.last 2) = 1 := rfl
/-- C63 in homogeneous coordinates. -/
theorem Point2.homog_err (t : Transform2 S) (p : Point2 S) (ht : AllFinite t.forward) (hp : AllFinite p)
    (haff : t.forward.toReal 2 = ![0, 0, 1]) (h : AllFinite (Transform.transform t p : Point2 S)) (i : Fin 3) :
    |(Transform.transform t p : Point2 S).homog i - ∑ j, t.forward.toReal i j * p.homog j| ≤
      ((1 + uro S) ^ 3 - 1) * ∑ j, |t.forward.toReal i j * p.homog j| + (1 + uro S) ^ 2 * (2 * tiny S) := by
  have hu := uro_pos (S := S)
  have hs := tiny_pos (S := S)
  refine Fin.lastCases ?_ (fun i => ?_) i
  · have h0 : (0 : ℝ) ≤ (1 + uro S) ^ 3 - 1 := sub_nonneg.2 (one_le_pow₀ (by linarith))
    have e : ∑ j, t.forward.toReal (Fin.last 2) j * p.homog j = 1 := by
      rw [Fin.sum_univ_castSucc, Point2.homog_last]
      have : ∀ j : Fin 2, t.forward.toReal (Fin.last 2) j.castSucc = 0 := fun j => by
        have := congrFun haff j.castSucc
        fin_cases j <;> exact this
      have l : t.forward.toReal (Fin.last 2) (Fin.last 2) = 1 := congrFun haff (Fin.last 2)
      rw [l]
      simp only [this, zero_mul, Finset.sum_const_zero, zero_add, mul_one]
    rw [e, Point2.homog_last, sub_self, abs_zero]
    positivity
  · have := C63_point2 t p ht hp haff h i
    rw [Fin.sum_univ_castSucc (fun j : Fin 3 => t.forward.toReal i.castSucc j * p.homog j),
      Fin.sum_univ_castSucc (fun j : Fin 3 => |t.forward.toReal i.castSucc j * p.homog j|), Point2.homog_castSucc]
    simp only [Point2.homog_castSucc, Point2.homog_last, mul_one]
    exact this

/-- **C84** (2D points): applying a transform and then its inverse to a point returns the point, up to what the stored
inverse lacks of being the inverse, and the rounding of the two products. -/
theorem C84_point2 (t : Transform2 S) (p : Point2 S) (hA : AllFinite t.forward) (hB : AllFinite t.inverse) (hp : AllFinite p)
    (hA' : t.forward.toReal 2 = ![0, 0, 1]) (hB' : t.inverse.toReal 2 = ![0, 0, 1])
    (hq : AllFinite (Transform.transform t p : Point2 S))
    (hr : AllFinite (Transform.transform t.inv (Transform.transform t p : Point2 S) : Point2 S)) (i : Fin 2) :
    |(Transform.transform t.inv (Transform.transform t p : Point2 S) : Point2 S).toReal i - p.toReal i| ≤
      tripErr S t.inverse.toReal t.forward.toReal p.homog 3 ((1 + uro S) ^ 2 * (2 * tiny S)) i.castSucc := by
  have hu := uro_pos (S := S)
  have hs := tiny_pos (S := S)
  have := trip_core (m := 3) (S := S) (s := (1 + uro S) ^ 2 * (2 * tiny S)) (by positivity)
    (Point2.homog_err t p hA hp hA' hq) i.castSucc (Point2.homog_err t.inv _ hB hq hB' hr i.castSucc)
  rw [Point2.homog_castSucc, Point2.homog_castSucc] at this
  exact this

/-- **C84** (2D vectors). -/
theorem C84_vector2 (t : Transform2 S) (v : Vector2 S) (hq : AllFinite (Transform.transform t v : Vector2 S))
    (hr : AllFinite (Transform.transform t.inv (Transform.transform t v : Vector2 S) : Vector2 S)) (i : Fin 2) :
    |(Transform.transform t.inv (Transform.transform t v : Vector2 S) : Vector2 S).toReal i - v.toReal i| ≤
      tripErr S t.inverse.linPart t.forward.linPart v.toReal 2 ((1 + uro S) * (2 * tiny S)) i := by
  have hu := uro_pos (S := S)
  have hs := tiny_pos (S := S)
  refine trip_core (m := 2) (S := S) (q := (Transform.transform t v : Vector2 S).toReal) (by positivity) (fun j => ?_) i ?_
  · exact C63_vector2 t v hq j
  · exact C63_vector2 t.inv _ hr i

/-- **C84** (2D rays): origin and direction. -/
theorem C84_ray2 (t : Transform2 S) (r : Ray2 S) (hA : AllFinite t.forward) (hB : AllFinite t.inverse) (hp : AllFinite r.origin)
    (hA' : t.forward.toReal 2 = ![0, 0, 1]) (hB' : t.inverse.toReal 2 = ![0, 0, 1])
    (hq : AllFinite (Transform.transform t r : Ray2 S).origin ∧ AllFinite (Transform.transform t r : Ray2 S).direction)
    (hr : AllFinite (Transform.transform t.inv (Transform.transform t r : Ray2 S) : Ray2 S).origin ∧
      AllFinite (Transform.transform t.inv (Transform.transform t r : Ray2 S) : Ray2 S).direction) (i : Fin 2) :
    |(Transform.transform t.inv (Transform.transform t r : Ray2 S) : Ray2 S).origin.toReal i - r.origin.toReal i| ≤
      tripErr S t.inverse.toReal t.forward.toReal r.origin.homog 3 ((1 + uro S) ^ 2 * (2 * tiny S)) i.castSucc ∧
    |(Transform.transform t.inv (Transform.transform t r : Ray2 S) : Ray2 S).direction.toReal i - r.direction.toReal i| ≤
      tripErr S t.inverse.linPart t.forward.linPart r.direction.toReal 2 ((1 + uro S) * (2 * tiny S)) i :=
  ⟨C84_point2 t r.origin hA hB hp hA' hB' hq.1 hr.1 i, C84_vector2 t r.direction hq.2 hr.2 i⟩

/-- **C84** (2D): what a transform made by `try_from` loses because the computed inverse is rounded. -/
theorem C84_try_from2 (m : Matrix3x3 S) (t : Transform2 S) (h : Transform2.tryFrom m = .ok t) (hf : AllFinite t.inverse)
    (h0 : t.inverse.toReal ≠ 0) (M : ℝ) (hM : ∀ i j, |m.toReal i j| ≤ M) (x : Fin 3 → ℝ) (i : Fin 3) :
    t.forward = m ∧ lost t.inverse.toReal t.forward.toReal x i * |m.toReal.det| ≤
      ∑ k, (∑ l, invErr3 S m.toReal t.inverse.toReal M i l * |m.toReal l k|) * |x k| := by
  cases hr : m.inverse with
  | error e => exact absurd h (by simp [Transform2.tryFrom, hr, Bind.bind, Except.bind])
  | ok r =>
    have h1 : Transform2.new m r = t := by
      simpa [Transform2.tryFrom, hr, Bind.bind, Except.bind, pure, Except.pure] using h
    subst h1
    refine ⟨rfl, ?_⟩
    unfold lost
    rw [Finset.sum_mul]
    refine Finset.sum_le_sum fun k _ => ?_
    have := residual_left (C66_inverse3x3 m r hr hf h0 M hM) i k
    calc _ = |(r.toReal * m.toReal) i k - (1 : Matrix (Fin 3) (Fin 3) ℝ) i k| * |m.toReal.det| * |x k| := by
          rw [Matrix.sub_apply]; exact mul_right_comm _ _ _
      _ ≤ _ := mul_le_mul_of_nonneg_right this (abs_nonneg _)

omit [Binary S] in
theorem Point2.real_of_beq {a b : Point2 S} (h : (a == b) = true) (ha : AllFinite a) :
    (∀ i, a.toReal i = b.toReal i) ∧ AllFinite b := by
  have h' := Point2.beq_iff.1 h
  rw [Point2.allFinite] at ha ⊢
  refine ⟨fun i => ?_, ⟨(finite_num (num_of_beq h'.1)).1 ha.1, (finite_num (num_of_beq h'.2)).1 ha.2⟩⟩
  fin_cases i
  · exact real_num (num_of_beq h'.1)
  · exact real_num (num_of_beq h'.2)
omit [Binary S] in
theorem Vector2.finite_of_beq {a b : Vector2 S} (h : (a == b) = true) (hb : AllFinite b) : AllFinite a := by
  have h' := Vector2.beq_iff.1 h
  rw [Vector2.allFinite] at hb ⊢
  exact ⟨(finite_num (num_of_beq h'.1)).2 hb.1, (finite_num (num_of_beq h'.2)).2 hb.2⟩
omit [Binary S] in
theorem Vector2.beq_trans' {a b c : Vector2 S} (h : (a == b) = true) (h' : (b == c) = true) : (a == c) = true :=
  Vector2.beq_iff.2 ⟨beq_trans_num ((Vector2.beq_iff.1 h).1) ((Vector2.beq_iff.1 h').1), beq_trans_num ((Vector2.beq_iff.1 h).2) ((Vector2.beq_iff.1 h').2)⟩

/-- **C84** (2D translation): two roundings, whatever the offset; vectors come back unchanged. -/
theorem C84_translate2 (v u : Vector2 S) (p : Point2 S) (hv : AllFinite v) (hu : AllFinite u) (hp : AllFinite p)
    (hqf : AllFinite (Transform.transform (Transform2.translate v) p : Point2 S))
    (hr : AllFinite (Transform.transform (Transform2.translate v).inv (Transform.transform (Transform2.translate v) p : Point2 S) : Point2 S)) :
    (∀ i, |(Transform.transform (Transform2.translate v).inv (Transform.transform (Transform2.translate v) p : Point2 S) : Point2 S).toReal i - p.toReal i| ≤
      uro S * |p.toReal i| + (1 + uro S) * uro S * |p.toReal i + v.toReal i|) ∧
    ((Transform.transform (Transform2.translate v).inv (Transform.transform (Transform2.translate v) u : Vector2 S) : Vector2 S) == u) = true := by
  have hv' := hv
  have hnv : AllFinite (-v) := by
    rw [Vector2.allFinite] at hv' ⊢
    exact ⟨finite_neg.2 hv'.1, finite_neg.2 hv'.2⟩
  have e1 := C46_float_translate2 v u p hp hv.noNaN hu
  set q := (Transform.transform (Transform2.translate v) p : Point2 S) with hq
  set w := (Transform.transform (Transform2.translate v) u : Vector2 S) with hw
  have hwf : AllFinite w := Vector2.finite_of_beq e1.2 hu
  have e2 := C46_float_translate2 (-v) w q hqf hnv.noNaN hwf
  refine ⟨?_, Vector2.beq_trans' e2.2 e1.2⟩
  obtain ⟨r1, f1⟩ := Point2.real_of_beq e1.1 hqf
  obtain ⟨r2, f2⟩ := Point2.real_of_beq (a := (Transform.transform (Transform2.translate v).inv q : Point2 S)) e2.1 hr
  rw [Point2.allFinite] at f1 f2
  intro i
  rw [r2 i]
  have e3 := r1 i
  fin_cases i
  · exact trip_translate e3 f1.1 f2.1
  · exact trip_translate e3 f1.2 f2.2

/-- **C84** (2D scaling): three roundings, if nothing underflows or overflows. -/
theorem C84_scale2 (sx sy : S) (p : Point2 S) (hp : AllFinite p)
    (hsx : IsFinite sx) (nsx : real sx ≠ 0) (hsy : IsFinite sy) (nsy : real sy ≠ 0)
    (isx : IsFinite (recip sx)) (isy : IsFinite (recip sy))
    (hqf : AllFinite (Transform.transform (Transform2.scale sx sy) p : Point2 S))
    (hr : AllFinite (Transform.transform (Transform2.scale sx sy).inv (Transform.transform (Transform2.scale sx sy) p : Point2 S) : Point2 S))
    (msx : Normal S (1 / real sx)) (msx' : Normal S (real sx * real p.x)) (msx'' : Normal S (real (recip sx) * real (sx * p.x)))
    (msy : Normal S (1 / real sy)) (msy' : Normal S (real sy * real p.y)) (msy'' : Normal S (real (recip sy) * real (sy * p.y)))
    (i : Fin 2) :
    |(Transform.transform (Transform2.scale sx sy).inv (Transform.transform (Transform2.scale sx sy) p : Point2 S) : Point2 S).toReal i - p.toReal i| ≤
      ((1 + uro S) ^ 3 - 1) * |p.toReal i| := by
  have e1 := C46_float_scale2 sx sy Vector2.zero p hsx hsy hp (Vector2.allFinite.2 ⟨finite_zero, finite_zero⟩)
  set q := (Transform.transform (Transform2.scale sx sy) p : Point2 S) with hq
  have e2 := C46_float_scale2 (recip sx) (recip sy) Vector2.zero q isx isy hqf (Vector2.allFinite.2 ⟨finite_zero, finite_zero⟩)
  obtain ⟨r1, f1⟩ := Point2.real_of_beq e1.1 hqf
  obtain ⟨r2, f2⟩ := Point2.real_of_beq (a := (Transform.transform (Transform2.scale sx sy).inv q : Point2 S)) e2.1 hr
  rw [Point2.allFinite] at f1 f2
  rw [r2 i]
  have e3 := r1 i
  fin_cases i
  · exact trip_scale e3 nsx isx f1.1 f2.1 msx msx' msx''
  · exact trip_scale e3 nsy isy f1.2 f2.2 msy msy' msy''

/-! ### 3D -/

theorem Point3.homog_castSucc (p : Point3 S) (i : Fin 3) : p.homog i.castSucc = p.toReal i := by fin_cases i <;> rfl
theorem Point3.homog_last (p : Point3 S) : p.homog (Fin.last 3) = 1 := rfl
/-- C63 in homogeneous coordinates. -/
theorem Point3.homog_err (t : Transform3 S) (p : Point3 S) (ht : AllFinite t.forward) (hp : AllFinite p)
    (haff : t.forward.toReal 3 = ![0, 0, 0, 1]) (h : AllFinite (Transform.transform t p : Point3 S)) (i : Fin 4) :
    |(Transform.transform t p : Point3 S).homog i - ∑ j, t.forward.toReal i j * p.homog j| ≤
      ((1 + uro S) ^ 4 - 1) * ∑ j, |t.forward.toReal i j * p.homog j| + (1 + uro S) ^ 3 * (3 * tiny S) := by
  have hu := uro_pos (S := S)
  have hs := tiny_pos (S := S)
  refine Fin.lastCases ?_ (fun i => ?_) i
  · have h0 : (0 : ℝ) ≤ (1 + uro S) ^ 4 - 1 := sub_nonneg.2 (one_le_pow₀ (by linarith))
    have e : ∑ j, t.forward.toReal (Fin.last 3) j * p.homog j = 1 := by
      rw [Fin.sum_univ_castSucc, Point3.homog_last]
      have : ∀ j : Fin 3, t.forward.toReal (Fin.last 3) j.castSucc = 0 := fun j => by
        have := congrFun haff j.castSucc
        fin_cases j <;> exact this
      have l : t.forward.toReal (Fin.last 3) (Fin.last 3) = 1 := congrFun haff (Fin.last 3)
      rw [l]
      simp only [this, zero_mul, Finset.sum_const_zero, zero_add, mul_one]
    rw [e, Point3.homog_last, sub_self, abs_zero]
    positivity
  · have := C63_point3 t p ht hp haff h i
    rw [Fin.sum_univ_castSucc (fun j : Fin 4 => t.forward.toReal i.castSucc j * p.homog j),
      Fin.sum_univ_castSucc (fun j : Fin 4 => |t.forward.toReal i.castSucc j * p.homog j|), Point3.homog_castSucc]
    simp only [Point3.homog_castSucc, Point3.homog_last, mul_one]
    exact this

/-- **C84** (3D points): applying a transform and then its inverse to a point returns the point, up to what the stored
inverse lacks of being the inverse, and the rounding of the two products. -/
theorem C84_point3 (t : Transform3 S) (p : Point3 S) (hA : AllFinite t.forward) (hB : AllFinite t.inverse) (hp : AllFinite p)
    (hA' : t.forward.toReal 3 = ![0, 0, 0, 1]) (hB' : t.inverse.toReal 3 = ![0, 0, 0, 1])
    (hq : AllFinite (Transform.transform t p : Point3 S))
    (hr : AllFinite (Transform.transform t.inv (Transform.transform t p : Point3 S) : Point3 S)) (i : Fin 3) :
    |(Transform.transform t.inv (Transform.transform t p : Point3 S) : Point3 S).toReal i - p.toReal i| ≤
      tripErr S t.inverse.toReal t.forward.toReal p.homog 4 ((1 + uro S) ^ 3 * (3 * tiny S)) i.castSucc := by
  have hu := uro_pos (S := S)
  have hs := tiny_pos (S := S)
  have := trip_core (m := 4) (S := S) (s := (1 + uro S) ^ 3 * (3 * tiny S)) (by positivity)
    (Point3.homog_err t p hA hp hA' hq) i.castSucc (Point3.homog_err t.inv _ hB hq hB' hr i.castSucc)
  rw [Point3.homog_castSucc, Point3.homog_castSucc] at this
  exact this

/-- **C84** (3D vectors). -/
theorem C84_vector3 (t : Transform3 S) (v : Vector3 S) (hq : AllFinite (Transform.transform t v : Vector3 S))
    (hr : AllFinite (Transform.transform t.inv (Transform.transform t v : Vector3 S) : Vector3 S)) (i : Fin 3) :
    |(Transform.transform t.inv (Transform.transform t v : Vector3 S) : Vector3 S).toReal i - v.toReal i| ≤
      tripErr S t.inverse.linPart t.forward.linPart v.toReal 3 ((1 + uro S) ^ 2 * (3 * tiny S)) i := by
  have hu := uro_pos (S := S)
  have hs := tiny_pos (S := S)
  refine trip_core (m := 3) (S := S) (q := (Transform.transform t v : Vector3 S).toReal) (by positivity) (fun j => ?_) i ?_
  · exact C63_vector3 t v hq j
  · exact C63_vector3 t.inv _ hr i

/-- **C84** (3D rays): origin and direction. -/
theorem C84_ray3 (t : Transform3 S) (r : Ray3 S) (hA : AllFinite t.forward) (hB : AllFinite t.inverse) (hp : AllFinite r.origin)
    (hA' : t.forward.toReal 3 = ![0, 0, 0, 1]) (hB' : t.inverse.toReal 3 = ![0, 0, 0, 1])
    (hq : AllFinite (Transform.transform t r : Ray3 S).origin ∧ AllFinite (Transform.transform t r : Ray3 S).direction)
    (hr : AllFinite (Transform.transform t.inv (Transform.transform t r : Ray3 S) : Ray3 S).origin ∧
      AllFinite (Transform.transform t.inv (Transform.transform t r : Ray3 S) : Ray3 S).direction) (i : Fin 3) :
    |(Transform.transform t.inv (Transform.transform t r : Ray3 S) : Ray3 S).origin.toReal i - r.origin.toReal i| ≤
      tripErr S t.inverse.toReal t.forward.toReal r.origin.homog 4 ((1 + uro S) ^ 3 * (3 * tiny S)) i.castSucc ∧
    |(Transform.transform t.inv (Transform.transform t r : Ray3 S) : Ray3 S).direction.toReal i - r.direction.toReal i| ≤
      tripErr S t.inverse.linPart t.forward.linPart r.direction.toReal 3 ((1 + uro S) ^ 2 * (3 * tiny S)) i :=
  ⟨C84_point3 t r.origin hA hB hp hA' hB' hq.1 hr.1 i, C84_vector3 t r.direction hq.2 hr.2 i⟩

/-- **C84** (3D): what a transform made by `try_from` loses because the computed inverse is rounded. -/
theorem C84_try_from3 (m : Matrix4x4 S) (t : Transform3 S) (h : Transform3.tryFrom m = .ok t) (hf : AllFinite t.inverse)
    (h0 : t.inverse.toReal ≠ 0) (M : ℝ) (hM : ∀ i j, |m.toReal i j| ≤ M) (x : Fin 4 → ℝ) (i : Fin 4) :
    t.forward = m ∧ lost t.inverse.toReal t.forward.toReal x i * |m.toReal.det| ≤
      ∑ k, (∑ l, invErr4 S m.toReal t.inverse.toReal M i l * |m.toReal l k|) * |x k| := by
  cases hr : m.inverse with
  | error e => exact absurd h (by simp [Transform3.tryFrom, hr, Bind.bind, Except.bind])
  | ok r =>
    have h1 : Transform3.new m r = t := by
      simpa [Transform3.tryFrom, hr, Bind.bind, Except.bind, pure, Except.pure] using h
    subst h1
    refine ⟨rfl, ?_⟩
    unfold lost
    rw [Finset.sum_mul]
    refine Finset.sum_le_sum fun k _ => ?_
    have := residual_left (C66_inverse4x4 m r hr hf h0 M hM) i k
    calc _ = |(r.toReal * m.toReal) i k - (1 : Matrix (Fin 4) (Fin 4) ℝ) i k| * |m.toReal.det| * |x k| := by
          rw [Matrix.sub_apply]; exact mul_right_comm _ _ _
      _ ≤ _ := mul_le_mul_of_nonneg_right this (abs_nonneg _)

omit [Binary S] in
theorem Point3.real_of_beq {a b : Point3 S} (h : (a == b) = true) (ha : AllFinite a) :
    (∀ i, a.toReal i = b.toReal i) ∧ AllFinite b := by
  have h' := Point3.beq_iff.1 h
  rw [Point3.allFinite] at ha ⊢
  refine ⟨fun i => ?_, ⟨(finite_num (num_of_beq h'.1)).1 ha.1, (finite_num (num_of_beq h'.2.1)).1 ha.2.1, (finite_num (num_of_beq h'.2.2)).1 ha.2.2⟩⟩
  fin_cases i
  · exact real_num (num_of_beq h'.1)
  · exact real_num (num_of_beq h'.2.1)
  · exact real_num (num_of_beq h'.2.2)
omit [Binary S] in
theorem Vector3.finite_of_beq {a b : Vector3 S} (h : (a == b) = true) (hb : AllFinite b) : AllFinite a := by
  have h' := Vector3.beq_iff.1 h
  rw [Vector3.allFinite] at hb ⊢
  exact ⟨(finite_num (num_of_beq h'.1)).2 hb.1, (finite_num (num_of_beq h'.2.1)).2 hb.2.1, (finite_num (num_of_beq h'.2.2)).2 hb.2.2⟩
omit [Binary S] in
theorem Vector3.beq_trans' {a b c : Vector3 S} (h : (a == b) = true) (h' : (b == c) = true) : (a == c) = true :=
  Vector3.beq_iff.2 ⟨beq_trans_num ((Vector3.beq_iff.1 h).1) ((Vector3.beq_iff.1 h').1), beq_trans_num ((Vector3.beq_iff.1 h).2.1) ((Vector3.beq_iff.1 h').2.1), beq_trans_num ((Vector3.beq_iff.1 h).2.2) ((Vector3.beq_iff.1 h').2.2)⟩

/-- **C84** (3D translation): two roundings, whatever the offset; vectors come back unchanged. -/
theorem C84_translate3 (v u : Vector3 S) (p : Point3 S) (hv : AllFinite v) (hu : AllFinite u) (hp : AllFinite p)
    (hqf : AllFinite (Transform.transform (Transform3.translate v) p : Point3 S))
    (hr : AllFinite (Transform.transform (Transform3.translate v).inv (Transform.transform (Transform3.translate v) p : Point3 S) : Point3 S)) :
    (∀ i, |(Transform.transform (Transform3.translate v).inv (Transform.transform (Transform3.translate v) p : Point3 S) : Point3 S).toReal i - p.toReal i| ≤
      uro S * |p.toReal i| + (1 + uro S) * uro S * |p.toReal i + v.toReal i|) ∧
    ((Transform.transform (Transform3.translate v).inv (Transform.transform (Transform3.translate v) u : Vector3 S) : Vector3 S) == u) = true := by
  have hv' := hv
  have hnv : AllFinite (-v) := by
    rw [Vector3.allFinite] at hv' ⊢
    exact ⟨finite_neg.2 hv'.1, finite_neg.2 hv'.2.1, finite_neg.2 hv'.2.2⟩
  have e1 := C46_float_translate3 v u p hp hv.noNaN hu
  set q := (Transform.transform (Transform3.translate v) p : Point3 S) with hq
  set w := (Transform.transform (Transform3.translate v) u : Vector3 S) with hw
  have hwf : AllFinite w := Vector3.finite_of_beq e1.2 hu
  have e2 := C46_float_translate3 (-v) w q hqf hnv.noNaN hwf
  refine ⟨?_, Vector3.beq_trans' e2.2 e1.2⟩
  obtain ⟨r1, f1⟩ := Point3.real_of_beq e1.1 hqf
  obtain ⟨r2, f2⟩ := Point3.real_of_beq (a := (Transform.transform (Transform3.translate v).inv q : Point3 S)) e2.1 hr
  rw [Point3.allFinite] at f1 f2
  intro i
  rw [r2 i]
  have e3 := r1 i
  fin_cases i
  · exact trip_translate e3 f1.1 f2.1
  · exact trip_translate e3 f1.2.1 f2.2.1
  · exact trip_translate e3 f1.2.2 f2.2.2

/-- **C84** (3D scaling): three roundings, if nothing underflows or overflows. -/
theorem C84_scale3 (sx sy sz : S) (p : Point3 S) (hp : AllFinite p)
    (hsx : IsFinite sx) (nsx : real sx ≠ 0) (hsy : IsFinite sy) (nsy : real sy ≠ 0) (hsz : IsFinite sz) (nsz : real sz ≠ 0)
    (isx : IsFinite (recip sx)) (isy : IsFinite (recip sy)) (isz : IsFinite (recip sz))
    (hqf : AllFinite (Transform.transform (Transform3.scale sx sy sz) p : Point3 S))
    (hr : AllFinite (Transform.transform (Transform3.scale sx sy sz).inv (Transform.transform (Transform3.scale sx sy sz) p : Point3 S) : Point3 S))
    (msx : Normal S (1 / real sx)) (msx' : Normal S (real sx * real p.x)) (msx'' : Normal S (real (recip sx) * real (sx * p.x)))
    (msy : Normal S (1 / real sy)) (msy' : Normal S (real sy * real p.y)) (msy'' : Normal S (real (recip sy) * real (sy * p.y)))
    (msz : Normal S (1 / real sz)) (msz' : Normal S (real sz * real p.z)) (msz'' : Normal S (real (recip sz) * real (sz * p.z)))
    (i : Fin 3) :
    |(Transform.transform (Transform3.scale sx sy sz).inv (Transform.transform (Transform3.scale sx sy sz) p : Point3 S) : Point3 S).toReal i - p.toReal i| ≤
      ((1 + uro S) ^ 3 - 1) * |p.toReal i| := by
  have e1 := C46_float_scale3 sx sy sz Vector3.zero p hsx hsy hsz hp (Vector3.allFinite.2 ⟨finite_zero, finite_zero, finite_zero⟩)
  set q := (Transform.transform (Transform3.scale sx sy sz) p : Point3 S) with hq
  have e2 := C46_float_scale3 (recip sx) (recip sy) (recip sz) Vector3.zero q isx isy isz hqf (Vector3.allFinite.2 ⟨finite_zero, finite_zero, finite_zero⟩)
  obtain ⟨r1, f1⟩ := Point3.real_of_beq e1.1 hqf
  obtain ⟨r2, f2⟩ := Point3.real_of_beq (a := (Transform.transform (Transform3.scale sx sy sz).inv q : Point3 S)) e2.1 hr
  rw [Point3.allFinite] at f1 f2
  rw [r2 i]
  have e3 := r1 i
  fin_cases i
  · exact trip_scale e3 nsx isx f1.1 f2.1 msx msx' msx''
  · exact trip_scale e3 nsy isy f1.2.1 f2.2.1 msy msy' msy''
  · exact trip_scale e3 nsz isz f1.2.2 f2.2.2 msz msz' msz''
end
end VecMath
