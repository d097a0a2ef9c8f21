import Verif.Props.FloatError
import Verif.Lemmas.Mat
import Verif.Lemmas.Num
/-!
# Layer F: rounding errors of matrices, transforms and rays (C63, C64)
-/

open Classical

namespace VecMath
open Scalar IEEE

variable {S : Type} [Scalar S] [IEEE S] [Binary S]

/-- One accumulation step. -/
theorem err_acc {k : ℕ} {a b : S} {x y A B s t : ℝ} (h : IsFinite (a + b)) (hA : |x| ≤ A) (hB : |y| ≤ B)
    (ha : |real a - x| ≤ ((1 + uro S) ^ k - 1) * A + s)
    (hb : |real b - y| ≤ ((1 + uro S) ^ k - 1) * B + t) :
    |real (a + b) - (x + y)| ≤ ((1 + uro S) ^ (k + 1) - 1) * (A + B) + (1 + uro S) * (s + t) := by
  have h1 := err_add_of h ha hb
  have hu := uro_pos (S := S)
  have h2 := abs_add_le x y
  have h3 : uro S * |x + y| ≤ uro S * (A + B) := mul_le_mul_of_nonneg_left (by linarith) hu.le
  refine h1.trans ?_
  have e : (1 + uro S) * (((1 + uro S) ^ k - 1) * A + s + (((1 + uro S) ^ k - 1) * B + t)) + uro S * (A + B) =
      ((1 + uro S) ^ (k + 1) - 1) * (A + B) + (1 + uro S) * (s + t) := by ring
  linarith

theorem err_weaken {k l : ℕ} {z A s : ℝ} (hkl : k ≤ l) (hA : 0 ≤ A)
    (h : z ≤ ((1 + uro S) ^ k - 1) * A + s) : z ≤ ((1 + uro S) ^ l - 1) * A + s := by
  have hu := uro_pos (S := S)
  have := mul_le_mul_of_nonneg_right (pow_le_pow_right₀ (by linarith : 1 ≤ 1 + uro S) hkl) hA
  linarith

theorem err_prod {a b : S} (h : IsFinite (a * b)) :
    |real (a * b) - real a * real b| ≤ ((1 + uro S) ^ 1 - 1) * |real a * real b| + tiny S := by
  have := err_mul h
  rw [pow_one]; linarith

theorem row2 {a b x y : S} (h : IsFinite (a * x + b * y)) :
    |real (a * x + b * y) - (real a * real x + real b * real y)| ≤
      ((1 + uro S) ^ 2 - 1) * (|real a * real x| + |real b * real y|) + (1 + uro S) * (2 * tiny S) := by
  have hf := finite_of_add h
  have := err_acc h le_rfl le_rfl (err_prod hf.1) (err_prod hf.2)
  refine this.trans (le_of_eq ?_)
  ring
theorem row3 {a b c x y z : S} (h : IsFinite (a * x + b * y + c * z)) :
    |real (a * x + b * y + c * z) - (real a * real x + real b * real y + real c * real z)| ≤
      ((1 + uro S) ^ 3 - 1) * (|real a * real x| + |real b * real y| + |real c * real z|) +
        (1 + uro S) ^ 2 * (3 * tiny S) := by
  have hu := uro_pos (S := S)
  have ht := tiny_pos (S := S)
  have hf := finite_of_add h
  have := err_acc h (abs_add_le _ _) le_rfl (row2 hf.1)
    (err_weaken (l := 2) (by norm_num) (abs_nonneg _) (err_prod hf.2))
  refine this.trans (add_le_add (le_of_eq (by norm_num)) ?_)
  nlinarith [mul_pos hu ht, mul_pos (mul_pos hu hu) ht]
theorem row4 {a b c d x y z w : S} (h : IsFinite (a * x + b * y + c * z + d * w)) :
    |real (a * x + b * y + c * z + d * w) -
        (real a * real x + real b * real y + real c * real z + real d * real w)| ≤
      ((1 + uro S) ^ 4 - 1) * (|real a * real x| + |real b * real y| + |real c * real z| + |real d * real w|) +
        (1 + uro S) ^ 3 * (4 * tiny S) := by
  have hu := uro_pos (S := S)
  have ht := tiny_pos (S := S)
  have hf := finite_of_add h
  have := err_acc h ((abs_add_le _ _).trans (add_le_add (abs_add_le _ _) le_rfl)) le_rfl (row3 hf.1)
    (err_weaken (l := 3) (by norm_num) (abs_nonneg _) (err_prod hf.2))
  refine this.trans (add_le_add (le_of_eq (by norm_num)) ?_)
  nlinarith [mul_pos hu ht, mul_pos (mul_pos hu hu) ht, mul_pos (mul_pos (mul_pos hu hu) hu) ht]
theorem row2a {a b c x y : S} (h : IsFinite (a * x + b * y + c)) :
    |real (a * x + b * y + c) - (real a * real x + real b * real y + real c)| ≤
      ((1 + uro S) ^ 3 - 1) * (|real a * real x| + |real b * real y| + |real c|) +
        (1 + uro S) ^ 2 * (2 * tiny S) := by
  have hf := finite_of_add h
  have := err_acc (t := 0) (y := real c) (B := |real c|) h (abs_add_le _ _) le_rfl (row2 hf.1)
    (err_weaken (k := 0) (l := 2) (by norm_num) (abs_nonneg _) (by simp))
  refine this.trans (le_of_eq ?_)
  ring
theorem row3a {a b c d x y z : S} (h : IsFinite (a * x + b * y + c * z + d)) :
    |real (a * x + b * y + c * z + d) - (real a * real x + real b * real y + real c * real z + real d)| ≤
      ((1 + uro S) ^ 4 - 1) * (|real a * real x| + |real b * real y| + |real c * real z| + |real d|) +
        (1 + uro S) ^ 3 * (3 * tiny S) := by
  have hf := finite_of_add h
  have := err_acc (t := 0) (y := real d) (B := |real d|) h ((abs_add_le _ _).trans (add_le_add (abs_add_le _ _) le_rfl)) le_rfl (row3 hf.1)
    (err_weaken (k := 0) (l := 3) (by norm_num) (abs_nonneg _) (by simp))
  refine this.trans (le_of_eq ?_)
  ring

/-! ## C63 -/

/-- C63. Each finite entry of a 3x3 product is within the usual inner-product bound of the exact entry. -/
theorem C63_product3x3 (a b : Matrix3x3 S) (h : AllFinite (a * b)) (i j : Fin 3) :
    |(a * b).toReal i j - ∑ k, a.toReal i k * b.toReal k j| ≤
      ((1 + uro S) ^ 3 - 1) * ∑ k, |a.toReal i k * b.toReal k j| + (1 + uro S) ^ 2 * (3 * tiny S) := by
  rw [Matrix3x3.allFinite, forall_lt_9] at h
  obtain ⟨h0, h1, h2, h3, h4, h5, h6, h7, h8⟩ := h
  rw [Fin.sum_univ_three, Fin.sum_univ_three]
  fin_cases i <;> fin_cases j
  · exact row3 h0
  · exact row3 h1
  · exact row3 h2
  · exact row3 h3
  · exact row3 h4
  · exact row3 h5
  · exact row3 h6
  · exact row3 h7
  · exact row3 h8
/-- C63. Each finite entry of a 4x4 product. -/
theorem C63_product4x4 (a b : Matrix4x4 S) (h : AllFinite (a * b)) (i j : Fin 4) :
    |(a * b).toReal i j - ∑ k, a.toReal i k * b.toReal k j| ≤
      ((1 + uro S) ^ 4 - 1) * ∑ k, |a.toReal i k * b.toReal k j| + (1 + uro S) ^ 3 * (4 * tiny S) := by
  rw [Matrix4x4.allFinite, forall_lt_16] at h
  obtain ⟨h0, h1, h2, h3, h4, h5, h6, h7, h8, h9, h10, h11, h12, h13, h14, h15⟩ := h
  rw [Fin.sum_univ_four, Fin.sum_univ_four]
  fin_cases i <;> fin_cases j
  · exact row4 h0
  · exact row4 h1
  · exact row4 h2
  · exact row4 h3
  · exact row4 h4
  · exact row4 h5
  · exact row4 h6
  · exact row4 h7
  · exact row4 h8
  · exact row4 h9
  · exact row4 h10
  · exact row4 h11
  · exact row4 h12
  · exact row4 h13
  · exact row4 h14
  · exact row4 h15
/-- C63. Transforming a vector (2D). -/
theorem C63_vector2 (t : Transform2 S) (v : Vector2 S) (h : AllFinite (Transform.transform t v : Vector2 S))
    (i : Fin 2) :
    |(Transform.transform t v : Vector2 S).toReal i - ∑ j : Fin 2, t.forward.toReal i.castSucc j.castSucc * v.toReal j| ≤
      ((1 + uro S) ^ 2 - 1) * ∑ j : Fin 2, |t.forward.toReal i.castSucc j.castSucc * v.toReal j| +
        (1 + uro S) * (2 * tiny S) := by
  rw [Vector2.allFinite] at h
  rw [Fin.sum_univ_two, Fin.sum_univ_two]
  fin_cases i
  · exact row2 h.1
  · exact row2 h.2
/-- C63. Transforming a vector (3D). -/
theorem C63_vector3 (t : Transform3 S) (v : Vector3 S) (h : AllFinite (Transform.transform t v : Vector3 S))
    (i : Fin 3) :
    |(Transform.transform t v : Vector3 S).toReal i - ∑ j : Fin 3, t.forward.toReal i.castSucc j.castSucc * v.toReal j| ≤
      ((1 + uro S) ^ 3 - 1) * ∑ j : Fin 3, |t.forward.toReal i.castSucc j.castSucc * v.toReal j| +
        (1 + uro S) ^ 2 * (3 * tiny S) := by
  rw [Vector3.allFinite] at h
  rw [Fin.sum_univ_three, Fin.sum_univ_three]
  fin_cases i
  · exact row3 h.1
  · exact row3 h.2.1
  · exact row3 h.2.2

omit [Binary S] in
theorem num_zero_mul {a x : S} (ha : IsFinite a) (h : real a = 0) (hx : IsFinite x) : num (a * x) = num (zero : S) := by
  have := zero_mul_finite ha hx h
  rw [num_finite this.1, this.2, num_finite finite_zero, real_zero]
omit [Binary S] in
theorem num_zero_add_zero : num (zero + zero : S) = num (zero : S) :=
  num_of_beq (add_zero_beq not_nan_zero)
omit [Binary S] in
theorem weight_one2 {a b c x y : S} (ha : IsFinite a) (hb : IsFinite b) (hc : IsFinite c) (hx : IsFinite x)
    (hy : IsFinite y) (a0 : real a = 0) (b0 : real b = 0) (c1 : real c = 1) :
    num (a * x + b * y + c) = num (one : S) := by
  have e : num c = num (one : S) := by rw [num_finite hc, c1, num_finite finite_one, real_one]
  rw [num_add_congr ((num_add_congr (num_zero_mul ha a0 hx) (num_zero_mul hb b0 hy)).trans num_zero_add_zero) e]
  exact num_of_beq (zero_add_beq not_nan_one)
omit [Binary S] in
theorem weight_one3 {a b c d x y z : S} (ha : IsFinite a) (hb : IsFinite b) (hc : IsFinite c) (hd : IsFinite d)
    (hx : IsFinite x) (hy : IsFinite y) (hz : IsFinite z)
    (a0 : real a = 0) (b0 : real b = 0) (c0 : real c = 0) (d1 : real d = 1) :
    num (a * x + b * y + c * z + d) = num (one : S) := by
  have e : num d = num (one : S) := by rw [num_finite hd, d1, num_finite finite_one, real_one]
  have e1 := (num_add_congr (num_zero_mul ha a0 hx) (num_zero_mul hb b0 hy)).trans num_zero_add_zero
  have e2 := (num_add_congr e1 (num_zero_mul hc c0 hz)).trans num_zero_add_zero
  rw [num_add_congr e2 e]
  exact num_of_beq (zero_add_beq not_nan_one)
omit [Binary S] in
theorem div_weight {x w : S} (hw : num w = num (one : S)) : num (x / w) = num x := by
  have h : val w ≠ 0 := by rw [val_num, hw, ← val_num, val_one]; exact one_ne_zero
  rw [num_div_congr rfl hw h]; exact (same_div_one x).num
omit [Binary S] in
theorem finite_num {a b : S} (h : num a = num b) : IsFinite a ↔ IsFinite b := by
  unfold IsFinite; rw [← Val.canon_isFin, ← Val.canon_isFin (den b)]
  exact iff_of_eq (congrArg Val.IsFin h)
omit [Binary S] in
theorem real_num {a b : S} (h : num a = num b) : real a = real b := by
  unfold real; rw [← Val.canon_real, ← Val.canon_real (den b)]
  exact congrArg Val.real h

/-- C63. Transforming a point by an affine transform (last row `0 0 1`): no error comes from the division
by the homogeneous weight. -/
theorem C63_point2 (t : Transform2 S) (p : Point2 S) (ht : AllFinite t.forward) (hp : AllFinite p)
    (haff : t.forward.toReal 2 = ![0, 0, 1]) (h : AllFinite (Transform.transform t p : Point2 S)) (i : Fin 2) :
    |(Transform.transform t p : Point2 S).toReal i -
        (∑ j : Fin 2, t.forward.toReal i.castSucc j.castSucc * p.toReal j + t.forward.toReal i.castSucc 2)| ≤
      ((1 + uro S) ^ 3 - 1) * (∑ j : Fin 2, |t.forward.toReal i.castSucc j.castSucc * p.toReal j| +
        |t.forward.toReal i.castSucc 2|) + (1 + uro S) ^ 2 * (2 * tiny S) := by
  rw [Matrix3x3.allFinite, forall_lt_9] at ht
  obtain ⟨-, -, -, -, -, -, h6, h7, h8⟩ := ht
  rw [Point2.allFinite] at h hp
  have hw := weight_one2 h6 h7 h8 hp.1 hp.2 (congrFun haff 0) (congrFun haff 1) (congrFun haff 2)
  rw [Fin.sum_univ_two, Fin.sum_univ_two]
  have key : ∀ {x : S}, IsFinite (x / (t.forward.m[6] * p.x + t.forward.m[7] * p.y + t.forward.m[8])) →
      IsFinite x ∧ real (x / (t.forward.m[6] * p.x + t.forward.m[7] * p.y + t.forward.m[8])) = real x :=
    fun {x} hx => ⟨(finite_num (div_weight hw)).1 hx, real_num (div_weight hw)⟩
  fin_cases i
  · have := key h.1
    have r := row2a this.1
    rw [← this.2] at r; exact r
  · have := key h.2
    have r := row2a this.1
    rw [← this.2] at r; exact r
/-- C63. 3D. -/
theorem C63_point3 (t : Transform3 S) (p : Point3 S) (ht : AllFinite t.forward) (hp : AllFinite p)
    (haff : t.forward.toReal 3 = ![0, 0, 0, 1]) (h : AllFinite (Transform.transform t p : Point3 S)) (i : Fin 3) :
    |(Transform.transform t p : Point3 S).toReal i -
        (∑ j : Fin 3, t.forward.toReal i.castSucc j.castSucc * p.toReal j + t.forward.toReal i.castSucc 3)| ≤
      ((1 + uro S) ^ 4 - 1) * (∑ j : Fin 3, |t.forward.toReal i.castSucc j.castSucc * p.toReal j| +
        |t.forward.toReal i.castSucc 3|) + (1 + uro S) ^ 3 * (3 * tiny S) := by
  rw [Matrix4x4.allFinite, forall_lt_16] at ht
  obtain ⟨-, -, -, -, -, -, -, -, -, -, -, -, h12, h13, h14, h15⟩ := ht
  rw [Point3.allFinite] at h hp
  have hw := weight_one3 h12 h13 h14 h15 hp.1 hp.2.1 hp.2.2 (congrFun haff 0) (congrFun haff 1)
    (congrFun haff 2) (congrFun haff 3)
  rw [Fin.sum_univ_three, Fin.sum_univ_three]
  have key : ∀ {x : S}, IsFinite (x / (t.forward.m[12] * p.x + t.forward.m[13] * p.y + t.forward.m[14] * p.z +
      t.forward.m[15])) → IsFinite x ∧ real (x / (t.forward.m[12] * p.x + t.forward.m[13] * p.y +
      t.forward.m[14] * p.z + t.forward.m[15])) = real x :=
    fun {x} hx => ⟨(finite_num (div_weight hw)).1 hx, real_num (div_weight hw)⟩
  fin_cases i
  · have := key h.1
    have r := row3a this.1
    rw [← this.2] at r; exact r
  · have := key h.2.1
    have r := row3a this.1
    rw [← this.2] at r; exact r
  · have := key h.2.2
    have r := row3a this.1
    rw [← this.2] at r; exact r

/-! ## C64: evaluating a ray -/

theorem at_err {o d t : S} (h : IsFinite (o + d * t)) :
    |real (o + d * t) - (real o + real d * real t)| ≤
      uro S * |real o| + ((1 + uro S) ^ 2 - 1) * |real d * real t| + (1 + uro S) * tiny S := by
  have hf := finite_of_add h
  have hu := uro_pos (S := S)
  have h1 := err_add_of (e := 0) h (by simp : |real o - real o| ≤ 0) (err_mul hf.2)
  have h2 := mul_le_mul_of_nonneg_left (abs_add_le (real o) (real d * real t)) hu.le
  refine h1.trans ?_
  nlinarith

/-- C64. Every finite coordinate of `ray.at(t)` is close to the exact point on the ray. -/
theorem C64_at2 (r : Ray2 S) (t : S) (h : AllFinite (r.at t)) :
    |real (r.at t).x - (real r.origin.x + real r.direction.x * real t)| ≤
      uro S * |real r.origin.x| + ((1 + uro S) ^ 2 - 1) * |real r.direction.x * real t| + (1 + uro S) * tiny S ∧
    |real (r.at t).y - (real r.origin.y + real r.direction.y * real t)| ≤
      uro S * |real r.origin.y| + ((1 + uro S) ^ 2 - 1) * |real r.direction.y * real t| + (1 + uro S) * tiny S := by
  rw [Point2.allFinite] at h
  exact ⟨at_err h.1, at_err h.2⟩
/-- C64. 3D. -/
theorem C64_at3 (r : Ray3 S) (t : S) (h : AllFinite (r.at t)) :
    |real (r.at t).x - (real r.origin.x + real r.direction.x * real t)| ≤
      uro S * |real r.origin.x| + ((1 + uro S) ^ 2 - 1) * |real r.direction.x * real t| + (1 + uro S) * tiny S ∧
    |real (r.at t).y - (real r.origin.y + real r.direction.y * real t)| ≤
      uro S * |real r.origin.y| + ((1 + uro S) ^ 2 - 1) * |real r.direction.y * real t| + (1 + uro S) * tiny S ∧
    |real (r.at t).z - (real r.origin.z + real r.direction.z * real t)| ≤
      uro S * |real r.origin.z| + ((1 + uro S) ^ 2 - 1) * |real r.direction.z * real t| + (1 + uro S) * tiny S := by
  rw [Point3.allFinite] at h
  exact ⟨at_err h.1, at_err h.2.1, at_err h.2.2⟩

end VecMath
