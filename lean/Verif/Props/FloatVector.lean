import Verif.Lemmas.Float
import Verif.Spec.Float
/-!
# Vectors and points in IEEE arithmetic (layer F)

`S` is any IEEE scalar type (`f32`, `f64`, exact arithmetic): every rounding, NaN, infinities, signed
zeros, overflow and underflow included. `SameAll` is identity of floating-point data (stronger than `==`),
`==` is Rust's.
-/

namespace VecMath
open Scalar IEEE
variable {S : Type} [Scalar S] [IEEE S]

@[simp] theorem Ideal.not_nan_of (x : ℝ) : ¬ IsNaN (Ideal.of x) := (Ideal.finite_of x).not_nan

/-! ## C05 -/

theorem C05_origin2 (p : Point2 S) (v : Vector2 S) :
    SameAll (p - (Point2.origin : Point2 S)) (Vector2.fromPoint p) ∧
    (NoNaN v → (((Point2.origin : Point2 S) + v : Point2 S) == Point2.fromVector v) = true) := by
  refine ⟨Vector2.sameAll.2 ⟨same_sub_zero _, same_sub_zero _⟩, fun h => ?_⟩
  rw [Vector2.noNaN] at h
  exact Point2.beq_iff.2 ⟨zero_add_beq h.1, zero_add_beq h.2⟩
theorem C05_origin3 (p : Point3 S) (v : Vector3 S) :
    SameAll (p - (Point3.origin : Point3 S)) (Vector3.fromPoint p) ∧
    (NoNaN v → (((Point3.origin : Point3 S) + v : Point3 S) == Point3.fromVector v) = true) := by
  refine ⟨Vector3.sameAll.2 ⟨same_sub_zero _, same_sub_zero _, same_sub_zero _⟩, fun h => ?_⟩
  rw [Vector3.noNaN] at h
  exact Point3.beq_iff.2 ⟨zero_add_beq h.1, zero_add_beq h.2.1, zero_add_beq h.2.2⟩

/-- The hypothesis `NoNaN` is met by an ordinary vector, and by one with an infinite component. -/
example : NoNaN (Vector3.new (Ideal.of 1) (Ideal.of (-2)) (infinity : Ideal)) := by
  simp [Vector3.noNaN]

/-! ## C06: addition in floats -/

theorem C06_float2 (u v : Vector2 S) :
    SameAll (u + v) (v + u) ∧ SameAll (u - v) (u + -v) ∧ SameAll (- -v) v ∧
    (NoNaN v → (v + Vector2.zero == v) = true) ∧
    (AllFinite v → (v - v == Vector2.zero) = true) ∧
    (NoNaN (u - v) → (u - v == -(v - u)) = true) := by
  refine ⟨Vector2.sameAll.2 ⟨same_add_comm _ _, same_add_comm _ _⟩,
    Vector2.sameAll.2 ⟨same_sub _ _, same_sub _ _⟩,
    Vector2.sameAll.2 ⟨same_neg_neg _, same_neg_neg _⟩, fun h => ?_, fun h => ?_, fun h => ?_⟩
  · rw [Vector2.noNaN] at h
    exact Vector2.beq_iff.2 ⟨add_zero_beq h.1, add_zero_beq h.2⟩
  · rw [Vector2.allFinite] at h
    exact Vector2.beq_iff.2 ⟨((same_sub_self h.1).symm.beq not_nan_zero |> beq_symm),
      ((same_sub_self h.2).symm.beq not_nan_zero |> beq_symm)⟩
  · rw [Vector2.noNaN] at h
    exact Vector2.beq_iff.2 ⟨sub_neg_beq h.1, sub_neg_beq h.2⟩
theorem C06_float3 (u v : Vector3 S) :
    SameAll (u + v) (v + u) ∧ SameAll (u - v) (u + -v) ∧ SameAll (- -v) v ∧
    (NoNaN v → (v + Vector3.zero == v) = true) ∧
    (AllFinite v → (v - v == Vector3.zero) = true) ∧
    (NoNaN (u - v) → (u - v == -(v - u)) = true) := by
  refine ⟨Vector3.sameAll.2 ⟨same_add_comm _ _, same_add_comm _ _, same_add_comm _ _⟩,
    Vector3.sameAll.2 ⟨same_sub _ _, same_sub _ _, same_sub _ _⟩,
    Vector3.sameAll.2 ⟨same_neg_neg _, same_neg_neg _, same_neg_neg _⟩,
    fun h => ?_, fun h => ?_, fun h => ?_⟩
  · rw [Vector3.noNaN] at h
    exact Vector3.beq_iff.2 ⟨add_zero_beq h.1, add_zero_beq h.2.1, add_zero_beq h.2.2⟩
  · rw [Vector3.allFinite] at h
    exact Vector3.beq_iff.2 ⟨((same_sub_self h.1).symm.beq not_nan_zero |> beq_symm),
      ((same_sub_self h.2.1).symm.beq not_nan_zero |> beq_symm),
      ((same_sub_self h.2.2).symm.beq not_nan_zero |> beq_symm)⟩
  · rw [Vector3.noNaN] at h
    exact Vector3.beq_iff.2 ⟨sub_neg_beq h.1, sub_neg_beq h.2.1, sub_neg_beq h.2.2⟩

/-! ## C07: points in floats -/

theorem C07_float2 (p q : Point2 S) :
    (NoNaN p → (p + (Vector2.zero : Vector2 S) == p) = true) ∧
    (AllFinite p → (p - p == Vector2.zero) = true) ∧
    (NoNaN (p - q) → (p - q == -(q - p)) = true) := by
  refine ⟨fun h => ?_, fun h => ?_, fun h => ?_⟩
  · rw [Point2.noNaN] at h
    exact Point2.beq_iff.2 ⟨add_zero_beq h.1, add_zero_beq h.2⟩
  · rw [Point2.allFinite] at h
    exact Vector2.beq_iff.2 ⟨((same_sub_self h.1).symm.beq not_nan_zero |> beq_symm),
      ((same_sub_self h.2).symm.beq not_nan_zero |> beq_symm)⟩
  · rw [Vector2.noNaN] at h
    exact Vector2.beq_iff.2 ⟨sub_neg_beq h.1, sub_neg_beq h.2⟩
theorem C07_float3 (p q : Point3 S) :
    (NoNaN p → (p + (Vector3.zero : Vector3 S) == p) = true) ∧
    (AllFinite p → (p - p == Vector3.zero) = true) ∧
    (NoNaN (p - q) → (p - q == -(q - p)) = true) := by
  refine ⟨fun h => ?_, fun h => ?_, fun h => ?_⟩
  · rw [Point3.noNaN] at h
    exact Point3.beq_iff.2 ⟨add_zero_beq h.1, add_zero_beq h.2.1, add_zero_beq h.2.2⟩
  · rw [Point3.allFinite] at h
    exact Vector3.beq_iff.2 ⟨((same_sub_self h.1).symm.beq not_nan_zero |> beq_symm),
      ((same_sub_self h.2.1).symm.beq not_nan_zero |> beq_symm),
      ((same_sub_self h.2.2).symm.beq not_nan_zero |> beq_symm)⟩
  · rw [Vector3.noNaN] at h
    exact Vector3.beq_iff.2 ⟨sub_neg_beq h.1, sub_neg_beq h.2.1, sub_neg_beq h.2.2⟩

/-! ## C08: scaling in floats -/

theorem C08_float_vector2 (v : Vector2 S) :
    SameAll (v * (one : S)) v ∧ SameAll (v / (one : S)) v ∧ SameAll (v * (-one : S)) (-v) ∧
    SameAll (v * (two : S)) (v + v) := by
  simp only [Vector2.sameAll]
  exact ⟨⟨same_mul_one _, same_mul_one _⟩, ⟨same_div_one _, same_div_one _⟩,
    ⟨same_mul_neg_one _, same_mul_neg_one _⟩, ⟨same_mul_two _, same_mul_two _⟩⟩
theorem C08_float_vector3 (v : Vector3 S) :
    SameAll (v * (one : S)) v ∧ SameAll (v / (one : S)) v ∧ SameAll (v * (-one : S)) (-v) ∧
    SameAll (v * (two : S)) (v + v) := by
  simp only [Vector3.sameAll]
  exact ⟨⟨same_mul_one _, same_mul_one _, same_mul_one _⟩,
    ⟨same_div_one _, same_div_one _, same_div_one _⟩,
    ⟨same_mul_neg_one _, same_mul_neg_one _, same_mul_neg_one _⟩,
    ⟨same_mul_two _, same_mul_two _, same_mul_two _⟩⟩
theorem C08_float_point2 (p : Point2 S) :
    SameAll (p * (one : S)) p ∧ SameAll (p / (one : S)) p ∧ SameAll (p * (-one : S)) (-p) ∧
    SameAll (p * (two : S)) (p + Vector2.fromPoint p) := by
  simp only [Point2.sameAll]
  exact ⟨⟨same_mul_one _, same_mul_one _⟩, ⟨same_div_one _, same_div_one _⟩,
    ⟨same_mul_neg_one _, same_mul_neg_one _⟩, ⟨same_mul_two _, same_mul_two _⟩⟩
theorem C08_float_point3 (p : Point3 S) :
    SameAll (p * (one : S)) p ∧ SameAll (p / (one : S)) p ∧ SameAll (p * (-one : S)) (-p) ∧
    SameAll (p * (two : S)) (p + Vector3.fromPoint p) := by
  simp only [Point3.sameAll]
  exact ⟨⟨same_mul_one _, same_mul_one _, same_mul_one _⟩,
    ⟨same_div_one _, same_div_one _, same_div_one _⟩,
    ⟨same_mul_neg_one _, same_mul_neg_one _, same_mul_neg_one _⟩,
    ⟨same_mul_two _, same_mul_two _, same_mul_two _⟩⟩

/-! ## C09: dot in floats -/

theorem C09_symmetric2 (u v : Vector2 S) : Same (Api.dot u v) (Api.dot v u) :=
  (same_mul_comm _ _).add (same_mul_comm _ _)
theorem C09_symmetric3 (u v : Vector3 S) : Same (Api.dot u v) (Api.dot v u) :=
  ((same_mul_comm _ _).add (same_mul_comm _ _)).add (same_mul_comm _ _)
theorem C09_diagonal2 (v : Vector2 S) :
    (IsNaN (Api.dot v v) ↔ ¬ NoNaN v) ∧ (NoNaN v → (Scalar.zero ≤? Api.dot v v) = true) := by
  refine ⟨dot_self_isNaN2, fun h => ?_⟩
  have := dot_self_nonneg2 h
  rw [le_iff]
  exact ⟨not_nan_zero, by rw [dot_self_isNaN2]; simpa using h, by simpa using this⟩
theorem C09_diagonal3 (v : Vector3 S) :
    (IsNaN (Api.dot v v) ↔ ¬ NoNaN v) ∧ (NoNaN v → (Scalar.zero ≤? Api.dot v v) = true) := by
  refine ⟨dot_self_isNaN3, fun h => ?_⟩
  have := dot_self_nonneg3 h
  rw [le_iff]
  exact ⟨not_nan_zero, by rw [dot_self_isNaN3]; simpa using h, by simpa using this⟩

/-! ## C11: cross in floats -/

theorem sub_anti {a b c d : S} (h : ¬ IsNaN (a * b - c * d)) :
    (a * b - c * d == -(d * c - b * a)) = true := by
  have h1 := sub_neg_beq h
  have h2 : Same (-(c * d - a * b)) (-(d * c - b * a)) :=
    ((same_mul_comm c d).sub (same_mul_comm a b)).neg
  refine beq_trans h1 (h2.beq ?_)
  exact (beq_iff.1 h1).2.1
/-- `cross(u,v) == -cross(v,u)` in every component that is not NaN; a NaN appears in both or neither. -/
theorem C11_float_antisymmetric (u v : Vector3 S) :
    (NoNaN (Api.cross u v) → (Api.cross u v == -Api.cross v u) = true) ∧
    (IsNaN (Api.cross u v).x ↔ IsNaN (Api.cross v u).x) ∧
    (IsNaN (Api.cross u v).y ↔ IsNaN (Api.cross v u).y) ∧
    (IsNaN (Api.cross u v).z ↔ IsNaN (Api.cross v u).z) := by
  have nn : ∀ a b c d : S, IsNaN (a * b - c * d) ↔ IsNaN (d * c - b * a) := fun a b c d => by
    rw [isNaN_sub_comm]; exact ((same_mul_comm c d).sub (same_mul_comm a b)).isNaN
  refine ⟨fun h => ?_, nn _ _ _ _, nn _ _ _ _, nn _ _ _ _⟩
  rw [Vector3.noNaN] at h
  exact Vector3.beq_iff.2 ⟨sub_anti h.1, sub_anti h.2.1, sub_anti h.2.2⟩

/-! ## C12: length in floats -/

theorem C12_float2 (v : Vector2 S) :
    (IsNaN (Api.length v) ↔ ¬ NoNaN v) ∧ (NoNaN v → (Scalar.zero ≤? Api.length v) = true) := by
  refine ⟨length_isNaN2, fun h => le_iff.2 ⟨not_nan_zero, by rw [length_isNaN2]; simpa using h, ?_⟩⟩
  rw [val_zero]
  exact val_sqrt_nonneg (by rw [dot_self_isNaN2]; simpa using h) (dot_self_nonneg2 h)
theorem C12_float3 (v : Vector3 S) :
    (IsNaN (Api.length v) ↔ ¬ NoNaN v) ∧ (NoNaN v → (Scalar.zero ≤? Api.length v) = true) := by
  refine ⟨length_isNaN3, fun h => le_iff.2 ⟨not_nan_zero, by rw [length_isNaN3]; simpa using h, ?_⟩⟩
  rw [val_zero]
  exact val_sqrt_nonneg (by rw [dot_self_isNaN3]; simpa using h) (dot_self_nonneg3 h)

theorem same_sq_of_sign {x y : S} (h : Same y x ∨ Same y (-x)) : Same (y * y) (x * x) := by
  rcases h with h | h
  · exact h.mul h
  · exact (h.mul h).trans ((same_mul_neg _ _).trans ((same_neg_mul _ _).neg.trans (same_neg_neg _)))

/-- Changing the signs of any components does not change the length, to the last bit. -/
theorem C12_float_signs2 (v w : Vector2 S) (h : SameUpToSign v w) :
    Same (Api.length w) (Api.length v) := by
  simp [SameUpToSign, Comps.comps] at h
  exact ((same_sq_of_sign h.1).add (same_sq_of_sign h.2)).sqrt
theorem C12_float_signs3 (v w : Vector3 S) (h : SameUpToSign v w) :
    Same (Api.length w) (Api.length v) := by
  simp [SameUpToSign, Comps.comps] at h
  exact (((same_sq_of_sign h.1).add (same_sq_of_sign h.2.1)).add (same_sq_of_sign h.2.2)).sqrt

theorem same_abs_or (x : S) : Same (Scalar.abs x) x ∨ Same (Scalar.abs x) (-x) := by
  unfold Same; rw [den_abs, den_neg]; exact Val.abs_eq
theorem C12_float_neg_abs2 (v : Vector2 S) :
    Same (Api.length (-v)) (Api.length v) ∧ Same (Api.length v.abs) (Api.length v) :=
  ⟨C12_float_signs2 _ _ (by simp [SameUpToSign, Comps.comps, Same.refl]),
   C12_float_signs2 _ _ (by simp [SameUpToSign, Comps.comps, same_abs_or])⟩
theorem C12_float_neg_abs3 (v : Vector3 S) :
    Same (Api.length (-v)) (Api.length v) ∧ Same (Api.length v.abs) (Api.length v) :=
  ⟨C12_float_signs3 _ _ (by simp [SameUpToSign, Comps.comps, Same.refl]),
   C12_float_signs3 _ _ (by simp [SameUpToSign, Comps.comps, same_abs_or])⟩

/-- A sign change of one component meets the hypothesis. -/
example (x y z : S) : SameUpToSign (Vector3.new x y z) (Vector3.new x (-y) z) := by
  simp [SameUpToSign, Comps.comps, Same.refl]

/-! ## C13: the zero vector -/

theorem zero_sq {a : S} (ha : IsFinite a) (h : real a = 0) : IsFinite (a * a) ∧ real (a * a) = 0 :=
  zero_mul_finite ha ha h
theorem zero_add' {a b : S} (ha : IsFinite a) (hb : IsFinite b) (h : real a = 0) (h' : real b = 0) :
    IsFinite (a + b) ∧ real (a + b) = 0 := by
  have := add_finite ha hb
  rw [h, h', add_zero, Rounding.finish_zero] at this
  unfold IsFinite real; rw [this]; simp
theorem zero_sqrt {a : S} (ha : IsFinite a) (h : real a = 0) :
    IsFinite (Scalar.sqrt a) ∧ real (Scalar.sqrt a) = 0 := by
  unfold IsFinite real at *; rw [den_sqrt]
  generalize den a = v at *
  revert h
  refine Val.IsFin.cases (P := fun v => v.real = 0 → ((IEEE.A S).sqrt v).IsFin ∧
    ((IEEE.A S).sqrt v).real = 0) ha ?_ ?_
  · intro _; exact ⟨trivial, rfl⟩
  · rintro x (rfl : x = 0)
    simp [Rounding.sqrt]
theorem zero_div_zero {a b : S} (ha : IsFinite a) (hb : IsFinite b) (h : real a = 0) (h' : real b = 0) :
    IsNaN (a / b) := by
  unfold IsNaN; rw [den_div, Rounding.div_fin _ ha hb, if_pos (show (den b).real = 0 from h'),
    if_pos (show (den a).real = 0 from h)]
theorem beq_zero {a : S} (h : (a == Scalar.zero) = true) : IsFinite a ∧ real a = 0 := by
  rw [beq_iff, val_zero] at h
  exact (Val.ereal_eq_zero_iff h.1).1 h.2.2
theorem length_zero3 {v : Vector3 S} (h : (v == Vector3.zero) = true) :
    IsFinite (Api.length v) ∧ real (Api.length v) = 0 := by
  rw [Vector3.beq_iff] at h
  have hx := beq_zero h.1
  have hy := beq_zero h.2.1
  have hz := beq_zero h.2.2
  have sx := zero_sq hx.1 hx.2
  have sy := zero_sq hy.1 hy.2
  have sz := zero_sq hz.1 hz.2
  have s1 := zero_add' sx.1 sy.1 sx.2 sy.2
  have s2 := zero_add' s1.1 sz.1 s1.2 sz.2
  exact zero_sqrt s2.1 s2.2
theorem length_zero2 {v : Vector2 S} (h : (v == Vector2.zero) = true) :
    IsFinite (Api.length v) ∧ real (Api.length v) = 0 := by
  rw [Vector2.beq_iff] at h
  have hx := beq_zero h.1
  have hy := beq_zero h.2
  have sx := zero_sq hx.1 hx.2
  have sy := zero_sq hy.1 hy.2
  have s1 := zero_add' sx.1 sy.1 sx.2 sy.2
  exact zero_sqrt s1.1 s1.2

/-- Normalizing the zero vector (with any signs of zero) gives NaN in every component. -/
theorem C13_zero2 (v : Vector2 S) (h : (v == Vector2.zero) = true) : AllNaN v.normalize := by
  have hl := length_zero2 h
  rw [Vector2.beq_iff] at h
  have hx := beq_zero h.1
  have hy := beq_zero h.2
  simp only [AllNaN, Comps.comps, List.mem_cons, List.not_mem_nil, or_false]
  rintro s (rfl | rfl)
  exacts [zero_div_zero hx.1 hl.1 hx.2 hl.2, zero_div_zero hy.1 hl.1 hy.2 hl.2]
theorem C13_zero3 (v : Vector3 S) (h : (v == Vector3.zero) = true) : AllNaN v.normalize := by
  have hl := length_zero3 h
  rw [Vector3.beq_iff] at h
  have hx := beq_zero h.1
  have hy := beq_zero h.2.1
  have hz := beq_zero h.2.2
  simp only [AllNaN, Comps.comps, List.mem_cons, List.not_mem_nil, or_false]
  rintro s (rfl | rfl | rfl)
  exacts [zero_div_zero hx.1 hl.1 hx.2 hl.2, zero_div_zero hy.1 hl.1 hy.2 hl.2,
    zero_div_zero hz.1 hl.1 hz.2 hl.2]
/-- The zero vector itself meets the hypothesis. -/
example : ((Vector3.zero : Vector3 S) == Vector3.zero) = true :=
  Vector3.beq_iff.2 ⟨(Same.refl _).beq not_nan_zero, (Same.refl _).beq not_nan_zero,
    (Same.refl _).beq not_nan_zero⟩

/-! ## C14: length comparisons in floats -/

theorem sqrt_lt_imp {a b : S} (ha : 0 ≤ val a) (hb : 0 ≤ val b)
    (h : (Scalar.sqrt a <? Scalar.sqrt b) = true) : (a <? b) = true := by
  rw [lt_iff] at h
  obtain ⟨h1, h2, h3⟩ := h
  rw [isNaN_sqrt_nonneg ha] at h1
  rw [isNaN_sqrt_nonneg hb] at h2
  refine lt_iff.2 ⟨h1, h2, ?_⟩
  by_contra hc
  exact absurd (val_sqrt_mono h2 h1 hb (not_lt.1 hc)) (not_le.2 h3)
theorem lt_imp_sqrt_le {a b : S} (ha : 0 ≤ val a) (h : (a <? b) = true) :
    (Scalar.sqrt a ≤? Scalar.sqrt b) = true := by
  rw [lt_iff] at h
  obtain ⟨h1, h2, h3⟩ := h
  have hb := ha.trans h3.le
  exact le_iff.2 ⟨by rwa [isNaN_sqrt_nonneg ha], by rwa [isNaN_sqrt_nonneg hb],
    val_sqrt_mono h1 h2 ha h3.le⟩
theorem lt_asymm' {a b : S} : ¬ ((a <? b) = true ∧ (b <? a) = true) := by
  rw [lt_iff, lt_iff]; rintro ⟨h, h'⟩; exact lt_asymm h.2.2 h'.2.2

theorem noNaN_of_length_lt3 {u v : Vector3 S} (h : (Api.length u <? Api.length v) = true) :
    NoNaN u ∧ NoNaN v := by
  rw [lt_iff, length_isNaN3, length_isNaN3] at h; tauto
theorem noNaN_of_length_lt2 {u v : Vector2 S} (h : (Api.length u <? Api.length v) = true) :
    NoNaN u ∧ NoNaN v := by
  rw [lt_iff, length_isNaN2, length_isNaN2] at h; tauto
theorem noNaN_of_dot_lt3 {u v : Vector3 S} (h : (Api.dot u u <? Api.dot v v) = true) :
    NoNaN u ∧ NoNaN v := by
  rw [lt_iff, dot_self_isNaN3, dot_self_isNaN3] at h; tauto
theorem noNaN_of_dot_lt2 {u v : Vector2 S} (h : (Api.dot u u <? Api.dot v v) = true) :
    NoNaN u ∧ NoNaN v := by
  rw [lt_iff, dot_self_isNaN2, dot_self_isNaN2] at h; tauto

theorem C14_float2 (u v : Vector2 S) :
    ((Api.length u <? Api.length v) = true → RelativeLength.isShorterThan u v = true) ∧
    (RelativeLength.isShorterThan u v = true → (Api.length u ≤? Api.length v) = true) ∧
    RelativeLength.isLongerThan u v = RelativeLength.isShorterThan v u ∧
    ¬ (RelativeLength.isShorterThan u v = true ∧ RelativeLength.isLongerThan u v = true) := by
  refine ⟨fun h => ?_, fun h => ?_, rfl, lt_asymm'⟩
  · have n := noNaN_of_length_lt2 h
    exact sqrt_lt_imp (dot_self_nonneg2 n.1) (dot_self_nonneg2 n.2) h
  · exact lt_imp_sqrt_le (dot_self_nonneg2 (noNaN_of_dot_lt2 h).1) h
theorem C14_float3 (u v : Vector3 S) :
    ((Api.length u <? Api.length v) = true → RelativeLength.isShorterThan u v = true) ∧
    (RelativeLength.isShorterThan u v = true → (Api.length u ≤? Api.length v) = true) ∧
    RelativeLength.isLongerThan u v = RelativeLength.isShorterThan v u ∧
    ¬ (RelativeLength.isShorterThan u v = true ∧ RelativeLength.isLongerThan u v = true) := by
  refine ⟨fun h => ?_, fun h => ?_, rfl, lt_asymm'⟩
  · have n := noNaN_of_length_lt3 h
    exact sqrt_lt_imp (dot_self_nonneg3 n.1) (dot_self_nonneg3 n.2) h
  · exact lt_imp_sqrt_le (dot_self_nonneg3 (noNaN_of_dot_lt3 h).1) h

/-! ## C15: distance in floats -/

theorem C15_float_symmetric2 (p q : Point2 S) : Same (Api.distance p q) (Api.distance q p) :=
  ((same_sub_sq _ _).add (same_sub_sq _ _)).sqrt
theorem C15_float_symmetric3 (p q : Point3 S) : Same (Api.distance p q) (Api.distance q p) :=
  (((same_sub_sq _ _).add (same_sub_sq _ _)).add (same_sub_sq _ _)).sqrt
theorem C15_float2 (p q : Point2 S) :
    (IsNaN (Api.distance p q) ↔ IsNaN (q.x - p.x) ∨ IsNaN (q.y - p.y)) ∧
    (¬ IsNaN (Api.distance p q) → (Scalar.zero ≤? Api.distance p q) = true) := by
  have h1 : IsNaN (Api.distance p q) ↔ ¬ NoNaN (q - p) := length_isNaN2
  refine ⟨?_, fun h => (C12_float2 (q - p)).2 (not_not.1 (mt h1.2 h))⟩
  rw [h1, Vector2.noNaN, Point2.psub_x, Point2.psub_y]; tauto
theorem C15_float3 (p q : Point3 S) :
    (IsNaN (Api.distance p q) ↔ IsNaN (q.x - p.x) ∨ IsNaN (q.y - p.y) ∨ IsNaN (q.z - p.z)) ∧
    (¬ IsNaN (Api.distance p q) → (Scalar.zero ≤? Api.distance p q) = true) := by
  have h1 : IsNaN (Api.distance p q) ↔ ¬ NoNaN (q - p) := length_isNaN3
  refine ⟨?_, fun h => (C12_float3 (q - p)).2 (not_not.1 (mt h1.2 h))⟩
  rw [h1, Vector3.noNaN, Point3.psub_x, Point3.psub_y, Point3.psub_z]; tauto

theorem beq_of_finite {a b : S} (ha : IsFinite a) (hb : IsFinite b) :
    (a == b) = true ↔ real a = real b := by
  rw [beq_of_not_nan ha.not_nan hb.not_nan, ha.val, hb.val, EReal.coe_eq_coe_iff]
theorem sub_beq_zero {a b : S} (ha : IsFinite a) (hb : IsFinite b) (h : (a == b) = true) :
    (b - a == Scalar.zero) = true := by
  rw [beq_of_finite ha hb] at h
  have := sub_finite hb ha
  rw [h, sub_self, Rounding.finish_zero] at this
  refine beq_iff.2 ⟨?_, not_nan_zero, ?_⟩
  · unfold IsNaN; rw [this]; simp
  · rw [val_zero]; unfold val; rw [this]; simp
theorem beq_zero_of {a : S} (h : IsFinite a ∧ real a = 0) : (a == Scalar.zero) = true :=
  (beq_of_finite h.1 finite_zero).2 (by simpa using h.2)
/-- Equal finite points are at distance zero. -/
theorem C15_float_zero2 (p q : Point2 S) (hp : AllFinite p) (hq : AllFinite q) (h : (p == q) = true) :
    (Api.distance p q == Scalar.zero) = true := by
  rw [Point2.allFinite] at hp hq
  rw [Point2.beq_iff] at h
  exact beq_zero_of (length_zero2 (Vector2.beq_iff.2
    ⟨sub_beq_zero hp.1 hq.1 h.1, sub_beq_zero hp.2 hq.2 h.2⟩))
theorem C15_float_zero3 (p q : Point3 S) (hp : AllFinite p) (hq : AllFinite q) (h : (p == q) = true) :
    (Api.distance p q == Scalar.zero) = true := by
  rw [Point3.allFinite] at hp hq
  rw [Point3.beq_iff] at h
  exact beq_zero_of (length_zero3 (Vector3.beq_iff.2
    ⟨sub_beq_zero hp.1 hq.1 h.1, sub_beq_zero hp.2.1 hq.2.1 h.2.1, sub_beq_zero hp.2.2 hq.2.2 h.2.2⟩))

/-! ## C16: distance comparisons in floats -/

theorem C16_float2 (p a b : Point2 S) :
    ((Api.distance p a <? Api.distance p b) = true → RelativeDistance.isCloserTo p a b = true) ∧
    (RelativeDistance.isCloserTo p a b = true → (Api.distance p a ≤? Api.distance p b) = true) ∧
    RelativeDistance.isFartherFrom p a b = RelativeDistance.isCloserTo p b a ∧
    ¬ (RelativeDistance.isCloserTo p a b = true ∧ RelativeDistance.isFartherFrom p a b = true) :=
  C14_float2 (a - p) (b - p)
theorem C16_float3 (p a b : Point3 S) :
    ((Api.distance p a <? Api.distance p b) = true → RelativeDistance.isCloserTo p a b = true) ∧
    (RelativeDistance.isCloserTo p a b = true → (Api.distance p a ≤? Api.distance p b) = true) ∧
    RelativeDistance.isFartherFrom p a b = RelativeDistance.isCloserTo p b a ∧
    ¬ (RelativeDistance.isCloserTo p a b = true ∧ RelativeDistance.isFartherFrom p a b = true) :=
  C14_float3 (a - p) (b - p)

/-! ## C17: selection in floats -/

theorem le_of_not_lt' {a b : S} (ha : ¬ IsNaN a) (hb : ¬ IsNaN b) (h : ¬ (a <? b) = true) :
    (b ≤? a) = true := by
  rw [lt_of_not_nan ha hb] at h
  exact (le_of_not_nan hb ha).2 (not_lt.1 h)
theorem le_self {a : S} (ha : ¬ IsNaN a) : (a ≤? a) = true := (le_of_not_nan ha ha).2 le_rfl
theorem sqrt_le' {a b : S} (ha : 0 ≤ val a) (h : (a ≤? b) = true) :
    (Scalar.sqrt a ≤? Scalar.sqrt b) = true := by
  rw [le_iff] at h
  obtain ⟨h1, h2, h3⟩ := h
  have hb := ha.trans h3
  exact le_iff.2 ⟨by rwa [isNaN_sqrt_nonneg ha], by rwa [isNaN_sqrt_nonneg hb],
    val_sqrt_mono h1 h2 ha h3⟩

theorem C17_vector2 (u v : Vector2 S) :
    (NoNaN u → NoNaN v →
      ((Api.length (Api.shortest u v) ≤? Api.length u) = true ∧
       (Api.length (Api.shortest u v) ≤? Api.length v) = true) ∧
      (Api.length u ≤? Api.length (Api.longest u v)) = true ∧
      (Api.length v ≤? Api.length (Api.longest u v)) = true) ∧
    (¬ RelativeLength.isShorterThan u v = true → Api.shortest u v = v) ∧
    (¬ RelativeLength.isLongerThan u v = true → Api.longest u v = v) ∧
    ((¬ NoNaN u ∨ ¬ NoNaN v) → Api.shortest u v = v ∧ Api.longest u v = v) := by
  refine ⟨fun hu hv => ?_, fun h => if_neg h, fun h => if_neg h, fun h => ?_⟩
  · have nu : ¬ IsNaN (Api.dot u u) := by rw [dot_self_isNaN2]; simpa using hu
    have nv : ¬ IsNaN (Api.dot v v) := by rw [dot_self_isNaN2]; simpa using hv
    have lu : ¬ IsNaN (Api.length u) := by rw [length_isNaN2]; simpa using hu
    have lv : ¬ IsNaN (Api.length v) := by rw [length_isNaN2]; simpa using hv
    constructor
    · by_cases h : (Api.dot u u <? Api.dot v v) = true
      · rw [show Api.shortest u v = u from if_pos h]
        exact ⟨le_self lu, lt_imp_sqrt_le (dot_self_nonneg2 hu) h⟩
      · rw [show Api.shortest u v = v from if_neg h]
        exact ⟨sqrt_le' (dot_self_nonneg2 hv) (le_of_not_lt' nu nv h), le_self lv⟩
    · by_cases h : (Api.dot u u >? Api.dot v v) = true
      · rw [show Api.longest u v = u from if_pos h]
        exact ⟨le_self lu, lt_imp_sqrt_le (dot_self_nonneg2 hv) h⟩
      · rw [show Api.longest u v = v from if_neg h]
        exact ⟨sqrt_le' (dot_self_nonneg2 hu) (le_of_not_lt' nv nu h), le_self lv⟩
  · constructor
    · exact if_neg fun h' => by have := noNaN_of_dot_lt2 h'; tauto
    · exact if_neg fun h' => by have := noNaN_of_dot_lt2 h'; tauto
theorem C17_vector3 (u v : Vector3 S) :
    (NoNaN u → NoNaN v →
      ((Api.length (Api.shortest u v) ≤? Api.length u) = true ∧
       (Api.length (Api.shortest u v) ≤? Api.length v) = true) ∧
      (Api.length u ≤? Api.length (Api.longest u v)) = true ∧
      (Api.length v ≤? Api.length (Api.longest u v)) = true) ∧
    (¬ RelativeLength.isShorterThan u v = true → Api.shortest u v = v) ∧
    (¬ RelativeLength.isLongerThan u v = true → Api.longest u v = v) ∧
    ((¬ NoNaN u ∨ ¬ NoNaN v) → Api.shortest u v = v ∧ Api.longest u v = v) := by
  refine ⟨fun hu hv => ?_, fun h => if_neg h, fun h => if_neg h, fun h => ?_⟩
  · have nu : ¬ IsNaN (Api.dot u u) := by rw [dot_self_isNaN3]; simpa using hu
    have nv : ¬ IsNaN (Api.dot v v) := by rw [dot_self_isNaN3]; simpa using hv
    have lu : ¬ IsNaN (Api.length u) := by rw [length_isNaN3]; simpa using hu
    have lv : ¬ IsNaN (Api.length v) := by rw [length_isNaN3]; simpa using hv
    constructor
    · by_cases h : (Api.dot u u <? Api.dot v v) = true
      · rw [show Api.shortest u v = u from if_pos h]
        exact ⟨le_self lu, lt_imp_sqrt_le (dot_self_nonneg3 hu) h⟩
      · rw [show Api.shortest u v = v from if_neg h]
        exact ⟨sqrt_le' (dot_self_nonneg3 hv) (le_of_not_lt' nu nv h), le_self lv⟩
    · by_cases h : (Api.dot u u >? Api.dot v v) = true
      · rw [show Api.longest u v = u from if_pos h]
        exact ⟨le_self lu, lt_imp_sqrt_le (dot_self_nonneg3 hv) h⟩
      · rw [show Api.longest u v = v from if_neg h]
        exact ⟨sqrt_le' (dot_self_nonneg3 hu) (le_of_not_lt' nv nu h), le_self lv⟩
  · constructor
    · exact if_neg fun h' => by have := noNaN_of_dot_lt3 h'; tauto
    · exact if_neg fun h' => by have := noNaN_of_dot_lt3 h'; tauto

/-- `closest`/`farthest`: no NaN coordinate difference → at least as good as both; the second argument
on a tie and when a coordinate difference is NaN. -/
theorem C17_point2 (p a b : Point2 S) :
    (¬ IsNaN (Api.distance p a) → ¬ IsNaN (Api.distance p b) →
      ((Api.distance p (Api.closest p a b) ≤? Api.distance p a) = true ∧
       (Api.distance p (Api.closest p a b) ≤? Api.distance p b) = true) ∧
      (Api.distance p a ≤? Api.distance p (Api.farthest p a b)) = true ∧
      (Api.distance p b ≤? Api.distance p (Api.farthest p a b)) = true) ∧
    (¬ RelativeDistance.isCloserTo p a b = true → Api.closest p a b = b) ∧
    (¬ RelativeDistance.isFartherFrom p a b = true → Api.farthest p a b = b) ∧
    ((IsNaN (Api.distance p a) ∨ IsNaN (Api.distance p b)) →
      Api.closest p a b = b ∧ Api.farthest p a b = b) := by
  have n : ∀ q, IsNaN (Api.distance p q) ↔ ¬ NoNaN (q - p) := fun q => length_isNaN2
  have key := C17_vector2 (a - p) (b - p)
  have e1 : Api.closest p a b - p = Api.shortest (a - p) (b - p) :=
    apply_ite (fun q : Point2 S => q - p) ((Api.dot (a - p) (a - p) <? Api.dot (b - p) (b - p)) = true) a b
  have e2 : Api.farthest p a b - p = Api.longest (a - p) (b - p) :=
    apply_ite (fun q : Point2 S => q - p) ((Api.dot (a - p) (a - p) >? Api.dot (b - p) (b - p)) = true) a b
  refine ⟨fun ha hb => ?_, fun h => if_neg h, fun h => if_neg h, fun h => ?_⟩
  · simp only [Point2.distance_def, e1, e2]
    rw [n, not_not] at ha hb
    exact key.1 ha hb
  · rw [n, n] at h
    constructor
    · exact if_neg fun h' => by have := noNaN_of_dot_lt2 h'; tauto
    · exact if_neg fun h' => by have := noNaN_of_dot_lt2 h'; tauto
theorem C17_point3 (p a b : Point3 S) :
    (¬ IsNaN (Api.distance p a) → ¬ IsNaN (Api.distance p b) →
      ((Api.distance p (Api.closest p a b) ≤? Api.distance p a) = true ∧
       (Api.distance p (Api.closest p a b) ≤? Api.distance p b) = true) ∧
      (Api.distance p a ≤? Api.distance p (Api.farthest p a b)) = true ∧
      (Api.distance p b ≤? Api.distance p (Api.farthest p a b)) = true) ∧
    (¬ RelativeDistance.isCloserTo p a b = true → Api.closest p a b = b) ∧
    (¬ RelativeDistance.isFartherFrom p a b = true → Api.farthest p a b = b) ∧
    ((IsNaN (Api.distance p a) ∨ IsNaN (Api.distance p b)) →
      Api.closest p a b = b ∧ Api.farthest p a b = b) := by
  have n : ∀ q, IsNaN (Api.distance p q) ↔ ¬ NoNaN (q - p) := fun q => length_isNaN3
  have key := C17_vector3 (a - p) (b - p)
  have e1 : Api.closest p a b - p = Api.shortest (a - p) (b - p) :=
    apply_ite (fun q : Point3 S => q - p) ((Api.dot (a - p) (a - p) <? Api.dot (b - p) (b - p)) = true) a b
  have e2 : Api.farthest p a b - p = Api.longest (a - p) (b - p) :=
    apply_ite (fun q : Point3 S => q - p) ((Api.dot (a - p) (a - p) >? Api.dot (b - p) (b - p)) = true) a b
  refine ⟨fun ha hb => ?_, fun h => if_neg h, fun h => if_neg h, fun h => ?_⟩
  · simp only [Point3.distance_def, e1, e2]
    rw [n, not_not] at ha hb
    exact key.1 ha hb
  · rw [n, n] at h
    constructor
    · exact if_neg fun h' => by have := noNaN_of_dot_lt3 h'; tauto
    · exact if_neg fun h' => by have := noNaN_of_dot_lt3 h'; tauto

end VecMath
