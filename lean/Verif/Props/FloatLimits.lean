import Verif.Lemmas.Round
import Verif.Lemmas.Mat
import Verif.Props.FloatVector
import Verif.Props.FloatBoxMeasure
import Verif.Props.FloatMatrix
import Mathlib.LinearAlgebra.Matrix.Determinant.Basic
/-!
# Layer F: what happens at the ends of the range

`f32`/`f64` underflow and overflow: exactly where the exact-arithmetic properties stop holding. Each
theorem ranges over all scalars computing in a binary format; examples give concrete data.
-/

open Classical

namespace VecMath
open Scalar IEEE

section
variable {S : Type} [Scalar S] [IEEE S]

/-- A float equal to zero (either sign). -/
def IsZero (a : S) : Prop := IsFinite a ∧ real a = 0

theorem isZero_iff {a : S} : IsZero a ↔ (a == Scalar.zero) = true := by
  constructor
  · intro h; rw [beq_iff, val_zero, h.1.val, h.2]; exact ⟨h.1.not_nan, not_nan_zero, rfl⟩
  · exact beq_zero
theorem isZero_zero : IsZero (Scalar.zero : S) := ⟨finite_zero, real_zero⟩
theorem IsZero.add {a b : S} (ha : IsZero a) (hb : IsZero b) : IsZero (a + b) := zero_add' ha.1 hb.1 ha.2 hb.2
theorem IsZero.sub {a b : S} (ha : IsZero a) (hb : IsZero b) : IsZero (a - b) := by
  have := sub_finite ha.1 hb.1
  rw [ha.2, hb.2, sub_zero, Rounding.finish_zero] at this
  unfold IsZero IsFinite real; rw [this]; simp
theorem IsZero.mul {a b : S} (ha : IsZero a) (hb : IsFinite b) : IsZero (a * b) := zero_mul_finite ha.1 hb ha.2
theorem IsZero.mul' {a b : S} (ha : IsFinite a) (hb : IsZero b) : IsZero (a * b) := by
  have h := zero_mul_finite hb.1 ha hb.2
  unfold IsZero IsFinite real at *
  rw [show den (a * b) = den (b * a) from same_mul_comm a b]; exact h
theorem IsZero.sqrt {a : S} (ha : IsZero a) : IsZero (Scalar.sqrt a) := zero_sqrt ha.1 ha.2
theorem IsZero.neg {a : S} (ha : IsZero a) : IsZero (-a) := by
  refine ⟨finite_neg.2 ha.1, ?_⟩
  rw [real_neg, ha.2, neg_zero]

/-- An infinite float. -/
def IsInf (a : S) : Prop := ∃ s, den a = .inf s
theorem IsInf.not_nan {a : S} (h : IsInf a) : ¬ IsNaN a := by
  obtain ⟨s, h⟩ := h; unfold IsNaN; rw [h]; simp
theorem IsInf.not_finite {a : S} (h : IsInf a) : ¬ IsFinite a := by
  obtain ⟨s, h⟩ := h; unfold IsFinite; rw [h]; simp
theorem isInf_iff {a : S} : IsInf a ↔ ¬ IsNaN a ∧ ¬ IsFinite a := by
  constructor
  · exact fun h => ⟨h.not_nan, h.not_finite⟩
  · rintro ⟨h1, h2⟩
    rcases Val.not_isFin_iff.1 h2 with h | h
    · exact absurd h h1
    · exact h
theorem IsInf.add_finite {a b : S} (ha : IsInf a) (hb : IsFinite b) : IsInf (a + b) := by
  obtain ⟨s, h⟩ := ha
  exact ⟨s, by rw [den_add, h, Rounding.add_inf_fin _ _ hb]⟩
theorem IsInf.finite_add {a b : S} (ha : IsFinite a) (hb : IsInf b) : IsInf (a + b) := by
  obtain ⟨s, h⟩ := hb
  exact ⟨s, by rw [den_add, h, Rounding.add_fin_inf _ ha]⟩
theorem IsInf.sub_finite {a b : S} (ha : IsInf a) (hb : IsFinite b) : IsInf (a - b) := by
  obtain ⟨s, h⟩ := ha
  refine ⟨s, ?_⟩
  rw [show den (a - b) = _ from same_sub a b, den_add, h, Rounding.add_inf_fin _ _ (finite_neg.2 hb)]
theorem IsInf.mul {a b : S} (ha : IsInf a) (hb : IsFinite b) (h0 : real b ≠ 0) : IsInf (a * b) := by
  obtain ⟨s, h⟩ := ha
  refine ⟨s ^^ (den b).neg?, ?_⟩
  rw [den_mul, h, Rounding.mul_inf_fin _ _ hb, if_neg (show (den b).real ≠ 0 from h0)]
theorem IsInf.mul' {a b : S} (ha : IsFinite a) (h0 : real a ≠ 0) (hb : IsInf b) : IsInf (a * b) := by
  obtain ⟨s, h⟩ := hb
  refine ⟨(den a).neg? ^^ s, ?_⟩
  rw [den_mul, h, Rounding.mul_fin_inf _ ha, if_neg (show (den a).real ≠ 0 from h0)]
theorem IsInf.mul_zero {a b : S} (ha : IsInf a) (hb : IsZero b) : IsNaN (a * b) := by
  obtain ⟨s, h⟩ := ha
  unfold IsNaN
  rw [den_mul, h, Rounding.mul_inf_fin _ _ hb.1, if_pos (show (den b).real = 0 from hb.2)]
theorem IsInf.div_inf {a b : S} (ha : IsInf a) (hb : IsInf b) : IsNaN (a / b) := by
  obtain ⟨s, h⟩ := ha
  obtain ⟨t, h'⟩ := hb
  unfold IsNaN; rw [den_div, h, h']; rfl
theorem finite_div_inf {a b : S} (ha : IsFinite a) (hb : IsInf b) : IsZero (a / b) := by
  obtain ⟨t, h⟩ := hb
  have : den (a / b) = .mkZero ((den a).neg? ^^ t) := by rw [den_div, h, Rounding.div_fin_inf _ ha]
  unfold IsZero IsFinite real; rw [this]; simp
theorem div_zero_inf {a b : S} (ha : IsFinite a) (h0 : real a ≠ 0) (hb : IsZero b) : IsInf (a / b) := by
  refine ⟨(den a).neg? ^^ (den b).neg?, ?_⟩
  rw [den_div, Rounding.div_fin _ ha hb.1, if_pos (show (den b).real = 0 from hb.2),
    if_neg (show (den a).real ≠ 0 from h0)]

/-- A box dimension whose extent overflows puts the center outside. -/
theorem center_outside {l h : S} (hl : IsFinite l) (hh : IsFinite h) (hd : ¬ IsFinite (h - l)) :
    ¬ In1 l h (l + (h - l) * Scalar.half) := by
  have hi : IsInf (h - l) := isInf_iff.2 ⟨isNaN_sub_finite hl hh.not_nan, hd⟩
  have hc : IsInf (l + (h - l) * Scalar.half) :=
    IsInf.finite_add hl (hi.mul finite_half (by rw [real_half]; norm_num))
  rintro ⟨h1, h2⟩
  refine hc.not_finite (finite_iff.2 ⟨hc.not_nan, ?_, ?_⟩)
  · have := (le_iff.1 h2).2.2
    rw [hh.val] at this; exact ne_top_of_le_ne_top (EReal.coe_ne_top _) this
  · have := (le_iff.1 h1).2.2
    rw [hl.val] at this; exact ne_bot_of_le_ne_bot (EReal.coe_ne_bot _) this

/-- **C32** in floats, exactly: the center of a finite well-formed box lies inside it precisely when no
extent `max - min` overflows. -/
theorem C32_float_iff2 (b : BoundingBox2 S) (hf : AllFinite b) (hb : LeAll b.min b.max) :
    b.isInside b.center = true ↔ AllFinite b.diagonal := by
  refine ⟨fun h => ?_, C32_float2 b hf hb⟩
  rw [BoundingBox2.allFinite, Point2.allFinite, Point2.allFinite] at hf
  rw [Vector2.allFinite]
  rw [isInside2_iff] at h
  exact ⟨by_contra fun hd => center_outside hf.1.1 hf.2.1 hd h.1,
    by_contra fun hd => center_outside hf.1.2 hf.2.2 hd h.2⟩
/-- **C32** in floats, exactly (3D). -/
theorem C32_float_iff3 (b : BoundingBox3 S) (hf : AllFinite b) (hb : LeAll b.min b.max) :
    b.isInside b.center = true ↔ AllFinite b.diagonal := by
  refine ⟨fun h => ?_, C32_float3 b hf hb⟩
  rw [BoundingBox3.allFinite, Point3.allFinite, Point3.allFinite] at hf
  rw [Vector3.allFinite]
  rw [isInside3_iff] at h
  exact ⟨by_contra fun hd => center_outside hf.1.1 hf.2.1 hd h.1,
    by_contra fun hd => center_outside hf.1.2.1 hf.2.2.1 hd h.2.1,
    by_contra fun hd => center_outside hf.1.2.2 hf.2.2.2 hd h.2.2⟩

end

variable {S : Type} [Scalar S] [IEEE S] [B : Binary S]

/-! ### Squares out of range -/

theorem mul_tiny {a b : S} (ha : IsFinite a) (hb : IsFinite b) (h : |real a * real b| < tiny S) :
    IsZero (a * b) := by
  have hr : (IEEE.A S).rnd (real a * real b) = 0 := by
    rw [rnd_eq]; exact (Binary.F S).rnd_tiny h
  have hf : IsFinite (a * b) := by
    unfold IsFinite
    rw [mul_finite ha hb, Rounding.finish_isFin, hr]; exact Rounding.fits_zero _
  exact ⟨hf, by rw [real_mul hf, hr]⟩
theorem mul_huge {a b : S} (ha : IsFinite a) (hb : IsFinite b) (h : overflowAt S ≤ |real a * real b|) :
    IsInf (a * b) := by
  rw [isInf_iff]
  refine ⟨isNaN_mul_finite ha hb, fun hc => ?_⟩
  exact absurd ((correct_mul ha hb).1.1 hc) (not_lt.2 h)
theorem sq_abs' (x : ℝ) : |x * x| = x ^ 2 := by rw [abs_mul_self, pow_two]

/-! ### C13/C62: normalize -/

/-- **C13** in floats: if every squared component underflows, the length is computed as zero, and no
component of the "normalized" vector is a number: infinite where the component was non-zero, NaN where it
was zero. -/
theorem C13_float_tiny2 (v : Vector2 S) (hv : AllFinite v) (hx : real v.x ^ 2 < tiny S)
    (hy : real v.y ^ 2 < tiny S) :
    (Api.length v == Scalar.zero) = true ∧
    ∀ c ∈ [(v.x, v.normalize.x), (v.y, v.normalize.y)],
      ¬ IsFinite c.2 ∧ (IsNaN c.2 ↔ (c.1 == Scalar.zero) = true) := by
  rw [Vector2.allFinite] at hv
  have zx := mul_tiny hv.1 hv.1 (by rwa [sq_abs'])
  have zy := mul_tiny hv.2 hv.2 (by rwa [sq_abs'])
  have hl : IsZero (Api.length v) := (zx.add zy).sqrt
  have key : ∀ {a : S}, IsFinite a → ¬ IsFinite (a / Api.length v) ∧
      (IsNaN (a / Api.length v) ↔ (a == Scalar.zero) = true) := by
    intro a ha
    by_cases h0 : real a = 0
    · have hn := zero_div_zero ha hl.1 h0 hl.2
      exact ⟨fun h => h.not_nan hn, fun _ => isZero_iff.1 ⟨ha, h0⟩, fun _ => hn⟩
    · have hi := div_zero_inf ha h0 hl
      exact ⟨hi.not_finite, fun h => absurd h hi.not_nan, fun h => absurd (isZero_iff.2 h).2 h0⟩
  refine ⟨isZero_iff.1 hl, ?_⟩
  simp only [List.mem_cons, List.not_mem_nil, or_false]
  rintro c (rfl | rfl)
  · exact key hv.1
  · exact key hv.2
/-- **C13** in floats, 3D. -/
theorem C13_float_tiny3 (v : Vector3 S) (hv : AllFinite v) (hx : real v.x ^ 2 < tiny S)
    (hy : real v.y ^ 2 < tiny S) (hz : real v.z ^ 2 < tiny S) :
    (Api.length v == Scalar.zero) = true ∧
    ∀ c ∈ [(v.x, v.normalize.x), (v.y, v.normalize.y), (v.z, v.normalize.z)],
      ¬ IsFinite c.2 ∧ (IsNaN c.2 ↔ (c.1 == Scalar.zero) = true) := by
  rw [Vector3.allFinite] at hv
  have zx := mul_tiny hv.1 hv.1 (by rwa [sq_abs'])
  have zy := mul_tiny hv.2.1 hv.2.1 (by rwa [sq_abs'])
  have zz := mul_tiny hv.2.2 hv.2.2 (by rwa [sq_abs'])
  have hl : IsZero (Api.length v) := ((zx.add zy).add zz).sqrt
  have key : ∀ {a : S}, IsFinite a → ¬ IsFinite (a / Api.length v) ∧
      (IsNaN (a / Api.length v) ↔ (a == Scalar.zero) = true) := by
    intro a ha
    by_cases h0 : real a = 0
    · have hn := zero_div_zero ha hl.1 h0 hl.2
      exact ⟨fun h => h.not_nan hn, fun _ => isZero_iff.1 ⟨ha, h0⟩, fun _ => hn⟩
    · have hi := div_zero_inf ha h0 hl
      exact ⟨hi.not_finite, fun h => absurd h hi.not_nan, fun h => absurd (isZero_iff.2 h).2 h0⟩
  refine ⟨isZero_iff.1 hl, ?_⟩
  simp only [List.mem_cons, List.not_mem_nil, or_false]
  rintro c (rfl | rfl | rfl)
  · exact key hv.1
  · exact key hv.2.1
  · exact key hv.2.2

theorem length_inf {a : S} (h0 : ¬ IsNaN a) (h : ¬ IsFinite a) (hp : 0 ≤ val a) : IsInf (Scalar.sqrt a) := by
  obtain ⟨s, hs⟩ := isInf_iff.2 ⟨h0, h⟩
  cases s
  · exact ⟨false, by rw [den_sqrt, hs]; rfl⟩
  · unfold val at hp; rw [hs] at hp; simp at hp

/-- **C13** in floats: if some squared component overflows, the length is infinite and the vector
"normalizes" to zero. -/
theorem C13_float_huge2 (v : Vector2 S) (hv : AllFinite v)
    (h : overflowAt S ≤ real v.x ^ 2 ∨ overflowAt S ≤ real v.y ^ 2) :
    (Api.length v == infinity) = true ∧ (v.normalize == Vector2.zero) = true := by
  have hn := hv.noNaN
  rw [Vector2.allFinite] at hv
  have hd : ¬ IsFinite (v.x * v.x + v.y * v.y) := by
    intro hc
    have := finite_of_add hc
    rcases h with h | h
    · exact (mul_huge hv.1 hv.1 (by rwa [sq_abs'])).not_finite this.1
    · exact (mul_huge hv.2 hv.2 (by rwa [sq_abs'])).not_finite this.2
  have hd1 : ¬ IsNaN (v.x * v.x + v.y * v.y) := fun h => dot_self_isNaN2.1 h hn
  have hl : IsInf (Api.length v) := length_inf hd1 hd (dot_self_nonneg2 hn)
  refine ⟨?_, ?_⟩
  · have hln : ¬ IsNaN (Api.length v) := hl.not_nan
    rw [beq_iff]
    refine ⟨hln, not_nan_infinity, ?_⟩
    obtain ⟨s, hs⟩ := hl
    have h0 : 0 ≤ val (Api.length v) := val_sqrt_nonneg hd1 (dot_self_nonneg2 hn)
    rw [val_infinity]
    unfold val at *; rw [hs] at *
    cases s <;> simp at *
  · rw [Vector2.beq_iff]
    exact ⟨isZero_iff.1 (finite_div_inf hv.1 hl), isZero_iff.1 (finite_div_inf hv.2 hl)⟩
/-- **C13** in floats, 3D. -/
theorem C13_float_huge3 (v : Vector3 S) (hv : AllFinite v)
    (h : overflowAt S ≤ real v.x ^ 2 ∨ overflowAt S ≤ real v.y ^ 2 ∨ overflowAt S ≤ real v.z ^ 2) :
    (Api.length v == infinity) = true ∧ (v.normalize == Vector3.zero) = true := by
  have hn := hv.noNaN
  rw [Vector3.allFinite] at hv
  have hd : ¬ IsFinite (v.x * v.x + v.y * v.y + v.z * v.z) := by
    intro hc
    have h1 := finite_of_add hc
    have h2 := finite_of_add h1.1
    rcases h with h | h | h
    · exact (mul_huge hv.1 hv.1 (by rwa [sq_abs'])).not_finite h2.1
    · exact (mul_huge hv.2.1 hv.2.1 (by rwa [sq_abs'])).not_finite h2.2
    · exact (mul_huge hv.2.2 hv.2.2 (by rwa [sq_abs'])).not_finite h1.2
  have hd1 : ¬ IsNaN (v.x * v.x + v.y * v.y + v.z * v.z) := fun h => dot_self_isNaN3.1 h hn
  have hl : IsInf (Api.length v) := length_inf hd1 hd (dot_self_nonneg3 hn)
  refine ⟨?_, ?_⟩
  · have hln : ¬ IsNaN (Api.length v) := hl.not_nan
    rw [beq_iff]
    refine ⟨hln, not_nan_infinity, ?_⟩
    obtain ⟨s, hs⟩ := hl
    have h0 : 0 ≤ val (Api.length v) := val_sqrt_nonneg hd1 (dot_self_nonneg3 hn)
    rw [val_infinity]
    unfold val at *; rw [hs] at *
    cases s <;> simp at *
  · rw [Vector3.beq_iff]
    exact ⟨isZero_iff.1 (finite_div_inf hv.1 hl), isZero_iff.1 (finite_div_inf hv.2.1 hl),
      isZero_iff.1 (finite_div_inf hv.2.2 hl)⟩

/-! ### C15: distance -/

/-- **C15** in floats: points whose coordinate differences have underflowing squares are at computed
distance zero, equal or not. -/
theorem C15_float_tiny2 (p q : Point2 S) (hx : IsFinite (q.x - p.x)) (hy : IsFinite (q.y - p.y))
    (tx : real (q.x - p.x) ^ 2 < tiny S) (ty : real (q.y - p.y) ^ 2 < tiny S) :
    (Api.distance p q == Scalar.zero) = true := by
  exact isZero_iff.1 ((mul_tiny hx hx (by rwa [sq_abs'])).add (mul_tiny hy hy (by rwa [sq_abs']))).sqrt
/-- **C15** in floats, 3D. -/
theorem C15_float_tiny3 (p q : Point3 S) (hx : IsFinite (q.x - p.x)) (hy : IsFinite (q.y - p.y))
    (hz : IsFinite (q.z - p.z)) (tx : real (q.x - p.x) ^ 2 < tiny S) (ty : real (q.y - p.y) ^ 2 < tiny S)
    (tz : real (q.z - p.z) ^ 2 < tiny S) :
    (Api.distance p q == Scalar.zero) = true := by
  exact isZero_iff.1 (((mul_tiny hx hx (by rwa [sq_abs'])).add (mul_tiny hy hy (by rwa [sq_abs']))).add
    (mul_tiny hz hz (by rwa [sq_abs']))).sqrt

/-! ### C45: determinants out of range -/

theorem bne_zero {a : S} (h : ¬ IsZero a) : (a != Scalar.zero) = true := by
  have : ¬ (a == Scalar.zero) = true := fun h' => h (isZero_iff.2 h')
  simpa [bne] using this
theorem bne_zero' {a : S} (h : IsZero a) : (a != Scalar.zero) = false := by
  simp [bne, isZero_iff.1 h]

/-- **C45** in floats: a uniform scaling by a factor whose square underflows is rejected as not invertible
(its computed determinant is zero), although the matrix is not singular unless the factor is zero. -/
theorem C45_float_tiny2 (s : S) (hs : IsFinite s) (h : real s ^ 2 < tiny S) :
    (Matrix3x3.scaleUniform s).inverse = .error .mk ∧
    (Transform2.tryFrom (Matrix3x3.scaleUniform s) = .error .mk) ∧
    (Matrix3x3.scaleUniform s).toReal.det = real s ^ 2 := by
  have hz := isZero_zero (S := S)
  have h1 := mul_tiny hs hs (by rwa [sq_abs'])
  have f1 := finite_one (S := S)
  have hd : IsZero (Matrix3x3.scaleUniform s).det :=
    (((((h1.mul f1).add ((hz.mul hz.1).mul hz.1)).add ((hz.mul hz.1).mul hz.1)).sub
      ((hz.mul hs).mul hz.1)).sub ((hz.mul hz.1).mul f1)).sub ((IsZero.mul' hs hz).mul hz.1)
  have he : (Matrix3x3.scaleUniform s).inverse = .error .mk := by
    unfold Matrix3x3.inverse
    simp only [bne_zero' hd]; rfl
  refine ⟨he, by unfold Transform2.tryFrom; rw [he]; rfl, ?_⟩
  rw [Matrix.det_fin_three]
  simp [Matrix3x3.toReal, Matrix3x3.scaleUniform, Matrix3x3.new, real_zero, real_one, pow_two]

/-- **C45** in floats: a uniform scaling by a factor whose square overflows is accepted, but the returned
"inverse" contains a NaN. -/
theorem C45_float_huge2 (s : S) (hs : IsFinite s) (h : overflowAt S ≤ real s ^ 2) :
    ∃ n, (Matrix3x3.scaleUniform s).inverse = .ok n ∧ ∀ b, ∃ c, n.get b 2 2 = .ok c ∧ IsNaN c := by
  have hz := isZero_zero (S := S)
  have h1 := mul_huge hs hs (by rwa [sq_abs'])
  have f1 := finite_one (S := S)
  have r1 : real (Scalar.one : S) ≠ 0 := by rw [real_one]; exact one_ne_zero
  have hd : IsInf (Matrix3x3.scaleUniform s).det :=
    (((((h1.mul f1 r1).add_finite ((hz.mul hz.1).mul hz.1).1).add_finite ((hz.mul hz.1).mul hz.1).1).sub_finite
      ((hz.mul hs).mul hz.1).1).sub_finite ((hz.mul hz.1).mul f1).1).sub_finite ((IsZero.mul' hs hz).mul hz.1).1
  refine ⟨_, if_pos (bne_zero fun h => hd.not_finite h.1), fun b => ?_⟩
  refine ⟨(s * s - Scalar.zero * Scalar.zero) / (Matrix3x3.scaleUniform s).det, ?_,
    (h1.sub_finite (hz.mul hz.1).1).div_inf hd⟩
  cases b <;> rfl

theorem cof_diag_zero (s : S) (hs : IsFinite s) (hss : IsFinite (s * s)) (j : Fin 4) (hj : j ≠ 0) :
    IsZero ((Matrix4x4.scaleUniform s).cofactor 0 j) := by
  have hz := isZero_zero (S := S)
  have f1 := finite_one (S := S)
  have z1 : ∀ {a : S}, IsFinite a → IsZero (Scalar.zero * a) := fun h => hz.mul h
  have z2 : ∀ {a : S}, IsFinite a → IsZero (a * Scalar.zero) := fun h => IsZero.mul' h hz
  have zz : ∀ {a b : S}, IsZero a → IsFinite b → IsZero (a * b) := fun h h' => h.mul h'
  have hsgn : ∀ n : ℕ, IsFinite (if n % 2 == 0 then (Scalar.one : S) else -Scalar.one) := by
    intro n; split
    · exact f1
    · exact finite_neg.2 f1
  fin_cases j
  · exact absurd rfl hj
  · exact IsZero.mul' (hsgn _) (((((((z1 hs).mul f1).add ((z1 hz.1).mul hz.1)).add ((z1 hz.1).mul hz.1)).sub
      ((z1 hz.1).mul hz.1)).sub ((z1 hz.1).mul f1)).sub ((z1 hs).mul hz.1))
  · exact IsZero.mul' (hsgn _) (((((((z1 hz.1).mul f1).add ((IsZero.mul' hs hz).mul hz.1)).add ((z1 hz.1).mul hz.1)).sub
      ((z1 hz.1).mul hz.1)).sub ((IsZero.mul' hs hz).mul f1)).sub ((z1 hz.1).mul hz.1))
  · exact IsZero.mul' (hsgn _) (((((((z1 hz.1).mul hz.1).add (IsZero.mul' hss hz)).add ((z1 hz.1).mul hz.1)).sub
      ((z1 hs).mul hz.1)).sub ((IsZero.mul' hs hz).mul hz.1)).sub ((z1 hz.1).mul hz.1))

/-- **C45** in floats, 4x4: a uniform scaling by a factor whose square underflows is rejected, although its
exact determinant is the cube of the factor. -/
theorem C45_float_tiny3 (s : S) (hs : IsFinite s) (h : real s ^ 2 < tiny S) :
    (Matrix4x4.scaleUniform s).inverse = .error .mk ∧
    (Transform3.tryFrom (Matrix4x4.scaleUniform s) = .error .mk) ∧
    (Matrix4x4.scaleUniform s).toReal.det = real s ^ 3 := by
  have hz := isZero_zero (S := S)
  have h1 := mul_tiny hs hs (by rwa [sq_abs'])
  have f1 := finite_one (S := S)
  have c1 := cof_diag_zero s hs h1.1 1 (by decide)
  have c2 := cof_diag_zero s hs h1.1 2 (by decide)
  have c3 := cof_diag_zero s hs h1.1 3 (by decide)
  have c0 : IsZero ((Matrix4x4.scaleUniform s).cofactor 0 0) :=
    IsZero.mul' f1 ((((((h1.mul f1).add ((hz.mul hz.1).mul hz.1)).add ((hz.mul hz.1).mul hz.1)).sub
      ((IsZero.mul' hs hz).mul hz.1)).sub ((hz.mul hz.1).mul f1)).sub ((hz.mul hs).mul hz.1))
  have hd : IsZero ((Matrix4x4.scaleUniform s).detOf (Matrix4x4.scaleUniform s).adjugate) :=
    (((IsZero.mul' hs c0).add (hz.mul c1.1)).add (hz.mul c2.1)).add (hz.mul c3.1)
  have he : (Matrix4x4.scaleUniform s).inverse = .error .mk := by
    unfold Matrix4x4.inverse
    simp only [bne_zero' hd]; rfl
  refine ⟨he, by unfold Transform3.tryFrom; rw [he]; rfl, ?_⟩
  rw [Matrix.det_succ_row_zero]
  simp [Fin.sum_univ_four, Matrix.det_fin_three, Fin.succAbove, Matrix4x4.toReal, Matrix4x4.scaleUniform,
    Matrix4x4.new, real_zero, real_one]
  ring

/-- **C45** in floats, 4x4: a uniform scaling by a factor whose square overflows is accepted, and every
entry of the returned "inverse" is NaN. -/
theorem C45_float_huge3 (s : S) (hs : IsFinite s) (h : overflowAt S ≤ real s ^ 2) :
    ∃ n, (Matrix4x4.scaleUniform s).inverse = .ok n ∧ AllNaN n := by
  have hz := isZero_zero (S := S)
  have h1 := mul_huge hs hs (by rwa [sq_abs'])
  have hn : IsNaN (s * s * Scalar.zero) := h1.mul_zero hz
  have hc : IsNaN ((Matrix4x4.scaleUniform s).cofactor 0 3) := by
    apply isNaN_mul_right
    exact isNaN_sub_left (isNaN_sub_left (isNaN_sub_left (isNaN_add_left (isNaN_add_right hn))))
  have hd : IsNaN ((Matrix4x4.scaleUniform s).detOf (Matrix4x4.scaleUniform s).adjugate) :=
    isNaN_add_right (isNaN_mul_right hc)
  refine ⟨_, if_pos (bne_zero fun h => h.1.not_nan hd), ?_⟩
  intro c hc
  simp only [Comps.comps, Vector.mem_toList_iff] at hc
  obtain ⟨i, hi, rfl⟩ := Vector.getElem_of_mem hc
  rw [Matrix4x4.divs]
  exact isNaN_div_right hd

end VecMath
