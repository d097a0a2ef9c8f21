import Verif.Lemmas.Real
import Mathlib.LinearAlgebra.Matrix.DotProduct
/-!
# Vectors, points and rays in exact real arithmetic (layer R): C04, C06-C08, C10-C16, C23

All statements are about `Ideal`: the crate's code run on exact reals (with IEEE infinities and NaN for
division by zero). `toReal` lists the real components.
-/

set_option linter.unusedSimpArgs false

namespace VecMath
open Scalar IEEE

/-! ## Dimension 2 -/

/-- **C06** in real arithmetic: finite vectors form a commutative group under `+`. -/
theorem C06_real2 (u v w : Vector2 Ideal) (hu : AllFinite u) (hv : AllFinite v) (hw : AllFinite w) :
    (u + v == v + u) = true ∧ ((u + v) + w == u + (v + w)) = true ∧ (u + Vector2.zero == u) = true ∧
    (Vector2.zero + u == u) = true ∧ (u + -u == Vector2.zero) = true ∧ (-u + u == Vector2.zero) = true ∧
    (u - v == u + -v) = true ∧ ((u - v) + v == u) = true ∧ AllFinite (u + v) ∧ AllFinite (-u) := by
  rv_simp [hu, hv, hw]
  refine ⟨?_, ?_, ?_, ?_, ?_, ?_, ?_, ?_, trivial, trivial⟩ <;> abel

/-- **C07** in real arithmetic: points and vectors form an affine space. -/
theorem C07_real2 (p q r : Point2 Ideal) (u v : Vector2 Ideal) (hp : AllFinite p) (hq : AllFinite q)
    (hr : AllFinite r) (hu : AllFinite u) (hv : AllFinite v) :
    (p + (q - p) == q) = true ∧ ((p + v) - p == v) = true ∧ ((p + v) - v == p) = true ∧
    ((p + u) + v == p + (u + v)) = true ∧ ((p - q) + (q - r) == p - r) = true ∧
    (p - v == p + -v) = true ∧ ((p - q == Vector2.zero) = true ↔ (p == q) = true) := by
  rv_simp [hp, hq, hr, hu, hv]
  refine ⟨?_, ?_, ?_, ?_, ?_, ?_, sub_eq_zero⟩ <;> abel

/-- **C08** in real arithmetic: scaling laws of vectors and points. -/
theorem C08_real2 (u v : Vector2 Ideal) (p : Point2 Ideal) (s t : Ideal) (hu : AllFinite u)
    (hv : AllFinite v) (hp : AllFinite p) (hs : IsFinite s) (ht : IsFinite t) :
    ((u + v) * s == u * s + v * s) = true ∧ (u * (s + t) == u * s + u * t) = true ∧
    ((u * s) * t == u * (s * t)) = true ∧ (u * (zero : Ideal) == Vector2.zero) = true ∧
    ((p + u) * s == p * s + u * s) = true ∧ ((p * s) * t == p * (s * t)) = true ∧
    (real s ≠ 0 → ((u * s) / s == u) = true ∧ ((u / s) * s == u) = true ∧
      ((u + v) / s == u / s + v / s) = true ∧
      ((p * s) / s == p) = true ∧ ((p / s) * s == p) = true) := by
  refine ⟨?_, ?_, ?_, ?_, ?_, ?_, ?_⟩
  rotate_right
  · intro h0
    refine ⟨?_, ?_, ?_, ?_, ?_⟩
    all_goals rv_simp [hu, hv, hs, ht, hp, ne_eq, h0, not_false_eq_true]
    all_goals first
      | module
      | rw [smul_smul, inv_mul_cancel₀ h0, one_smul]
      | rw [smul_smul, mul_inv_cancel₀ h0, one_smul]
  all_goals rv_simp [hu, hv, hs, ht, hp]
  all_goals module

/-- **C10**: in real arithmetic `dot` is the Euclidean inner product: the sum of the products of the
components, bilinear, symmetric, positive definite, and it satisfies the Cauchy-Schwarz inequality. -/
theorem C10_sum2 (u v : Vector2 Ideal) (hu : AllFinite u) (hv : AllFinite v) :
    IsFinite (Api.dot u v) ∧ real (Api.dot u v) = ∑ i, u.toReal i * v.toReal i :=
  ⟨Vector2.fin_dot hu hv, Vector2.real_dot hu hv⟩
theorem C10_bilinear2 (u v w : Vector2 Ideal) (s : Ideal) (hu : AllFinite u) (hv : AllFinite v)
    (hw : AllFinite w) (hs : IsFinite s) :
    (Api.dot (u + v) w == Api.dot u w + Api.dot v w) = true ∧
    (Api.dot w (u + v) == Api.dot w u + Api.dot w v) = true ∧
    (Api.dot (u * s) w == Api.dot u w * s) = true ∧ (Api.dot u (w * s) == Api.dot u w * s) = true ∧
    (Api.dot u v == Api.dot v u) = true := by
  refine ⟨?_, ?_, ?_, ?_, ?_⟩
  all_goals
    rw [Ideal.beq_real (by rv_simp [hu, hv, hw, hs]) (by rv_simp [hu, hv, hw, hs])]
    rv_simp [hu, hv, hw, hs]
  · exact add_dotProduct _ _ _
  · exact dotProduct_add _ _ _
  · rw [smul_dotProduct, smul_eq_mul, mul_comm]
  · rw [dotProduct_smul, smul_eq_mul, mul_comm]
  · exact dotProduct_comm _ _
theorem C10_definite2 (u v : Vector2 Ideal) (hu : AllFinite u) (hv : AllFinite v) :
    (zero ≤? Api.dot u u) = true ∧ ((Api.dot u u == zero) = true ↔ (u == Vector2.zero) = true) ∧
    (Api.dot u v * Api.dot u v ≤? Api.dot u u * Api.dot v v) = true := by
  refine ⟨?_, ?_, ?_⟩
  · rw [Ideal.le_real finite_zero (Vector2.fin_dot hu hu), real_zero]
    exact Vector2.real_dot_self_nonneg hu
  · rw [Ideal.beq_real (Vector2.fin_dot hu hu) finite_zero]
    rv_simp [hu]
    exact dotProduct_self_eq_zero
  · rw [Ideal.le_real (by rv_simp [hu, hv]) (by rv_simp [hu, hv])]
    rv_simp [hu, hv]
    simp only [dotProduct]
    have := Finset.sum_mul_sq_le_sq_mul_sq Finset.univ u.toReal v.toReal
    simpa [sq] using this

/-- **C12** in real arithmetic: `length` is the Euclidean norm; zero only for the zero vector,
homogeneous, and it satisfies the triangle inequality. -/
theorem C12_real_norm2 (u : Vector2 Ideal) (hu : AllFinite u) :
    IsFinite (Api.length u) ∧ real (Api.length u) = √(∑ i, u.toReal i ^ 2) := by
  refine ⟨Vector2.fin_length hu, ?_⟩
  rw [Vector2.real_length hu, EuclideanSpace.norm_eq]
  simp [Vector2.toE]
theorem C12_real2 (u v : Vector2 Ideal) (s : Ideal) (hu : AllFinite u) (hv : AllFinite v)
    (hs : IsFinite s) :
    (zero ≤? Api.length u) = true ∧ ((Api.length u == zero) = true ↔ (u == Vector2.zero) = true) ∧
    (Api.length (u * s) == Api.length u * Scalar.abs s) = true ∧
    (Api.length (u + v) ≤? Api.length u + Api.length v) = true := by
  have fu := Vector2.fin_length hu
  have fv := Vector2.fin_length hv
  have fs := Vector2.fin_mul hu hs
  have fa := Vector2.fin_add hu hv
  refine ⟨?_, ?_, ?_, ?_⟩
  · rw [Ideal.le_real finite_zero fu, real_zero, Vector2.real_length hu]; exact norm_nonneg _
  · rw [Ideal.beq_real fu finite_zero, real_zero, Vector2.real_length_eq_zero hu]
    rv_simp [hu]
  · rw [Ideal.beq_real (Vector2.fin_length fs) (Ideal.finite_mul fu (finite_abs.2 hs)),
      Ideal.real_mul fu (finite_abs.2 hs), Vector2.real_length fs, Vector2.real_length hu, real_abs]
    unfold Vector2.toE
    rw [Vector2.toReal_mul hu hs, WithLp.toLp_smul, norm_smul, Real.norm_eq_abs, mul_comm]
  · rw [Ideal.le_real (Vector2.fin_length fa) (Ideal.finite_add fu fv), Ideal.real_add fu fv,
      Vector2.real_length fa, Vector2.real_length hu, Vector2.real_length hv]
    have : (u + v).toE = u.toE + v.toE := by
      unfold Vector2.toE; rw [Vector2.toReal_add hu hv, WithLp.toLp_add]
    rw [this]; exact norm_add_le _ _

/-- **C13** in real arithmetic: for a finite non-zero vector, `normalize` returns a vector of length 1 that
is a positive multiple of it, and normalizing again changes nothing. -/
theorem C13_real2 (v : Vector2 Ideal) (hv : AllFinite v) (h : (v == Vector2.zero) = false) :
    AllFinite v.normalize ∧ (Api.length v.normalize == one) = true ∧
    (v.normalize * Api.length v == v) = true ∧ (zero <? Api.length v) = true ∧
    (v.normalize.normalize == v.normalize) = true := by
  have h0 : v.toReal ≠ 0 := by
    rwa [Bool.eq_false_iff, ne_eq, Vector2.beq_toReal hv Vector2.fin_zero, Vector2.toReal_zero] at h
  have fl := Vector2.fin_length hv
  have fn := Vector2.fin_normalize hv h0
  have hl : real (Api.length v) ≠ 0 := mt (Vector2.real_length_eq_zero hv).1 h0
  have hn : ‖v.toE‖ ≠ 0 := by rwa [← Vector2.real_length hv]
  have h1 : real (Api.length v.normalize) = 1 := by
    rw [Vector2.real_length fn]
    unfold Vector2.toE
    rw [Vector2.toReal_normalize hv h0, WithLp.toLp_smul, norm_smul, norm_inv, norm_norm]
    exact inv_mul_cancel₀ hn
  refine ⟨fn, ?_, ?_, ?_, ?_⟩
  · rw [Ideal.beq_real (Vector2.fin_length fn) finite_one, real_one]; exact h1
  · rw [Vector2.beq_toReal (Vector2.fin_mul fn fl) hv, Vector2.toReal_mul fn fl,
      Vector2.toReal_normalize hv h0, Vector2.real_length hv, smul_smul, mul_inv_cancel₀ hn, one_smul]
  · rw [Ideal.lt_real finite_zero fl, real_zero]
    exact lt_of_le_of_ne (by rw [Vector2.real_length hv]; exact norm_nonneg _) (Ne.symm hl)
  · have hl1 : real (Api.length v.normalize) ≠ 0 := by rw [h1]; exact one_ne_zero
    have h0' : v.normalize.toReal ≠ 0 := mt (Vector2.real_length_eq_zero fn).2 hl1
    rw [Vector2.beq_toReal (Vector2.fin_normalize fn h0') fn, Vector2.toReal_normalize fn h0',
      ← Vector2.real_length fn, h1, inv_one, one_smul]

/-- **C14** in real arithmetic: the square-root-free comparisons are the comparisons of lengths. -/
theorem C14_real2 (u v : Vector2 Ideal) (hu : AllFinite u) (hv : AllFinite v) :
    RelativeLength.isShorterThan u v = (Api.length u <? Api.length v) ∧
    RelativeLength.isLongerThan u v = (Api.length u >? Api.length v) := by
  have key : ∀ a b : Vector2 Ideal, AllFinite a → AllFinite b →
      (Api.dot a a <? Api.dot b b) = (Api.length a <? Api.length b) := by
    intro a b ha hb
    rw [Bool.eq_iff_iff, Ideal.lt_real (Vector2.fin_dot ha ha) (Vector2.fin_dot hb hb),
      Ideal.lt_real (Vector2.fin_length ha) (Vector2.fin_length hb), Vector2.length_def, Vector2.length_def,
      Ideal.real_sqrt (Vector2.fin_dot ha ha) (Vector2.real_dot_self_nonneg ha),
      Ideal.real_sqrt (Vector2.fin_dot hb hb) (Vector2.real_dot_self_nonneg hb)]
    exact (Real.sqrt_lt_sqrt_iff (Vector2.real_dot_self_nonneg ha)).symm
  exact ⟨key u v hu hv, key v u hv hu⟩

/-- **C15** in real arithmetic: `distance` is the Euclidean metric, and translation invariant. -/
theorem C15_real2 (p q r : Point2 Ideal) (v : Vector2 Ideal) (hp : AllFinite p) (hq : AllFinite q)
    (hr : AllFinite r) (hv : AllFinite v) :
    real (Api.distance p q) = √(∑ i, (p.toReal i - q.toReal i) ^ 2) ∧
    (zero ≤? Api.distance p q) = true ∧ ((Api.distance p q == zero) = true ↔ (p == q) = true) ∧
    (Api.distance p q == Api.distance q p) = true ∧
    (Api.distance p r ≤? Api.distance p q + Api.distance q r) = true ∧
    (Api.distance (p + v) (q + v) == Api.distance p q) = true := by
  have fpq := Point2.fin_distance hp hq
  have fqr := Point2.fin_distance hq hr
  have fpv := Point2.fin_addv hp hv
  have fqv := Point2.fin_addv hq hv
  refine ⟨?_, ?_, ?_, ?_, ?_, ?_⟩
  · rw [Point2.real_distance hp hq, EuclideanSpace.dist_eq]
    simp [Point2.toE, Real.dist_eq]
  · rw [Ideal.le_real finite_zero fpq, real_zero, Point2.real_distance hp hq]; exact dist_nonneg
  · rw [Ideal.beq_real fpq finite_zero, real_zero, Point2.real_distance hp hq, dist_eq_zero,
      Point2.beq_toReal hp hq]
    unfold Point2.toE; simp
  · rw [Ideal.beq_real fpq (Point2.fin_distance hq hp), Point2.real_distance hp hq,
      Point2.real_distance hq hp, dist_comm]
  · rw [Ideal.le_real (Point2.fin_distance hp hr) (Ideal.finite_add fpq fqr), Ideal.real_add fpq fqr,
      Point2.real_distance hp hq, Point2.real_distance hq hr, Point2.real_distance hp hr]
    exact dist_triangle _ _ _
  · rw [Ideal.beq_real (Point2.fin_distance fpv fqv) fpq, Point2.real_distance hp hq,
      Point2.real_distance fpv fqv]
    have : ∀ x : Point2 Ideal, AllFinite x → (x + v).toE = x.toE + v.toE := by
      intro x hx
      unfold Point2.toE Vector2.toE; rw [Point2.toReal_addv hx hv, WithLp.toLp_add]
    rw [this p hp, this q hq, dist_add_right]

/-- **C16** in real arithmetic: the square-root-free comparisons are the comparisons of distances. -/
theorem C16_real2 (p a b : Point2 Ideal) (hp : AllFinite p) (ha : AllFinite a) (hb : AllFinite b) :
    RelativeDistance.isCloserTo p a b = (Api.distance p a <? Api.distance p b) ∧
    RelativeDistance.isFartherFrom p a b = (Api.distance p a >? Api.distance p b) :=
  C14_real2 (a - p) (b - p) (Vector2.fin_subp ha hp) (Vector2.fin_subp hb hp)

/-- **C23** in real arithmetic: a ray is an affine parameterisation of a line by multiples of its
direction. -/
theorem C23_real2 (r : Ray2 Ideal) (s t : Ideal) (hr : AllFinite r) (hs : IsFinite s) (ht : IsFinite t) :
    (r.at zero == r.origin) = true ∧ (r.at (s + t) == r.at s + r.direction * t) = true ∧
    (Api.distance r.origin (r.at t) == Scalar.abs t * Api.length r.direction) = true ∧
    ((r.direction == Vector2.zero) = false → (r.at s == r.at t) = true → (s == t) = true) := by
  rw [Ray2.allFinite] at hr
  obtain ⟨ho, hd⟩ := hr
  have fat : ∀ {t : Ideal}, IsFinite t → AllFinite (r.at t) := fun ht =>
    Point2.fin_addv ho (Vector2.fin_mul hd ht)
  have rat : ∀ {t : Ideal}, IsFinite t → (r.at t).toReal = r.origin.toReal + real t • r.direction.toReal :=
    fun ht => by
      unfold Ray2.at
      rw [Point2.toReal_addv ho (Vector2.fin_mul hd ht), Vector2.toReal_mul hd ht]
  refine ⟨?_, ?_, ?_, ?_⟩
  · rw [Point2.beq_toReal (fat finite_zero) ho, rat finite_zero, real_zero, zero_smul, add_zero]
  · have fst := Ideal.finite_add hs ht
    rw [Point2.beq_toReal (fat fst) (Point2.fin_addv (fat hs) (Vector2.fin_mul hd ht)), rat fst,
      Point2.toReal_addv (fat hs) (Vector2.fin_mul hd ht), rat hs, Vector2.toReal_mul hd ht,
      Ideal.real_add hs ht, add_smul, add_assoc]
  · have fa := finite_abs.2 ht
    rw [Ideal.beq_real (Point2.fin_distance ho (fat ht)) (Ideal.finite_mul fa (Vector2.fin_length hd)),
      Ideal.real_mul fa (Vector2.fin_length hd), Point2.real_distance ho (fat ht), real_abs,
      Vector2.real_length hd, dist_comm, dist_eq_norm]
    have : (r.at t).toE - r.origin.toE = real t • r.direction.toE := by
      unfold Point2.toE Vector2.toE
      rw [rat ht, ← WithLp.toLp_sub, ← WithLp.toLp_smul]; simp
    rw [this, norm_smul, Real.norm_eq_abs]
  · intro h0 h
    rw [Bool.eq_false_iff, ne_eq, Vector2.beq_toReal hd Vector2.fin_zero, Vector2.toReal_zero] at h0
    rw [Point2.beq_toReal (fat hs) (fat ht), rat hs, rat ht] at h
    rw [Ideal.beq_real hs ht]
    have h' := add_left_cancel h
    by_contra hne
    have : (real s - real t) • r.direction.toReal = 0 := by rw [sub_smul, h', sub_self]
    rcases smul_eq_zero.1 this with h | h
    · exact hne (sub_eq_zero.1 h)
    · exact h0 h

/-! ## Dimension 3 -/

/-- **C06** in real arithmetic: finite vectors form a commutative group under `+`. -/
theorem C06_real3 (u v w : Vector3 Ideal) (hu : AllFinite u) (hv : AllFinite v) (hw : AllFinite w) :
    (u + v == v + u) = true ∧ ((u + v) + w == u + (v + w)) = true ∧ (u + Vector3.zero == u) = true ∧
    (Vector3.zero + u == u) = true ∧ (u + -u == Vector3.zero) = true ∧ (-u + u == Vector3.zero) = true ∧
    (u - v == u + -v) = true ∧ ((u - v) + v == u) = true ∧ AllFinite (u + v) ∧ AllFinite (-u) := by
  rv_simp [hu, hv, hw]
  refine ⟨?_, ?_, ?_, ?_, ?_, ?_, ?_, ?_, trivial, trivial⟩ <;> abel

/-- **C07** in real arithmetic: points and vectors form an affine space. -/
theorem C07_real3 (p q r : Point3 Ideal) (u v : Vector3 Ideal) (hp : AllFinite p) (hq : AllFinite q)
    (hr : AllFinite r) (hu : AllFinite u) (hv : AllFinite v) :
    (p + (q - p) == q) = true ∧ ((p + v) - p == v) = true ∧ ((p + v) - v == p) = true ∧
    ((p + u) + v == p + (u + v)) = true ∧ ((p - q) + (q - r) == p - r) = true ∧
    (p - v == p + -v) = true ∧ ((p - q == Vector3.zero) = true ↔ (p == q) = true) := by
  rv_simp [hp, hq, hr, hu, hv]
  refine ⟨?_, ?_, ?_, ?_, ?_, ?_, sub_eq_zero⟩ <;> abel

/-- **C08** in real arithmetic: scaling laws of vectors and points. -/
theorem C08_real3 (u v : Vector3 Ideal) (p : Point3 Ideal) (s t : Ideal) (hu : AllFinite u)
    (hv : AllFinite v) (hp : AllFinite p) (hs : IsFinite s) (ht : IsFinite t) :
    ((u + v) * s == u * s + v * s) = true ∧ (u * (s + t) == u * s + u * t) = true ∧
    ((u * s) * t == u * (s * t)) = true ∧ (u * (zero : Ideal) == Vector3.zero) = true ∧
    ((p + u) * s == p * s + u * s) = true ∧ ((p * s) * t == p * (s * t)) = true ∧
    (real s ≠ 0 → ((u * s) / s == u) = true ∧ ((u / s) * s == u) = true ∧
      ((u + v) / s == u / s + v / s) = true ∧
      ((p * s) / s == p) = true ∧ ((p / s) * s == p) = true) := by
  refine ⟨?_, ?_, ?_, ?_, ?_, ?_, ?_⟩
  rotate_right
  · intro h0
    refine ⟨?_, ?_, ?_, ?_, ?_⟩
    all_goals rv_simp [hu, hv, hs, ht, hp, ne_eq, h0, not_false_eq_true]
    all_goals first
      | module
      | rw [smul_smul, inv_mul_cancel₀ h0, one_smul]
      | rw [smul_smul, mul_inv_cancel₀ h0, one_smul]
  all_goals rv_simp [hu, hv, hs, ht, hp]
  all_goals module

/-- **C10**: in real arithmetic `dot` is the Euclidean inner product: the sum of the products of the
components, bilinear, symmetric, positive definite, and it satisfies the Cauchy-Schwarz inequality. -/
theorem C10_sum3 (u v : Vector3 Ideal) (hu : AllFinite u) (hv : AllFinite v) :
    IsFinite (Api.dot u v) ∧ real (Api.dot u v) = ∑ i, u.toReal i * v.toReal i :=
  ⟨Vector3.fin_dot hu hv, Vector3.real_dot hu hv⟩
theorem C10_bilinear3 (u v w : Vector3 Ideal) (s : Ideal) (hu : AllFinite u) (hv : AllFinite v)
    (hw : AllFinite w) (hs : IsFinite s) :
    (Api.dot (u + v) w == Api.dot u w + Api.dot v w) = true ∧
    (Api.dot w (u + v) == Api.dot w u + Api.dot w v) = true ∧
    (Api.dot (u * s) w == Api.dot u w * s) = true ∧ (Api.dot u (w * s) == Api.dot u w * s) = true ∧
    (Api.dot u v == Api.dot v u) = true := by
  refine ⟨?_, ?_, ?_, ?_, ?_⟩
  all_goals
    rw [Ideal.beq_real (by rv_simp [hu, hv, hw, hs]) (by rv_simp [hu, hv, hw, hs])]
    rv_simp [hu, hv, hw, hs]
  · exact add_dotProduct _ _ _
  · exact dotProduct_add _ _ _
  · rw [smul_dotProduct, smul_eq_mul, mul_comm]
  · rw [dotProduct_smul, smul_eq_mul, mul_comm]
  · exact dotProduct_comm _ _
theorem C10_definite3 (u v : Vector3 Ideal) (hu : AllFinite u) (hv : AllFinite v) :
    (zero ≤? Api.dot u u) = true ∧ ((Api.dot u u == zero) = true ↔ (u == Vector3.zero) = true) ∧
    (Api.dot u v * Api.dot u v ≤? Api.dot u u * Api.dot v v) = true := by
  refine ⟨?_, ?_, ?_⟩
  · rw [Ideal.le_real finite_zero (Vector3.fin_dot hu hu), real_zero]
    exact Vector3.real_dot_self_nonneg hu
  · rw [Ideal.beq_real (Vector3.fin_dot hu hu) finite_zero]
    rv_simp [hu]
    exact dotProduct_self_eq_zero
  · rw [Ideal.le_real (by rv_simp [hu, hv]) (by rv_simp [hu, hv])]
    rv_simp [hu, hv]
    simp only [dotProduct]
    have := Finset.sum_mul_sq_le_sq_mul_sq Finset.univ u.toReal v.toReal
    simpa [sq] using this

/-- **C12** in real arithmetic: `length` is the Euclidean norm; zero only for the zero vector,
homogeneous, and it satisfies the triangle inequality. -/
theorem C12_real_norm3 (u : Vector3 Ideal) (hu : AllFinite u) :
    IsFinite (Api.length u) ∧ real (Api.length u) = √(∑ i, u.toReal i ^ 2) := by
  refine ⟨Vector3.fin_length hu, ?_⟩
  rw [Vector3.real_length hu, EuclideanSpace.norm_eq]
  simp [Vector3.toE]
theorem C12_real3 (u v : Vector3 Ideal) (s : Ideal) (hu : AllFinite u) (hv : AllFinite v)
    (hs : IsFinite s) :
    (zero ≤? Api.length u) = true ∧ ((Api.length u == zero) = true ↔ (u == Vector3.zero) = true) ∧
    (Api.length (u * s) == Api.length u * Scalar.abs s) = true ∧
    (Api.length (u + v) ≤? Api.length u + Api.length v) = true := by
  have fu := Vector3.fin_length hu
  have fv := Vector3.fin_length hv
  have fs := Vector3.fin_mul hu hs
  have fa := Vector3.fin_add hu hv
  refine ⟨?_, ?_, ?_, ?_⟩
  · rw [Ideal.le_real finite_zero fu, real_zero, Vector3.real_length hu]; exact norm_nonneg _
  · rw [Ideal.beq_real fu finite_zero, real_zero, Vector3.real_length_eq_zero hu]
    rv_simp [hu]
  · rw [Ideal.beq_real (Vector3.fin_length fs) (Ideal.finite_mul fu (finite_abs.2 hs)),
      Ideal.real_mul fu (finite_abs.2 hs), Vector3.real_length fs, Vector3.real_length hu, real_abs]
    unfold Vector3.toE
    rw [Vector3.toReal_mul hu hs, WithLp.toLp_smul, norm_smul, Real.norm_eq_abs, mul_comm]
  · rw [Ideal.le_real (Vector3.fin_length fa) (Ideal.finite_add fu fv), Ideal.real_add fu fv,
      Vector3.real_length fa, Vector3.real_length hu, Vector3.real_length hv]
    have : (u + v).toE = u.toE + v.toE := by
      unfold Vector3.toE; rw [Vector3.toReal_add hu hv, WithLp.toLp_add]
    rw [this]; exact norm_add_le _ _

/-- **C13** in real arithmetic: for a finite non-zero vector, `normalize` returns a vector of length 1 that
is a positive multiple of it, and normalizing again changes nothing. -/
theorem C13_real3 (v : Vector3 Ideal) (hv : AllFinite v) (h : (v == Vector3.zero) = false) :
    AllFinite v.normalize ∧ (Api.length v.normalize == one) = true ∧
    (v.normalize * Api.length v == v) = true ∧ (zero <? Api.length v) = true ∧
    (v.normalize.normalize == v.normalize) = true := by
  have h0 : v.toReal ≠ 0 := by
    rwa [Bool.eq_false_iff, ne_eq, Vector3.beq_toReal hv Vector3.fin_zero, Vector3.toReal_zero] at h
  have fl := Vector3.fin_length hv
  have fn := Vector3.fin_normalize hv h0
  have hl : real (Api.length v) ≠ 0 := mt (Vector3.real_length_eq_zero hv).1 h0
  have hn : ‖v.toE‖ ≠ 0 := by rwa [← Vector3.real_length hv]
  have h1 : real (Api.length v.normalize) = 1 := by
    rw [Vector3.real_length fn]
    unfold Vector3.toE
    rw [Vector3.toReal_normalize hv h0, WithLp.toLp_smul, norm_smul, norm_inv, norm_norm]
    exact inv_mul_cancel₀ hn
  refine ⟨fn, ?_, ?_, ?_, ?_⟩
  · rw [Ideal.beq_real (Vector3.fin_length fn) finite_one, real_one]; exact h1
  · rw [Vector3.beq_toReal (Vector3.fin_mul fn fl) hv, Vector3.toReal_mul fn fl,
      Vector3.toReal_normalize hv h0, Vector3.real_length hv, smul_smul, mul_inv_cancel₀ hn, one_smul]
  · rw [Ideal.lt_real finite_zero fl, real_zero]
    exact lt_of_le_of_ne (by rw [Vector3.real_length hv]; exact norm_nonneg _) (Ne.symm hl)
  · have hl1 : real (Api.length v.normalize) ≠ 0 := by rw [h1]; exact one_ne_zero
    have h0' : v.normalize.toReal ≠ 0 := mt (Vector3.real_length_eq_zero fn).2 hl1
    rw [Vector3.beq_toReal (Vector3.fin_normalize fn h0') fn, Vector3.toReal_normalize fn h0',
      ← Vector3.real_length fn, h1, inv_one, one_smul]

/-- **C14** in real arithmetic: the square-root-free comparisons are the comparisons of lengths. -/
theorem C14_real3 (u v : Vector3 Ideal) (hu : AllFinite u) (hv : AllFinite v) :
    RelativeLength.isShorterThan u v = (Api.length u <? Api.length v) ∧
    RelativeLength.isLongerThan u v = (Api.length u >? Api.length v) := by
  have key : ∀ a b : Vector3 Ideal, AllFinite a → AllFinite b →
      (Api.dot a a <? Api.dot b b) = (Api.length a <? Api.length b) := by
    intro a b ha hb
    rw [Bool.eq_iff_iff, Ideal.lt_real (Vector3.fin_dot ha ha) (Vector3.fin_dot hb hb),
      Ideal.lt_real (Vector3.fin_length ha) (Vector3.fin_length hb), Vector3.length_def, Vector3.length_def,
      Ideal.real_sqrt (Vector3.fin_dot ha ha) (Vector3.real_dot_self_nonneg ha),
      Ideal.real_sqrt (Vector3.fin_dot hb hb) (Vector3.real_dot_self_nonneg hb)]
    exact (Real.sqrt_lt_sqrt_iff (Vector3.real_dot_self_nonneg ha)).symm
  exact ⟨key u v hu hv, key v u hv hu⟩

/-- **C15** in real arithmetic: `distance` is the Euclidean metric, and translation invariant. -/
theorem C15_real3 (p q r : Point3 Ideal) (v : Vector3 Ideal) (hp : AllFinite p) (hq : AllFinite q)
    (hr : AllFinite r) (hv : AllFinite v) :
    real (Api.distance p q) = √(∑ i, (p.toReal i - q.toReal i) ^ 2) ∧
    (zero ≤? Api.distance p q) = true ∧ ((Api.distance p q == zero) = true ↔ (p == q) = true) ∧
    (Api.distance p q == Api.distance q p) = true ∧
    (Api.distance p r ≤? Api.distance p q + Api.distance q r) = true ∧
    (Api.distance (p + v) (q + v) == Api.distance p q) = true := by
  have fpq := Point3.fin_distance hp hq
  have fqr := Point3.fin_distance hq hr
  have fpv := Point3.fin_addv hp hv
  have fqv := Point3.fin_addv hq hv
  refine ⟨?_, ?_, ?_, ?_, ?_, ?_⟩
  · rw [Point3.real_distance hp hq, EuclideanSpace.dist_eq]
    simp [Point3.toE, Real.dist_eq]
  · rw [Ideal.le_real finite_zero fpq, real_zero, Point3.real_distance hp hq]; exact dist_nonneg
  · rw [Ideal.beq_real fpq finite_zero, real_zero, Point3.real_distance hp hq, dist_eq_zero,
      Point3.beq_toReal hp hq]
    unfold Point3.toE; simp
  · rw [Ideal.beq_real fpq (Point3.fin_distance hq hp), Point3.real_distance hp hq,
      Point3.real_distance hq hp, dist_comm]
  · rw [Ideal.le_real (Point3.fin_distance hp hr) (Ideal.finite_add fpq fqr), Ideal.real_add fpq fqr,
      Point3.real_distance hp hq, Point3.real_distance hq hr, Point3.real_distance hp hr]
    exact dist_triangle _ _ _
  · rw [Ideal.beq_real (Point3.fin_distance fpv fqv) fpq, Point3.real_distance hp hq,
      Point3.real_distance fpv fqv]
    have : ∀ x : Point3 Ideal, AllFinite x → (x + v).toE = x.toE + v.toE := by
      intro x hx
      unfold Point3.toE Vector3.toE; rw [Point3.toReal_addv hx hv, WithLp.toLp_add]
    rw [this p hp, this q hq, dist_add_right]

/-- **C16** in real arithmetic: the square-root-free comparisons are the comparisons of distances. -/
theorem C16_real3 (p a b : Point3 Ideal) (hp : AllFinite p) (ha : AllFinite a) (hb : AllFinite b) :
    RelativeDistance.isCloserTo p a b = (Api.distance p a <? Api.distance p b) ∧
    RelativeDistance.isFartherFrom p a b = (Api.distance p a >? Api.distance p b) :=
  C14_real3 (a - p) (b - p) (Vector3.fin_subp ha hp) (Vector3.fin_subp hb hp)

/-- **C23** in real arithmetic: a ray is an affine parameterisation of a line by multiples of its
direction. -/
theorem C23_real3 (r : Ray3 Ideal) (s t : Ideal) (hr : AllFinite r) (hs : IsFinite s) (ht : IsFinite t) :
    (r.at zero == r.origin) = true ∧ (r.at (s + t) == r.at s + r.direction * t) = true ∧
    (Api.distance r.origin (r.at t) == Scalar.abs t * Api.length r.direction) = true ∧
    ((r.direction == Vector3.zero) = false → (r.at s == r.at t) = true → (s == t) = true) := by
  rw [Ray3.allFinite] at hr
  obtain ⟨ho, hd⟩ := hr
  have fat : ∀ {t : Ideal}, IsFinite t → AllFinite (r.at t) := fun ht =>
    Point3.fin_addv ho (Vector3.fin_mul hd ht)
  have rat : ∀ {t : Ideal}, IsFinite t → (r.at t).toReal = r.origin.toReal + real t • r.direction.toReal :=
    fun ht => by
      unfold Ray3.at
      rw [Point3.toReal_addv ho (Vector3.fin_mul hd ht), Vector3.toReal_mul hd ht]
  refine ⟨?_, ?_, ?_, ?_⟩
  · rw [Point3.beq_toReal (fat finite_zero) ho, rat finite_zero, real_zero, zero_smul, add_zero]
  · have fst := Ideal.finite_add hs ht
    rw [Point3.beq_toReal (fat fst) (Point3.fin_addv (fat hs) (Vector3.fin_mul hd ht)), rat fst,
      Point3.toReal_addv (fat hs) (Vector3.fin_mul hd ht), rat hs, Vector3.toReal_mul hd ht,
      Ideal.real_add hs ht, add_smul, add_assoc]
  · have fa := finite_abs.2 ht
    rw [Ideal.beq_real (Point3.fin_distance ho (fat ht)) (Ideal.finite_mul fa (Vector3.fin_length hd)),
      Ideal.real_mul fa (Vector3.fin_length hd), Point3.real_distance ho (fat ht), real_abs,
      Vector3.real_length hd, dist_comm, dist_eq_norm]
    have : (r.at t).toE - r.origin.toE = real t • r.direction.toE := by
      unfold Point3.toE Vector3.toE
      rw [rat ht, ← WithLp.toLp_sub, ← WithLp.toLp_smul]; simp
    rw [this, norm_smul, Real.norm_eq_abs]
  · intro h0 h
    rw [Bool.eq_false_iff, ne_eq, Vector3.beq_toReal hd Vector3.fin_zero, Vector3.toReal_zero] at h0
    rw [Point3.beq_toReal (fat hs) (fat ht), rat hs, rat ht] at h
    rw [Ideal.beq_real hs ht]
    have h' := add_left_cancel h
    by_contra hne
    have : (real s - real t) • r.direction.toReal = 0 := by rw [sub_smul, h', sub_self]
    rcases smul_eq_zero.1 this with h | h
    · exact hne (sub_eq_zero.1 h)
    · exact h0 h

/-! ## Cross product -/

/-- **C11** in real arithmetic: `cross` is the right-handed vector product. -/
theorem C11_real (u v w : Vector3 Ideal) (s : Ideal) (hu : AllFinite u) (hv : AllFinite v)
    (hw : AllFinite w) (hs : IsFinite s) :
    (Api.dot (Api.cross u v) u == zero) = true ∧ (Api.dot (Api.cross u v) v == zero) = true ∧
    (Api.cross (u + w) v == Api.cross u v + Api.cross w v) = true ∧
    (Api.cross (u * s) v == Api.cross u v * s) = true ∧
    (Api.cross u v == -(Api.cross v u)) = true ∧
    (Api.dot (Api.cross u v) (Api.cross u v) + Api.dot u v * Api.dot u v ==
      Api.dot u u * Api.dot v v) = true ∧
    (Api.cross u (Api.cross v w) == v * Api.dot u w - w * Api.dot u v) = true := by
  have e3 : ∀ x : Fin 3 → ℝ, x = ![x 0, x 1, x 2] := fun x => by ext i; fin_cases i <;> rfl
  refine ⟨?_, ?_, ?_, ?_, ?_, ?_, ?_⟩
  · rw [Ideal.beq_real (by rv_simp [hu, hv]) (by rv_simp [hu, hv])]
    rv_simp [hu, hv]
    rw [dotProduct_comm]; exact dot_self_cross _ _
  · rw [Ideal.beq_real (by rv_simp [hu, hv]) (by rv_simp [hu, hv])]
    rv_simp [hu, hv]
    rw [dotProduct_comm]; exact dot_cross_self _ _
  · rv_simp [hu, hv, hw]; rw [map_add]; rfl
  · rv_simp [hu, hv, hw, hs]; rw [map_smul]; rfl
  · rv_simp [hu, hv]; exact (cross_anticomm v.toReal u.toReal).symm
  · rw [Ideal.beq_real (by rv_simp [hu, hv]) (by rv_simp [hu, hv])]
    rv_simp [hu, hv]
    rw [cross_dot_cross, dotProduct_comm v.toReal u.toReal]; ring
  · rv_simp [hu, hv, hw]
    simp only [cross_apply]
    ext i; fin_cases i <;> simp [dotProduct, Fin.sum_univ_succ] <;> ring

/-- Linear dependence of two vectors: some non-trivial real combination vanishes. -/
def Dependent (u v : Vector3 Ideal) : Prop :=
  ∃ a b : ℝ, (a ≠ 0 ∨ b ≠ 0) ∧ a • u.toReal + b • v.toReal = 0

/-- **C11** in real arithmetic: the cross product vanishes exactly on linearly dependent pairs. -/
theorem C11_real_dependent (u v : Vector3 Ideal) (hu : AllFinite u) (hv : AllFinite v) :
    (Api.cross u v == Vector3.zero) = true ↔ Dependent u v := by
  rv_simp [hu, hv]
  unfold Dependent
  generalize u.toReal = x
  generalize v.toReal = y
  rw [cross_apply]
  constructor
  · intro h
    have h0 := congrFun h 0
    have h1 := congrFun h 1
    have h2 := congrFun h 2
    simp at h0 h1 h2
    by_cases hx : x = 0
    · exact ⟨1, 0, .inl one_ne_zero, by simp [hx]⟩
    · obtain ⟨i, hi⟩ : ∃ i, x i ≠ 0 := by
        by_contra hc; push Not at hc; exact hx (funext hc)
      refine ⟨y i, -(x i), .inr (neg_ne_zero.2 hi), ?_⟩
      ext j
      fin_cases i <;> fin_cases j <;> simp <;> linarith
  · rintro ⟨a, b, hab, h⟩
    have h0 := congrFun h 0
    have h1 := congrFun h 1
    have h2 := congrFun h 2
    simp at h0 h1 h2
    rcases hab with ha | hb
    · ext j
      fin_cases j <;> simp <;> apply mul_left_cancel₀ ha
      · linear_combination y 2 * h1 - y 1 * h2
      · linear_combination y 0 * h2 - y 2 * h0
      · linear_combination y 1 * h0 - y 0 * h1
    · ext j
      fin_cases j <;> simp <;> apply mul_left_cancel₀ hb
      · linear_combination x 1 * h2 - x 2 * h1
      · linear_combination x 2 * h0 - x 0 * h2
      · linear_combination x 0 * h1 - x 1 * h0

/-- **C11**: right-handedness: x × y = z and cyclically. -/
theorem C11_axes :
    (Api.cross (Vector3.xAxis : Vector3 Ideal) (Vector3.yAxis : Vector3 Ideal) == (Vector3.zAxis : Vector3 Ideal)) = true ∧
    (Api.cross (Vector3.yAxis : Vector3 Ideal) (Vector3.zAxis : Vector3 Ideal) == (Vector3.xAxis : Vector3 Ideal)) = true ∧
    (Api.cross (Vector3.zAxis : Vector3 Ideal) (Vector3.xAxis : Vector3 Ideal) == (Vector3.yAxis : Vector3 Ideal)) = true := by
  have fx : AllFinite (Vector3.xAxis : Vector3 Ideal) := by
    rw [Vector3.allFinite]; exact ⟨trivial, trivial, trivial⟩
  have fy : AllFinite (Vector3.yAxis : Vector3 Ideal) := by
    rw [Vector3.allFinite]; exact ⟨trivial, trivial, trivial⟩
  have fz : AllFinite (Vector3.zAxis : Vector3 Ideal) := by
    rw [Vector3.allFinite]; exact ⟨trivial, trivial, trivial⟩
  have rx : (Vector3.xAxis : Vector3 Ideal).toReal = ![1, 0, 0] := rfl
  have ry : (Vector3.yAxis : Vector3 Ideal).toReal = ![0, 1, 0] := rfl
  have rz : (Vector3.zAxis : Vector3 Ideal).toReal = ![0, 0, 1] := rfl
  rv_simp [fx, fy, fz, rx, ry, rz]
  simp [cross_apply]

/-! ## permute -/

/-- **C04** in real arithmetic: a true permutation of the components preserves the length. -/
theorem C04_length2 (v : Vector2 Ideal) (hv : AllFinite v) (a b : Dimension2) (hab : a ≠ b) :
    (Api.length (v.permute a b) == Api.length v) = true := by
  rw [Vector2.allFinite] at hv
  have fv : AllFinite v := Vector2.allFinite.2 hv
  have fp : AllFinite (v.permute a b) := by
    rw [Vector2.allFinite]; cases a <;> cases b <;> simp_all [Vector2.permute, Vector2.new, Vector2.index]
  rw [Ideal.beq_real (Vector2.fin_length fp) (Vector2.fin_length fv), (C12_real_norm2 _ fp).2,
    (C12_real_norm2 _ fv).2]
  congr 1
  cases a <;> cases b <;>
    simp_all [Vector2.permute, Vector2.new, Vector2.index, Vector2.toReal, Fin.sum_univ_succ] <;> ring
theorem C04_length3 (v : Vector3 Ideal) (hv : AllFinite v) (a b c : Dimension3) (hab : a ≠ b)
    (hbc : b ≠ c) (hac : a ≠ c) :
    (Api.length (v.permute a b c) == Api.length v) = true := by
  rw [Vector3.allFinite] at hv
  have fv : AllFinite v := Vector3.allFinite.2 hv
  have fp : AllFinite (v.permute a b c) := by
    rw [Vector3.allFinite]
    cases a <;> cases b <;> cases c <;> simp_all [Vector3.permute, Vector3.new, Vector3.index]
  rw [Ideal.beq_real (Vector3.fin_length fp) (Vector3.fin_length fv), (C12_real_norm3 _ fp).2,
    (C12_real_norm3 _ fv).2]
  congr 1
  cases a <;> cases b <;> cases c <;>
    simp_all [Vector3.permute, Vector3.new, Vector3.index, Vector3.toReal, Fin.sum_univ_succ] <;> ring

/-! ## Non-vacuity -/

/-- A non-trivial vector: (3, 4, 12), of length 13. -/
noncomputable def exV : Vector3 Ideal := Vector3.new (Ideal.of 3) (Ideal.of 4) (Ideal.of 12)
theorem exV_finite : AllFinite exV := Vector3.allFinite.2 ⟨trivial, trivial, trivial⟩
theorem exV_ne_zero : (exV == Vector3.zero) = false := by
  rw [Bool.eq_false_iff, ne_eq, Vector3.beq_toReal exV_finite Vector3.fin_zero, Vector3.toReal_zero]
  intro h
  have := congrFun h 0
  simp [exV, Vector3.toReal, Vector3.new] at this
example : real (Api.length exV) = 13 := by
  rw [(C12_real_norm3 _ exV_finite).2]
  have : (∑ i, exV.toReal i ^ 2) = 13 ^ 2 := by
    simp [exV, Vector3.toReal, Vector3.new, Fin.sum_univ_succ]; norm_num
  rw [this]; exact Real.sqrt_sq (by norm_num)
example := C13_real3 exV exV_finite exV_ne_zero
example := C06_real3 exV exV exV exV_finite exV_finite exV_finite
example := C08_real3 exV exV (Point3.fromVector exV) (Ideal.of 2) (Ideal.of 5) exV_finite exV_finite
  (Point3.allFinite.2 ⟨trivial, trivial, trivial⟩) trivial trivial
example := C11_real exV exV exV (Ideal.of 2) exV_finite exV_finite exV_finite trivial
example := C15_real3 (Point3.fromVector exV) (Point3.fromVector exV) (Point3.fromVector exV) exV
  (Point3.allFinite.2 ⟨trivial, trivial, trivial⟩) (Point3.allFinite.2 ⟨trivial, trivial, trivial⟩)
  (Point3.allFinite.2 ⟨trivial, trivial, trivial⟩) exV_finite
example := C23_real3 (Ray3.new (Point3.fromVector exV) exV) (Ideal.of 2) (Ideal.of 5)
  (Ray3.allFinite.2 ⟨Point3.allFinite.2 ⟨trivial, trivial, trivial⟩, exV_finite⟩) trivial trivial

end VecMath
