import Verif.Lemmas.Round
import Verif.Spec.Float
/-!
# Layer F: rounding errors (C59-C62)

For scalars computing in a binary format (`Binary S`; `f32` and `f64` in particular): every coordinate of
the elementary operations is correctly rounded, and `dot`, `cross`, `length`, `distance` and `normalize`
stay within explicit bounds of the exact Euclidean quantities.
-/

open Classical

namespace VecMath
open Scalar IEEE

variable {S : Type} [Scalar S] [IEEE S] [Binary S]

/-! ## C60: elementary operations are correctly rounded -/

/-- C60. Every coordinate of `u + v`, `u - v`, `v * s`, `v / s` is the correctly rounded exact result. -/
theorem C60_vector2 (u v : Vector2 S) (s : S) (hu : AllFinite u) (hv : AllFinite v) (hs : IsFinite s) :
    (Correct (u + v).x (real u.x + real v.x) ∧ Correct (u + v).y (real u.y + real v.y)) ∧
    (Correct (u - v).x (real u.x - real v.x) ∧ Correct (u - v).y (real u.y - real v.y)) ∧
    (Correct (v * s).x (real v.x * real s) ∧ Correct (v * s).y (real v.y * real s)) ∧
    (real s ≠ 0 → Correct (v / s).x (real v.x / real s) ∧ Correct (v / s).y (real v.y / real s)) := by
  rw [Vector2.allFinite] at hu hv
  exact ⟨⟨correct_add hu.1 hv.1, correct_add hu.2 hv.2⟩, ⟨correct_sub hu.1 hv.1, correct_sub hu.2 hv.2⟩,
    ⟨correct_mul hv.1 hs, correct_mul hv.2 hs⟩, fun h => ⟨correct_div hv.1 hs h, correct_div hv.2 hs h⟩⟩
/-- C60. Every coordinate of `u + v`, `u - v`, `v * s`, `v / s` is the correctly rounded exact result. -/
theorem C60_vector3 (u v : Vector3 S) (s : S) (hu : AllFinite u) (hv : AllFinite v) (hs : IsFinite s) :
    (Correct (u + v).x (real u.x + real v.x) ∧ Correct (u + v).y (real u.y + real v.y) ∧
      Correct (u + v).z (real u.z + real v.z)) ∧
    (Correct (u - v).x (real u.x - real v.x) ∧ Correct (u - v).y (real u.y - real v.y) ∧
      Correct (u - v).z (real u.z - real v.z)) ∧
    (Correct (v * s).x (real v.x * real s) ∧ Correct (v * s).y (real v.y * real s) ∧
      Correct (v * s).z (real v.z * real s)) ∧
    (real s ≠ 0 → Correct (v / s).x (real v.x / real s) ∧ Correct (v / s).y (real v.y / real s) ∧
      Correct (v / s).z (real v.z / real s)) := by
  rw [Vector3.allFinite] at hu hv
  exact ⟨⟨correct_add hu.1 hv.1, correct_add hu.2.1 hv.2.1, correct_add hu.2.2 hv.2.2⟩,
    ⟨correct_sub hu.1 hv.1, correct_sub hu.2.1 hv.2.1, correct_sub hu.2.2 hv.2.2⟩,
    ⟨correct_mul hv.1 hs, correct_mul hv.2.1 hs, correct_mul hv.2.2 hs⟩,
    fun h => ⟨correct_div hv.1 hs h, correct_div hv.2.1 hs h, correct_div hv.2.2 hs h⟩⟩
/-- C60. Every coordinate of `p + v`, `p - v`, `p - q` is the correctly rounded exact result. -/
theorem C60_point2 (p q : Point2 S) (v : Vector2 S) (hp : AllFinite p) (hq : AllFinite q) (hv : AllFinite v) :
    (Correct (p + v).x (real p.x + real v.x) ∧ Correct (p + v).y (real p.y + real v.y)) ∧
    (Correct (p - v).x (real p.x - real v.x) ∧ Correct (p - v).y (real p.y - real v.y)) ∧
    (Correct (p - q : Vector2 S).x (real p.x - real q.x) ∧ Correct (p - q : Vector2 S).y (real p.y - real q.y)) := by
  rw [Vector2.allFinite] at hv; rw [Point2.allFinite] at hp hq
  exact ⟨⟨correct_add hp.1 hv.1, correct_add hp.2 hv.2⟩, ⟨correct_sub hp.1 hv.1, correct_sub hp.2 hv.2⟩,
    ⟨correct_sub hp.1 hq.1, correct_sub hp.2 hq.2⟩⟩
/-- C60. Every coordinate of `p + v`, `p - v`, `p - q` is the correctly rounded exact result. -/
theorem C60_point3 (p q : Point3 S) (v : Vector3 S) (hp : AllFinite p) (hq : AllFinite q) (hv : AllFinite v) :
    (Correct (p + v).x (real p.x + real v.x) ∧ Correct (p + v).y (real p.y + real v.y) ∧
      Correct (p + v).z (real p.z + real v.z)) ∧
    (Correct (p - v).x (real p.x - real v.x) ∧ Correct (p - v).y (real p.y - real v.y) ∧
      Correct (p - v).z (real p.z - real v.z)) ∧
    (Correct (p - q : Vector3 S).x (real p.x - real q.x) ∧ Correct (p - q : Vector3 S).y (real p.y - real q.y) ∧
      Correct (p - q : Vector3 S).z (real p.z - real q.z)) := by
  rw [Vector3.allFinite] at hv; rw [Point3.allFinite] at hp hq
  exact ⟨⟨correct_add hp.1 hv.1, correct_add hp.2.1 hv.2.1, correct_add hp.2.2 hv.2.2⟩,
    ⟨correct_sub hp.1 hv.1, correct_sub hp.2.1 hv.2.1, correct_sub hp.2.2 hv.2.2⟩,
    ⟨correct_sub hp.1 hq.1, correct_sub hp.2.1 hq.2.1, correct_sub hp.2.2 hq.2.2⟩⟩

/-! ## C59: dot -/

theorem dot_err2 {u v : Vector2 S} {t : ℝ} (h : IsFinite (Api.dot u v))
    (hx : |real (u.x * v.x) - real u.x * real v.x| ≤ uro S * |real u.x * real v.x| + t)
    (hy : |real (u.y * v.y) - real u.y * real v.y| ≤ uro S * |real u.y * real v.y| + t) :
    |real (Api.dot u v) - (real u.x * real v.x + real u.y * real v.y)| ≤
      ((1 + uro S) ^ 2 - 1) * (|real u.x * real v.x| + |real u.y * real v.y|) + 2 * (1 + uro S) * t := by
  have hu := uro_pos (S := S)
  have h1 := err_add_of (S := S) h hx hy
  have h2 := abs_add_le (real u.x * real v.x) (real u.y * real v.y)
  have h3 := mul_le_mul_of_nonneg_left h2 hu.le
  refine h1.trans ?_
  nlinarith

theorem dot_err3 {u v : Vector3 S} {t : ℝ} (ht : 0 ≤ t) (h : IsFinite (Api.dot u v))
    (hx : |real (u.x * v.x) - real u.x * real v.x| ≤ uro S * |real u.x * real v.x| + t)
    (hy : |real (u.y * v.y) - real u.y * real v.y| ≤ uro S * |real u.y * real v.y| + t)
    (hz : |real (u.z * v.z) - real u.z * real v.z| ≤ uro S * |real u.z * real v.z| + t) :
    |real (Api.dot u v) - (real u.x * real v.x + real u.y * real v.y + real u.z * real v.z)| ≤
      ((1 + uro S) ^ 3 - 1) * (|real u.x * real v.x| + |real u.y * real v.y| + |real u.z * real v.z|) +
        3 * (1 + uro S) ^ 2 * t := by
  have hu := uro_pos (S := S)
  have hf : IsFinite (u.x * v.x + u.y * v.y) := (finite_of_add h).1
  have h1 := err_add_of (S := S) hf hx hy
  have h2 := abs_add_le (real u.x * real v.x) (real u.y * real v.y)
  have h3 := mul_le_mul_of_nonneg_left h2 hu.le
  have h1' : |real (u.x * v.x + u.y * v.y) - (real u.x * real v.x + real u.y * real v.y)| ≤
      ((1 + uro S) ^ 2 - 1) * (|real u.x * real v.x| + |real u.y * real v.y|) + 2 * (1 + uro S) * t := by
    refine h1.trans ?_
    nlinarith
  have h4 := err_add_of (S := S) h h1' hz
  have h5 := abs_add_le (real u.x * real v.x + real u.y * real v.y) (real u.z * real v.z)
  have h6 := mul_le_mul_of_nonneg_left (h5.trans (add_le_add_left h2 _)) hu.le
  refine h4.trans ?_
  generalize |real u.x * real v.x| = a at *
  generalize |real u.y * real v.y| = b at *
  generalize hc : |real u.z * real v.z| = c at *
  have hc0 : 0 ≤ c := hc ▸ abs_nonneg _
  nlinarith [mul_nonneg hu.le ht, mul_nonneg (mul_nonneg hu.le hu.le) ht, mul_nonneg hu.le hc0,
    mul_nonneg (mul_nonneg hu.le hu.le) hc0, mul_nonneg (mul_nonneg (mul_nonneg hu.le hu.le) hu.le) hc0]

/-- C59. Whenever `dot` does not overflow its error is at most `((1+u)^2 - 1)` times the sum of the
magnitudes of the products, plus twice half a quantum (underflow of the products). -/
theorem C59_dot2 (u v : Vector2 S) (h : IsFinite (Api.dot u v)) :
    |real (Api.dot u v) - (real u.x * real v.x + real u.y * real v.y)| ≤
      ((1 + uro S) ^ 2 - 1) * (|real u.x * real v.x| + |real u.y * real v.y|) + 2 * (1 + uro S) * tiny S :=
  dot_err2 h (err_mul (finite_of_add h).1) (err_mul (finite_of_add h).2)
/-- C59. 3D: factor `(1+u)^3 - 1`, plus three half quanta. -/
theorem C59_dot3 (u v : Vector3 S) (h : IsFinite (Api.dot u v)) :
    |real (Api.dot u v) - (real u.x * real v.x + real u.y * real v.y + real u.z * real v.z)| ≤
      ((1 + uro S) ^ 3 - 1) * (|real u.x * real v.x| + |real u.y * real v.y| + |real u.z * real v.z|) +
        3 * (1 + uro S) ^ 2 * tiny S := by
  have h1 := finite_of_add (finite_of_add h).1
  exact dot_err3 tiny_pos.le h (err_mul h1.1) (err_mul h1.2) (err_mul (finite_of_add h).2)
/-- C59. If no product underflows, the underflow term disappears. -/
theorem C59_dot_normal2 (u v : Vector2 S) (h : IsFinite (Api.dot u v))
    (hx : Normal S (real u.x * real v.x)) (hy : Normal S (real u.y * real v.y)) :
    |real (Api.dot u v) - (real u.x * real v.x + real u.y * real v.y)| ≤
      ((1 + uro S) ^ 2 - 1) * (|real u.x * real v.x| + |real u.y * real v.y|) := by
  have := dot_err2 (t := 0) h (by simpa using err_mul_normal (finite_of_add h).1 hx)
    (by simpa using err_mul_normal (finite_of_add h).2 hy)
  simpa using this
/-- C59. If no product underflows, the underflow term disappears. -/
theorem C59_dot_normal3 (u v : Vector3 S) (h : IsFinite (Api.dot u v))
    (hx : Normal S (real u.x * real v.x)) (hy : Normal S (real u.y * real v.y))
    (hz : Normal S (real u.z * real v.z)) :
    |real (Api.dot u v) - (real u.x * real v.x + real u.y * real v.y + real u.z * real v.z)| ≤
      ((1 + uro S) ^ 3 - 1) * (|real u.x * real v.x| + |real u.y * real v.y| + |real u.z * real v.z|) := by
  have h1 := finite_of_add (finite_of_add h).1
  have := dot_err3 (t := 0) le_rfl h (by simpa using err_mul_normal h1.1 hx)
    (by simpa using err_mul_normal h1.2 hy) (by simpa using err_mul_normal (finite_of_add h).2 hz)
  simpa using this

/-! ## C59: length -/

/-- C59. If no square underflows and the result is finite, the squared length is within four roundings of
the exact one. -/
theorem C59_length_sq2 (v : Vector2 S) (h : IsFinite (Api.length v))
    (hx : Normal S (real v.x ^ 2)) (hy : Normal S (real v.y ^ 2)) :
    0 ≤ real (Api.length v) ∧ Within S 4 (real (Api.length v) ^ 2) (real v.x ^ 2 + real v.y ^ 2) := by
  have hd : IsFinite (v.x * v.x + v.y * v.y) := (finite_of_sqrt h).1
  have h1 := finite_of_add hd
  refine ⟨nonneg_real_sqrt h, Within.sqrt (k := 2) h ?_⟩
  exact Within.add hd (Within.mul_self h1.1 hx) (Within.mul_self h1.2 hy) (sq_nonneg _) (sq_nonneg _)
/-- C59. 3D: within five roundings. -/
theorem C59_length_sq3 (v : Vector3 S) (h : IsFinite (Api.length v))
    (hx : Normal S (real v.x ^ 2)) (hy : Normal S (real v.y ^ 2)) (hz : Normal S (real v.z ^ 2)) :
    0 ≤ real (Api.length v) ∧
      Within S 5 (real (Api.length v) ^ 2) (real v.x ^ 2 + real v.y ^ 2 + real v.z ^ 2) := by
  have hd : IsFinite (v.x * v.x + v.y * v.y + v.z * v.z) := (finite_of_sqrt h).1
  have h1 := finite_of_add hd
  have h2 := finite_of_add h1.1
  refine ⟨nonneg_real_sqrt h, Within.sqrt (k := 3) h ?_⟩
  refine Within.add (k := 2) hd ?_ ((Within.mul_self h1.2 hz).mono (sq_nonneg _) (by norm_num)) ?_ (sq_nonneg _)
  · exact Within.add h1.1 (Within.mul_self h2.1 hx) (Within.mul_self h2.2 hy) (sq_nonneg _) (sq_nonneg _)
  · positivity

theorem sqrt_within {k : ℕ} {y x : ℝ} (h : Within S (2 * k) (y ^ 2) x) (hy : 0 ≤ y) (hx : 0 ≤ x) :
    Within S k y √x := by
  have h1 := uro_le (S := S)
  have h0 := uro_pos (S := S)
  have e : ∀ c : ℝ, 0 ≤ c → c ^ k * √x = √(c ^ (2 * k) * x) := by
    intro c hc
    rw [Real.sqrt_mul (pow_nonneg hc _), mul_comm 2 k, pow_mul, Real.sqrt_sq (pow_nonneg hc _)]
  constructor
  · rw [e _ (by linarith)]
    exact Real.sqrt_le_iff.2 ⟨hy, h.1⟩
  · rw [e _ (by linarith)]
    exact Real.le_sqrt_of_sq_le h.2

/-- C59. The length itself is within two roundings of the Euclidean length: a relative error of about
`2u`. -/
theorem C59_length2 (v : Vector2 S) (h : IsFinite (Api.length v))
    (hx : Normal S (real v.x ^ 2)) (hy : Normal S (real v.y ^ 2)) :
    Within S 2 (real (Api.length v)) √(real v.x ^ 2 + real v.y ^ 2) := by
  have := C59_length_sq2 v h hx hy
  exact sqrt_within this.2 this.1 (by positivity)
/-- C59. 3D: within three roundings (two and a half by the bound on squares). -/
theorem C59_length3 (v : Vector3 S) (h : IsFinite (Api.length v))
    (hx : Normal S (real v.x ^ 2)) (hy : Normal S (real v.y ^ 2)) (hz : Normal S (real v.z ^ 2)) :
    Within S 3 (real (Api.length v)) √(real v.x ^ 2 + real v.y ^ 2 + real v.z ^ 2) := by
  have := C59_length_sq3 v h hx hy hz
  have hn : (0 : ℝ) ≤ real v.x ^ 2 + real v.y ^ 2 + real v.z ^ 2 := by positivity
  exact sqrt_within (this.2.mono hn (by norm_num)) this.1 hn

/-! ## C60: distance -/

/-- C60. If no square of a computed coordinate difference underflows, the distance is within three
roundings of the Euclidean distance. -/
theorem C60_distance2 (p q : Point2 S) (h : IsFinite (Api.distance p q))
    (hx : Normal S (real (q.x - p.x) ^ 2)) (hy : Normal S (real (q.y - p.y) ^ 2)) :
    Within S 3 (real (Api.distance p q)) √((real q.x - real p.x) ^ 2 + (real q.y - real p.y) ^ 2) := by
  have h1 := C59_length_sq2 (q - p : Vector2 S) h hx hy
  have hd : IsFinite ((q.x - p.x) * (q.x - p.x) + (q.y - p.y) * (q.y - p.y)) := (finite_of_sqrt h).1
  have hd1 := finite_of_add hd
  have ex := Within.sq_of_err (err_sub (finite_of_mul hd1.1).1)
  have ey := Within.sq_of_err (err_sub (finite_of_mul hd1.2).1)
  exact sqrt_within (h1.2.trans (ex.plus ey)) h1.1 (by positivity)
/-- C60. 3D: within four roundings. -/
theorem C60_distance3 (p q : Point3 S) (h : IsFinite (Api.distance p q))
    (hx : Normal S (real (q.x - p.x) ^ 2)) (hy : Normal S (real (q.y - p.y) ^ 2))
    (hz : Normal S (real (q.z - p.z) ^ 2)) :
    Within S 4 (real (Api.distance p q))
      √((real q.x - real p.x) ^ 2 + (real q.y - real p.y) ^ 2 + (real q.z - real p.z) ^ 2) := by
  have h1 := C59_length_sq3 (q - p : Vector3 S) h hx hy hz
  have hd : IsFinite ((q.x - p.x) * (q.x - p.x) + (q.y - p.y) * (q.y - p.y) + (q.z - p.z) * (q.z - p.z)) :=
    (finite_of_sqrt h).1
  have hd1 := finite_of_add hd
  have hd2 := finite_of_add hd1.1
  have ex := Within.sq_of_err (err_sub (finite_of_mul hd2.1).1)
  have ey := Within.sq_of_err (err_sub (finite_of_mul hd2.2).1)
  have ez := Within.sq_of_err (err_sub (finite_of_mul hd1.2).1)
  have hn : (0 : ℝ) ≤ (real q.x - real p.x) ^ 2 + (real q.y - real p.y) ^ 2 + (real q.z - real p.z) ^ 2 := by
    positivity
  exact sqrt_within ((h1.2.trans ((ex.plus ey).plus ez)).mono hn (by norm_num)) h1.1 hn

/-! ## C61: cross -/

theorem err_mul_sub {a b c d : S} (h : IsFinite (a * b - c * d)) :
    |real (a * b - c * d) - (real a * real b - real c * real d)| ≤
      ((1 + uro S) ^ 2 - 1) * (|real a * real b| + |real c * real d|) + 2 * (1 + uro S) * tiny S := by
  have hf := finite_of_sub h
  have hu := uro_pos (S := S)
  have h1 := err_sub_of (S := S) h (err_mul hf.1) (err_mul hf.2)
  have h2 := abs_sub (real a * real b) (real c * real d)
  have h3 := mul_le_mul_of_nonneg_left h2 hu.le
  refine h1.trans ?_
  nlinarith

/-- C61. Every finite component of a 3D cross product is within `((1+u)^2 - 1)` of the exact one, relative
to the magnitudes of the two products, plus the underflow term. -/
theorem C61_cross3 (u v : Vector3 S) (h : AllFinite (Api.cross u v : Vector3 S)) :
    |real (Api.cross u v : Vector3 S).x - (real u.y * real v.z - real u.z * real v.y)| ≤
      ((1 + uro S) ^ 2 - 1) * (|real u.y * real v.z| + |real u.z * real v.y|) + 2 * (1 + uro S) * tiny S ∧
    |real (Api.cross u v : Vector3 S).y - (real u.z * real v.x - real u.x * real v.z)| ≤
      ((1 + uro S) ^ 2 - 1) * (|real u.z * real v.x| + |real u.x * real v.z|) + 2 * (1 + uro S) * tiny S ∧
    |real (Api.cross u v : Vector3 S).z - (real u.x * real v.y - real u.y * real v.x)| ≤
      ((1 + uro S) ^ 2 - 1) * (|real u.x * real v.y| + |real u.y * real v.x|) + 2 * (1 + uro S) * tiny S := by
  rw [Vector3.allFinite] at h
  exact ⟨err_mul_sub h.1, err_mul_sub h.2.1, err_mul_sub h.2.2⟩

/-! ## C62: normalize -/

theorem overflowAt_ge : 3 ≤ overflowAt S := by
  have hp := (Binary.F S).hp
  have hm := (Binary.F S).hmax
  have h1 := Fmt.z_le (show (Binary.F S).emax - (Binary.F S).p - 1 ≤ (Binary.F S).emax - 3 by omega)
  have h2 : (2 : ℝ) ^ (Binary.F S).emax = 8 * 2 ^ ((Binary.F S).emax - 3) := by
    rw [show (8 : ℝ) = 2 ^ (3 : ℤ) by norm_num, ← Fmt.z_add]; congr 1; ring
  have h3 := Fmt.z_le (show -1 ≤ (Binary.F S).emax - 3 by omega)
  unfold overflowAt
  norm_num at h3
  rw [h2]; linarith

theorem normalize_comp {x r : S} {L : ℝ} {k : ℕ} (hx : IsFinite x) (hr : IsFinite r) (hr0 : 0 ≤ real r)
    (hw : Within S k (real r ^ 2) L) (hL : 0 < L) (hle : real x ^ 2 ≤ L) (hk : k ≤ 5)
    (hn : Normal S (real x / real r)) :
    IsFinite (x / r) ∧ 0 ≤ real (x / r) * real x ∧
      (1 - uro S) ^ 2 / (1 + uro S) ^ k * (real x ^ 2 / L) ≤ real (x / r) ^ 2 ∧
      real (x / r) ^ 2 ≤ (1 + uro S) ^ 2 / (1 - uro S) ^ k * (real x ^ 2 / L) := by
  have h0 := uro_pos (S := S)
  have h1 := uro_le (S := S)
  have hlo : 0 < (1 - uro S) ^ k := pow_pos (by linarith) k
  have hhi : 0 < (1 + uro S) ^ k := pow_pos (by linarith) k
  have hrsq : 0 < real r ^ 2 := (mul_pos hlo hL).trans_le hw.1
  have hrp : 0 < real r := by
    rcases hr0.eq_or_lt with h | h
    · rw [← h] at hrsq; norm_num at hrsq
    · exact h
  have hq1 : (real x / real r) ^ 2 ≤ 1 / (1 - uro S) ^ k * (real x ^ 2 / L) := by
    rw [div_pow, div_mul_div_comm, one_mul]
    exact div_le_div_of_nonneg_left (sq_nonneg _) (mul_pos hlo hL) hw.1
  have hq2 : 1 / (1 + uro S) ^ k * (real x ^ 2 / L) ≤ (real x / real r) ^ 2 := by
    rw [div_pow, div_mul_div_comm, one_mul]
    exact div_le_div_of_nonneg_left (sq_nonneg _) hrsq hw.2
  have hfin : IsFinite (x / r) := by
    refine (correct_div hx hr hrp.ne').1.2 ?_
    have h3 : (3 / 4 : ℝ) ^ 5 ≤ (1 - uro S) ^ k :=
      (pow_le_pow_of_le_one (by norm_num) (by norm_num) hk).trans
        (pow_le_pow_left₀ (by norm_num) (by linarith) k)
    have h4 : real x ^ 2 / L ≤ 1 := (div_le_one hL).2 hle
    have h5 : 1 / (1 - uro S) ^ k ≤ 1 / (3 / 4 : ℝ) ^ 5 := one_div_le_one_div_of_le (by norm_num) h3
    have h6 : (real x / real r) ^ 2 < 3 ^ 2 := by
      have h7 : 0 ≤ real x ^ 2 / L := div_nonneg (sq_nonneg _) hL.le
      have := mul_le_mul h5 h4 h7 (by norm_num)
      exact (hq1.trans this).trans_lt (by norm_num)
    have := abs_lt_of_sq_lt_sq h6 (by norm_num)
    exact this.trans_le overflowAt_ge
  have herr := err_div_normal hx hr hrp.ne' hfin hn
  have hsq := Within.sq_of_err herr
  refine ⟨hfin, ?_, ?_, ?_⟩
  · rw [IEEE.real_div hx hr hrp.ne' hfin]
    rcases le_total 0 (real x) with hs | hs
    · exact mul_nonneg (Rounding.rnd_nonneg _ (div_nonneg hs hr0)) hs
    · exact mul_nonneg_of_nonpos_of_nonpos (Rounding.rnd_nonpos _ (div_nonpos_of_nonpos_of_nonneg hs hr0)) hs
  · refine le_trans ?_ hsq.1
    rw [div_eq_mul_one_div, mul_assoc]
    exact mul_le_mul_of_nonneg_left hq2 (sq_nonneg _)
  · refine hsq.2.trans ?_
    rw [div_eq_mul_one_div ((1 + uro S) ^ 2), mul_assoc]
    exact mul_le_mul_of_nonneg_left hq1 (sq_nonneg _)

/-- C62. If no square and no quotient underflows and the length is finite, `normalize` of a non-zero vector
returns finite components of the right signs, each with a relative error of a few roundings, and its exact
Euclidean length is 1 up to the same factor. -/
theorem C62_normalize2 (v : Vector2 S) (h : IsFinite (Api.length v)) (h0 : 0 < real v.x ^ 2 + real v.y ^ 2)
    (hx : Normal S (real v.x ^ 2)) (hy : Normal S (real v.y ^ 2))
    (qx : Normal S (real v.x / real (Api.length v))) (qy : Normal S (real v.y / real (Api.length v))) :
    AllFinite v.normalize ∧ 0 ≤ real v.normalize.x * real v.x ∧ 0 ≤ real v.normalize.y * real v.y ∧
    (1 - uro S) ^ 2 / (1 + uro S) ^ 4 ≤ real v.normalize.x ^ 2 + real v.normalize.y ^ 2 ∧
    real v.normalize.x ^ 2 + real v.normalize.y ^ 2 ≤ (1 + uro S) ^ 2 / (1 - uro S) ^ 4 ∧
    ∀ c ∈ [(v.x, v.normalize.x), (v.y, v.normalize.y)],
      (1 - uro S) ^ 2 / (1 + uro S) ^ 4 * (real c.1 ^ 2 / (real v.x ^ 2 + real v.y ^ 2)) ≤ real c.2 ^ 2 ∧
      real c.2 ^ 2 ≤ (1 + uro S) ^ 2 / (1 - uro S) ^ 4 * (real c.1 ^ 2 / (real v.x ^ 2 + real v.y ^ 2)) := by
  have hl := C59_length_sq2 v h hx hy
  have hd : IsFinite (v.x * v.x + v.y * v.y) := (finite_of_sqrt h).1
  have h1 := finite_of_add hd
  obtain ⟨a1, a2, a3, a4⟩ := normalize_comp (finite_of_mul h1.1).1 h hl.1 hl.2 h0
    (by linarith [sq_nonneg (real v.y)]) (by norm_num) qx
  obtain ⟨b1, b2, b3, b4⟩ := normalize_comp (finite_of_mul h1.2).1 h hl.1 hl.2 h0
    (by linarith [sq_nonneg (real v.x)]) (by norm_num) qy
  have e : real v.x ^ 2 / (real v.x ^ 2 + real v.y ^ 2) + real v.y ^ 2 / (real v.x ^ 2 + real v.y ^ 2) = 1 := by
    rw [← add_div, div_self h0.ne']
  refine ⟨Vector2.allFinite.2 ⟨a1, b1⟩, a2, b2, ?_, ?_, ?_⟩
  · have := add_le_add a3 b3
    rw [← mul_add, e, mul_one] at this; exact this
  · have := add_le_add a4 b4
    rw [← mul_add, e, mul_one] at this; exact this
  · intro c hc
    simp only [List.mem_cons, List.not_mem_nil, or_false] at hc
    rcases hc with rfl | rfl
    · exact ⟨a3, a4⟩
    · exact ⟨b3, b4⟩
/-- C62. 3D. -/
theorem C62_normalize3 (v : Vector3 S) (h : IsFinite (Api.length v))
    (h0 : 0 < real v.x ^ 2 + real v.y ^ 2 + real v.z ^ 2)
    (hx : Normal S (real v.x ^ 2)) (hy : Normal S (real v.y ^ 2)) (hz : Normal S (real v.z ^ 2))
    (qx : Normal S (real v.x / real (Api.length v))) (qy : Normal S (real v.y / real (Api.length v)))
    (qz : Normal S (real v.z / real (Api.length v))) :
    AllFinite v.normalize ∧ 0 ≤ real v.normalize.x * real v.x ∧ 0 ≤ real v.normalize.y * real v.y ∧
    0 ≤ real v.normalize.z * real v.z ∧
    (1 - uro S) ^ 2 / (1 + uro S) ^ 5 ≤
      real v.normalize.x ^ 2 + real v.normalize.y ^ 2 + real v.normalize.z ^ 2 ∧
    real v.normalize.x ^ 2 + real v.normalize.y ^ 2 + real v.normalize.z ^ 2 ≤
      (1 + uro S) ^ 2 / (1 - uro S) ^ 5 ∧
    ∀ c ∈ [(v.x, v.normalize.x), (v.y, v.normalize.y), (v.z, v.normalize.z)],
      (1 - uro S) ^ 2 / (1 + uro S) ^ 5 * (real c.1 ^ 2 / (real v.x ^ 2 + real v.y ^ 2 + real v.z ^ 2)) ≤
        real c.2 ^ 2 ∧
      real c.2 ^ 2 ≤
        (1 + uro S) ^ 2 / (1 - uro S) ^ 5 * (real c.1 ^ 2 / (real v.x ^ 2 + real v.y ^ 2 + real v.z ^ 2)) := by
  have hl := C59_length_sq3 v h hx hy hz
  have hd : IsFinite (v.x * v.x + v.y * v.y + v.z * v.z) := (finite_of_sqrt h).1
  have h1 := finite_of_add hd
  have h2 := finite_of_add h1.1
  have sx := sq_nonneg (real v.x)
  have sy := sq_nonneg (real v.y)
  have sz := sq_nonneg (real v.z)
  obtain ⟨a1, a2, a3, a4⟩ := normalize_comp (finite_of_mul h2.1).1 h hl.1 hl.2 h0
    (by linarith) (by norm_num) qx
  obtain ⟨b1, b2, b3, b4⟩ := normalize_comp (finite_of_mul h2.2).1 h hl.1 hl.2 h0
    (by linarith) (by norm_num) qy
  obtain ⟨c1, c2, c3, c4⟩ := normalize_comp (finite_of_mul h1.2).1 h hl.1 hl.2 h0
    (by linarith) (by norm_num) qz
  have e : real v.x ^ 2 / (real v.x ^ 2 + real v.y ^ 2 + real v.z ^ 2) +
      real v.y ^ 2 / (real v.x ^ 2 + real v.y ^ 2 + real v.z ^ 2) +
      real v.z ^ 2 / (real v.x ^ 2 + real v.y ^ 2 + real v.z ^ 2) = 1 := by
    rw [← add_div, ← add_div, div_self h0.ne']
  refine ⟨Vector3.allFinite.2 ⟨a1, b1, c1⟩, a2, b2, c2, ?_, ?_, ?_⟩
  · have := add_le_add (add_le_add a3 b3) c3
    rw [← mul_add, ← mul_add, e, mul_one] at this; exact this
  · have := add_le_add (add_le_add a4 b4) c4
    rw [← mul_add, ← mul_add, e, mul_one] at this; exact this
  · intro c hc
    simp only [List.mem_cons, List.not_mem_nil, or_false] at hc
    rcases hc with rfl | rfl | rfl
    · exact ⟨a3, a4⟩
    · exact ⟨b3, b4⟩
    · exact ⟨c3, c4⟩

end VecMath
