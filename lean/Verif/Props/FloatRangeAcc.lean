import Verif.Props.FloatRange
import Verif.Props.FloatError
/-!
# C86: on data of moderate size the accuracy bounds hold without further conditions
-/

namespace VecMath
open Scalar IEEE

variable {S : Type} [Scalar S] [IEEE S] [Binary S] {k : ℕ}

/-- products of moderate numbers do not underflow -/
theorem normal_mul {x y : ℝ} (hk : (Binary.F S).emin + (Binary.F S).p - 1 ≤ -(2 * k : ℤ))
    (hx : x = 0 ∨ 2 ^ (-k : ℤ) ≤ |x|) (hy : y = 0 ∨ 2 ^ (-k : ℤ) ≤ |y|) : Normal S (x * y) := by
  rcases hx with rfl | hx
  · left; simp
  rcases hy with rfl | hy
  · left; simp
  right
  rw [abs_mul]
  refine le_trans ?_ (mul_le_mul hx hy (Fmt.z_pos _).le (abs_nonneg _))
  rw [← Fmt.z_add]
  exact Fmt.z_le (by omega)
theorem normal_sq {x : ℝ} (hk : (Binary.F S).emin + (Binary.F S).p - 1 ≤ -(2 * k : ℤ))
    (hx : x = 0 ∨ 2 ^ (-k : ℤ) ≤ |x|) : Normal S (x ^ 2) := by
  rw [sq]; exact normal_mul hk hx hx
/-- quotients of moderate numbers do not underflow -/
theorem normal_quot {x l : ℝ} (hk : (Binary.F S).emin + (Binary.F S).p - 1 ≤ -(2 * k + 1 : ℤ))
    (hx : x = 0 ∨ 2 ^ (-k : ℤ) ≤ |x|) (hl : 0 < l) (hl' : l ≤ 2 * 2 ^ (k : ℤ)) : Normal S (x / l) := by
  rcases hx with rfl | hx
  · left; simp
  right
  rw [abs_div, abs_of_pos hl, le_div_iff₀ hl]
  refine le_trans ?_ hx
  calc minNormal S * l ≤ 2 ^ (-(2 * k + 1 : ℤ)) * (2 * 2 ^ (k : ℤ)) :=
        mul_le_mul (Fmt.z_le hk) hl' hl.le (Fmt.z_pos _).le
    _ = 2 ^ (-k : ℤ) := by
      rw [show (2 : ℝ) * 2 ^ (k : ℤ) = 2 ^ ((k : ℤ) + 1) by rw [zpow_add_one₀ (by norm_num)]; ring, ← Fmt.z_add]
      congr 1; ring
/-- the computed difference of moderate numbers is zero or not too small -/
theorem sub_large {x y : S} (hx : IsFinite x) (hy : IsFinite y) (ax : real x = 0 ∨ 2 ^ (-k : ℤ) ≤ |real x|)
    (ay : real y = 0 ∨ 2 ^ (-k : ℤ) ≤ |real y|) (hk : (Binary.F S).emin ≤ -(k + (Binary.F S).p : ℤ)) (hf : IsFinite (x - y)) :
    real (x - y) = 0 ∨ 2 ^ (-(k + (Binary.F S).p : ℕ) : ℤ) ≤ |real (x - y)| := by
  have grid : ∀ {z : S}, IsFinite z → (real z = 0 ∨ 2 ^ (-k : ℤ) ≤ |real z|) → ∃ n : ℤ, real z = n * 2 ^ (-(k + (Binary.F S).p : ℕ) : ℤ) := by
    intro z hz az
    rcases az with h0 | h1
    · exact ⟨0, by simp [h0]⟩
    obtain ⟨⟨m, e, he, hm, hz'⟩, -⟩ := inFormat hz
    have hm' : |(m : ℝ)| ≤ 2 ^ ((Binary.F S).p : ℤ) := by rw [zpow_natCast]; exact_mod_cast hm
    have h2 : (2 : ℝ) ^ (-k : ℤ) ≤ 2 ^ ((Binary.F S).p + e : ℤ) := by
      rw [hz', abs_mul, abs_of_pos (Fmt.z_pos e)] at h1
      rw [Fmt.z_add]
      exact h1.trans (mul_le_mul_of_nonneg_right hm' (Fmt.z_pos e).le)
    have h3 := (zpow_le_zpow_iff_right₀ (by norm_num : (1 : ℝ) < 2)).1 h2
    obtain ⟨n, hn⟩ : ∃ n : ℕ, e = -(k + (Binary.F S).p : ℕ) + (n : ℤ) := ⟨(e + (k + (Binary.F S).p : ℕ)).toNat, by push_cast at *; omega⟩
    refine ⟨m * 2 ^ n, ?_⟩
    rw [hz', hn, Fmt.z_add, zpow_natCast]
    push_cast
    ring
  obtain ⟨m, hm⟩ := grid hx ax
  obtain ⟨n, hn⟩ := grid hy ay
  have hc := correct_sub hx hy
  have e : real x - real y = ((m - n : ℤ) : ℝ) * 2 ^ (-(k + (Binary.F S).p : ℕ) : ℤ) := by rw [hm, hn]; push_cast; ring
  rw [e] at hc
  by_cases h : m - n = 0
  · left
    rw [h] at hc
    have h2 := (hc.2 hf).2 0 ⟨⟨0, (Binary.F S).emin, le_rfl, by simp, by simp⟩, by simp [Fmt.z_pos]⟩
    simpa using h2
  right
  have h1 : (1 : ℝ) ≤ |((m - n : ℤ) : ℝ)| := by exact_mod_cast Int.one_le_abs h
  have hp := Fmt.z_pos (-(k + (Binary.F S).p : ℕ) : ℤ)
  have hF : ∀ s : ℤ, |s| = 1 → InFormat S (s * 2 ^ (-(k + (Binary.F S).p : ℕ) : ℤ)) := fun s hs => by
    refine ⟨⟨s, _, by push_cast; exact hk, by rw [hs]; exact one_le_pow₀ (by norm_num), rfl⟩, ?_⟩
    rw [abs_mul, abs_of_pos hp]
    have : |(s : ℝ)| = 1 := by exact_mod_cast hs
    rw [this, one_mul]
    exact zpow_lt_zpow_right₀ (by norm_num) (by have := (Binary.F S).hmax; have := (Binary.F S).hp; push_cast; omega)
  generalize hg : (2 : ℝ) ^ (-(k + (Binary.F S).p : ℕ) : ℤ) = g at *
  by_contra hcon
  push Not at hcon
  rw [abs_lt] at hcon
  rcases le_or_gt 0 (m - n) with hs | hs
  · have h2 := (hc.2 hf).2 g (by simpa using hF 1 (by norm_num))
    have h3 : (1 : ℝ) ≤ ((m - n : ℤ) : ℝ) := by exact_mod_cast (by omega : (1 : ℤ) ≤ m - n)
    have h4 : g ≤ ((m - n : ℤ) : ℝ) * g := by nlinarith
    rw [abs_of_neg (by linarith), abs_of_nonpos (by linarith)] at h2
    linarith
  · have h2 := (hc.2 hf).2 (-g) (by simpa using hF (-1) (by norm_num))
    have h3 : ((m - n : ℤ) : ℝ) ≤ -1 := by exact_mod_cast (by omega : m - n ≤ -1)
    have h4 : ((m - n : ℤ) : ℝ) * g ≤ -g := by nlinarith
    rw [abs_of_pos (by linarith), abs_of_nonneg (by linarith)] at h2
    linarith

/-! ### 2D -/

omit [Binary S] in
theorem Moderate.comps2 {v : Vector2 S} (h : Moderate k v) :
    (real v.x = 0 ∨ 2 ^ (-k : ℤ) ≤ |real v.x|) ∧ (real v.y = 0 ∨ 2 ^ (-k : ℤ) ≤ |real v.y|) := by
  have := fun x hx => (h x hx).2.imp_right And.left
  simpa [Comps.comps] using this
omit [Binary S] in
theorem Moderate.comps2p {v : Point2 S} (h : Moderate k v) :
    (real v.x = 0 ∨ 2 ^ (-k : ℤ) ≤ |real v.x|) ∧ (real v.y = 0 ∨ 2 ^ (-k : ℤ) ≤ |real v.y|) := by
  have := fun x hx => (h x hx).2.imp_right And.left
  simpa [Comps.comps] using this
/-- **C86**: the inner product of moderate vectors is finite and accurate to 2 roundings of its terms. -/
theorem C86_dot_accurate2 (u v : Vector2 S) (hu : Moderate k u) (hv : Moderate k v) (hR : Room S (2 * k) 2)
    (hk : (Binary.F S).emin + (Binary.F S).p - 1 ≤ -(2 * k : ℤ)) :
    IsFinite (Api.dot u v) ∧ |real (Api.dot u v) - (real u.x * real v.x + real u.y * real v.y)| ≤ ((1 + uro S) ^ 2 - 1) * (|real u.x * real v.x| + |real u.y * real v.y|) := by
  have hf := (C86_dot2 u v hu.upToAll hv.upToAll (by rw [← two_mul]; exact hR)).1
  have a := hu.comps2
  have b := hv.comps2
  exact ⟨hf, C59_dot_normal2 u v hf (normal_mul hk a.1 b.1) (normal_mul hk a.2 b.2)⟩
/-- **C86**: the length of a moderate vector is finite and within 2 roundings of the Euclidean length. -/
theorem C86_length_accurate2 (v : Vector2 S) (hv : Moderate k v) (hR : Room S (2 * k) 2) (hR' : Room S k 2)
    (hk : (Binary.F S).emin + (Binary.F S).p - 1 ≤ -(2 * k : ℤ)) :
    IsFinite (Api.length v) ∧ Within S 2 (real (Api.length v)) √(real v.x ^ 2 + real v.y ^ 2) := by
  have hf := (C86_length2 v hv.upToAll hR hR').1
  have a := hv.comps2
  exact ⟨hf, C59_length2 v hf (normal_sq hk a.1) (normal_sq hk a.2)⟩
/-- **C86**: a moderate vector that is not zero is normalized accurately: finite result, signs kept, length one up to a few
roundings, each coordinate right up to the same factor. -/
theorem C86_normalize_accurate2 (v : Vector2 S) (hv : Moderate k v) (h0 : v.toReal ≠ 0) (hR : Room S (2 * k) 2) (hR' : Room S k 2)
    (hk : (Binary.F S).emin + (Binary.F S).p - 1 ≤ -(2 * k + 1 : ℤ)) :
    AllFinite v.normalize ∧ (∀ i, 0 ≤ v.normalize.toReal i * v.toReal i) ∧
    (1 - uro S) ^ 2 / (1 + uro S) ^ 4 ≤ ∑ i, v.normalize.toReal i ^ 2 ∧
    ∑ i, v.normalize.toReal i ^ 2 ≤ (1 + uro S) ^ 2 / (1 - uro S) ^ 4 ∧
    ∀ i, (1 - uro S) ^ 2 / (1 + uro S) ^ 4 * (v.toReal i ^ 2 / ∑ j, v.toReal j ^ 2) ≤ v.normalize.toReal i ^ 2 ∧
      v.normalize.toReal i ^ 2 ≤ (1 + uro S) ^ 2 / (1 - uro S) ^ 4 * (v.toReal i ^ 2 / ∑ j, v.toReal j ^ 2) := by
  have hB := C86_length2 v hv.upToAll hR hR'
  have a := hv.comps2
  have hk' : (Binary.F S).emin + (Binary.F S).p - 1 ≤ -(2 * k : ℤ) := by omega
  have hp : 0 < real v.x ^ 2 + real v.y ^ 2 := by
    by_contra hc
    push Not at hc
    apply h0
    have zx := sq_nonneg (real v.x)
    have zy := sq_nonneg (real v.y)
    funext i
    fin_cases i
    · exact pow_eq_zero_iff (two_ne_zero) |>.1 (by linarith : real v.x ^ 2 = 0)
    · exact pow_eq_zero_iff (two_ne_zero) |>.1 (by linarith : real v.y ^ 2 = 0)
  have hl := C59_length2 v hB.1 (normal_sq hk' a.1) (normal_sq hk' a.2)
  have hl0 : 0 < real (Api.length v) := by
    refine lt_of_lt_of_le ?_ hl.1
    exact mul_pos (pow_pos (by linarith [uro_le (S := S)]) _) (Real.sqrt_pos.2 hp)
  have hl1 : real (Api.length v) ≤ 2 * 2 ^ (k : ℤ) := (le_abs_self _).trans hB.2
  obtain ⟨f, sx, sy, l1, l2, l3⟩ := C62_normalize2 v hB.1 hp (normal_sq hk' a.1) (normal_sq hk' a.2)
    (normal_quot hk a.1 hl0 hl1) (normal_quot hk a.2 hl0 hl1)
  have es : ∑ i, v.toReal i ^ 2 = real v.x ^ 2 + real v.y ^ 2 := by rw [Fin.sum_univ_two]; rfl
  have en : ∑ i, v.normalize.toReal i ^ 2 = real v.normalize.x ^ 2 + real v.normalize.y ^ 2 := by rw [Fin.sum_univ_two]; rfl
  rw [es, en]
  refine ⟨f, fun i => ?_, l1, l2, fun i => ?_⟩
  · fin_cases i
    · exact sx
    · exact sy
  · fin_cases i
    · exact l3 (v.x, v.normalize.x) (by simp)
    · exact l3 (v.y, v.normalize.y) (by simp)

/-- **C86**: the distance of two moderate points is finite and within 3 roundings of the Euclidean distance, however
close together they are. -/
theorem C86_distance_accurate2 (p q : Point2 S) (hp : Moderate k p) (hq : Moderate k q) (hR : Room S (2 * k) 8) (hR' : Room S k 4)
    (hk : (Binary.F S).emin + (Binary.F S).p - 1 ≤ -(2 * (k + (Binary.F S).p : ℕ) : ℤ)) :
    IsFinite (Api.distance p q) ∧ Within S 3 (real (Api.distance p q)) √((real q.x - real p.x) ^ 2 + (real q.y - real p.y) ^ 2) := by
  have hf := (C86_distance2 p q hp.upToAll hq.upToAll hR hR').1
  have a := hp.comps2p
  have b := hq.comps2p
  have fp := Point2.allFinite.1 hp.upToAll.allFinite
  have fq := Point2.allFinite.1 hq.upToAll.allFinite
  have hs := C86_sum2 Vector2.zero Vector2.zero q p (Vector2.upToAll.2 ⟨upTo_zero (Fmt.z_pos k).le, upTo_zero (Fmt.z_pos k).le⟩)
    (Vector2.upToAll.2 ⟨upTo_zero (Fmt.z_pos k).le, upTo_zero (Fmt.z_pos k).le⟩) hq.upToAll hp.upToAll (hR'.mono (by norm_num))
  have fd := Vector2.allFinite.1 hs.2.2.2.2.allFinite
  have hk' : (Binary.F S).emin ≤ -(k + (Binary.F S).p : ℤ) := by push_cast at hk; have := (Binary.F S).hp; omega
  exact ⟨hf, C60_distance2 p q hf (normal_sq hk (sub_large fq.1 fp.1 b.1 a.1 hk' fd.1)) (normal_sq hk (sub_large fq.2 fp.2 b.2 a.2 hk' fd.2))⟩

/-! ### 3D -/

omit [Binary S] in
theorem Moderate.comps3 {v : Vector3 S} (h : Moderate k v) :
    (real v.x = 0 ∨ 2 ^ (-k : ℤ) ≤ |real v.x|) ∧ (real v.y = 0 ∨ 2 ^ (-k : ℤ) ≤ |real v.y|) ∧ (real v.z = 0 ∨ 2 ^ (-k : ℤ) ≤ |real v.z|) := by
  have := fun x hx => (h x hx).2.imp_right And.left
  simpa [Comps.comps] using this
omit [Binary S] in
theorem Moderate.comps3p {v : Point3 S} (h : Moderate k v) :
    (real v.x = 0 ∨ 2 ^ (-k : ℤ) ≤ |real v.x|) ∧ (real v.y = 0 ∨ 2 ^ (-k : ℤ) ≤ |real v.y|) ∧ (real v.z = 0 ∨ 2 ^ (-k : ℤ) ≤ |real v.z|) := by
  have := fun x hx => (h x hx).2.imp_right And.left
  simpa [Comps.comps] using this
/-- **C86**: the inner product of moderate vectors is finite and accurate to 3 roundings of its terms. -/
theorem C86_dot_accurate3 (u v : Vector3 S) (hu : Moderate k u) (hv : Moderate k v) (hR : Room S (2 * k) 3)
    (hk : (Binary.F S).emin + (Binary.F S).p - 1 ≤ -(2 * k : ℤ)) :
    IsFinite (Api.dot u v) ∧ |real (Api.dot u v) - (real u.x * real v.x + real u.y * real v.y + real u.z * real v.z)| ≤ ((1 + uro S) ^ 3 - 1) * (|real u.x * real v.x| + |real u.y * real v.y| + |real u.z * real v.z|) := by
  have hf := (C86_dot3 u v hu.upToAll hv.upToAll (by rw [← two_mul]; exact hR)).1
  have a := hu.comps3
  have b := hv.comps3
  exact ⟨hf, C59_dot_normal3 u v hf (normal_mul hk a.1 b.1) (normal_mul hk a.2.1 b.2.1) (normal_mul hk a.2.2 b.2.2)⟩
/-- **C86**: the length of a moderate vector is finite and within 3 roundings of the Euclidean length. -/
theorem C86_length_accurate3 (v : Vector3 S) (hv : Moderate k v) (hR : Room S (2 * k) 3) (hR' : Room S k 2)
    (hk : (Binary.F S).emin + (Binary.F S).p - 1 ≤ -(2 * k : ℤ)) :
    IsFinite (Api.length v) ∧ Within S 3 (real (Api.length v)) √(real v.x ^ 2 + real v.y ^ 2 + real v.z ^ 2) := by
  have hf := (C86_length3 v hv.upToAll hR hR').1
  have a := hv.comps3
  exact ⟨hf, C59_length3 v hf (normal_sq hk a.1) (normal_sq hk a.2.1) (normal_sq hk a.2.2)⟩
/-- **C86**: a moderate vector that is not zero is normalized accurately: finite result, signs kept, length one up to a few
roundings, each coordinate right up to the same factor. -/
theorem C86_normalize_accurate3 (v : Vector3 S) (hv : Moderate k v) (h0 : v.toReal ≠ 0) (hR : Room S (2 * k) 3) (hR' : Room S k 2)
    (hk : (Binary.F S).emin + (Binary.F S).p - 1 ≤ -(2 * k + 1 : ℤ)) :
    AllFinite v.normalize ∧ (∀ i, 0 ≤ v.normalize.toReal i * v.toReal i) ∧
    (1 - uro S) ^ 2 / (1 + uro S) ^ 5 ≤ ∑ i, v.normalize.toReal i ^ 2 ∧
    ∑ i, v.normalize.toReal i ^ 2 ≤ (1 + uro S) ^ 2 / (1 - uro S) ^ 5 ∧
    ∀ i, (1 - uro S) ^ 2 / (1 + uro S) ^ 5 * (v.toReal i ^ 2 / ∑ j, v.toReal j ^ 2) ≤ v.normalize.toReal i ^ 2 ∧
      v.normalize.toReal i ^ 2 ≤ (1 + uro S) ^ 2 / (1 - uro S) ^ 5 * (v.toReal i ^ 2 / ∑ j, v.toReal j ^ 2) := by
  have hB := C86_length3 v hv.upToAll hR hR'
  have a := hv.comps3
  have hk' : (Binary.F S).emin + (Binary.F S).p - 1 ≤ -(2 * k : ℤ) := by omega
  have hp : 0 < real v.x ^ 2 + real v.y ^ 2 + real v.z ^ 2 := by
    by_contra hc
    push Not at hc
    apply h0
    have zx := sq_nonneg (real v.x)
    have zy := sq_nonneg (real v.y)
    have zz := sq_nonneg (real v.z)
    funext i
    fin_cases i
    · exact pow_eq_zero_iff (two_ne_zero) |>.1 (by linarith : real v.x ^ 2 = 0)
    · exact pow_eq_zero_iff (two_ne_zero) |>.1 (by linarith : real v.y ^ 2 = 0)
    · exact pow_eq_zero_iff (two_ne_zero) |>.1 (by linarith : real v.z ^ 2 = 0)
  have hl := C59_length3 v hB.1 (normal_sq hk' a.1) (normal_sq hk' a.2.1) (normal_sq hk' a.2.2)
  have hl0 : 0 < real (Api.length v) := by
    refine lt_of_lt_of_le ?_ hl.1
    exact mul_pos (pow_pos (by linarith [uro_le (S := S)]) _) (Real.sqrt_pos.2 hp)
  have hl1 : real (Api.length v) ≤ 2 * 2 ^ (k : ℤ) := (le_abs_self _).trans hB.2
  obtain ⟨f, sx, sy, sz, l1, l2, l3⟩ := C62_normalize3 v hB.1 hp (normal_sq hk' a.1) (normal_sq hk' a.2.1) (normal_sq hk' a.2.2)
    (normal_quot hk a.1 hl0 hl1) (normal_quot hk a.2.1 hl0 hl1) (normal_quot hk a.2.2 hl0 hl1)
  have es : ∑ i, v.toReal i ^ 2 = real v.x ^ 2 + real v.y ^ 2 + real v.z ^ 2 := by rw [Fin.sum_univ_three]; rfl
  have en : ∑ i, v.normalize.toReal i ^ 2 = real v.normalize.x ^ 2 + real v.normalize.y ^ 2 + real v.normalize.z ^ 2 := by rw [Fin.sum_univ_three]; rfl
  rw [es, en]
  refine ⟨f, fun i => ?_, l1, l2, fun i => ?_⟩
  · fin_cases i
    · exact sx
    · exact sy
    · exact sz
  · fin_cases i
    · exact l3 (v.x, v.normalize.x) (by simp)
    · exact l3 (v.y, v.normalize.y) (by simp)
    · exact l3 (v.z, v.normalize.z) (by simp)

/-- **C86**: the distance of two moderate points is finite and within 4 roundings of the Euclidean distance, however
close together they are. -/
theorem C86_distance_accurate3 (p q : Point3 S) (hp : Moderate k p) (hq : Moderate k q) (hR : Room S (2 * k) 12) (hR' : Room S k 4)
    (hk : (Binary.F S).emin + (Binary.F S).p - 1 ≤ -(2 * (k + (Binary.F S).p : ℕ) : ℤ)) :
    IsFinite (Api.distance p q) ∧ Within S 4 (real (Api.distance p q)) √((real q.x - real p.x) ^ 2 + (real q.y - real p.y) ^ 2 + (real q.z - real p.z) ^ 2) := by
  have hf := (C86_distance3 p q hp.upToAll hq.upToAll hR hR').1
  have a := hp.comps3p
  have b := hq.comps3p
  have fp := Point3.allFinite.1 hp.upToAll.allFinite
  have fq := Point3.allFinite.1 hq.upToAll.allFinite
  have hs := C86_sum3 Vector3.zero Vector3.zero q p (Vector3.upToAll.2 ⟨upTo_zero (Fmt.z_pos k).le, upTo_zero (Fmt.z_pos k).le, upTo_zero (Fmt.z_pos k).le⟩)
    (Vector3.upToAll.2 ⟨upTo_zero (Fmt.z_pos k).le, upTo_zero (Fmt.z_pos k).le, upTo_zero (Fmt.z_pos k).le⟩) hq.upToAll hp.upToAll (hR'.mono (by norm_num))
  have fd := Vector3.allFinite.1 hs.2.2.2.2.allFinite
  have hk' : (Binary.F S).emin ≤ -(k + (Binary.F S).p : ℤ) := by push_cast at hk; have := (Binary.F S).hp; omega
  exact ⟨hf, C60_distance3 p q hf (normal_sq hk (sub_large fq.1 fp.1 b.1 a.1 hk' fd.1)) (normal_sq hk (sub_large fq.2.1 fp.2.1 b.2.1 a.2.1 hk' fd.2.1)) (normal_sq hk (sub_large fq.2.2 fp.2.2 b.2.2 a.2.2 hk' fd.2.2))⟩

end VecMath
