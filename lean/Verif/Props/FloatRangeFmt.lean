import Verif.Props.FloatRangeAcc
import Verif.Props.FloatExamples
import Verif.Props.FloatHit
/-!
# C86 for `f32` and `f64`: concrete ranges in which everything is finite and accurate
-/

namespace VecMath
open Scalar IEEE

theorem room_of {S : Type} [Scalar S] [IEEE S] [Binary S] {e : ℤ} {N c : ℕ} (h1 : (Binary.F S).emin ≤ e) (h2 : c ≤ (Binary.F S).p)
    (h3 : e + c ≤ (Binary.F S).emax - 1) (hN : N ≤ 2 ^ c) : Room S e N := by
  refine ⟨h1, hN.trans (Nat.pow_le_pow_right (by norm_num) h2), ?_⟩
  calc (N : ℝ) * 2 ^ e ≤ 2 ^ c * 2 ^ e := mul_le_mul_of_nonneg_right (by exact_mod_cast hN) (Fmt.z_pos e).le
    _ = 2 ^ (e + c) := by rw [Fmt.z_add, zpow_natCast, mul_comm]
    _ ≤ _ := Fmt.z_le h3
/-- room in `f32` -/
theorem room32 {e : ℤ} {N : ℕ} (c : ℕ) (h : -149 ≤ e ∧ c ≤ 24 ∧ e + c ≤ 127 := by norm_num) (hN : N ≤ 2 ^ c := by norm_num) : Room F32 e N :=
  room_of (show (-149 : ℤ) ≤ e from h.1) (show c ≤ 24 from h.2.1) (show e + c ≤ 128 - 1 by omega) hN
/-- room in `f64` -/
theorem room64 {e : ℤ} {N : ℕ} (c : ℕ) (h : -1074 ≤ e ∧ c ≤ 53 ∧ e + c ≤ 1023 := by norm_num) (hN : N ≤ 2 ^ c := by norm_num) : Room F64 e N :=
  room_of (show (-1074 : ℤ) ≤ e from h.1) (show c ≤ 53 from h.2.1) (show e + c ≤ 1024 - 1 by omega) hN

/-- **C86** for `f32`: vectors with coordinates that are zero or between `2^-62` and `2^62` in magnitude have finite inner
products and lengths with relative error of three roundings, and are normalized accurately. -/
theorem C86_f32_vector3 (u v : Vector3 F32) (hu : Moderate 62 u) (hv : Moderate 62 v) :
    (IsFinite (Api.dot u v) ∧ |real (Api.dot u v) - (real u.x * real v.x + real u.y * real v.y + real u.z * real v.z)| ≤
      ((1 + uro F32) ^ 3 - 1) * (|real u.x * real v.x| + |real u.y * real v.y| + |real u.z * real v.z|)) ∧
    (IsFinite (Api.length v) ∧ Within F32 3 (real (Api.length v)) √(real v.x ^ 2 + real v.y ^ 2 + real v.z ^ 2)) ∧
    (v.toReal ≠ 0 → AllFinite v.normalize ∧ (∀ i, 0 ≤ v.normalize.toReal i * v.toReal i) ∧
      (1 - uro F32) ^ 2 / (1 + uro F32) ^ 5 ≤ ∑ i, v.normalize.toReal i ^ 2 ∧
      ∑ i, v.normalize.toReal i ^ 2 ≤ (1 + uro F32) ^ 2 / (1 - uro F32) ^ 5) := by
  have hk : (Binary.F F32).emin + (Binary.F F32).p - 1 ≤ -(2 * (62 : ℕ) + 1 : ℤ) := by decide
  have hk' : (Binary.F F32).emin + (Binary.F F32).p - 1 ≤ -(2 * (62 : ℕ) : ℤ) := by decide
  refine ⟨C86_dot_accurate3 u v hu hv (room32 2) hk', C86_length_accurate3 v hv (room32 2) (room32 1) hk', fun h0 => ?_⟩
  obtain ⟨h1, h2, h3, h4, -⟩ := C86_normalize_accurate3 v hv h0 (room32 2) (room32 1) hk
  exact ⟨h1, h2, h3, h4⟩
/-- **C86** for `f64`: the same between `2^-510` and `2^510`. -/
theorem C86_f64_vector3 (u v : Vector3 F64) (hu : Moderate 510 u) (hv : Moderate 510 v) :
    (IsFinite (Api.dot u v) ∧ |real (Api.dot u v) - (real u.x * real v.x + real u.y * real v.y + real u.z * real v.z)| ≤
      ((1 + uro F64) ^ 3 - 1) * (|real u.x * real v.x| + |real u.y * real v.y| + |real u.z * real v.z|)) ∧
    (IsFinite (Api.length v) ∧ Within F64 3 (real (Api.length v)) √(real v.x ^ 2 + real v.y ^ 2 + real v.z ^ 2)) ∧
    (v.toReal ≠ 0 → AllFinite v.normalize ∧ (∀ i, 0 ≤ v.normalize.toReal i * v.toReal i) ∧
      (1 - uro F64) ^ 2 / (1 + uro F64) ^ 5 ≤ ∑ i, v.normalize.toReal i ^ 2 ∧
      ∑ i, v.normalize.toReal i ^ 2 ≤ (1 + uro F64) ^ 2 / (1 - uro F64) ^ 5) := by
  have hk : (Binary.F F64).emin + (Binary.F F64).p - 1 ≤ -(2 * (510 : ℕ) + 1 : ℤ) := by decide
  have hk' : (Binary.F F64).emin + (Binary.F F64).p - 1 ≤ -(2 * (510 : ℕ) : ℤ) := by decide
  refine ⟨C86_dot_accurate3 u v hu hv (room64 2) hk', C86_length_accurate3 v hv (room64 2) (room64 1) hk', fun h0 => ?_⟩
  obtain ⟨h1, h2, h3, h4, -⟩ := C86_normalize_accurate3 v hv h0 (room64 2) (room64 1) hk
  exact ⟨h1, h2, h3, h4⟩
/-- **C86** for `f32` and `f64`: distances between points with coordinates zero or between `2^-39` and `2^39` (`2^-458` and
`2^458`) are finite and within four roundings. -/
theorem C86_f32_distance3 (p q : Point3 F32) (hp : Moderate 39 p) (hq : Moderate 39 q) :
    IsFinite (Api.distance p q) ∧ Within F32 4 (real (Api.distance p q))
      √((real q.x - real p.x) ^ 2 + (real q.y - real p.y) ^ 2 + (real q.z - real p.z) ^ 2) :=
  C86_distance_accurate3 p q hp hq (room32 4) (room32 2) (by decide)
theorem C86_f64_distance3 (p q : Point3 F64) (hp : Moderate 458 p) (hq : Moderate 458 q) :
    IsFinite (Api.distance p q) ∧ Within F64 4 (real (Api.distance p q))
      √((real q.x - real p.x) ^ 2 + (real q.y - real p.y) ^ 2 + (real q.z - real p.z) ^ 2) :=
  C86_distance_accurate3 p q hp hq (room64 4) (room64 2) (by decide)
/-- **C86** with C83: in `f32`, if box and ray origin are at most `2^60` in size and each direction coordinate is zero or at
least `2^-60` in magnitude, every parameter `intersect` reports is on the box, up to the error of locating a face. -/
theorem C86_f32_hit3 (b : BoundingBox3 F32) (r : Ray3 F32) (hb : LeAll b.min b.max) (hs : UpToAll (2 ^ (60 : ℤ)) b)
    (ho : UpToAll (2 ^ (60 : ℤ)) r.origin) (hd : AllFinite r.direction)
    (h0 : ∀ i, r.direction.toReal i = 0 ∨ 2 ^ (-(60 : ℤ)) ≤ |r.direction.toReal i|) (i : Range F32) (h : Api.intersect b r = some i)
    (t : F32) (ht : IsFinite t) (h1 : (i.start ≤? t) = true) (h2 : (t ≤? i.stop) = true) :
    NearSlab b.min.x b.max.x r.origin.x r.direction.x (real r.origin.x + real r.direction.x * real t) 0 ∧
    NearSlab b.min.y b.max.y r.origin.y r.direction.y (real r.origin.y + real r.direction.y * real t) 0 ∧
    NearSlab b.min.z b.max.z r.origin.z r.direction.z (real r.origin.z + real r.direction.z * real t) 0 :=
  C83_inside3 b r (C86_ray3 b r hs ho hd h0 (room32 1) (room32 1)) hb i h t ht h1 h2

/-! ### Concrete data -/

theorem moderate_int {k : ℕ} {n : ℤ} {h : |n| ≤ 16777216} (hk : 24 ≤ k) : IsFinite (int32 n h) ∧
    (real (int32 n h) = 0 ∨ 2 ^ (-k : ℤ) ≤ |real (int32 n h)| ∧ |real (int32 n h)| ≤ 2 ^ (k : ℤ)) := by
  refine ⟨finite_int32, ?_⟩
  rw [real_int32]
  by_cases h0 : n = 0
  · left; simp [h0]
  right
  have h1 : (1 : ℝ) ≤ |(n : ℝ)| := by exact_mod_cast Int.one_le_abs h0
  have h2 : |(n : ℝ)| ≤ 2 ^ (24 : ℤ) := by
    have : |(n : ℝ)| ≤ 16777216 := by exact_mod_cast h
    exact this.trans (by norm_num)
  refine ⟨le_trans ?_ h1, h2.trans (Fmt.z_le (by omega))⟩
  rw [show (1 : ℝ) = 2 ^ (0 : ℤ) by norm_num]
  exact Fmt.z_le (by omega)
theorem moderate_v236 {k : ℕ} (hk : 24 ≤ k) : Moderate k v236 := by
  intro x hx
  simp only [Comps.comps, v236, List.mem_cons, List.not_mem_nil, or_false] at hx
  rcases hx with rfl | rfl | rfl <;> exact moderate_int hk
/-- the vector `(2, 3, 6)` -/
example : Within F32 3 (real (Api.length v236)) √(real v236.x ^ 2 + real v236.y ^ 2 + real v236.z ^ 2) :=
  (C86_f32_vector3 v236 v236 (moderate_v236 (by norm_num)) (moderate_v236 (by norm_num))).2.1.2
example : Moderate 39 (Point3.new (int32 1) (int32 2) (int32 3) : Point3 F32) := by
  intro x hx
  simp only [Comps.comps, Point3.new, List.mem_cons, List.not_mem_nil, or_false] at hx
  rcases hx with rfl | rfl | rfl <;> exact moderate_int (by norm_num)
theorem upTo_int {n : ℤ} (h : |n| ≤ 16777216) : UpTo (2 ^ (60 : ℤ)) (int32 n h) := by
  obtain ⟨h1, h2⟩ := moderate_int (k := 60) (n := n) (h := h) (by norm_num)
  exact ⟨h1, h2.elim (fun h0 => by rw [h0, abs_zero]; positivity) And.right⟩
/-- the box and the ray of C83's example -/
example : LeAll front3.min front3.max ∧ UpToAll (2 ^ (60 : ℤ)) front3 ∧ UpToAll (2 ^ (60 : ℤ)) along3.origin ∧ AllFinite along3.direction ∧
    (∀ i, along3.direction.toReal i = 0 ∨ 2 ^ (-(60 : ℤ)) ≤ |along3.direction.toReal i|) ∧
    ∃ i, Api.intersect front3 along3 = some i := by
  refine ⟨front_le3, BoundingBox3.upToAll.2 ⟨Point3.upToAll.2 ⟨upTo_int (by norm_num), upTo_int (by norm_num), upTo_int (by norm_num)⟩, Point3.upToAll.2 ⟨upTo_int (by norm_num), upTo_int (by norm_num), upTo_int (by norm_num)⟩⟩,
    Point3.upToAll.2 ⟨upTo_zero (by positivity), upTo_zero (by positivity), upTo_zero (by positivity)⟩,
    Vector3.allFinite.2 ⟨finite_one, finite_zero, finite_zero⟩, fun i => ?_,
    front_hit3.imp fun i h => h.1⟩
  fin_cases i
  · right
    show _ ≤ |real (Scalar.one : F32)|
    rw [real_one, abs_one]
    exact (Fmt.z_le (by norm_num : -(60 : ℤ) ≤ 0)).trans (by norm_num)
  · left; show real (Scalar.zero : F32) = 0; exact real_zero
  · left; show real (Scalar.zero : F32) = 0; exact real_zero
end VecMath
