import Verif.Props.FloatRangeFmt
import Verif.Props.FloatLaws
/-!
# C86, C89, C90 for `f32` and `f64` in 2D, and the ray test in the remaining cases
Generated by tools/gen/fmt2.py.
-/

namespace VecMath
open Scalar IEEE

/-- **C86** for `f32` in 2D: coordinates zero or between `2^-62` and `2^62` in magnitude. -/
theorem C86_f32_vector2 (u v : Vector2 F32) (hu : Moderate 62 u) (hv : Moderate 62 v) :
    (IsFinite (Api.dot u v) ∧ |real (Api.dot u v) - (real u.x * real v.x + real u.y * real v.y)| ≤
      ((1 + uro F32) ^ 2 - 1) * (|real u.x * real v.x| + |real u.y * real v.y|)) ∧
    (IsFinite (Api.length v) ∧ Within F32 2 (real (Api.length v)) √(real v.x ^ 2 + real v.y ^ 2)) ∧
    (v.toReal ≠ 0 → AllFinite v.normalize ∧ (∀ i, 0 ≤ v.normalize.toReal i * v.toReal i) ∧
      (1 - uro F32) ^ 2 / (1 + uro F32) ^ 4 ≤ ∑ i, v.normalize.toReal i ^ 2 ∧
      ∑ i, v.normalize.toReal i ^ 2 ≤ (1 + uro F32) ^ 2 / (1 - uro F32) ^ 4) := by
  have hk : (Binary.F F32).emin + (Binary.F F32).p - 1 ≤ -(2 * (62 : ℕ) + 1 : ℤ) := by decide
  have hk' : (Binary.F F32).emin + (Binary.F F32).p - 1 ≤ -(2 * (62 : ℕ) : ℤ) := by decide
  refine ⟨C86_dot_accurate2 u v hu hv (room32 2) hk', C86_length_accurate2 v hv (room32 2) (room32 1) hk', fun h0 => ?_⟩
  obtain ⟨h1, h2, h3, h4, -⟩ := C86_normalize_accurate2 v hv h0 (room32 2) (room32 1) hk
  exact ⟨h1, h2, h3, h4⟩
/-- **C86** for `f32`: distances in 2D between points with coordinates zero or between `2^-39` and `2^39`. -/
theorem C86_f32_distance2 (p q : Point2 F32) (hp : Moderate 39 p) (hq : Moderate 39 q) :
    IsFinite (Api.distance p q) ∧ Within F32 3 (real (Api.distance p q))
      √((real q.x - real p.x) ^ 2 + (real q.y - real p.y) ^ 2) :=
  C86_distance_accurate2 p q hp hq (room32 4) (room32 2) (by decide)
/-- **C86** with C83 for `f32` in 2D. -/
theorem C86_f32_hit2 (b : BoundingBox2 F32) (r : Ray2 F32) (hb : LeAll b.min b.max) (hs : UpToAll (2 ^ (60 : ℤ)) b)
    (ho : UpToAll (2 ^ (60 : ℤ)) r.origin) (hd : AllFinite r.direction)
    (h0 : ∀ i, r.direction.toReal i = 0 ∨ 2 ^ (-(60 : ℤ)) ≤ |r.direction.toReal i|) (i : Range F32) (h : Api.intersect b r = some i)
    (t : F32) (ht : IsFinite t) (h1 : (i.start ≤? t) = true) (h2 : (t ≤? i.stop) = true) :
    NearSlab b.min.x b.max.x r.origin.x r.direction.x (real r.origin.x + real r.direction.x * real t) 0 ∧
    NearSlab b.min.y b.max.y r.origin.y r.direction.y (real r.origin.y + real r.direction.y * real t) 0 :=
  C83_inside2 b r (C86_ray2 b r hs ho hd h0 (room32 1) (room32 1)) hb i h t ht h1 h2
/-- **C89** for `f32` in 2D. -/
theorem C89_f32_vector2 (u v : Vector2 F32) (hu : Moderate 62 u) (hv : Moderate 62 v) :
    (1 - uro F32) ^ 4 * |real (Api.dot u v)| ≤ (1 + uro F32) ^ 2 * (real (Api.length u) * real (Api.length v)) ∧
    (u.toReal ≠ 0 → v.toReal ≠ 0 → IsFinite (Api.dot u.normalize v.normalize) ∧
      |real (Api.dot u.normalize v.normalize)| ≤ (1 + uro F32) ^ 4 / (1 - uro F32) ^ 4 + 2 * (1 + uro F32) ^ 1 * tiny F32) :=
  ⟨C89_cauchy_schwarz2 u v hu hv (room32 2) (room32 1) (by decide), fun u0 v0 =>
    have := C89_cosine2 u v hu hv u0 v0 (room32 2) (room32 1) (by decide) (by norm_num)
    ⟨this.1, this.2.1⟩⟩
/-- **C89** for `f32` in 2D. -/
theorem C89_f32_triangle2 (p q r : Point2 F32) (hp : Moderate 39 p) (hq : Moderate 39 q) (hr : Moderate 39 r) :
    (1 - uro F32) ^ 3 * real (Api.distance p r) ≤ (1 + uro F32) ^ 3 * (real (Api.distance p q) + real (Api.distance q r)) :=
  C89_triangle2 p q r hp hq hr (room32 4) (room32 2) (by decide)
/-- **C90** for `f32` in 2D. -/
theorem C90_f32_closest2 (o : Point2 F32) (t : Tree (Point2 F32)) (ho : Moderate 39 o) (h : ∀ p ∈ t.leaves, Moderate 39 p) :
    t.bound (Api.closest o) ∈ t.leaves ∧ ∀ p ∈ t.leaves,
      (1 - uro F32) ^ 3 * norm2 ((t.bound (Api.closest o)).toReal - o.toReal) ≤ (1 + uro F32) ^ 3 * norm2 (p.toReal - o.toReal) :=
  have := C90_closest2 o t ho h (room32 4) (room32 2) (by decide)
  ⟨this.1, fun p hp => (this.2.2 p hp).1⟩
/-- **C90** for `f32`: shortest and longest. -/
theorem C90_f32_shortest2 (t : Tree (Vector2 F32)) (h : ∀ v ∈ t.leaves, Moderate 62 v) :
    t.bound Api.shortest ∈ t.leaves ∧ t.bound Api.longest ∈ t.leaves ∧ ∀ v ∈ t.leaves,
      (1 - uro F32) ^ 2 * norm2 (t.bound Api.shortest).toReal ≤ (1 + uro F32) ^ 2 * norm2 v.toReal ∧
      (1 - uro F32) ^ 2 * norm2 v.toReal ≤ (1 + uro F32) ^ 2 * norm2 (t.bound Api.longest).toReal :=
  C90_shortest2 t h (room32 2) (room32 1) (by decide)
/-- **C90** for `f32`: shortest and longest. -/
theorem C90_f32_shortest3 (t : Tree (Vector3 F32)) (h : ∀ v ∈ t.leaves, Moderate 62 v) :
    t.bound Api.shortest ∈ t.leaves ∧ t.bound Api.longest ∈ t.leaves ∧ ∀ v ∈ t.leaves,
      (1 - uro F32) ^ 3 * norm2 (t.bound Api.shortest).toReal ≤ (1 + uro F32) ^ 3 * norm2 v.toReal ∧
      (1 - uro F32) ^ 3 * norm2 v.toReal ≤ (1 + uro F32) ^ 3 * norm2 (t.bound Api.longest).toReal :=
  C90_shortest3 t h (room32 2) (room32 1) (by decide)
/-- **C86** for `f64` in 2D: coordinates zero or between `2^-510` and `2^510` in magnitude. -/
theorem C86_f64_vector2 (u v : Vector2 F64) (hu : Moderate 510 u) (hv : Moderate 510 v) :
    (IsFinite (Api.dot u v) ∧ |real (Api.dot u v) - (real u.x * real v.x + real u.y * real v.y)| ≤
      ((1 + uro F64) ^ 2 - 1) * (|real u.x * real v.x| + |real u.y * real v.y|)) ∧
    (IsFinite (Api.length v) ∧ Within F64 2 (real (Api.length v)) √(real v.x ^ 2 + real v.y ^ 2)) ∧
    (v.toReal ≠ 0 → AllFinite v.normalize ∧ (∀ i, 0 ≤ v.normalize.toReal i * v.toReal i) ∧
      (1 - uro F64) ^ 2 / (1 + uro F64) ^ 4 ≤ ∑ i, v.normalize.toReal i ^ 2 ∧
      ∑ i, v.normalize.toReal i ^ 2 ≤ (1 + uro F64) ^ 2 / (1 - uro F64) ^ 4) := by
  have hk : (Binary.F F64).emin + (Binary.F F64).p - 1 ≤ -(2 * (510 : ℕ) + 1 : ℤ) := by decide
  have hk' : (Binary.F F64).emin + (Binary.F F64).p - 1 ≤ -(2 * (510 : ℕ) : ℤ) := by decide
  refine ⟨C86_dot_accurate2 u v hu hv (room64 2) hk', C86_length_accurate2 v hv (room64 2) (room64 1) hk', fun h0 => ?_⟩
  obtain ⟨h1, h2, h3, h4, -⟩ := C86_normalize_accurate2 v hv h0 (room64 2) (room64 1) hk
  exact ⟨h1, h2, h3, h4⟩
/-- **C86** for `f64`: distances in 2D between points with coordinates zero or between `2^-458` and `2^458`. -/
theorem C86_f64_distance2 (p q : Point2 F64) (hp : Moderate 458 p) (hq : Moderate 458 q) :
    IsFinite (Api.distance p q) ∧ Within F64 3 (real (Api.distance p q))
      √((real q.x - real p.x) ^ 2 + (real q.y - real p.y) ^ 2) :=
  C86_distance_accurate2 p q hp hq (room64 4) (room64 2) (by decide)
/-- **C86** with C83 for `f64` in 2D. -/
theorem C86_f64_hit2 (b : BoundingBox2 F64) (r : Ray2 F64) (hb : LeAll b.min b.max) (hs : UpToAll (2 ^ (510 : ℤ)) b)
    (ho : UpToAll (2 ^ (510 : ℤ)) r.origin) (hd : AllFinite r.direction)
    (h0 : ∀ i, r.direction.toReal i = 0 ∨ 2 ^ (-(510 : ℤ)) ≤ |r.direction.toReal i|) (i : Range F64) (h : Api.intersect b r = some i)
    (t : F64) (ht : IsFinite t) (h1 : (i.start ≤? t) = true) (h2 : (t ≤? i.stop) = true) :
    NearSlab b.min.x b.max.x r.origin.x r.direction.x (real r.origin.x + real r.direction.x * real t) 0 ∧
    NearSlab b.min.y b.max.y r.origin.y r.direction.y (real r.origin.y + real r.direction.y * real t) 0 :=
  C83_inside2 b r (C86_ray2 b r hs ho hd h0 (room64 1) (room64 1)) hb i h t ht h1 h2
/-- **C86** with C83 for `f64` in 3D. -/
theorem C86_f64_hit3 (b : BoundingBox3 F64) (r : Ray3 F64) (hb : LeAll b.min b.max) (hs : UpToAll (2 ^ (510 : ℤ)) b)
    (ho : UpToAll (2 ^ (510 : ℤ)) r.origin) (hd : AllFinite r.direction)
    (h0 : ∀ i, r.direction.toReal i = 0 ∨ 2 ^ (-(510 : ℤ)) ≤ |r.direction.toReal i|) (i : Range F64) (h : Api.intersect b r = some i)
    (t : F64) (ht : IsFinite t) (h1 : (i.start ≤? t) = true) (h2 : (t ≤? i.stop) = true) :
    NearSlab b.min.x b.max.x r.origin.x r.direction.x (real r.origin.x + real r.direction.x * real t) 0 ∧
    NearSlab b.min.y b.max.y r.origin.y r.direction.y (real r.origin.y + real r.direction.y * real t) 0 ∧
    NearSlab b.min.z b.max.z r.origin.z r.direction.z (real r.origin.z + real r.direction.z * real t) 0 :=
  C83_inside3 b r (C86_ray3 b r hs ho hd h0 (room64 1) (room64 1)) hb i h t ht h1 h2
/-- **C89** for `f64` in 2D. -/
theorem C89_f64_vector2 (u v : Vector2 F64) (hu : Moderate 510 u) (hv : Moderate 510 v) :
    (1 - uro F64) ^ 4 * |real (Api.dot u v)| ≤ (1 + uro F64) ^ 2 * (real (Api.length u) * real (Api.length v)) ∧
    (u.toReal ≠ 0 → v.toReal ≠ 0 → IsFinite (Api.dot u.normalize v.normalize) ∧
      |real (Api.dot u.normalize v.normalize)| ≤ (1 + uro F64) ^ 4 / (1 - uro F64) ^ 4 + 2 * (1 + uro F64) ^ 1 * tiny F64) :=
  ⟨C89_cauchy_schwarz2 u v hu hv (room64 2) (room64 1) (by decide), fun u0 v0 =>
    have := C89_cosine2 u v hu hv u0 v0 (room64 2) (room64 1) (by decide) (by norm_num)
    ⟨this.1, this.2.1⟩⟩
/-- **C89** for `f64` in 2D. -/
theorem C89_f64_triangle2 (p q r : Point2 F64) (hp : Moderate 458 p) (hq : Moderate 458 q) (hr : Moderate 458 r) :
    (1 - uro F64) ^ 3 * real (Api.distance p r) ≤ (1 + uro F64) ^ 3 * (real (Api.distance p q) + real (Api.distance q r)) :=
  C89_triangle2 p q r hp hq hr (room64 4) (room64 2) (by decide)
/-- **C90** for `f64` in 2D. -/
theorem C90_f64_closest2 (o : Point2 F64) (t : Tree (Point2 F64)) (ho : Moderate 458 o) (h : ∀ p ∈ t.leaves, Moderate 458 p) :
    t.bound (Api.closest o) ∈ t.leaves ∧ ∀ p ∈ t.leaves,
      (1 - uro F64) ^ 3 * norm2 ((t.bound (Api.closest o)).toReal - o.toReal) ≤ (1 + uro F64) ^ 3 * norm2 (p.toReal - o.toReal) :=
  have := C90_closest2 o t ho h (room64 4) (room64 2) (by decide)
  ⟨this.1, fun p hp => (this.2.2 p hp).1⟩
/-- **C90** for `f64`: shortest and longest. -/
theorem C90_f64_shortest2 (t : Tree (Vector2 F64)) (h : ∀ v ∈ t.leaves, Moderate 510 v) :
    t.bound Api.shortest ∈ t.leaves ∧ t.bound Api.longest ∈ t.leaves ∧ ∀ v ∈ t.leaves,
      (1 - uro F64) ^ 2 * norm2 (t.bound Api.shortest).toReal ≤ (1 + uro F64) ^ 2 * norm2 v.toReal ∧
      (1 - uro F64) ^ 2 * norm2 v.toReal ≤ (1 + uro F64) ^ 2 * norm2 (t.bound Api.longest).toReal :=
  C90_shortest2 t h (room64 2) (room64 1) (by decide)
/-- **C90** for `f64`: shortest and longest. -/
theorem C90_f64_shortest3 (t : Tree (Vector3 F64)) (h : ∀ v ∈ t.leaves, Moderate 510 v) :
    t.bound Api.shortest ∈ t.leaves ∧ t.bound Api.longest ∈ t.leaves ∧ ∀ v ∈ t.leaves,
      (1 - uro F64) ^ 3 * norm2 (t.bound Api.shortest).toReal ≤ (1 + uro F64) ^ 3 * norm2 v.toReal ∧
      (1 - uro F64) ^ 3 * norm2 v.toReal ≤ (1 + uro F64) ^ 3 * norm2 (t.bound Api.longest).toReal :=
  C90_shortest3 t h (room64 2) (room64 1) (by decide)

/-- the vector `(3, 4)` is in range -/
theorem moderate_v34 {k : ℕ} (hk : 24 ≤ k) : Moderate k v34 := by
  intro x hx
  simp only [Comps.comps, v34, List.mem_cons, List.not_mem_nil, or_false] at hx
  rcases hx with rfl | rfl <;> exact moderate_int hk
example : Within F32 2 (real (Api.length v34)) √(real v34.x ^ 2 + real v34.y ^ 2) :=
  (C86_f32_vector2 v34 v34 (moderate_v34 (by norm_num)) (moderate_v34 (by norm_num))).2.1.2
example : ∀ v ∈ (Tree.node (Tree.leaf v34) (Tree.leaf (⟨int32 5, int32 (-12)⟩ : Vector2 F32))).leaves, Moderate 62 v := by
  intro p hp
  simp [Tree.leaves] at hp
  rcases hp with rfl | rfl
  · exact moderate_v34 (by norm_num)
  · intro x hx
    simp only [Comps.comps, List.mem_cons, List.not_mem_nil, or_false] at hx
    rcases hx with rfl | rfl <;> exact moderate_int (by norm_num)
end VecMath
