out='''import Verif.Props.FloatRangeFmt
import Verif.Props.FloatLaws
/-!
# C86, C89, C90 for `f32` and `f64` in 2D, and the ray test in the remaining cases
Generated by tools/gen/fmt2.py.
-/

namespace VecMath
open Scalar IEEE

'''
for F,kv,kd,kr,room in (('F32',62,39,60,'room32'),('F64',510,458,510,'room64')):
    f=F.lower()
    out+=f'''/-- **C86** for `{f}` in 2D: coordinates zero or between `2^-{kv}` and `2^{kv}` in magnitude. -/
theorem C86_{f}_vector2 (u v : Vector2 {F}) (hu : Moderate {kv} u) (hv : Moderate {kv} v) :
    (IsFinite (Api.dot u v) ∧ |real (Api.dot u v) - (real u.x * real v.x + real u.y * real v.y)| ≤
      ((1 + uro {F}) ^ 2 - 1) * (|real u.x * real v.x| + |real u.y * real v.y|)) ∧
    (IsFinite (Api.length v) ∧ Within {F} 2 (real (Api.length v)) √(real v.x ^ 2 + real v.y ^ 2)) ∧
    (v.toReal ≠ 0 → AllFinite v.normalize ∧ (∀ i, 0 ≤ v.normalize.toReal i * v.toReal i) ∧
      (1 - uro {F}) ^ 2 / (1 + uro {F}) ^ 4 ≤ ∑ i, v.normalize.toReal i ^ 2 ∧
      ∑ i, v.normalize.toReal i ^ 2 ≤ (1 + uro {F}) ^ 2 / (1 - uro {F}) ^ 4) := by
  have hk : (Binary.F {F}).emin + (Binary.F {F}).p - 1 ≤ -(2 * ({kv} : ℕ) + 1 : ℤ) := by decide
  have hk' : (Binary.F {F}).emin + (Binary.F {F}).p - 1 ≤ -(2 * ({kv} : ℕ) : ℤ) := by decide
  refine ⟨C86_dot_accurate2 u v hu hv ({room} 2) hk', C86_length_accurate2 v hv ({room} 2) ({room} 1) hk', fun h0 => ?_⟩
  obtain ⟨h1, h2, h3, h4, -⟩ := C86_normalize_accurate2 v hv h0 ({room} 2) ({room} 1) hk
  exact ⟨h1, h2, h3, h4⟩
/-- **C86** for `{f}`: distances in 2D between points with coordinates zero or between `2^-{kd}` and `2^{kd}`. -/
theorem C86_{f}_distance2 (p q : Point2 {F}) (hp : Moderate {kd} p) (hq : Moderate {kd} q) :
    IsFinite (Api.distance p q) ∧ Within {F} 3 (real (Api.distance p q))
      √((real q.x - real p.x) ^ 2 + (real q.y - real p.y) ^ 2) :=
  C86_distance_accurate2 p q hp hq ({room} 4) ({room} 2) (by decide)
/-- **C86** with C83 for `{f}` in 2D. -/
theorem C86_{f}_hit2 (b : BoundingBox2 {F}) (r : Ray2 {F}) (hb : LeAll b.min b.max) (hs : UpToAll (2 ^ ({kr} : ℤ)) b)
    (ho : UpToAll (2 ^ ({kr} : ℤ)) r.origin) (hd : AllFinite r.direction)
    (h0 : ∀ i, r.direction.toReal i = 0 ∨ 2 ^ (-({kr} : ℤ)) ≤ |r.direction.toReal i|) (i : Range {F}) (h : Api.intersect b r = some i)
    (t : {F}) (ht : IsFinite t) (h1 : (i.start ≤? t) = true) (h2 : (t ≤? i.stop) = true) :
    NearSlab b.min.x b.max.x r.origin.x r.direction.x (real r.origin.x + real r.direction.x * real t) 0 ∧
    NearSlab b.min.y b.max.y r.origin.y r.direction.y (real r.origin.y + real r.direction.y * real t) 0 :=
  C83_inside2 b r (C86_ray2 b r hs ho hd h0 ({room} 1) ({room} 1)) hb i h t ht h1 h2
'''
    if F=='F64': out+=f'''/-- **C86** with C83 for `{f}` in 3D. -/
theorem C86_{f}_hit3 (b : BoundingBox3 {F}) (r : Ray3 {F}) (hb : LeAll b.min b.max) (hs : UpToAll (2 ^ ({kr} : ℤ)) b)
    (ho : UpToAll (2 ^ ({kr} : ℤ)) r.origin) (hd : AllFinite r.direction)
    (h0 : ∀ i, r.direction.toReal i = 0 ∨ 2 ^ (-({kr} : ℤ)) ≤ |r.direction.toReal i|) (i : Range {F}) (h : Api.intersect b r = some i)
    (t : {F}) (ht : IsFinite t) (h1 : (i.start ≤? t) = true) (h2 : (t ≤? i.stop) = true) :
    NearSlab b.min.x b.max.x r.origin.x r.direction.x (real r.origin.x + real r.direction.x * real t) 0 ∧
    NearSlab b.min.y b.max.y r.origin.y r.direction.y (real r.origin.y + real r.direction.y * real t) 0 ∧
    NearSlab b.min.z b.max.z r.origin.z r.direction.z (real r.origin.z + real r.direction.z * real t) 0 :=
  C83_inside3 b r (C86_ray3 b r hs ho hd h0 ({room} 1) ({room} 1)) hb i h t ht h1 h2
'''
    out+=f'''/-- **C89** for `{f}` in 2D. -/
theorem C89_{f}_vector2 (u v : Vector2 {F}) (hu : Moderate {kv} u) (hv : Moderate {kv} v) :
    (1 - uro {F}) ^ 4 * |real (Api.dot u v)| ≤ (1 + uro {F}) ^ 2 * (real (Api.length u) * real (Api.length v)) ∧
    (u.toReal ≠ 0 → v.toReal ≠ 0 → IsFinite (Api.dot u.normalize v.normalize) ∧
      |real (Api.dot u.normalize v.normalize)| ≤ (1 + uro {F}) ^ 4 / (1 - uro {F}) ^ 4 + 2 * (1 + uro {F}) ^ 1 * tiny {F}) :=
  ⟨C89_cauchy_schwarz2 u v hu hv ({room} 2) ({room} 1) (by decide), fun u0 v0 =>
    have := C89_cosine2 u v hu hv u0 v0 ({room} 2) ({room} 1) (by decide) (by norm_num)
    ⟨this.1, this.2.1⟩⟩
/-- **C89** for `{f}` in 2D. -/
theorem C89_{f}_triangle2 (p q r : Point2 {F}) (hp : Moderate {kd} p) (hq : Moderate {kd} q) (hr : Moderate {kd} r) :
    (1 - uro {F}) ^ 3 * real (Api.distance p r) ≤ (1 + uro {F}) ^ 3 * (real (Api.distance p q) + real (Api.distance q r)) :=
  C89_triangle2 p q r hp hq hr ({room} 4) ({room} 2) (by decide)
'''
    for D in (2,3):
        K=D+1; L=D
        if D==2: out+=f'''/-- **C90** for `{f}` in 2D. -/
theorem C90_{f}_closest2 (o : Point2 {F}) (t : Tree (Point2 {F})) (ho : Moderate {kd} o) (h : ∀ p ∈ t.leaves, Moderate {kd} p) :
    t.bound (Api.closest o) ∈ t.leaves ∧ ∀ p ∈ t.leaves,
      (1 - uro {F}) ^ 3 * norm2 ((t.bound (Api.closest o)).toReal - o.toReal) ≤ (1 + uro {F}) ^ 3 * norm2 (p.toReal - o.toReal) :=
  have := C90_closest2 o t ho h ({room} 4) ({room} 2) (by decide)
  ⟨this.1, fun p hp => (this.2.2 p hp).1⟩
'''
        out+=f'''/-- **C90** for `{f}`: shortest and longest. -/
theorem C90_{f}_shortest{D} (t : Tree (Vector{D} {F})) (h : ∀ v ∈ t.leaves, Moderate {kv} v) :
    t.bound Api.shortest ∈ t.leaves ∧ t.bound Api.longest ∈ t.leaves ∧ ∀ v ∈ t.leaves,
      (1 - uro {F}) ^ {L} * norm2 (t.bound Api.shortest).toReal ≤ (1 + uro {F}) ^ {L} * norm2 v.toReal ∧
      (1 - uro {F}) ^ {L} * norm2 v.toReal ≤ (1 + uro {F}) ^ {L} * norm2 (t.bound Api.longest).toReal :=
  C90_shortest{D} t h ({room} 2) ({room} 1) (by decide)
'''
out+='''
/-- the vector `(3, 4)` is in range -/
theorem moderate_v34 {k : ℕ} (hk : 24 ≤ k) : Moderate k v34 := by
  intro x hx
  simp only [Comps.comps, v34, List.mem_cons, List.not_mem_nil, or_false] at hx
  rcases hx with rfl | rfl <;> exact moderate_int hk
example : Within F32 2 (real (Api.length v34)) √(real v34.x ^ 2 + real v34.y ^ 2) :=
  (C86_f32_vector2 v34 v34 (moderate_v34 (by norm_num)) (moderate_v34 (by norm_num))).2.1.2
example : ∀ v ∈ (Tree.node (Tree.leaf v34) (Tree.leaf (⟨int32 5, int32 (-12)⟩ : Vector2 F32))).leaves, Moderate 62 v := by
  intro p hp
  simp [Tree.leaves] at hp
  rcases hp with rfl | rfl
  · exact moderate_v34 (by norm_num)
  · intro x hx
    simp only [Comps.comps, List.mem_cons, List.not_mem_nil, or_false] at hx
    rcases hx with rfl | rfl <;> exact moderate_int (by norm_num)
end VecMath
'''
open('/verif/lean/Verif/Props/FloatRangeFmt2.lean','w').write(out)
