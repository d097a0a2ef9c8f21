import Verif.Lemmas.Grid
import Verif.Props.FloatInverse
import Verif.Props.FloatMeasure
import Verif.Props.FloatErrorMat
/-!
# Layer F: exact results on integer and fixed-point data (C68)

If the components are integers (or multiples of a fixed power of two) small enough for every intermediate
result to fit into the format, the operations that only add, subtract and multiply deliver the exact result;
lengths, quotients and inverses are exact when the exact result is itself such a number.
-/

open Classical

namespace VecMath
open Scalar IEEE

variable {S : Type} [Scalar S] [IEEE S] [Binary S] {e f d : ℤ} {M N K : ℕ}

/-! ### Vectors and points -/

/-- **C68**: sums, differences and dot products of 2D grid vectors are exact. -/
theorem C68_vector2 (u v : Vector2 S) (hu : AllFinite u) (hv : AllFinite v)
    (gu : ∀ i, OnGrid e M (u.toReal i)) (gv : ∀ i, OnGrid e N (v.toReal i)) (hF : Fits S e (M + N)) :
    (AllFinite (u + v) ∧ ∀ i, (u + v).toReal i = u.toReal i + v.toReal i) ∧
    (AllFinite (u - v) ∧ ∀ i, (u - v).toReal i = u.toReal i - v.toReal i) := by
  rw [Vector2.allFinite] at hu hv
  have ax := (G.of hu.1 (gu 0)).add (G.of hv.1 (gv 0)) hF
  have ay := (G.of hu.2 (gu 1)).add (G.of hv.2 (gv 1)) hF
  have sx := (G.of hu.1 (gu 0)).sub (G.of hv.1 (gv 0)) hF
  have sy := (G.of hu.2 (gu 1)).sub (G.of hv.2 (gv 1)) hF
  refine ⟨⟨Vector2.allFinite.2 ⟨ax.ex.1, ay.ex.1⟩, fun i => ?_⟩,
    ⟨Vector2.allFinite.2 ⟨sx.ex.1, sy.ex.1⟩, fun i => ?_⟩⟩ <;> fin_cases i
  exacts [ax.ex.2, ay.ex.2, sx.ex.2, sy.ex.2]
/-- **C68**, 3D. -/
theorem C68_vector3 (u v : Vector3 S) (hu : AllFinite u) (hv : AllFinite v)
    (gu : ∀ i, OnGrid e M (u.toReal i)) (gv : ∀ i, OnGrid e N (v.toReal i)) (hF : Fits S e (M + N)) :
    (AllFinite (u + v) ∧ ∀ i, (u + v).toReal i = u.toReal i + v.toReal i) ∧
    (AllFinite (u - v) ∧ ∀ i, (u - v).toReal i = u.toReal i - v.toReal i) := by
  rw [Vector3.allFinite] at hu hv
  have ax := (G.of hu.1 (gu 0)).add (G.of hv.1 (gv 0)) hF
  have ay := (G.of hu.2.1 (gu 1)).add (G.of hv.2.1 (gv 1)) hF
  have az := (G.of hu.2.2 (gu 2)).add (G.of hv.2.2 (gv 2)) hF
  have sx := (G.of hu.1 (gu 0)).sub (G.of hv.1 (gv 0)) hF
  have sy := (G.of hu.2.1 (gu 1)).sub (G.of hv.2.1 (gv 1)) hF
  have sz := (G.of hu.2.2 (gu 2)).sub (G.of hv.2.2 (gv 2)) hF
  refine ⟨⟨Vector3.allFinite.2 ⟨ax.ex.1, ay.ex.1, az.ex.1⟩, fun i => ?_⟩,
    ⟨Vector3.allFinite.2 ⟨sx.ex.1, sy.ex.1, sz.ex.1⟩, fun i => ?_⟩⟩ <;> fin_cases i
  exacts [ax.ex.2, ay.ex.2, az.ex.2, sx.ex.2, sy.ex.2, sz.ex.2]

/-- **C68**: the dot product of 2D grid vectors is exact. -/
theorem C68_dot2 (u v : Vector2 S) (hu : AllFinite u) (hv : AllFinite v)
    (gu : ∀ i, OnGrid e M (u.toReal i)) (gv : ∀ i, OnGrid f N (v.toReal i)) (hF : Fits S (e + f) (2 * (M * N))) :
    Exactly (Api.dot u v) (∑ i, u.toReal i * v.toReal i) := by
  rw [Vector2.allFinite] at hu hv
  rw [Fin.sum_univ_two]
  exact (G.dot2 (G.of hu.1 (gu 0)) (G.of hu.2 (gu 1)) (G.of hv.1 (gv 0)) (G.of hv.2 (gv 1)) hF).ex
/-- **C68**, 3D. -/
theorem C68_dot3 (u v : Vector3 S) (hu : AllFinite u) (hv : AllFinite v)
    (gu : ∀ i, OnGrid e M (u.toReal i)) (gv : ∀ i, OnGrid f N (v.toReal i)) (hF : Fits S (e + f) (3 * (M * N))) :
    Exactly (Api.dot u v) (∑ i, u.toReal i * v.toReal i) := by
  rw [Vector3.allFinite] at hu hv
  rw [Fin.sum_univ_three]
  exact (G.dot3 (G.of hu.1 (gu 0)) (G.of hu.2.1 (gu 1)) (G.of hu.2.2 (gu 2)) (G.of hv.1 (gv 0))
    (G.of hv.2.1 (gv 1)) (G.of hv.2.2 (gv 2)) hF).ex

/-- **C68**: the cross product of grid vectors is exact. -/
theorem C68_cross3 (u v : Vector3 S) (hu : AllFinite u) (hv : AllFinite v)
    (gu : ∀ i, OnGrid e M (u.toReal i)) (gv : ∀ i, OnGrid f N (v.toReal i)) (hF : Fits S (e + f) (2 * (M * N))) :
    AllFinite (Api.cross u v : Vector3 S) ∧
    (Api.cross u v : Vector3 S).toReal = crossProduct u.toReal v.toReal := by
  rw [Vector3.allFinite] at hu hv
  have x := G.two (G.of hu.2.1 (gu 1)) (G.of hu.2.2 (gu 2)) (G.of hv.2.2 (gv 2)) (G.of hv.2.1 (gv 1)) hF
  have y := G.two (G.of hu.2.2 (gu 2)) (G.of hu.1 (gu 0)) (G.of hv.1 (gv 0)) (G.of hv.2.2 (gv 2)) hF
  have z := G.two (G.of hu.1 (gu 0)) (G.of hu.2.1 (gu 1)) (G.of hv.2.1 (gv 1)) (G.of hv.1 (gv 0)) hF
  refine ⟨Vector3.allFinite.2 ⟨x.ex.1, y.ex.1, z.ex.1⟩, ?_⟩
  ext i
  rw [cross_apply]
  fin_cases i
  exacts [x.ex.2, y.ex.2, z.ex.2]

/-- **C68**: if the exact Euclidean length of a 2D grid vector is a number of some grid that fits (as for the
vector `(3, 4)`), `length` returns it. -/
theorem C68_length2 (v : Vector2 S) (hv : AllFinite v) (gv : ∀ i, OnGrid e N (v.toReal i))
    (hF : Fits S (e + e) (2 * (N * N))) (hL : OnGrid d K √(∑ i, v.toReal i ^ 2)) (hK : Fits S d K) :
    Exactly (Api.length v) √(∑ i, v.toReal i ^ 2) := by
  rw [Vector2.allFinite] at hv
  have g := G.dot2 (G.of hv.1 (gv 0)) (G.of hv.2 (gv 1)) (G.of hv.1 (gv 0)) (G.of hv.2 (gv 1)) hF
  have h := g.congr (y := ∑ i, v.toReal i ^ 2) (by
    rw [Fin.sum_univ_two, sq, sq]; rfl)
  exact (h.sqrt (Finset.sum_nonneg fun i _ => sq_nonneg _) hL hK).ex
/-- **C68**, 3D. -/
theorem C68_length3 (v : Vector3 S) (hv : AllFinite v) (gv : ∀ i, OnGrid e N (v.toReal i))
    (hF : Fits S (e + e) (3 * (N * N))) (hL : OnGrid d K √(∑ i, v.toReal i ^ 2)) (hK : Fits S d K) :
    Exactly (Api.length v) √(∑ i, v.toReal i ^ 2) := by
  rw [Vector3.allFinite] at hv
  have g := G.dot3 (G.of hv.1 (gv 0)) (G.of hv.2.1 (gv 1)) (G.of hv.2.2 (gv 2)) (G.of hv.1 (gv 0))
    (G.of hv.2.1 (gv 1)) (G.of hv.2.2 (gv 2)) hF
  have h := g.congr (y := ∑ i, v.toReal i ^ 2) (by
    rw [Fin.sum_univ_three, sq, sq, sq]; rfl)
  exact (h.sqrt (Finset.sum_nonneg fun i _ => sq_nonneg _) hL hK).ex

/-- **C68**: if the exact distance of two 2D grid points is a number of some grid that fits, `distance`
returns it. -/
theorem C68_distance2 (p q : Point2 S) (hp : AllFinite p) (hq : AllFinite q) (gp : ∀ i, OnGrid e N (p.toReal i))
    (gq : ∀ i, OnGrid e N (q.toReal i)) (h1 : Fits S e (N + N))
    (hF : Fits S (e + e) (2 * ((N + N) * (N + N))))
    (hL : OnGrid d K √(∑ i, (p.toReal i - q.toReal i) ^ 2)) (hK : Fits S d K) :
    Exactly (Api.distance p q) √(∑ i, (p.toReal i - q.toReal i) ^ 2) := by
  rw [Point2.allFinite] at hp hq
  have gx := (G.of hq.1 (gq 0)).sub (G.of hp.1 (gp 0)) h1
  have gy := (G.of hq.2 (gq 1)).sub (G.of hp.2 (gp 1)) h1
  have h := (G.dot2 gx gy gx gy hF).congr (y := ∑ i, (p.toReal i - q.toReal i) ^ 2) (by
    rw [Fin.sum_univ_two]; unfold Point2.toReal; simp; ring)
  exact (h.sqrt (Finset.sum_nonneg fun i _ => sq_nonneg _) hL hK).ex
/-- **C68**, 3D. -/
theorem C68_distance3 (p q : Point3 S) (hp : AllFinite p) (hq : AllFinite q) (gp : ∀ i, OnGrid e N (p.toReal i))
    (gq : ∀ i, OnGrid e N (q.toReal i)) (h1 : Fits S e (N + N))
    (hF : Fits S (e + e) (3 * ((N + N) * (N + N))))
    (hL : OnGrid d K √(∑ i, (p.toReal i - q.toReal i) ^ 2)) (hK : Fits S d K) :
    Exactly (Api.distance p q) √(∑ i, (p.toReal i - q.toReal i) ^ 2) := by
  rw [Point3.allFinite] at hp hq
  have gx := (G.of hq.1 (gq 0)).sub (G.of hp.1 (gp 0)) h1
  have gy := (G.of hq.2.1 (gq 1)).sub (G.of hp.2.1 (gp 1)) h1
  have gz := (G.of hq.2.2 (gq 2)).sub (G.of hp.2.2 (gp 2)) h1
  have h := (G.dot3 gx gy gz gx gy gz hF).congr (y := ∑ i, (p.toReal i - q.toReal i) ^ 2) (by
    rw [Fin.sum_univ_three]; unfold Point3.toReal; simp; ring)
  exact (h.sqrt (Finset.sum_nonneg fun i _ => sq_nonneg _) hL hK).ex

/-- **C68**: evaluating a 2D grid ray at a grid parameter is exact. -/
theorem C68_at2 (r : Ray2 S) (t : S) (ho : AllFinite r.origin) (hd : AllFinite r.direction) (ht : IsFinite t)
    (go : ∀ i, OnGrid (e + f) K (r.origin.toReal i)) (gd : ∀ i, OnGrid e M (r.direction.toReal i))
    (gt : OnGrid f N (real t)) (hF : Fits S (e + f) (K + M * N)) :
    AllFinite (r.at t) ∧ ∀ i, (r.at t).toReal i = r.origin.toReal i + real t * r.direction.toReal i := by
  rw [Point2.allFinite] at ho
  rw [Vector2.allFinite] at hd
  have x := (G.of ho.1 (go 0)).add ((G.of hd.1 (gd 0)).mul (G.of ht gt) (hF.mono (by omega))) hF
  have y := (G.of ho.2 (go 1)).add ((G.of hd.2 (gd 1)).mul (G.of ht gt) (hF.mono (by omega))) hF
  refine ⟨Point2.allFinite.2 ⟨x.ex.1, y.ex.1⟩, fun i => ?_⟩
  rw [mul_comm]
  fin_cases i
  exacts [x.ex.2, y.ex.2]
/-- **C68**, 3D. -/
theorem C68_at3 (r : Ray3 S) (t : S) (ho : AllFinite r.origin) (hd : AllFinite r.direction) (ht : IsFinite t)
    (go : ∀ i, OnGrid (e + f) K (r.origin.toReal i)) (gd : ∀ i, OnGrid e M (r.direction.toReal i))
    (gt : OnGrid f N (real t)) (hF : Fits S (e + f) (K + M * N)) :
    AllFinite (r.at t) ∧ ∀ i, (r.at t).toReal i = r.origin.toReal i + real t * r.direction.toReal i := by
  rw [Point3.allFinite] at ho
  rw [Vector3.allFinite] at hd
  have x := (G.of ho.1 (go 0)).add ((G.of hd.1 (gd 0)).mul (G.of ht gt) (hF.mono (by omega))) hF
  have y := (G.of ho.2.1 (go 1)).add ((G.of hd.2.1 (gd 1)).mul (G.of ht gt) (hF.mono (by omega))) hF
  have z := (G.of ho.2.2 (go 2)).add ((G.of hd.2.2 (gd 2)).mul (G.of ht gt) (hF.mono (by omega))) hF
  refine ⟨Point3.allFinite.2 ⟨x.ex.1, y.ex.1, z.ex.1⟩, fun i => ?_⟩
  rw [mul_comm]
  fin_cases i
  exacts [x.ex.2, y.ex.2, z.ex.2]

/-! ### Matrices -/

/-- The entries of a finite grid matrix. -/
theorem Matrix3x3.grid {m : Matrix3x3 S} (hm : AllFinite m) (g : ∀ i j, OnGrid e N (m.toReal i j)) (i : Nat)
    (hi : i < 9) : G e N m.m[i] (real m.m[i]) := by
  refine G.of (Matrix3x3.allFinite.1 hm i hi) ?_
  have := g ⟨i / 3, by omega⟩ ⟨i % 3, by omega⟩
  have e1 : m.toReal ⟨i / 3, by omega⟩ ⟨i % 3, by omega⟩ = real m.m[i] := by
    unfold Matrix3x3.toReal; congr 2; show 3 * (i / 3) + i % 3 = i; omega
  rwa [e1] at this
theorem Matrix4x4.grid {m : Matrix4x4 S} (hm : AllFinite m) (g : ∀ i j, OnGrid e N (m.toReal i j)) (i : Nat)
    (hi : i < 16) : G e N m.m[i] (real m.m[i]) := by
  refine G.of (Matrix4x4.allFinite.1 hm i hi) ?_
  have := g ⟨i / 4, by omega⟩ ⟨i % 4, by omega⟩
  have e1 : m.toReal ⟨i / 4, by omega⟩ ⟨i % 4, by omega⟩ = real m.m[i] := by
    unfold Matrix4x4.toReal; congr 2; show 4 * (i / 4) + i % 4 = i; omega
  rwa [e1] at this

/-- **C68**: the product of 3x3 grid matrices is exact. -/
theorem C68_product3x3 (a b : Matrix3x3 S) (ha : AllFinite a) (hb : AllFinite b)
    (ga : ∀ i j, OnGrid e M (a.toReal i j)) (gb : ∀ i j, OnGrid f N (b.toReal i j))
    (hF : Fits S (e + f) (3 * (M * N))) : AllFinite (a * b) ∧ (a * b).toReal = a.toReal * b.toReal := by
  have A := Matrix3x3.grid ha ga
  have B := Matrix3x3.grid hb gb
  have key := fun i h i' h' i'' h'' j k j' k' j'' k'' =>
    (G.dot3 (A i h) (A i' h') (A i'' h'') (B j k) (B j' k') (B j'' k'') hF).ex
  constructor
  · rw [Matrix3x3.allFinite, forall_lt_9]
    exact ⟨(key 0 (by omega) 1 (by omega) 2 (by omega) 0 (by omega) 3 (by omega) 6 (by omega)).1,
      (key 0 (by omega) 1 (by omega) 2 (by omega) 1 (by omega) 4 (by omega) 7 (by omega)).1,
      (key 0 (by omega) 1 (by omega) 2 (by omega) 2 (by omega) 5 (by omega) 8 (by omega)).1,
      (key 3 (by omega) 4 (by omega) 5 (by omega) 0 (by omega) 3 (by omega) 6 (by omega)).1,
      (key 3 (by omega) 4 (by omega) 5 (by omega) 1 (by omega) 4 (by omega) 7 (by omega)).1,
      (key 3 (by omega) 4 (by omega) 5 (by omega) 2 (by omega) 5 (by omega) 8 (by omega)).1,
      (key 6 (by omega) 7 (by omega) 8 (by omega) 0 (by omega) 3 (by omega) 6 (by omega)).1,
      (key 6 (by omega) 7 (by omega) 8 (by omega) 1 (by omega) 4 (by omega) 7 (by omega)).1,
      (key 6 (by omega) 7 (by omega) 8 (by omega) 2 (by omega) 5 (by omega) 8 (by omega)).1⟩
  · ext i j
    rw [Matrix.mul_apply, Fin.sum_univ_three]
    fin_cases i <;> fin_cases j
    · exact (key 0 (by omega) 1 (by omega) 2 (by omega) 0 (by omega) 3 (by omega) 6 (by omega)).2
    · exact (key 0 (by omega) 1 (by omega) 2 (by omega) 1 (by omega) 4 (by omega) 7 (by omega)).2
    · exact (key 0 (by omega) 1 (by omega) 2 (by omega) 2 (by omega) 5 (by omega) 8 (by omega)).2
    · exact (key 3 (by omega) 4 (by omega) 5 (by omega) 0 (by omega) 3 (by omega) 6 (by omega)).2
    · exact (key 3 (by omega) 4 (by omega) 5 (by omega) 1 (by omega) 4 (by omega) 7 (by omega)).2
    · exact (key 3 (by omega) 4 (by omega) 5 (by omega) 2 (by omega) 5 (by omega) 8 (by omega)).2
    · exact (key 6 (by omega) 7 (by omega) 8 (by omega) 0 (by omega) 3 (by omega) 6 (by omega)).2
    · exact (key 6 (by omega) 7 (by omega) 8 (by omega) 1 (by omega) 4 (by omega) 7 (by omega)).2
    · exact (key 6 (by omega) 7 (by omega) 8 (by omega) 2 (by omega) 5 (by omega) 8 (by omega)).2

/-- **C68**, 4x4. -/
theorem C68_product4x4 (a b : Matrix4x4 S) (ha : AllFinite a) (hb : AllFinite b)
    (ga : ∀ i j, OnGrid e M (a.toReal i j)) (gb : ∀ i j, OnGrid f N (b.toReal i j))
    (hF : Fits S (e + f) (4 * (M * N))) : AllFinite (a * b) ∧ (a * b).toReal = a.toReal * b.toReal := by
  have A := Matrix4x4.grid ha ga
  have B := Matrix4x4.grid hb gb
  have key := fun i h i' h' i'' h'' l g j k j' k' j'' k'' l' g' =>
    (G.dot4 (A i h) (A i' h') (A i'' h'') (A l g) (B j k) (B j' k') (B j'' k'') (B l' g') hF).ex
  constructor
  · rw [Matrix4x4.allFinite, forall_lt_16]
    exact ⟨(key 0 (by omega) 1 (by omega) 2 (by omega) 3 (by omega) 0 (by omega) 4 (by omega) 8 (by omega) 12 (by omega)).1,
      (key 0 (by omega) 1 (by omega) 2 (by omega) 3 (by omega) 1 (by omega) 5 (by omega) 9 (by omega) 13 (by omega)).1,
      (key 0 (by omega) 1 (by omega) 2 (by omega) 3 (by omega) 2 (by omega) 6 (by omega) 10 (by omega) 14 (by omega)).1,
      (key 0 (by omega) 1 (by omega) 2 (by omega) 3 (by omega) 3 (by omega) 7 (by omega) 11 (by omega) 15 (by omega)).1,
      (key 4 (by omega) 5 (by omega) 6 (by omega) 7 (by omega) 0 (by omega) 4 (by omega) 8 (by omega) 12 (by omega)).1,
      (key 4 (by omega) 5 (by omega) 6 (by omega) 7 (by omega) 1 (by omega) 5 (by omega) 9 (by omega) 13 (by omega)).1,
      (key 4 (by omega) 5 (by omega) 6 (by omega) 7 (by omega) 2 (by omega) 6 (by omega) 10 (by omega) 14 (by omega)).1,
      (key 4 (by omega) 5 (by omega) 6 (by omega) 7 (by omega) 3 (by omega) 7 (by omega) 11 (by omega) 15 (by omega)).1,
      (key 8 (by omega) 9 (by omega) 10 (by omega) 11 (by omega) 0 (by omega) 4 (by omega) 8 (by omega) 12 (by omega)).1,
      (key 8 (by omega) 9 (by omega) 10 (by omega) 11 (by omega) 1 (by omega) 5 (by omega) 9 (by omega) 13 (by omega)).1,
      (key 8 (by omega) 9 (by omega) 10 (by omega) 11 (by omega) 2 (by omega) 6 (by omega) 10 (by omega) 14 (by omega)).1,
      (key 8 (by omega) 9 (by omega) 10 (by omega) 11 (by omega) 3 (by omega) 7 (by omega) 11 (by omega) 15 (by omega)).1,
      (key 12 (by omega) 13 (by omega) 14 (by omega) 15 (by omega) 0 (by omega) 4 (by omega) 8 (by omega) 12 (by omega)).1,
      (key 12 (by omega) 13 (by omega) 14 (by omega) 15 (by omega) 1 (by omega) 5 (by omega) 9 (by omega) 13 (by omega)).1,
      (key 12 (by omega) 13 (by omega) 14 (by omega) 15 (by omega) 2 (by omega) 6 (by omega) 10 (by omega) 14 (by omega)).1,
      (key 12 (by omega) 13 (by omega) 14 (by omega) 15 (by omega) 3 (by omega) 7 (by omega) 11 (by omega) 15 (by omega)).1⟩
  · ext i j
    rw [Matrix.mul_apply, Fin.sum_univ_four]
    fin_cases i <;> fin_cases j
    · exact (key 0 (by omega) 1 (by omega) 2 (by omega) 3 (by omega) 0 (by omega) 4 (by omega) 8 (by omega) 12 (by omega)).2
    · exact (key 0 (by omega) 1 (by omega) 2 (by omega) 3 (by omega) 1 (by omega) 5 (by omega) 9 (by omega) 13 (by omega)).2
    · exact (key 0 (by omega) 1 (by omega) 2 (by omega) 3 (by omega) 2 (by omega) 6 (by omega) 10 (by omega) 14 (by omega)).2
    · exact (key 0 (by omega) 1 (by omega) 2 (by omega) 3 (by omega) 3 (by omega) 7 (by omega) 11 (by omega) 15 (by omega)).2
    · exact (key 4 (by omega) 5 (by omega) 6 (by omega) 7 (by omega) 0 (by omega) 4 (by omega) 8 (by omega) 12 (by omega)).2
    · exact (key 4 (by omega) 5 (by omega) 6 (by omega) 7 (by omega) 1 (by omega) 5 (by omega) 9 (by omega) 13 (by omega)).2
    · exact (key 4 (by omega) 5 (by omega) 6 (by omega) 7 (by omega) 2 (by omega) 6 (by omega) 10 (by omega) 14 (by omega)).2
    · exact (key 4 (by omega) 5 (by omega) 6 (by omega) 7 (by omega) 3 (by omega) 7 (by omega) 11 (by omega) 15 (by omega)).2
    · exact (key 8 (by omega) 9 (by omega) 10 (by omega) 11 (by omega) 0 (by omega) 4 (by omega) 8 (by omega) 12 (by omega)).2
    · exact (key 8 (by omega) 9 (by omega) 10 (by omega) 11 (by omega) 1 (by omega) 5 (by omega) 9 (by omega) 13 (by omega)).2
    · exact (key 8 (by omega) 9 (by omega) 10 (by omega) 11 (by omega) 2 (by omega) 6 (by omega) 10 (by omega) 14 (by omega)).2
    · exact (key 8 (by omega) 9 (by omega) 10 (by omega) 11 (by omega) 3 (by omega) 7 (by omega) 11 (by omega) 15 (by omega)).2
    · exact (key 12 (by omega) 13 (by omega) 14 (by omega) 15 (by omega) 0 (by omega) 4 (by omega) 8 (by omega) 12 (by omega)).2
    · exact (key 12 (by omega) 13 (by omega) 14 (by omega) 15 (by omega) 1 (by omega) 5 (by omega) 9 (by omega) 13 (by omega)).2
    · exact (key 12 (by omega) 13 (by omega) 14 (by omega) 15 (by omega) 2 (by omega) 6 (by omega) 10 (by omega) 14 (by omega)).2
    · exact (key 12 (by omega) 13 (by omega) 14 (by omega) 15 (by omega) 3 (by omega) 7 (by omega) 11 (by omega) 15 (by omega)).2

/-! ### Transforms -/

/-- **C68**: transforming a 2D grid vector is exact. -/
theorem C68_transform_vector2 (t : Transform2 S) (v : Vector2 S) (ht : AllFinite t.forward) (hv : AllFinite v)
    (gt : ∀ i j : Fin 2, OnGrid e M (t.forward.toReal i.castSucc j.castSucc)) (gv : ∀ i, OnGrid f N (v.toReal i))
    (hF : Fits S (e + f) (2 * (M * N))) :
    AllFinite (Transform.transform t v : Vector2 S) ∧ ∀ i : Fin 2,
      (Transform.transform t v : Vector2 S).toReal i =
        ∑ j : Fin 2, t.forward.toReal i.castSucc j.castSucc * v.toReal j := by
  rw [Matrix3x3.allFinite, forall_lt_9] at ht
  obtain ⟨h0, h1, -, h3, h4, -, -, -, -⟩ := ht
  rw [Vector2.allFinite] at hv
  have x := G.dot2 (G.of h0 (gt 0 0)) (G.of h1 (gt 0 1)) (G.of hv.1 (gv 0)) (G.of hv.2 (gv 1)) hF
  have y := G.dot2 (G.of h3 (gt 1 0)) (G.of h4 (gt 1 1)) (G.of hv.1 (gv 0)) (G.of hv.2 (gv 1)) hF
  refine ⟨Vector2.allFinite.2 ⟨x.ex.1, y.ex.1⟩, fun i => ?_⟩
  rw [Fin.sum_univ_two]
  fin_cases i
  exacts [x.ex.2, y.ex.2]
/-- **C68**, 3D. -/
theorem C68_transform_vector3 (t : Transform3 S) (v : Vector3 S) (ht : AllFinite t.forward) (hv : AllFinite v)
    (gt : ∀ i j : Fin 3, OnGrid e M (t.forward.toReal i.castSucc j.castSucc)) (gv : ∀ i, OnGrid f N (v.toReal i))
    (hF : Fits S (e + f) (3 * (M * N))) :
    AllFinite (Transform.transform t v : Vector3 S) ∧ ∀ i : Fin 3,
      (Transform.transform t v : Vector3 S).toReal i =
        ∑ j : Fin 3, t.forward.toReal i.castSucc j.castSucc * v.toReal j := by
  rw [Matrix4x4.allFinite, forall_lt_16] at ht
  obtain ⟨h0, h1, h2, -, h4, h5, h6, -, h8, h9, h10, -, -, -, -, -⟩ := ht
  rw [Vector3.allFinite] at hv
  have vx := G.of hv.1 (gv 0)
  have vy := G.of hv.2.1 (gv 1)
  have vz := G.of hv.2.2 (gv 2)
  have x := G.dot3 (G.of h0 (gt 0 0)) (G.of h1 (gt 0 1)) (G.of h2 (gt 0 2)) vx vy vz hF
  have y := G.dot3 (G.of h4 (gt 1 0)) (G.of h5 (gt 1 1)) (G.of h6 (gt 1 2)) vx vy vz hF
  have z := G.dot3 (G.of h8 (gt 2 0)) (G.of h9 (gt 2 1)) (G.of h10 (gt 2 2)) vx vy vz hF
  refine ⟨Vector3.allFinite.2 ⟨x.ex.1, y.ex.1, z.ex.1⟩, fun i => ?_⟩
  rw [Fin.sum_univ_three]
  fin_cases i
  exacts [x.ex.2, y.ex.2, z.ex.2]

/-- **C68**: an affine transform with grid entries moves 2D grid points exactly. -/
theorem C68_transform_point2 (t : Transform2 S) (p : Point2 S) (ht : AllFinite t.forward) (hp : AllFinite p)
    (haff : t.forward.toReal 2 = ![0, 0, 1])
    (gt : ∀ i j : Fin 2, OnGrid e M (t.forward.toReal i.castSucc j.castSucc))
    (gs : ∀ i : Fin 2, OnGrid (e + f) K (t.forward.toReal i.castSucc 2)) (gp : ∀ i, OnGrid f N (p.toReal i))
    (hF : Fits S (e + f) (2 * (M * N) + K)) :
    AllFinite (Transform.transform t p : Point2 S) ∧ ∀ i : Fin 2,
      (Transform.transform t p : Point2 S).toReal i =
        ∑ j : Fin 2, t.forward.toReal i.castSucc j.castSucc * p.toReal j + t.forward.toReal i.castSucc 2 := by
  rw [Matrix3x3.allFinite, forall_lt_9] at ht
  obtain ⟨h0, h1, h2, h3, h4, h5, h6, h7, h8⟩ := ht
  rw [Point2.allFinite] at hp
  have hw := weight_one2 h6 h7 h8 hp.1 hp.2 (congrFun haff 0) (congrFun haff 1) (congrFun haff 2)
  have x := (G.dot2 (G.of h0 (gt 0 0)) (G.of h1 (gt 0 1)) (G.of hp.1 (gp 0)) (G.of hp.2 (gp 1))
    (hF.mono (by omega))).add (G.of h2 (gs 0)) hF
  have y := (G.dot2 (G.of h3 (gt 1 0)) (G.of h4 (gt 1 1)) (G.of hp.1 (gp 0)) (G.of hp.2 (gp 1))
    (hF.mono (by omega))).add (G.of h5 (gs 1)) hF
  have key : ∀ {c : S} {r : ℝ}, Exactly c r →
      Exactly (c / (t.forward.m[6] * p.x + t.forward.m[7] * p.y + t.forward.m[8])) r :=
    fun {c r} hc => ⟨(finite_num (div_weight hw)).2 hc.1, (real_num (div_weight hw)).trans hc.2⟩
  refine ⟨Point2.allFinite.2 ⟨(key x.ex).1, (key y.ex).1⟩, fun i => ?_⟩
  rw [Fin.sum_univ_two]
  fin_cases i
  exacts [(key x.ex).2, (key y.ex).2]
/-- **C68**, 3D. -/
theorem C68_transform_point3 (t : Transform3 S) (p : Point3 S) (ht : AllFinite t.forward) (hp : AllFinite p)
    (haff : t.forward.toReal 3 = ![0, 0, 0, 1])
    (gt : ∀ i j : Fin 3, OnGrid e M (t.forward.toReal i.castSucc j.castSucc))
    (gs : ∀ i : Fin 3, OnGrid (e + f) K (t.forward.toReal i.castSucc 3)) (gp : ∀ i, OnGrid f N (p.toReal i))
    (hF : Fits S (e + f) (3 * (M * N) + K)) :
    AllFinite (Transform.transform t p : Point3 S) ∧ ∀ i : Fin 3,
      (Transform.transform t p : Point3 S).toReal i =
        ∑ j : Fin 3, t.forward.toReal i.castSucc j.castSucc * p.toReal j + t.forward.toReal i.castSucc 3 := by
  rw [Matrix4x4.allFinite, forall_lt_16] at ht
  obtain ⟨h0, h1, h2, h3, h4, h5, h6, h7, h8, h9, h10, h11, h12, h13, h14, h15⟩ := ht
  rw [Point3.allFinite] at hp
  have hw := weight_one3 h12 h13 h14 h15 hp.1 hp.2.1 hp.2.2 (congrFun haff 0) (congrFun haff 1)
    (congrFun haff 2) (congrFun haff 3)
  have px := G.of hp.1 (gp 0)
  have py := G.of hp.2.1 (gp 1)
  have pz := G.of hp.2.2 (gp 2)
  have x := (G.dot3 (G.of h0 (gt 0 0)) (G.of h1 (gt 0 1)) (G.of h2 (gt 0 2)) px py pz
    (hF.mono (by omega))).add (G.of h3 (gs 0)) hF
  have y := (G.dot3 (G.of h4 (gt 1 0)) (G.of h5 (gt 1 1)) (G.of h6 (gt 1 2)) px py pz
    (hF.mono (by omega))).add (G.of h7 (gs 1)) hF
  have z := (G.dot3 (G.of h8 (gt 2 0)) (G.of h9 (gt 2 1)) (G.of h10 (gt 2 2)) px py pz
    (hF.mono (by omega))).add (G.of h11 (gs 2)) hF
  have key : ∀ {c : S} {r : ℝ}, Exactly c r → Exactly (c / (t.forward.m[12] * p.x + t.forward.m[13] * p.y +
      t.forward.m[14] * p.z + t.forward.m[15])) r :=
    fun {c r} hc => ⟨(finite_num (div_weight hw)).2 hc.1, (real_num (div_weight hw)).trans hc.2⟩
  refine ⟨Point3.allFinite.2 ⟨(key x.ex).1, (key y.ex).1, (key z.ex).1⟩, fun i => ?_⟩
  rw [Fin.sum_univ_three]
  fin_cases i
  exacts [(key x.ex).2, (key y.ex).2, (key z.ex).2]

/-! ### Boxes -/

theorem G.center {a b : S} {x y : ℝ} (ha : G e N a x) (hb : G e N b y) (hF : Fits S e (N + N))
    (hH : Fits S (e - 1) (N * 2 + (N + N) * 1)) :
    G (e - 1) (N * 2 + (N + N) * 1) (a + (b - a) * (half : S)) ((x + y) / 2) := by
  have hh : G (-1) 1 (half : S) (1 / 2) :=
    ⟨⟨finite_half, real_half⟩, 1, by simp, by norm_num⟩
  have h1 : Fits S (e + -1) ((N + N) * 1) := hH.mono (by omega)
  have h2 : G (e + -1) (N * 2) a x := ⟨ha.ex, by
    obtain ⟨n, hn, rfl⟩ := ha.on
    refine ⟨n * 2, ?_, ?_⟩
    · rw [abs_mul]; push_cast; simpa using hn
    · rw [Fmt.z_add]; push_cast; norm_num; ring⟩
  exact (h2.add ((hb.sub ha hF).mul hh h1) hH).congr (by ring)

/-- **C68**: the area and the centre of a 2D grid box are exact. -/
theorem C68_box2 (b : BoundingBox2 S) (hb : AllFinite b) (g0 : ∀ i, OnGrid e N (b.min.toReal i))
    (g1 : ∀ i, OnGrid e N (b.max.toReal i)) (hF : Fits S e (N + N)) :
    (Fits S (e + e) ((N + N) * (N + N)) →
      Exactly b.area ((b.max.toReal 0 - b.min.toReal 0) * (b.max.toReal 1 - b.min.toReal 1))) ∧
    (Fits S (e - 1) (4 * N) → AllFinite b.center ∧
      ∀ i, b.center.toReal i = (b.min.toReal i + b.max.toReal i) / 2) := by
  rw [BoundingBox2.allFinite, Point2.allFinite, Point2.allFinite] at hb
  have a0 := G.of hb.1.1 (g0 0)
  have a1 := G.of hb.1.2 (g0 1)
  have b0 := G.of hb.2.1 (g1 0)
  have b1 := G.of hb.2.2 (g1 1)
  refine ⟨fun h => ((b0.sub a0 hF).mul (b1.sub a1 hF) h).ex, fun h => ?_⟩
  have hH : Fits S (e - 1) (N * 2 + (N + N) * 1) := h.mono (by omega)
  have x := (a0.center b0 hF hH).ex
  have y := (a1.center b1 hF hH).ex
  refine ⟨Point2.allFinite.2 ⟨x.1, y.1⟩, fun i => ?_⟩
  fin_cases i
  exacts [x.2, y.2]
/-- **C68**: the volume, the surface area and the centre of a 3D grid box are exact. -/
theorem C68_box3 (b : BoundingBox3 S) (hb : AllFinite b) (g0 : ∀ i, OnGrid e N (b.min.toReal i))
    (g1 : ∀ i, OnGrid e N (b.max.toReal i)) (hF : Fits S e (N + N)) :
    (Fits S (e + e) ((N + N) * (N + N)) → Fits S (e + e + e) ((N + N) * (N + N) * (N + N)) →
      Exactly b.volume ((b.max.toReal 0 - b.min.toReal 0) * (b.max.toReal 1 - b.min.toReal 1) *
        (b.max.toReal 2 - b.min.toReal 2))) ∧
    (Fits S (e + e) (6 * ((N + N) * (N + N))) →
      Exactly b.surfaceArea (2 * ((b.max.toReal 0 - b.min.toReal 0) * (b.max.toReal 1 - b.min.toReal 1) +
        (b.max.toReal 0 - b.min.toReal 0) * (b.max.toReal 2 - b.min.toReal 2) +
        (b.max.toReal 1 - b.min.toReal 1) * (b.max.toReal 2 - b.min.toReal 2)))) ∧
    (Fits S (e - 1) (4 * N) → AllFinite b.center ∧
      ∀ i, b.center.toReal i = (b.min.toReal i + b.max.toReal i) / 2) := by
  rw [BoundingBox3.allFinite, Point3.allFinite, Point3.allFinite] at hb
  have a0 := G.of hb.1.1 (g0 0)
  have a1 := G.of hb.1.2.1 (g0 1)
  have a2 := G.of hb.1.2.2 (g0 2)
  have b0 := G.of hb.2.1 (g1 0)
  have b1 := G.of hb.2.2.1 (g1 1)
  have b2 := G.of hb.2.2.2 (g1 2)
  have d0 := b0.sub a0 hF
  have d1 := b1.sub a1 hF
  have d2 := b2.sub a2 hF
  refine ⟨fun h h' => ((d0.mul d1 h).mul d2 h').ex, fun h => ?_, fun h => ?_⟩
  · have h2 : G 0 2 (two : S) 2 := ⟨⟨finite_two, real_two⟩, 2, by norm_num, by norm_num⟩
    have s := ((d0.mul d1 (h.mono (by omega))).add (d0.mul d2 (h.mono (by omega))) (h.mono (by omega))).add
      (d1.mul d2 (h.mono (by omega))) (h.mono (by omega))
    have hf : Fits S (0 + (e + e)) (2 * ((N + N) * (N + N) + (N + N) * (N + N) + (N + N) * (N + N))) := by
      rw [zero_add]; exact h.mono (by omega)
    exact (h2.mul s hf).ex
  · have hH : Fits S (e - 1) (N * 2 + (N + N) * 1) := h.mono (by omega)
    have x := (a0.center b0 hF hH).ex
    have y := (a1.center b1 hF hH).ex
    have z := (a2.center b2 hF hH).ex
    refine ⟨Point3.allFinite.2 ⟨x.1, y.1, z.1⟩, fun i => ?_⟩
    fin_cases i
    exacts [x.2, y.2, z.2]

/-! ### Inverses -/

namespace G
theorem prod3 {a b c : S} {x y z : ℝ} (ha : G e N a x) (hb : G e N b y) (hc : G e N c z)
    (h2 : Fits S (e + e) (N * N)) (h3 : Fits S (e + e + e) (N * N * N)) :
    G (e + e + e) (N * N * N) (a * b * c) (x * y * z) := (ha.mul hb h2).mul hc h3
theorem six {a1 a2 a3 a4 a5 a6 : S} {x1 x2 x3 x4 x5 x6 : ℝ} (h1 : G e N a1 x1) (h2 : G e N a2 x2)
    (h3 : G e N a3 x3) (h4 : G e N a4 x4) (h5 : G e N a5 x5) (h6 : G e N a6 x6) (hF : Fits S e (6 * N)) :
    G e (6 * N) (a1 + a2 + a3 - a4 - a5 - a6) (x1 + x2 + x3 - x4 - x5 - x6) :=
  ((((((h1.add h2 (hF.mono (by omega))).add h3 (hF.mono (by omega))).sub h4 (hF.mono (by omega))).sub h5
    (hF.mono (by omega))).sub h6 (hF.mono (by omega)))).mono (by omega)
theorem bne {c : S} {x : ℝ} (h : G e N c x) : (c != Scalar.zero) = true ↔ x ≠ 0 := by
  rw [_root_.bne, Bool.not_eq_true', ← Bool.not_eq_true, ← isZero_iff, IsZero, h.ex.2]
  simp [h.ex.1]
end G

theorem inv_entry {n : ℕ} (A : Matrix (Fin n) (Fin n) ℝ) (i j : Fin n) : A⁻¹ i j = A.adjugate i j / A.det := by
  rw [Matrix.inv_def, Matrix.smul_apply, Ring.inverse_eq_inv', smul_eq_mul, div_eq_inv_mul]

theorem Matrix3x3.grid_det {m : Matrix3x3 S} (hm : AllFinite m) (g : ∀ i j, OnGrid e N (m.toReal i j))
    (h2 : Fits S (e + e) (2 * (N * N))) (h3 : Fits S (e + e + e) (6 * (N * N * N))) :
    G (e + e + e) (6 * (N * N * N)) m.det m.toReal.det := by
  have A := Matrix3x3.grid hm g
  have key := fun i h j h' k h'' => G.prod3 (A i h) (A j h') (A k h'') (h2.mono (by omega)) (h3.mono (by omega))
  have := G.six (key 0 (by omega) 4 (by omega) 8 (by omega)) (key 1 (by omega) 5 (by omega) 6 (by omega))
    (key 2 (by omega) 3 (by omega) 7 (by omega)) (key 2 (by omega) 4 (by omega) 6 (by omega))
    (key 1 (by omega) 3 (by omega) 8 (by omega)) (key 0 (by omega) 5 (by omega) 7 (by omega)) h3
  refine this.congr ?_
  rw [Matrix.det_fin_three]
  simp only [Matrix3x3.ent00, Matrix3x3.ent01, Matrix3x3.ent02, Matrix3x3.ent10, Matrix3x3.ent11, Matrix3x3.ent12,
    Matrix3x3.ent20, Matrix3x3.ent21, Matrix3x3.ent22]
  ring

/-- **C68**: for a 3x3 grid matrix the invertibility test is exact. -/
theorem C68_invertible3x3 (m : Matrix3x3 S) (hm : AllFinite m) (g : ∀ i j, OnGrid e N (m.toReal i j))
    (h2 : Fits S (e + e) (2 * (N * N))) (h3 : Fits S (e + e + e) (6 * (N * N * N))) :
    (∃ r, m.inverse = .ok r) ↔ IsUnit m.toReal := by
  rw [Matrix.isUnit_iff_isUnit_det, isUnit_iff_ne_zero, ← (Matrix3x3.grid_det hm g h2 h3).bne, Matrix3x3.inverse]
  by_cases h : (m.det != zero) = true <;> simp [h]

/-- **C68**: the inverse of a 3x3 grid matrix is exact whenever the entries of the exact inverse are numbers of a
grid that fits (for instance when the matrix has integer entries and determinant `±1`). -/
theorem C68_inverse3x3 (m : Matrix3x3 S) (hm : AllFinite m) (g : ∀ i j, OnGrid e N (m.toReal i j))
    (h2 : Fits S (e + e) (2 * (N * N))) (h3 : Fits S (e + e + e) (6 * (N * N * N)))
    (hu : IsUnit m.toReal) (hi : ∀ i j, OnGrid d K (m.toReal⁻¹ i j)) (hK : Fits S d K) :
    ∃ r, m.inverse = .ok r ∧ AllFinite r ∧ r.toReal = m.toReal⁻¹ := by
  have hd := Matrix3x3.grid_det hm g h2 h3
  have h0 : m.toReal.det ≠ 0 := isUnit_iff_ne_zero.1 ((Matrix.isUnit_iff_isUnit_det _).1 hu)
  have hb := hd.bne.2 h0
  rw [Matrix3x3.inverse]
  simp only [hb, if_true]
  refine ⟨_, rfl, ?_⟩
  have A := Matrix3x3.grid hm g
  have e1 := fun i j => congrFun (congrFun (Matrix.adjugate_fin_three m.toReal) i) j
  simp only [Matrix3x3.ent00, Matrix3x3.ent01, Matrix3x3.ent02, Matrix3x3.ent10, Matrix3x3.ent11, Matrix3x3.ent12,
    Matrix3x3.ent20, Matrix3x3.ent21, Matrix3x3.ent22] at e1
  have key : ∀ p (_ : p < 9) q (_ : q < 9) r (_ : r < 9) s (_ : s < 9) (i j : Fin 3),
      real m.m[p] * real m.m[q] - real m.m[r] * real m.m[s] = m.toReal.adjugate i j →
      Exactly ((m.m[p] * m.m[q] - m.m[r] * m.m[s]) / m.det) (m.toReal⁻¹ i j) := by
    intro p hp q hq r hr s hs i j h
    have := ((A p hp).two (A r hr) (A q hq) (A s hs) h2).congr h
    have h' := hi i j
    rw [inv_entry] at h' ⊢
    exact (this.div hd h0 h' hK).ex
  have k00 := key 4 (by omega) 8 (by omega) 5 (by omega) 7 (by omega) 0 0 ((show _ = _ by simp; try ring).trans (e1 0 0).symm)
  have k01 := key 2 (by omega) 7 (by omega) 1 (by omega) 8 (by omega) 0 1 ((show _ = _ by simp; try ring).trans (e1 0 1).symm)
  have k02 := key 1 (by omega) 5 (by omega) 2 (by omega) 4 (by omega) 0 2 ((show _ = _ by simp; try ring).trans (e1 0 2).symm)
  have k10 := key 5 (by omega) 6 (by omega) 3 (by omega) 8 (by omega) 1 0 ((show _ = _ by simp; try ring).trans (e1 1 0).symm)
  have k11 := key 0 (by omega) 8 (by omega) 2 (by omega) 6 (by omega) 1 1 ((show _ = _ by simp; try ring).trans (e1 1 1).symm)
  have k12 := key 2 (by omega) 3 (by omega) 0 (by omega) 5 (by omega) 1 2 ((show _ = _ by simp; try ring).trans (e1 1 2).symm)
  have k20 := key 3 (by omega) 7 (by omega) 4 (by omega) 6 (by omega) 2 0 ((show _ = _ by simp; try ring).trans (e1 2 0).symm)
  have k21 := key 1 (by omega) 6 (by omega) 0 (by omega) 7 (by omega) 2 1 ((show _ = _ by simp; try ring).trans (e1 2 1).symm)
  have k22 := key 0 (by omega) 4 (by omega) 1 (by omega) 3 (by omega) 2 2 ((show _ = _ by simp; try ring).trans (e1 2 2).symm)
  refine ⟨?_, ?_⟩
  · rw [Matrix3x3.allFinite, forall_lt_9]
    exact ⟨k00.1, k01.1, k02.1, k10.1, k11.1, k12.1, k20.1, k21.1, k22.1⟩
  · ext i j
    fin_cases i <;> fin_cases j
    exacts [k00.2, k01.2, k02.2, k10.2, k11.2, k12.2, k20.2, k21.2, k22.2]

theorem Matrix4x4.grid_sub {m : Matrix4x4 S} (hm : AllFinite m) (g : ∀ i j, OnGrid e N (m.toReal i j))
    (i j : Fin 4) (r c : Fin 3) : G e N (m.sub i j r c) (m.toReal.submatrix i.succAbove j.succAbove r c) := by
  rw [← Matrix4x4.real_sub]
  refine G.of ?_ (by rw [Matrix4x4.real_sub]; exact g _ _)
  exact Matrix4x4.allFinite.1 hm _ _
theorem Matrix4x4.grid_cofactor {m : Matrix4x4 S} (hm : AllFinite m) (g : ∀ i j, OnGrid e N (m.toReal i j))
    (h2 : Fits S (e + e) (N * N)) (h3 : Fits S (e + e + e) (6 * (N * N * N))) (i j : Fin 4) :
    G (e + e + e) (6 * (N * N * N)) (m.cofactor i j) (m.toReal.adjugate j i) := by
  have A := Matrix4x4.grid_sub hm g i j
  have key := fun r c r' c' r'' c'' => G.prod3 (A r c) (A r' c') (A r'' c'') h2 (h3.mono (by omega))
  have s := G.six (key 0 0 1 1 2 2) (key 0 1 1 2 2 0) (key 0 2 1 0 2 1) (key 0 0 1 2 2 1) (key 0 1 1 0 2 2)
    (key 0 2 1 1 2 0) h3
  have hs : G 0 1 (if (i.val + j.val) % 2 == 0 then one else -one : S) ((-1) ^ (i.val + j.val)) := by
    refine ⟨⟨?_, Matrix4x4.real_sign i j⟩, (-1) ^ (i.val + j.val), by simp, by simp⟩
    split_ifs
    · exact finite_one
    · exact finite_neg.2 finite_one
  have := (hs.mul s (by rw [zero_add, one_mul]; exact h3)).exp (zero_add _)
  rw [one_mul] at this
  unfold Matrix4x4.cofactor
  refine this.congr ?_
  rw [Matrix.adjugate_fin_succ_eq_det_submatrix, Matrix.det_fin_three]
  ring
theorem Matrix4x4.grid_det {m : Matrix4x4 S} (hm : AllFinite m) (g : ∀ i j, OnGrid e N (m.toReal i j))
    (h2 : Fits S (e + e) (N * N)) (h3 : Fits S (e + e + e) (6 * (N * N * N)))
    (h4 : Fits S (e + (e + e + e)) (24 * (N * N * N * N))) :
    G (e + (e + e + e)) (24 * (N * N * N * N)) (m.detOf m.adjugate) m.toReal.det := by
  have A := Matrix4x4.grid hm g
  have C := Matrix4x4.grid_cofactor hm g h2 h3
  have hN : 4 * (N * (6 * (N * N * N))) = 24 * (N * N * N * N) := by ring
  have := G.dot4 (A 0 (by omega)) (A 1 (by omega)) (A 2 (by omega)) (A 3 (by omega)) (C 0 0) (C 0 1) (C 0 2) (C 0 3)
    (by rw [hN]; exact h4)
  rw [hN] at this
  refine G.congr (c := m.detOf m.adjugate) this ?_
  have e := congrFun (congrFun (Matrix.mul_adjugate m.toReal) 0) 0
  rw [Matrix.mul_apply, Fin.sum_univ_four] at e
  simp only [Matrix.smul_apply, Matrix.one_apply_eq, smul_eq_mul, mul_one] at e
  exact e

/-- **C68**: for a 4x4 grid matrix the invertibility test is exact. -/
theorem C68_invertible4x4 (m : Matrix4x4 S) (hm : AllFinite m) (g : ∀ i j, OnGrid e N (m.toReal i j))
    (h2 : Fits S (e + e) (N * N)) (h3 : Fits S (e + e + e) (6 * (N * N * N)))
    (h4 : Fits S (e + (e + e + e)) (24 * (N * N * N * N))) :
    (∃ r, m.inverse = .ok r) ↔ IsUnit m.toReal := by
  rw [Matrix.isUnit_iff_isUnit_det, isUnit_iff_ne_zero, ← (Matrix4x4.grid_det hm g h2 h3 h4).bne, Matrix4x4.inverse]
  by_cases h : (m.detOf m.adjugate != zero) = true <;> simp [h]

/-- **C68**, 4x4 inverse. -/
theorem C68_inverse4x4 (m : Matrix4x4 S) (hm : AllFinite m) (g : ∀ i j, OnGrid e N (m.toReal i j))
    (h2 : Fits S (e + e) (N * N)) (h3 : Fits S (e + e + e) (6 * (N * N * N)))
    (h4 : Fits S (e + (e + e + e)) (24 * (N * N * N * N)))
    (hu : IsUnit m.toReal) (hi : ∀ i j, OnGrid d K (m.toReal⁻¹ i j)) (hK : Fits S d K) :
    ∃ r, m.inverse = .ok r ∧ AllFinite r ∧ r.toReal = m.toReal⁻¹ := by
  have hd := Matrix4x4.grid_det hm g h2 h3 h4
  have h0 : m.toReal.det ≠ 0 := isUnit_iff_ne_zero.1 ((Matrix.isUnit_iff_isUnit_det _).1 hu)
  have hb := hd.bne.2 h0
  rw [Matrix4x4.inverse]
  simp only [hb, if_true]
  refine ⟨_, rfl, ?_⟩
  have ent : ∀ i j : Fin 4, (m.adjugate / m.detOf m.adjugate).m[4 * i.val + j.val] =
      m.cofactor j i / m.detOf m.adjugate := by
    intro i j
    rw [Matrix4x4.divs _ _ _ (by omega)]
    fin_cases i <;> fin_cases j <;> rfl
  have key : ∀ i j : Fin 4, Exactly ((m.adjugate / m.detOf m.adjugate).m[4 * i.val + j.val]) (m.toReal⁻¹ i j) := by
    intro i j
    have h' := hi i j
    rw [ent]
    rw [inv_entry] at h' ⊢
    exact ((Matrix4x4.grid_cofactor hm g h2 h3 j i).div hd h0 h' hK).ex
  constructor
  · rw [Matrix4x4.allFinite]
    intro i h
    have := (key ⟨i / 4, by omega⟩ ⟨i % 4, by omega⟩).1
    simpa only [show 4 * (i / 4) + i % 4 = i by omega] using this
  · ext i j
    exact (key i j).2

end VecMath
