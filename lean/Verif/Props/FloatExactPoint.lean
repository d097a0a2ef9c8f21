import Verif.Props.FloatExact
import Verif.Props.FloatExamples11
/-! # C68 for points, scaled vectors and rays. Generated by tools/gen/exactp.py -/
open Classical

namespace VecMath
open Scalar IEEE
section
variable {S : Type} [Scalar S] [IEEE S] [Binary S] {e f : ℤ} {K M N : ℕ}

/-- **C68**: the difference of two points, and a point plus or minus a vector, 2D. -/
theorem C68_point2 (p q : Point2 S) (v : Vector2 S) (hp : AllFinite p) (hq : AllFinite q) (hv : AllFinite v)
    (gp : ∀ i, OnGrid e M (p.toReal i)) (gq : ∀ i, OnGrid e N (q.toReal i)) (gv : ∀ i, OnGrid e N (v.toReal i))
    (hF : Fits S e (M + N)) :
    (AllFinite (p - q : Vector2 S) ∧ ∀ i, (p - q : Vector2 S).toReal i = p.toReal i - q.toReal i) ∧
    (AllFinite (p + v) ∧ ∀ i, (p + v).toReal i = p.toReal i + v.toReal i) ∧
    (AllFinite (p - v : Point2 S) ∧ ∀ i, (p - v : Point2 S).toReal i = p.toReal i - v.toReal i) := by
  rw [Point2.allFinite] at hp hq
  rw [Vector2.allFinite] at hv
  have dx := (G.of hp.1 (gp 0)).sub (G.of hq.1 (gq 0)) hF
  have ax := (G.of hp.1 (gp 0)).add (G.of hv.1 (gv 0)) hF
  have sx := (G.of hp.1 (gp 0)).sub (G.of hv.1 (gv 0)) hF
  have dy := (G.of hp.2 (gp 1)).sub (G.of hq.2 (gq 1)) hF
  have ay := (G.of hp.2 (gp 1)).add (G.of hv.2 (gv 1)) hF
  have sy := (G.of hp.2 (gp 1)).sub (G.of hv.2 (gv 1)) hF
  refine ⟨⟨Vector2.allFinite.2 ⟨dx.ex.1, dy.ex.1⟩, fun i => ?_⟩, ⟨Point2.allFinite.2 ⟨ax.ex.1, ay.ex.1⟩, fun i => ?_⟩,
    ⟨Point2.allFinite.2 ⟨sx.ex.1, sy.ex.1⟩, fun i => ?_⟩⟩ <;> fin_cases i
  exacts [dx.ex.2, dy.ex.2, ax.ex.2, ay.ex.2, sx.ex.2, sy.ex.2]
/-- **C68**: a vector times a number, 2D. -/
theorem C68_scale2 (v : Vector2 S) (s : S) (hv : AllFinite v) (hs : IsFinite s) (gv : ∀ i, OnGrid e M (v.toReal i))
    (gs : OnGrid f N (real s)) (hF : Fits S (e + f) (M * N)) :
    AllFinite (v * s) ∧ ∀ i, (v * s).toReal i = v.toReal i * real s := by
  rw [Vector2.allFinite] at hv
  have mx := (G.of hv.1 (gv 0)).mul (G.of hs gs) hF
  have my := (G.of hv.2 (gv 1)).mul (G.of hs gs) hF
  refine ⟨Vector2.allFinite.2 ⟨mx.ex.1, my.ex.1⟩, fun i => ?_⟩
  fin_cases i
  exacts [mx.ex.2, my.ex.2]

/-- **C68**: the difference of two points, and a point plus or minus a vector, 3D. -/
theorem C68_point3 (p q : Point3 S) (v : Vector3 S) (hp : AllFinite p) (hq : AllFinite q) (hv : AllFinite v)
    (gp : ∀ i, OnGrid e M (p.toReal i)) (gq : ∀ i, OnGrid e N (q.toReal i)) (gv : ∀ i, OnGrid e N (v.toReal i))
    (hF : Fits S e (M + N)) :
    (AllFinite (p - q : Vector3 S) ∧ ∀ i, (p - q : Vector3 S).toReal i = p.toReal i - q.toReal i) ∧
    (AllFinite (p + v) ∧ ∀ i, (p + v).toReal i = p.toReal i + v.toReal i) ∧
    (AllFinite (p - v : Point3 S) ∧ ∀ i, (p - v : Point3 S).toReal i = p.toReal i - v.toReal i) := by
  rw [Point3.allFinite] at hp hq
  rw [Vector3.allFinite] at hv
  have dx := (G.of hp.1 (gp 0)).sub (G.of hq.1 (gq 0)) hF
  have ax := (G.of hp.1 (gp 0)).add (G.of hv.1 (gv 0)) hF
  have sx := (G.of hp.1 (gp 0)).sub (G.of hv.1 (gv 0)) hF
  have dy := (G.of hp.2.1 (gp 1)).sub (G.of hq.2.1 (gq 1)) hF
  have ay := (G.of hp.2.1 (gp 1)).add (G.of hv.2.1 (gv 1)) hF
  have sy := (G.of hp.2.1 (gp 1)).sub (G.of hv.2.1 (gv 1)) hF
  have dz := (G.of hp.2.2 (gp 2)).sub (G.of hq.2.2 (gq 2)) hF
  have az := (G.of hp.2.2 (gp 2)).add (G.of hv.2.2 (gv 2)) hF
  have sz := (G.of hp.2.2 (gp 2)).sub (G.of hv.2.2 (gv 2)) hF
  refine ⟨⟨Vector3.allFinite.2 ⟨dx.ex.1, dy.ex.1, dz.ex.1⟩, fun i => ?_⟩, ⟨Point3.allFinite.2 ⟨ax.ex.1, ay.ex.1, az.ex.1⟩, fun i => ?_⟩,
    ⟨Point3.allFinite.2 ⟨sx.ex.1, sy.ex.1, sz.ex.1⟩, fun i => ?_⟩⟩ <;> fin_cases i
  exacts [dx.ex.2, dy.ex.2, dz.ex.2, ax.ex.2, ay.ex.2, az.ex.2, sx.ex.2, sy.ex.2, sz.ex.2]
/-- **C68**: a vector times a number, 3D. -/
theorem C68_scale3 (v : Vector3 S) (s : S) (hv : AllFinite v) (hs : IsFinite s) (gv : ∀ i, OnGrid e M (v.toReal i))
    (gs : OnGrid f N (real s)) (hF : Fits S (e + f) (M * N)) :
    AllFinite (v * s) ∧ ∀ i, (v * s).toReal i = v.toReal i * real s := by
  rw [Vector3.allFinite] at hv
  have mx := (G.of hv.1 (gv 0)).mul (G.of hs gs) hF
  have my := (G.of hv.2.1 (gv 1)).mul (G.of hs gs) hF
  have mz := (G.of hv.2.2 (gv 2)).mul (G.of hs gs) hF
  refine ⟨Vector3.allFinite.2 ⟨mx.ex.1, my.ex.1, mz.ex.1⟩, fun i => ?_⟩
  fin_cases i
  exacts [mx.ex.2, my.ex.2, mz.ex.2]

/-- **C68**: transformed rays, 2D. -/
theorem C68_transform_ray2 (t : Transform2 S) (r : Ray2 S) (ht : AllFinite t.forward) (ho : AllFinite r.origin)
    (hd : AllFinite r.direction) (haff : t.forward.toReal 2 = ![0, 0, 1])
    (gt : ∀ i j : Fin 2, OnGrid e M (t.forward.toReal i.castSucc j.castSucc))
    (gs : ∀ i : Fin 2, OnGrid (e + f) K (t.forward.toReal i.castSucc 2))
    (go : ∀ i, OnGrid f N (r.origin.toReal i)) (gd : ∀ i, OnGrid f N (r.direction.toReal i))
    (hF : Fits S (e + f) (2 * (M * N) + K)) :
    (AllFinite (Transform.transform t r : Ray2 S).origin ∧ ∀ i : Fin 2, (Transform.transform t r : Ray2 S).origin.toReal i =
      ∑ j : Fin 2, t.forward.toReal i.castSucc j.castSucc * r.origin.toReal j + t.forward.toReal i.castSucc 2) ∧
    (AllFinite (Transform.transform t r : Ray2 S).direction ∧ ∀ i : Fin 2, (Transform.transform t r : Ray2 S).direction.toReal i =
      ∑ j : Fin 2, t.forward.toReal i.castSucc j.castSucc * r.direction.toReal j) :=
  ⟨C68_transform_point2 t r.origin ht ho haff gt gs go hF, C68_transform_vector2 t r.direction ht hd gt gd (hF.mono (by omega))⟩

/-- **C68**: transformed rays, 3D. -/
theorem C68_transform_ray3 (t : Transform3 S) (r : Ray3 S) (ht : AllFinite t.forward) (ho : AllFinite r.origin)
    (hd : AllFinite r.direction) (haff : t.forward.toReal 3 = ![0, 0, 0, 1])
    (gt : ∀ i j : Fin 3, OnGrid e M (t.forward.toReal i.castSucc j.castSucc))
    (gs : ∀ i : Fin 3, OnGrid (e + f) K (t.forward.toReal i.castSucc 3))
    (go : ∀ i, OnGrid f N (r.origin.toReal i)) (gd : ∀ i, OnGrid f N (r.direction.toReal i))
    (hF : Fits S (e + f) (3 * (M * N) + K)) :
    (AllFinite (Transform.transform t r : Ray3 S).origin ∧ ∀ i : Fin 3, (Transform.transform t r : Ray3 S).origin.toReal i =
      ∑ j : Fin 3, t.forward.toReal i.castSucc j.castSucc * r.origin.toReal j + t.forward.toReal i.castSucc 3) ∧
    (AllFinite (Transform.transform t r : Ray3 S).direction ∧ ∀ i : Fin 3, (Transform.transform t r : Ray3 S).direction.toReal i =
      ∑ j : Fin 3, t.forward.toReal i.castSucc j.castSucc * r.direction.toReal j) :=
  ⟨C68_transform_point3 t r.origin ht ho haff gt gs go hF, C68_transform_vector3 t r.direction ht hd gt gd (hF.mono (by omega))⟩
end

/-! ## concrete cases: `(3, 4) · 7` and the like -/
example := C68_point2 (e := 0) (M := 9) (N := 9) (⟨int32 3, int32 (-4)⟩ : Point2 F32) ⟨int32 9, int32 1⟩ ⟨int32 5, int32 0⟩
  (Point2.allFinite.2 ⟨trivial, trivial⟩) (Point2.allFinite.2 ⟨trivial, trivial⟩) (Vector2.allFinite.2 ⟨trivial, trivial⟩)
  (by intro i; fin_cases i; exacts [OnGrid.int (n := 3) (by norm_num), OnGrid.int (n := -4) (by norm_num)])
  (by intro i; fin_cases i; exacts [OnGrid.int (n := 9) (by norm_num), OnGrid.int (n := 1) (by norm_num)])
  (by intro i; fin_cases i; exacts [OnGrid.int (n := 5) (by norm_num), OnGrid.int (n := 0) (by norm_num)]) (fits_f32 (by norm_num))
example := C68_scale2 (e := 0) (f := 0) (M := 4) (N := 7) (⟨int32 3, int32 (-4)⟩ : Vector2 F32) (int32 7)
  (Vector2.allFinite.2 ⟨trivial, trivial⟩) trivial
  (by intro i; fin_cases i; exacts [OnGrid.int (n := 3) (by norm_num), OnGrid.int (n := -4) (by norm_num)])
  (OnGrid.int (n := 7) (by norm_num)) (fits_f32 (by norm_num))
example := C68_point3 (e := 0) (M := 9) (N := 9) (⟨int32 3, int32 (-4), int32 2⟩ : Point3 F32) ⟨int32 9, int32 1, int32 6⟩ ⟨int32 5, int32 0, int32 8⟩
  (Point3.allFinite.2 ⟨trivial, trivial, trivial⟩) (Point3.allFinite.2 ⟨trivial, trivial, trivial⟩) (Vector3.allFinite.2 ⟨trivial, trivial, trivial⟩)
  (by intro i; fin_cases i; exacts [OnGrid.int (n := 3) (by norm_num), OnGrid.int (n := -4) (by norm_num), OnGrid.int (n := 2) (by norm_num)])
  (by intro i; fin_cases i; exacts [OnGrid.int (n := 9) (by norm_num), OnGrid.int (n := 1) (by norm_num), OnGrid.int (n := 6) (by norm_num)])
  (by intro i; fin_cases i; exacts [OnGrid.int (n := 5) (by norm_num), OnGrid.int (n := 0) (by norm_num), OnGrid.int (n := 8) (by norm_num)]) (fits_f32 (by norm_num))
example := C68_scale3 (e := 0) (f := 0) (M := 4) (N := 7) (⟨int32 3, int32 (-4), int32 2⟩ : Vector3 F32) (int32 7)
  (Vector3.allFinite.2 ⟨trivial, trivial, trivial⟩) trivial
  (by intro i; fin_cases i; exacts [OnGrid.int (n := 3) (by norm_num), OnGrid.int (n := -4) (by norm_num), OnGrid.int (n := 2) (by norm_num)])
  (OnGrid.int (n := 7) (by norm_num)) (fits_f32 (by norm_num))
example := C68_transform_ray2 (e := 0) (f := 0) (K := 5) (M := 5) (N := 6) shearT.inv worldRay finite_shearInv
  (Point2.allFinite.2 ⟨trivial, trivial⟩) (Vector2.allFinite.2 ⟨trivial, trivial⟩)
  (by rw [show shearT.inv.forward = shearInv from rfl, shearInv_real]; rfl)
  (fun i j => grid_shearInv _ _) (fun i => grid_shearInv _ _)
  (by intro i; fin_cases i; exacts [OnGrid.int (n := 1) (by norm_num), OnGrid.int (n := 6) (by norm_num)])
  (by intro i; fin_cases i; exacts [OnGrid.int (n := 3) (by norm_num), OnGrid.int (n := 1) (by norm_num)]) (fits_f32 (by norm_num))
end VecMath
