import Verif.Props.FloatBoxImage
import Verif.Props.FloatExact
/-! # Layer F: transformed boxes are exact on integer and fixed-point data (C68) -/

open Classical

namespace VecMath
open Scalar IEEE

variable {S : Type} [Scalar S] [IEEE S] [Binary S] {e f : ℤ} {M N K : ℕ}

omit [Binary S] in
theorem inBox_of2 {b : BoundingBox2 S} {p : Point2 S} (hb : AllFinite b) (hp : AllFinite p) (hin : b.isInside p = true) :
    InBox b.min.toReal b.max.toReal p.toReal := by
  rw [BoundingBox2.allFinite, Point2.allFinite, Point2.allFinite] at hb
  rw [isInside2_iff] at hin
  rw [Point2.allFinite] at hp
  have key : ∀ {x y : S}, IsFinite x → IsFinite y → ((x ≤? y) = true) → real x ≤ real y := fun hx hy h => by
    have := (le_iff.1 h).2.2
    rwa [hx.val, hy.val, EReal.coe_le_coe_iff] at this
  intro j
  fin_cases j
  · exact ⟨key hb.1.1 hp.1 hin.1.1, key hp.1 hb.2.1 hin.1.2⟩
  · exact ⟨key hb.1.2 hp.2 hin.2.1, key hp.2 hb.2.2 hin.2.2⟩
omit [Binary S] in
theorem inBox_of3 {b : BoundingBox3 S} {p : Point3 S} (hb : AllFinite b) (hp : AllFinite p) (hin : b.isInside p = true) :
    InBox b.min.toReal b.max.toReal p.toReal := by
  rw [BoundingBox3.allFinite, Point3.allFinite, Point3.allFinite] at hb
  rw [isInside3_iff] at hin
  rw [Point3.allFinite] at hp
  have key : ∀ {x y : S}, IsFinite x → IsFinite y → ((x ≤? y) = true) → real x ≤ real y := fun hx hy h => by
    have := (le_iff.1 h).2.2
    rwa [hx.val, hy.val, EReal.coe_le_coe_iff] at this
  intro j
  fin_cases j
  · exact ⟨key hb.1.1 hp.1 hin.1.1, key hp.1 hb.2.1 hin.1.2⟩
  · exact ⟨key hb.1.2.1 hp.2.1 hin.2.1.1, key hp.2.1 hb.2.2.1 hin.2.1.2⟩
  · exact ⟨key hb.1.2.2 hp.2.2 hin.2.2.1, key hp.2.2 hb.2.2.2 hin.2.2.2⟩

/-! ### 2D -/

/-- **C68** (2D): an affine transform with grid entries takes a grid box exactly to the box spanned by the exact images of
its two corners. -/
theorem C68_transform_box2 (t : Transform2 S) (b : BoundingBox2 S) (ht : AllFinite t.forward) (hb : AllFinite b)
    (haff : t.forward.toReal 2 = ![0, 0, 1])
    (gt : ∀ i j : Fin 2, OnGrid e M (t.forward.toReal i.castSucc j.castSucc))
    (gs : ∀ i : Fin 2, OnGrid (e + f) K (t.forward.toReal i.castSucc 2)) (gmin : ∀ i, OnGrid f N (b.min.toReal i))
    (gmax : ∀ i, OnGrid f N (b.max.toReal i)) (hf : Fits S f (N + N)) (hF : Fits S (e + f) (2 * (M * (N + N)) + K)) :
    AllFinite (Transform.transform t b.min : Point2 S) ∧
    AllFinite ((Transform.transform t b.min : Point2 S) + (Transform.transform t b.diagonal : Vector2 S)) ∧
    AllFinite (Transform.transform t b : BoundingBox2 S) ∧ ∀ i,
      (Transform.transform t b : BoundingBox2 S).min.toReal i =
        min (image t.forward.toReal b.min.toReal i) (image t.forward.toReal b.max.toReal i) ∧
      (Transform.transform t b : BoundingBox2 S).max.toReal i =
        max (image t.forward.toReal b.min.toReal i) (image t.forward.toReal b.max.toReal i) := by
  have hb' := hb
  rw [BoundingBox2.allFinite] at hb'
  obtain ⟨hmin, hmax⟩ := hb'
  have mle : 2 * (M * N) + K ≤ 2 * (M * (N + N)) + K := by
    have : M * N ≤ M * (N + N) := Nat.mul_le_mul_left _ (by omega)
    omega
  have hP := C68_transform_point2 t b.min ht hmin haff gt gs gmin (hF.mono mle)
  rw [Point2.allFinite] at hmin hmax
  have d0 := (G.of hmax.1 (gmax 0)).sub (G.of hmin.1 (gmin 0)) hf
  have d1 := (G.of hmax.2 (gmax 1)).sub (G.of hmin.2 (gmin 1)) hf
  have fdiag : AllFinite b.diagonal := Vector2.allFinite.2 ⟨d0.ex.1, d1.ex.1⟩
  have ediag : ∀ j, b.diagonal.toReal j = b.max.toReal j - b.min.toReal j := by
    intro j; fin_cases j
    · exact d0.ex.2
    · exact d1.ex.2
  have hV := C68_transform_vector2 t b.diagonal ht fdiag gt (fun j => by rw [ediag]; exact (gmax j).sub (gmin j)) (hF.mono (by omega))
  have gimg : ∀ (x : Fin 2 → ℝ), (∀ i, OnGrid f N (x i)) → ∀ i, OnGrid (e + f) (2 * (M * (N + N)) + K) (image t.forward.toReal x i) := by
    intro x gx i
    unfold image
    rw [Fin.sum_univ_two]
    exact ((((gt i 0).mul (gx 0)).add ((gt i 1).mul (gx 1))).add (gs i)).mono (by
      refine le_trans ?_ mle; omega)
  have esum : ∀ i, (Transform.transform t b.min : Point2 S).toReal i + (Transform.transform t b.diagonal : Vector2 S).toReal i =
      image t.forward.toReal b.max.toReal i := by
    intro i
    rw [hP.2, hV.2]
    unfold image
    simp only [ediag, mul_sub, Finset.sum_sub_distrib]
    show _ + t.forward.toReal i.castSucc 2 + _ = _ + t.forward.toReal i.castSucc 2
    ring
  have fP := hP.1
  rw [Point2.allFinite] at fP
  have fV := hV.1
  rw [Vector2.allFinite] at fV
  have gim := gimg _ gmax
  have s0 : Exactly ((Transform.transform t b.min : Point2 S) + (Transform.transform t b.diagonal : Vector2 S)).x (image t.forward.toReal b.max.toReal 0) :=
    Correct.grid (by have h := correct_add fP.1 fV.1; rwa [show real (Transform.transform t b.min : Point2 S).x + real (Transform.transform t b.diagonal : Vector2 S).x = _ from esum 0] at h) (gim 0) hF
  have s1 : Exactly ((Transform.transform t b.min : Point2 S) + (Transform.transform t b.diagonal : Vector2 S)).y (image t.forward.toReal b.max.toReal 1) :=
    Correct.grid (by have h := correct_add fP.2 fV.2; rwa [show real (Transform.transform t b.min : Point2 S).y + real (Transform.transform t b.diagonal : Vector2 S).y = _ from esum 1] at h) (gim 1) hF
  have hbeq := C56_float_span2 t b (Point2.noNaN.2 ⟨fP.1.not_nan, fP.2.not_nan⟩) (Point2.noNaN.2 ⟨s0.1.not_nan, s1.1.not_nan⟩)
  rw [BoundingBox2.beq_iff, Point2.beq_iff, Point2.beq_iff] at hbeq
  obtain ⟨⟨lx, ly⟩, ⟨rx, ry⟩⟩ := hbeq
  obtain ⟨⟨fn0, en0⟩, fx0, ex0⟩ := finite_minmax fP.1 s0.1
  obtain ⟨gn0, dn0⟩ := finite_of_beq lx fn0
  obtain ⟨gx0, dx0⟩ := finite_of_beq rx fx0
  have mn0 := dn0.trans (en0.trans (congrArg₂ min (hP.2 0) s0.2))
  have mx0 := dx0.trans (ex0.trans (congrArg₂ max (hP.2 0) s0.2))
  obtain ⟨⟨fn1, en1⟩, fx1, ex1⟩ := finite_minmax fP.2 s1.1
  obtain ⟨gn1, dn1⟩ := finite_of_beq ly fn1
  obtain ⟨gx1, dx1⟩ := finite_of_beq ry fx1
  have mn1 := dn1.trans (en1.trans (congrArg₂ min (hP.2 1) s1.2))
  have mx1 := dx1.trans (ex1.trans (congrArg₂ max (hP.2 1) s1.2))
  refine ⟨hP.1, Point2.allFinite.2 ⟨s0.1, s1.1⟩, BoundingBox2.allFinite.2 ⟨Point2.allFinite.2 ⟨gn0, gn1⟩, Point2.allFinite.2 ⟨gx0, gx1⟩⟩, fun i => ?_⟩
  fin_cases i
  · exact ⟨mn0, mx0⟩
  · exact ⟨mn1, mx1⟩

/-- **C68** (2D): with such data the transformed box contains the image of every grid point of the box, if no row of the
linear part has mixed signs. -/
theorem C68_transform_box_contains2 (t : Transform2 S) (b : BoundingBox2 S) (ht : AllFinite t.forward) (hb : AllFinite b)
    (haff : t.forward.toReal 2 = ![0, 0, 1])
    (gt : ∀ i j : Fin 2, OnGrid e M (t.forward.toReal i.castSucc j.castSucc))
    (gs : ∀ i : Fin 2, OnGrid (e + f) K (t.forward.toReal i.castSucc 2)) (gmin : ∀ i, OnGrid f N (b.min.toReal i))
    (gmax : ∀ i, OnGrid f N (b.max.toReal i)) (hf : Fits S f (N + N)) (hF : Fits S (e + f) (2 * (M * (N + N)) + K))
    (hsign : OneSigned t.forward.toReal) (p : Point2 S) (hp : AllFinite p) (gp : ∀ i, OnGrid f N (p.toReal i))
    (hin : b.isInside p = true) :
    (Transform.transform t b : BoundingBox2 S).isInside (Transform.transform t p : Point2 S) = true := by
  obtain ⟨-, -, fb, hB⟩ := C68_transform_box2 t b ht hb haff gt gs gmin gmax hf hF
  have mle : 2 * (M * N) + K ≤ 2 * (M * (N + N)) + K := by
    have : M * N ≤ M * (N + N) := Nat.mul_le_mul_left _ (by omega)
    omega
  obtain ⟨fp, hp2⟩ := C68_transform_point2 t p ht hp haff gt gs gp (hF.mono mle)
  have hx : InBox b.min.toReal b.max.toReal p.toReal := inBox_of2 hb hp hin
  have hi : ∀ i, (Transform.transform t b : BoundingBox2 S).min.toReal i ≤ (Transform.transform t p : Point2 S).toReal i ∧
      (Transform.transform t p : Point2 S).toReal i ≤ (Transform.transform t b : BoundingBox2 S).max.toReal i := by
    intro i
    rw [(hB i).1, (hB i).2, hp2 i]
    exact image_between hsign hx i
  rw [isInside2_iff]
  rw [BoundingBox2.allFinite, Point2.allFinite, Point2.allFinite] at fb
  rw [Point2.allFinite] at fp
  have key : ∀ {x y : S}, IsFinite x → IsFinite y → real x ≤ real y → (x ≤? y) = true := fun hx hy h =>
    le_iff.2 ⟨hx.not_nan, hy.not_nan, by rw [hx.val, hy.val]; exact EReal.coe_le_coe_iff.2 h⟩
  exact ⟨⟨key fb.1.1 fp.1 (hi 0).1, key fp.1 fb.2.1 (hi 0).2⟩, ⟨key fb.1.2 fp.2 (hi 1).1, key fp.2 fb.2.2 (hi 1).2⟩⟩

/-! ### 3D -/

/-- **C68** (3D): an affine transform with grid entries takes a grid box exactly to the box spanned by the exact images of
its two corners. -/
theorem C68_transform_box3 (t : Transform3 S) (b : BoundingBox3 S) (ht : AllFinite t.forward) (hb : AllFinite b)
    (haff : t.forward.toReal 3 = ![0, 0, 0, 1])
    (gt : ∀ i j : Fin 3, OnGrid e M (t.forward.toReal i.castSucc j.castSucc))
    (gs : ∀ i : Fin 3, OnGrid (e + f) K (t.forward.toReal i.castSucc 3)) (gmin : ∀ i, OnGrid f N (b.min.toReal i))
    (gmax : ∀ i, OnGrid f N (b.max.toReal i)) (hf : Fits S f (N + N)) (hF : Fits S (e + f) (3 * (M * (N + N)) + K)) :
    AllFinite (Transform.transform t b.min : Point3 S) ∧
    AllFinite ((Transform.transform t b.min : Point3 S) + (Transform.transform t b.diagonal : Vector3 S)) ∧
    AllFinite (Transform.transform t b : BoundingBox3 S) ∧ ∀ i,
      (Transform.transform t b : BoundingBox3 S).min.toReal i =
        min (image t.forward.toReal b.min.toReal i) (image t.forward.toReal b.max.toReal i) ∧
      (Transform.transform t b : BoundingBox3 S).max.toReal i =
        max (image t.forward.toReal b.min.toReal i) (image t.forward.toReal b.max.toReal i) := by
  have hb' := hb
  rw [BoundingBox3.allFinite] at hb'
  obtain ⟨hmin, hmax⟩ := hb'
  have mle : 3 * (M * N) + K ≤ 3 * (M * (N + N)) + K := by
    have : M * N ≤ M * (N + N) := Nat.mul_le_mul_left _ (by omega)
    omega
  have hP := C68_transform_point3 t b.min ht hmin haff gt gs gmin (hF.mono mle)
  rw [Point3.allFinite] at hmin hmax
  have d0 := (G.of hmax.1 (gmax 0)).sub (G.of hmin.1 (gmin 0)) hf
  have d1 := (G.of hmax.2.1 (gmax 1)).sub (G.of hmin.2.1 (gmin 1)) hf
  have d2 := (G.of hmax.2.2 (gmax 2)).sub (G.of hmin.2.2 (gmin 2)) hf
  have fdiag : AllFinite b.diagonal := Vector3.allFinite.2 ⟨d0.ex.1, d1.ex.1, d2.ex.1⟩
  have ediag : ∀ j, b.diagonal.toReal j = b.max.toReal j - b.min.toReal j := by
    intro j; fin_cases j
    · exact d0.ex.2
    · exact d1.ex.2
    · exact d2.ex.2
  have hV := C68_transform_vector3 t b.diagonal ht fdiag gt (fun j => by rw [ediag]; exact (gmax j).sub (gmin j)) (hF.mono (by omega))
  have gimg : ∀ (x : Fin 3 → ℝ), (∀ i, OnGrid f N (x i)) → ∀ i, OnGrid (e + f) (3 * (M * (N + N)) + K) (image t.forward.toReal x i) := by
    intro x gx i
    unfold image
    rw [Fin.sum_univ_three]
    exact (((((gt i 0).mul (gx 0)).add ((gt i 1).mul (gx 1))).add ((gt i 2).mul (gx 2))).add (gs i)).mono (by
      refine le_trans ?_ mle; omega)
  have esum : ∀ i, (Transform.transform t b.min : Point3 S).toReal i + (Transform.transform t b.diagonal : Vector3 S).toReal i =
      image t.forward.toReal b.max.toReal i := by
    intro i
    rw [hP.2, hV.2]
    unfold image
    simp only [ediag, mul_sub, Finset.sum_sub_distrib]
    show _ + t.forward.toReal i.castSucc 3 + _ = _ + t.forward.toReal i.castSucc 3
    ring
  have fP := hP.1
  rw [Point3.allFinite] at fP
  have fV := hV.1
  rw [Vector3.allFinite] at fV
  have gim := gimg _ gmax
  have s0 : Exactly ((Transform.transform t b.min : Point3 S) + (Transform.transform t b.diagonal : Vector3 S)).x (image t.forward.toReal b.max.toReal 0) :=
    Correct.grid (by have h := correct_add fP.1 fV.1; rwa [show real (Transform.transform t b.min : Point3 S).x + real (Transform.transform t b.diagonal : Vector3 S).x = _ from esum 0] at h) (gim 0) hF
  have s1 : Exactly ((Transform.transform t b.min : Point3 S) + (Transform.transform t b.diagonal : Vector3 S)).y (image t.forward.toReal b.max.toReal 1) :=
    Correct.grid (by have h := correct_add fP.2.1 fV.2.1; rwa [show real (Transform.transform t b.min : Point3 S).y + real (Transform.transform t b.diagonal : Vector3 S).y = _ from esum 1] at h) (gim 1) hF
  have s2 : Exactly ((Transform.transform t b.min : Point3 S) + (Transform.transform t b.diagonal : Vector3 S)).z (image t.forward.toReal b.max.toReal 2) :=
    Correct.grid (by have h := correct_add fP.2.2 fV.2.2; rwa [show real (Transform.transform t b.min : Point3 S).z + real (Transform.transform t b.diagonal : Vector3 S).z = _ from esum 2] at h) (gim 2) hF
  have hbeq := C56_float_span3 t b (Point3.noNaN.2 ⟨fP.1.not_nan, fP.2.1.not_nan, fP.2.2.not_nan⟩) (Point3.noNaN.2 ⟨s0.1.not_nan, s1.1.not_nan, s2.1.not_nan⟩)
  rw [BoundingBox3.beq_iff, Point3.beq_iff, Point3.beq_iff] at hbeq
  obtain ⟨⟨lx, ly, lz⟩, ⟨rx, ry, rz⟩⟩ := hbeq
  obtain ⟨⟨fn0, en0⟩, fx0, ex0⟩ := finite_minmax fP.1 s0.1
  obtain ⟨gn0, dn0⟩ := finite_of_beq lx fn0
  obtain ⟨gx0, dx0⟩ := finite_of_beq rx fx0
  have mn0 := dn0.trans (en0.trans (congrArg₂ min (hP.2 0) s0.2))
  have mx0 := dx0.trans (ex0.trans (congrArg₂ max (hP.2 0) s0.2))
  obtain ⟨⟨fn1, en1⟩, fx1, ex1⟩ := finite_minmax fP.2.1 s1.1
  obtain ⟨gn1, dn1⟩ := finite_of_beq ly fn1
  obtain ⟨gx1, dx1⟩ := finite_of_beq ry fx1
  have mn1 := dn1.trans (en1.trans (congrArg₂ min (hP.2 1) s1.2))
  have mx1 := dx1.trans (ex1.trans (congrArg₂ max (hP.2 1) s1.2))
  obtain ⟨⟨fn2, en2⟩, fx2, ex2⟩ := finite_minmax fP.2.2 s2.1
  obtain ⟨gn2, dn2⟩ := finite_of_beq lz fn2
  obtain ⟨gx2, dx2⟩ := finite_of_beq rz fx2
  have mn2 := dn2.trans (en2.trans (congrArg₂ min (hP.2 2) s2.2))
  have mx2 := dx2.trans (ex2.trans (congrArg₂ max (hP.2 2) s2.2))
  refine ⟨hP.1, Point3.allFinite.2 ⟨s0.1, s1.1, s2.1⟩, BoundingBox3.allFinite.2 ⟨Point3.allFinite.2 ⟨gn0, gn1, gn2⟩, Point3.allFinite.2 ⟨gx0, gx1, gx2⟩⟩, fun i => ?_⟩
  fin_cases i
  · exact ⟨mn0, mx0⟩
  · exact ⟨mn1, mx1⟩
  · exact ⟨mn2, mx2⟩

/-- **C68** (3D): with such data the transformed box contains the image of every grid point of the box, if no row of the
linear part has mixed signs. -/
theorem C68_transform_box_contains3 (t : Transform3 S) (b : BoundingBox3 S) (ht : AllFinite t.forward) (hb : AllFinite b)
    (haff : t.forward.toReal 3 = ![0, 0, 0, 1])
    (gt : ∀ i j : Fin 3, OnGrid e M (t.forward.toReal i.castSucc j.castSucc))
    (gs : ∀ i : Fin 3, OnGrid (e + f) K (t.forward.toReal i.castSucc 3)) (gmin : ∀ i, OnGrid f N (b.min.toReal i))
    (gmax : ∀ i, OnGrid f N (b.max.toReal i)) (hf : Fits S f (N + N)) (hF : Fits S (e + f) (3 * (M * (N + N)) + K))
    (hsign : OneSigned t.forward.toReal) (p : Point3 S) (hp : AllFinite p) (gp : ∀ i, OnGrid f N (p.toReal i))
    (hin : b.isInside p = true) :
    (Transform.transform t b : BoundingBox3 S).isInside (Transform.transform t p : Point3 S) = true := by
  obtain ⟨-, -, fb, hB⟩ := C68_transform_box3 t b ht hb haff gt gs gmin gmax hf hF
  have mle : 3 * (M * N) + K ≤ 3 * (M * (N + N)) + K := by
    have : M * N ≤ M * (N + N) := Nat.mul_le_mul_left _ (by omega)
    omega
  obtain ⟨fp, hp2⟩ := C68_transform_point3 t p ht hp haff gt gs gp (hF.mono mle)
  have hx : InBox b.min.toReal b.max.toReal p.toReal := inBox_of3 hb hp hin
  have hi : ∀ i, (Transform.transform t b : BoundingBox3 S).min.toReal i ≤ (Transform.transform t p : Point3 S).toReal i ∧
      (Transform.transform t p : Point3 S).toReal i ≤ (Transform.transform t b : BoundingBox3 S).max.toReal i := by
    intro i
    rw [(hB i).1, (hB i).2, hp2 i]
    exact image_between hsign hx i
  rw [isInside3_iff]
  rw [BoundingBox3.allFinite, Point3.allFinite, Point3.allFinite] at fb
  rw [Point3.allFinite] at fp
  have key : ∀ {x y : S}, IsFinite x → IsFinite y → real x ≤ real y → (x ≤? y) = true := fun hx hy h =>
    le_iff.2 ⟨hx.not_nan, hy.not_nan, by rw [hx.val, hy.val]; exact EReal.coe_le_coe_iff.2 h⟩
  exact ⟨⟨key fb.1.1 fp.1 (hi 0).1, key fp.1 fb.2.1 (hi 0).2⟩, ⟨key fb.1.2.1 fp.2.1 (hi 1).1, key fp.2.1 fb.2.2.1 (hi 1).2⟩, ⟨key fb.1.2.2 fp.2.2 (hi 2).1, key fp.2.2 fb.2.2.2 (hi 2).2⟩⟩

end VecMath
