import Verif.Lemmas.Hit
import Verif.Props.FloatRayAcc
import Verif.Props.FloatErrorMat
import Verif.Props.FloatExamples2
/-!
# Layer F: where the hit points are

The points of a ray at the parameters `intersect` reports lie in the box, and the end points on its faces, up to an
explicit rounding error: two roundings of the distance to the face, and for the computed `ray.at(t)` those of C64.
-/


namespace VecMath
open Scalar IEEE

section
variable {S : Type} [Scalar S] [IEEE S] [Binary S]

theorem NearSlab.computed {lo hi o d t : S} {x y : ℝ} (h : NearSlab lo hi o d x 0) (hy : |y - x| ≤ atErr o d t) :
    NearSlab lo hi o d y (atErr o d t) := by
  obtain ⟨h1, h2⟩ := h
  obtain ⟨h3, h4⟩ := abs_le.1 hy
  constructor <;> linarith
theorem near_computed {c x y e f : ℝ} (h : |x - c| ≤ e + 0) (hy : |y - x| ≤ f) : |y - c| ≤ e + f := by
  have : y - c = (x - c) + (y - x) := by ring
  rw [this]; exact (abs_add_le _ _).trans (by linarith)
theorem NearEntry.computed {lo hi o d t : S} {x y : ℝ} (h : NearEntry lo hi o d x 0) (hy : |y - x| ≤ atErr o d t) :
    NearEntry lo hi o d y (atErr o d t) := by
  rcases h with ⟨h1, h2⟩ | ⟨h1, h2⟩
  · exact .inl ⟨h1, near_computed h2 hy⟩
  · exact .inr ⟨h1, near_computed h2 hy⟩
theorem NearExit.computed {lo hi o d t : S} {x y : ℝ} (h : NearExit lo hi o d x 0) (hy : |y - x| ≤ atErr o d t) :
    NearExit lo hi o d y (atErr o d t) := by
  rcases h with ⟨h1, h2⟩ | ⟨h1, h2⟩
  · exact .inl ⟨h1, near_computed h2 hy⟩
  · exact .inr ⟨h1, near_computed h2 hy⟩

/-! ### 2D -/

/-- The reported range is bounded by the crossing parameters of every slab, and each end is one of them (or `0`, `∞`). -/
theorem hit_slabs2 (b : BoundingBox2 S) (ray : Ray2 S) (i : Range S) (h : Api.intersect b ray = some i) :
    (¬ IsNaN (fmin ((b.min.x - ray.origin.x) / ray.direction.x) ((b.max.x - ray.origin.x) / ray.direction.x)) →
      val (fmin ((b.min.x - ray.origin.x) / ray.direction.x) ((b.max.x - ray.origin.x) / ray.direction.x)) ≤ val i.start) ∧
    (¬ IsNaN (fmax ((b.min.x - ray.origin.x) / ray.direction.x) ((b.max.x - ray.origin.x) / ray.direction.x)) →
      val i.stop ≤ val (fmax ((b.min.x - ray.origin.x) / ray.direction.x) ((b.max.x - ray.origin.x) / ray.direction.x))) ∧
    (¬ IsNaN (fmin ((b.min.y - ray.origin.y) / ray.direction.y) ((b.max.y - ray.origin.y) / ray.direction.y)) →
      val (fmin ((b.min.y - ray.origin.y) / ray.direction.y) ((b.max.y - ray.origin.y) / ray.direction.y)) ≤ val i.start) ∧
    (¬ IsNaN (fmax ((b.min.y - ray.origin.y) / ray.direction.y) ((b.max.y - ray.origin.y) / ray.direction.y)) →
      val i.stop ≤ val (fmax ((b.min.y - ray.origin.y) / ray.direction.y) ((b.max.y - ray.origin.y) / ray.direction.y))) ∧
    (val i.start = 0 ∨
      (¬ IsNaN (fmin ((b.min.x - ray.origin.x) / ray.direction.x) ((b.max.x - ray.origin.x) / ray.direction.x)) ∧
        val i.start = val (fmin ((b.min.x - ray.origin.x) / ray.direction.x) ((b.max.x - ray.origin.x) / ray.direction.x))) ∨
      (¬ IsNaN (fmin ((b.min.y - ray.origin.y) / ray.direction.y) ((b.max.y - ray.origin.y) / ray.direction.y)) ∧
        val i.start = val (fmin ((b.min.y - ray.origin.y) / ray.direction.y) ((b.max.y - ray.origin.y) / ray.direction.y)))) ∧
    (val i.stop = ⊤ ∨
      (¬ IsNaN (fmax ((b.min.x - ray.origin.x) / ray.direction.x) ((b.max.x - ray.origin.x) / ray.direction.x)) ∧
        val i.stop = val (fmax ((b.min.x - ray.origin.x) / ray.direction.x) ((b.max.x - ray.origin.x) / ray.direction.x))) ∨
      (¬ IsNaN (fmax ((b.min.y - ray.origin.y) / ray.direction.y) ((b.max.y - ray.origin.y) / ray.direction.y)) ∧
        val i.stop = val (fmax ((b.min.y - ray.origin.y) / ray.direction.y) ((b.max.y - ray.origin.y) / ray.direction.y)))) := by
  change b.intersectRay ray = some i at h
  simp only [BoundingBox2.intersectRay] at h
  split_ifs at h
  obtain rfl := Option.some.inj h
  set s1 : S := fmax (Scalar.zero : S) (fmin ((b.min.x - ray.origin.x) / ray.direction.x) ((b.max.x - ray.origin.x) / ray.direction.x)) with hs1
  set e1 : S := fmin (infinity : S) (fmax ((b.min.x - ray.origin.x) / ray.direction.x) ((b.max.x - ray.origin.x) / ray.direction.x)) with he1
  set s2 : S := fmax s1 (fmin ((b.min.y - ray.origin.y) / ray.direction.y) ((b.max.y - ray.origin.y) / ray.direction.y)) with hs2
  set e2 : S := fmin e1 (fmax ((b.min.y - ray.origin.y) / ray.direction.y) ((b.max.y - ray.origin.y) / ray.direction.y)) with he2
  obtain ⟨as1, bs1, cs1, -⟩ := fmax_step (s := (Scalar.zero : S)) (n := fmin ((b.min.x - ray.origin.x) / ray.direction.x) ((b.max.x - ray.origin.x) / ray.direction.x)) not_nan_zero
  obtain ⟨ae1, be1, ce1, -⟩ := fmin_step (s := (infinity : S)) (n := fmax ((b.min.x - ray.origin.x) / ray.direction.x) ((b.max.x - ray.origin.x) / ray.direction.x)) not_nan_infinity
  have gs1 := fmax_cases (s := (Scalar.zero : S)) (n := fmin ((b.min.x - ray.origin.x) / ray.direction.x) ((b.max.x - ray.origin.x) / ray.direction.x)) not_nan_zero
  have ge1 := fmin_cases (s := (infinity : S)) (n := fmax ((b.min.x - ray.origin.x) / ray.direction.x) ((b.max.x - ray.origin.x) / ray.direction.x)) not_nan_infinity
  rw [← hs1] at as1 bs1 cs1 gs1
  rw [← he1] at ae1 be1 ce1 ge1
  obtain ⟨as2, bs2, cs2, -⟩ := fmax_step (s := s1) (n := fmin ((b.min.y - ray.origin.y) / ray.direction.y) ((b.max.y - ray.origin.y) / ray.direction.y)) as1
  obtain ⟨ae2, be2, ce2, -⟩ := fmin_step (s := e1) (n := fmax ((b.min.y - ray.origin.y) / ray.direction.y) ((b.max.y - ray.origin.y) / ray.direction.y)) ae1
  have gs2 := fmax_cases (s := s1) (n := fmin ((b.min.y - ray.origin.y) / ray.direction.y) ((b.max.y - ray.origin.y) / ray.direction.y)) as1
  have ge2 := fmin_cases (s := e1) (n := fmax ((b.min.y - ray.origin.y) / ray.direction.y) ((b.max.y - ray.origin.y) / ray.direction.y)) ae1
  rw [← hs2] at as2 bs2 cs2 gs2
  rw [← he2] at ae2 be2 ce2 ge2
  refine ⟨fun hn => ((cs1 hn).trans bs2), fun hn => (be2.trans (ce1 hn)), fun hn => (cs2 hn), fun hn => (ce2 hn), ?_, ?_⟩
  · rcases gs2 with h2 | ⟨q, h2⟩
    · rcases gs1 with h1 | ⟨q, h1⟩
      · exact .inl ((h2.trans h1).trans val_zero)
      · exact (.inr (.inl ⟨q, (h2.trans h1)⟩))
    · exact (.inr (.inr ⟨q, h2⟩))
  · rcases ge2 with h2 | ⟨q, h2⟩
    · rcases ge1 with h1 | ⟨q, h1⟩
      · exact .inl ((h2.trans h1).trans val_infinity)
      · exact (.inr (.inl ⟨q, (h2.trans h1)⟩))
    · exact (.inr (.inr ⟨q, h2⟩))

/-- **C83** (2D): at every parameter of the reported range the exact point of the ray is inside the box, up to the
rounding of the two operations that locate a face. -/
theorem C83_inside2 (b : BoundingBox2 S) (ray : Ray2 S) (hf : RayFinite2 b ray) (hb : LeAll b.min b.max)
    (i : Range S) (h : Api.intersect b ray = some i) (t : S)
    (ht : IsFinite t) (h1 : (i.start ≤? t) = true) (h2 : (t ≤? i.stop) = true) :
    NearSlab b.min.x b.max.x ray.origin.x ray.direction.x (real ray.origin.x + real ray.direction.x * real t) 0 ∧
    NearSlab b.min.y b.max.y ray.origin.y ray.direction.y (real ray.origin.y + real ray.direction.y * real t) 0 := by
  obtain ⟨hfx, hfy⟩ := hf
  rw [Point2.leAll] at hb
  have lx : real b.min.x ≤ real b.max.x := real_le_of hfx.1 hfx.2.1 hb.1
  have ly : real b.min.y ≤ real b.max.y := real_le_of hfy.1 hfy.2.1 hb.2
  obtain ⟨nx, fx, ny, fy, cs, ce⟩ := hit_slabs2 b ray i h
  have v1 := (le_iff.1 h1).2.2
  have v2 := (le_iff.1 h2).2.2
  rw [ht.val] at v1 v2
  exact ⟨slab_near hfx lx (fun hn => (nx hn).trans v1) (fun hn => v2.trans (fx hn)),
    slab_near hfy ly (fun hn => (ny hn).trans v1) (fun hn => v2.trans (fy hn))⟩

/-- **C83** (2D): the start of the reported range is `0` (the ray starts inside the box), or there the exact point of the
ray is on the face through which the ray enters one of the slabs, up to rounding. -/
theorem C83_entry2 (b : BoundingBox2 S) (ray : Ray2 S) (hf : RayFinite2 b ray) (hb : LeAll b.min b.max)
    (i : Range S) (h : Api.intersect b ray = some i)
    (hs : IsFinite i.start) :
    real i.start = 0 ∨ NearEntry b.min.x b.max.x ray.origin.x ray.direction.x (real ray.origin.x + real ray.direction.x * real i.start) 0 ∨
    NearEntry b.min.y b.max.y ray.origin.y ray.direction.y (real ray.origin.y + real ray.direction.y * real i.start) 0 := by
  obtain ⟨hfx, hfy⟩ := hf
  rw [Point2.leAll] at hb
  have lx : real b.min.x ≤ real b.max.x := real_le_of hfx.1 hfx.2.1 hb.1
  have ly : real b.min.y ≤ real b.max.y := real_le_of hfy.1 hfy.2.1 hb.2
  obtain ⟨nx, fx, ny, fy, cs, ce⟩ := hit_slabs2 b ray i h
  rw [hs.val] at cs
  rcases cs with h0 | ⟨hn, h0⟩ | ⟨hn, h0⟩
  · exact .inl (by exact_mod_cast h0)
  · exact (.inr (.inl (slab_entry hfx lx hn h0.symm)))
  · exact (.inr (.inr ((slab_entry hfy ly hn h0.symm))))

/-- **C83** (2D): at a finite end of the reported range the exact point of the ray is on the face through which the ray leaves
one of the slabs, up to rounding. -/
theorem C83_exit2 (b : BoundingBox2 S) (ray : Ray2 S) (hf : RayFinite2 b ray) (hb : LeAll b.min b.max)
    (i : Range S) (h : Api.intersect b ray = some i)
    (hs : IsFinite i.stop) :
    NearExit b.min.x b.max.x ray.origin.x ray.direction.x (real ray.origin.x + real ray.direction.x * real i.stop) 0 ∨
    NearExit b.min.y b.max.y ray.origin.y ray.direction.y (real ray.origin.y + real ray.direction.y * real i.stop) 0 := by
  obtain ⟨hfx, hfy⟩ := hf
  rw [Point2.leAll] at hb
  have lx : real b.min.x ≤ real b.max.x := real_le_of hfx.1 hfx.2.1 hb.1
  have ly : real b.min.y ≤ real b.max.y := real_le_of hfy.1 hfy.2.1 hb.2
  obtain ⟨nx, fx, ny, fy, cs, ce⟩ := hit_slabs2 b ray i h
  rw [hs.val] at ce
  rcases ce with h0 | ⟨hn, h0⟩ | ⟨hn, h0⟩
  · exact absurd h0 (EReal.coe_ne_top _)
  · exact (.inl (slab_exit hfx lx hn h0.symm))
  · exact (.inr ((slab_exit hfy ly hn h0.symm)))

/-- **C83** (2D): the computed points `ray.at(t)` for `t` in the reported range are inside the box, up to rounding. -/
theorem C83_computed_inside2 (b : BoundingBox2 S) (ray : Ray2 S) (hf : RayFinite2 b ray) (hb : LeAll b.min b.max)
    (i : Range S) (h : Api.intersect b ray = some i) (t : S)
    (ht : AllFinite (ray.at t)) (h1 : (i.start ≤? t) = true) (h2 : (t ≤? i.stop) = true) :
    NearSlab b.min.x b.max.x ray.origin.x ray.direction.x (real (ray.at t).x) (atErr ray.origin.x ray.direction.x t) ∧
    NearSlab b.min.y b.max.y ray.origin.y ray.direction.y (real (ray.at t).y) (atErr ray.origin.y ray.direction.y t) := by
  have hat := C64_at2 ray t ht
  rw [Point2.allFinite] at ht
  have tf : IsFinite t := (finite_of_mul (finite_of_add ht.1).2).2
  have hin := C83_inside2 b ray hf hb i h t tf h1 h2
  exact ⟨hin.1.computed hat.1, hin.2.computed hat.2⟩

/-- **C83** (2D): the computed entry point `ray.at(i.start)` is on a face of the box, up to rounding (or the ray starts
inside the box). -/
theorem C83_computed_entry2 (b : BoundingBox2 S) (ray : Ray2 S) (hf : RayFinite2 b ray) (hb : LeAll b.min b.max)
    (i : Range S) (h : Api.intersect b ray = some i)
    (ht : AllFinite (ray.at i.start)) :
    real i.start = 0 ∨ NearEntry b.min.x b.max.x ray.origin.x ray.direction.x (real (ray.at i.start).x) (atErr ray.origin.x ray.direction.x i.start) ∨
    NearEntry b.min.y b.max.y ray.origin.y ray.direction.y (real (ray.at i.start).y) (atErr ray.origin.y ray.direction.y i.start) := by
  have hat := C64_at2 ray i.start ht
  rw [Point2.allFinite] at ht
  have tf : IsFinite i.start := (finite_of_mul (finite_of_add ht.1).2).2
  rcases C83_entry2 b ray hf hb i h tf with h0 | h0 | h0
  · exact (.inl h0)
  · exact (.inr (.inl (h0.computed hat.1)))
  · exact (.inr (.inr ((h0.computed hat.2))))

/-- **C83** (2D): the computed exit point `ray.at(i.stop)` is on a face of the box, up to rounding. -/
theorem C83_computed_exit2 (b : BoundingBox2 S) (ray : Ray2 S) (hf : RayFinite2 b ray) (hb : LeAll b.min b.max)
    (i : Range S) (h : Api.intersect b ray = some i)
    (ht : AllFinite (ray.at i.stop)) :
    NearExit b.min.x b.max.x ray.origin.x ray.direction.x (real (ray.at i.stop).x) (atErr ray.origin.x ray.direction.x i.stop) ∨
    NearExit b.min.y b.max.y ray.origin.y ray.direction.y (real (ray.at i.stop).y) (atErr ray.origin.y ray.direction.y i.stop) := by
  have hat := C64_at2 ray i.stop ht
  rw [Point2.allFinite] at ht
  have tf : IsFinite i.stop := (finite_of_mul (finite_of_add ht.1).2).2
  rcases C83_exit2 b ray hf hb i h tf with h0 | h0
  · exact (.inl (h0.computed hat.1))
  · exact (.inr ((h0.computed hat.2)))

/-! ### 3D -/

/-- The reported range is bounded by the crossing parameters of every slab, and each end is one of them (or `0`, `∞`). -/
theorem hit_slabs3 (b : BoundingBox3 S) (ray : Ray3 S) (i : Range S) (h : Api.intersect b ray = some i) :
    (¬ IsNaN (fmin ((b.min.x - ray.origin.x) / ray.direction.x) ((b.max.x - ray.origin.x) / ray.direction.x)) →
      val (fmin ((b.min.x - ray.origin.x) / ray.direction.x) ((b.max.x - ray.origin.x) / ray.direction.x)) ≤ val i.start) ∧
    (¬ IsNaN (fmax ((b.min.x - ray.origin.x) / ray.direction.x) ((b.max.x - ray.origin.x) / ray.direction.x)) →
      val i.stop ≤ val (fmax ((b.min.x - ray.origin.x) / ray.direction.x) ((b.max.x - ray.origin.x) / ray.direction.x))) ∧
    (¬ IsNaN (fmin ((b.min.y - ray.origin.y) / ray.direction.y) ((b.max.y - ray.origin.y) / ray.direction.y)) →
      val (fmin ((b.min.y - ray.origin.y) / ray.direction.y) ((b.max.y - ray.origin.y) / ray.direction.y)) ≤ val i.start) ∧
    (¬ IsNaN (fmax ((b.min.y - ray.origin.y) / ray.direction.y) ((b.max.y - ray.origin.y) / ray.direction.y)) →
      val i.stop ≤ val (fmax ((b.min.y - ray.origin.y) / ray.direction.y) ((b.max.y - ray.origin.y) / ray.direction.y))) ∧
    (¬ IsNaN (fmin ((b.min.z - ray.origin.z) / ray.direction.z) ((b.max.z - ray.origin.z) / ray.direction.z)) →
      val (fmin ((b.min.z - ray.origin.z) / ray.direction.z) ((b.max.z - ray.origin.z) / ray.direction.z)) ≤ val i.start) ∧
    (¬ IsNaN (fmax ((b.min.z - ray.origin.z) / ray.direction.z) ((b.max.z - ray.origin.z) / ray.direction.z)) →
      val i.stop ≤ val (fmax ((b.min.z - ray.origin.z) / ray.direction.z) ((b.max.z - ray.origin.z) / ray.direction.z))) ∧
    (val i.start = 0 ∨
      (¬ IsNaN (fmin ((b.min.x - ray.origin.x) / ray.direction.x) ((b.max.x - ray.origin.x) / ray.direction.x)) ∧
        val i.start = val (fmin ((b.min.x - ray.origin.x) / ray.direction.x) ((b.max.x - ray.origin.x) / ray.direction.x))) ∨
      (¬ IsNaN (fmin ((b.min.y - ray.origin.y) / ray.direction.y) ((b.max.y - ray.origin.y) / ray.direction.y)) ∧
        val i.start = val (fmin ((b.min.y - ray.origin.y) / ray.direction.y) ((b.max.y - ray.origin.y) / ray.direction.y))) ∨
      (¬ IsNaN (fmin ((b.min.z - ray.origin.z) / ray.direction.z) ((b.max.z - ray.origin.z) / ray.direction.z)) ∧
        val i.start = val (fmin ((b.min.z - ray.origin.z) / ray.direction.z) ((b.max.z - ray.origin.z) / ray.direction.z)))) ∧
    (val i.stop = ⊤ ∨
      (¬ IsNaN (fmax ((b.min.x - ray.origin.x) / ray.direction.x) ((b.max.x - ray.origin.x) / ray.direction.x)) ∧
        val i.stop = val (fmax ((b.min.x - ray.origin.x) / ray.direction.x) ((b.max.x - ray.origin.x) / ray.direction.x))) ∨
      (¬ IsNaN (fmax ((b.min.y - ray.origin.y) / ray.direction.y) ((b.max.y - ray.origin.y) / ray.direction.y)) ∧
        val i.stop = val (fmax ((b.min.y - ray.origin.y) / ray.direction.y) ((b.max.y - ray.origin.y) / ray.direction.y))) ∨
      (¬ IsNaN (fmax ((b.min.z - ray.origin.z) / ray.direction.z) ((b.max.z - ray.origin.z) / ray.direction.z)) ∧
        val i.stop = val (fmax ((b.min.z - ray.origin.z) / ray.direction.z) ((b.max.z - ray.origin.z) / ray.direction.z)))) := by
  change b.intersectRay ray = some i at h
  simp only [BoundingBox3.intersectRay] at h
  split_ifs at h
  obtain rfl := Option.some.inj h
  set s1 : S := fmax (Scalar.zero : S) (fmin ((b.min.x - ray.origin.x) / ray.direction.x) ((b.max.x - ray.origin.x) / ray.direction.x)) with hs1
  set e1 : S := fmin (infinity : S) (fmax ((b.min.x - ray.origin.x) / ray.direction.x) ((b.max.x - ray.origin.x) / ray.direction.x)) with he1
  set s2 : S := fmax s1 (fmin ((b.min.y - ray.origin.y) / ray.direction.y) ((b.max.y - ray.origin.y) / ray.direction.y)) with hs2
  set e2 : S := fmin e1 (fmax ((b.min.y - ray.origin.y) / ray.direction.y) ((b.max.y - ray.origin.y) / ray.direction.y)) with he2
  set s3 : S := fmax s2 (fmin ((b.min.z - ray.origin.z) / ray.direction.z) ((b.max.z - ray.origin.z) / ray.direction.z)) with hs3
  set e3 : S := fmin e2 (fmax ((b.min.z - ray.origin.z) / ray.direction.z) ((b.max.z - ray.origin.z) / ray.direction.z)) with he3
  obtain ⟨as1, bs1, cs1, -⟩ := fmax_step (s := (Scalar.zero : S)) (n := fmin ((b.min.x - ray.origin.x) / ray.direction.x) ((b.max.x - ray.origin.x) / ray.direction.x)) not_nan_zero
  obtain ⟨ae1, be1, ce1, -⟩ := fmin_step (s := (infinity : S)) (n := fmax ((b.min.x - ray.origin.x) / ray.direction.x) ((b.max.x - ray.origin.x) / ray.direction.x)) not_nan_infinity
  have gs1 := fmax_cases (s := (Scalar.zero : S)) (n := fmin ((b.min.x - ray.origin.x) / ray.direction.x) ((b.max.x - ray.origin.x) / ray.direction.x)) not_nan_zero
  have ge1 := fmin_cases (s := (infinity : S)) (n := fmax ((b.min.x - ray.origin.x) / ray.direction.x) ((b.max.x - ray.origin.x) / ray.direction.x)) not_nan_infinity
  rw [← hs1] at as1 bs1 cs1 gs1
  rw [← he1] at ae1 be1 ce1 ge1
  obtain ⟨as2, bs2, cs2, -⟩ := fmax_step (s := s1) (n := fmin ((b.min.y - ray.origin.y) / ray.direction.y) ((b.max.y - ray.origin.y) / ray.direction.y)) as1
  obtain ⟨ae2, be2, ce2, -⟩ := fmin_step (s := e1) (n := fmax ((b.min.y - ray.origin.y) / ray.direction.y) ((b.max.y - ray.origin.y) / ray.direction.y)) ae1
  have gs2 := fmax_cases (s := s1) (n := fmin ((b.min.y - ray.origin.y) / ray.direction.y) ((b.max.y - ray.origin.y) / ray.direction.y)) as1
  have ge2 := fmin_cases (s := e1) (n := fmax ((b.min.y - ray.origin.y) / ray.direction.y) ((b.max.y - ray.origin.y) / ray.direction.y)) ae1
  rw [← hs2] at as2 bs2 cs2 gs2
  rw [← he2] at ae2 be2 ce2 ge2
  obtain ⟨as3, bs3, cs3, -⟩ := fmax_step (s := s2) (n := fmin ((b.min.z - ray.origin.z) / ray.direction.z) ((b.max.z - ray.origin.z) / ray.direction.z)) as2
  obtain ⟨ae3, be3, ce3, -⟩ := fmin_step (s := e2) (n := fmax ((b.min.z - ray.origin.z) / ray.direction.z) ((b.max.z - ray.origin.z) / ray.direction.z)) ae2
  have gs3 := fmax_cases (s := s2) (n := fmin ((b.min.z - ray.origin.z) / ray.direction.z) ((b.max.z - ray.origin.z) / ray.direction.z)) as2
  have ge3 := fmin_cases (s := e2) (n := fmax ((b.min.z - ray.origin.z) / ray.direction.z) ((b.max.z - ray.origin.z) / ray.direction.z)) ae2
  rw [← hs3] at as3 bs3 cs3 gs3
  rw [← he3] at ae3 be3 ce3 ge3
  refine ⟨fun hn => (((cs1 hn).trans bs2).trans bs3), fun hn => (be3.trans (be2.trans (ce1 hn))), fun hn => ((cs2 hn).trans bs3), fun hn => (be3.trans (ce2 hn)), fun hn => (cs3 hn), fun hn => (ce3 hn), ?_, ?_⟩
  · rcases gs3 with h3 | ⟨q, h3⟩
    · rcases gs2 with h2 | ⟨q, h2⟩
      · rcases gs1 with h1 | ⟨q, h1⟩
        · exact .inl (((h3.trans h2).trans h1).trans val_zero)
        · exact (.inr (.inl ⟨q, ((h3.trans h2).trans h1)⟩))
      · exact (.inr (.inr (.inl ⟨q, (h3.trans h2)⟩)))
    · exact (.inr (.inr (.inr ⟨q, h3⟩)))
  · rcases ge3 with h3 | ⟨q, h3⟩
    · rcases ge2 with h2 | ⟨q, h2⟩
      · rcases ge1 with h1 | ⟨q, h1⟩
        · exact .inl (((h3.trans h2).trans h1).trans val_infinity)
        · exact (.inr (.inl ⟨q, ((h3.trans h2).trans h1)⟩))
      · exact (.inr (.inr (.inl ⟨q, (h3.trans h2)⟩)))
    · exact (.inr (.inr (.inr ⟨q, h3⟩)))

/-- **C83** (3D): at every parameter of the reported range the exact point of the ray is inside the box, up to the
rounding of the two operations that locate a face. -/
theorem C83_inside3 (b : BoundingBox3 S) (ray : Ray3 S) (hf : RayFinite3 b ray) (hb : LeAll b.min b.max)
    (i : Range S) (h : Api.intersect b ray = some i) (t : S)
    (ht : IsFinite t) (h1 : (i.start ≤? t) = true) (h2 : (t ≤? i.stop) = true) :
    NearSlab b.min.x b.max.x ray.origin.x ray.direction.x (real ray.origin.x + real ray.direction.x * real t) 0 ∧
    NearSlab b.min.y b.max.y ray.origin.y ray.direction.y (real ray.origin.y + real ray.direction.y * real t) 0 ∧
    NearSlab b.min.z b.max.z ray.origin.z ray.direction.z (real ray.origin.z + real ray.direction.z * real t) 0 := by
  obtain ⟨hfx, hfy, hfz⟩ := hf
  rw [Point3.leAll] at hb
  have lx : real b.min.x ≤ real b.max.x := real_le_of hfx.1 hfx.2.1 hb.1
  have ly : real b.min.y ≤ real b.max.y := real_le_of hfy.1 hfy.2.1 hb.2.1
  have lz : real b.min.z ≤ real b.max.z := real_le_of hfz.1 hfz.2.1 hb.2.2
  obtain ⟨nx, fx, ny, fy, nz, fz, cs, ce⟩ := hit_slabs3 b ray i h
  have v1 := (le_iff.1 h1).2.2
  have v2 := (le_iff.1 h2).2.2
  rw [ht.val] at v1 v2
  exact ⟨slab_near hfx lx (fun hn => (nx hn).trans v1) (fun hn => v2.trans (fx hn)),
    slab_near hfy ly (fun hn => (ny hn).trans v1) (fun hn => v2.trans (fy hn)),
    slab_near hfz lz (fun hn => (nz hn).trans v1) (fun hn => v2.trans (fz hn))⟩

/-- **C83** (3D): the start of the reported range is `0` (the ray starts inside the box), or there the exact point of the
ray is on the face through which the ray enters one of the slabs, up to rounding. -/
theorem C83_entry3 (b : BoundingBox3 S) (ray : Ray3 S) (hf : RayFinite3 b ray) (hb : LeAll b.min b.max)
    (i : Range S) (h : Api.intersect b ray = some i)
    (hs : IsFinite i.start) :
    real i.start = 0 ∨ NearEntry b.min.x b.max.x ray.origin.x ray.direction.x (real ray.origin.x + real ray.direction.x * real i.start) 0 ∨
    NearEntry b.min.y b.max.y ray.origin.y ray.direction.y (real ray.origin.y + real ray.direction.y * real i.start) 0 ∨
    NearEntry b.min.z b.max.z ray.origin.z ray.direction.z (real ray.origin.z + real ray.direction.z * real i.start) 0 := by
  obtain ⟨hfx, hfy, hfz⟩ := hf
  rw [Point3.leAll] at hb
  have lx : real b.min.x ≤ real b.max.x := real_le_of hfx.1 hfx.2.1 hb.1
  have ly : real b.min.y ≤ real b.max.y := real_le_of hfy.1 hfy.2.1 hb.2.1
  have lz : real b.min.z ≤ real b.max.z := real_le_of hfz.1 hfz.2.1 hb.2.2
  obtain ⟨nx, fx, ny, fy, nz, fz, cs, ce⟩ := hit_slabs3 b ray i h
  rw [hs.val] at cs
  rcases cs with h0 | ⟨hn, h0⟩ | ⟨hn, h0⟩ | ⟨hn, h0⟩
  · exact .inl (by exact_mod_cast h0)
  · exact (.inr (.inl (slab_entry hfx lx hn h0.symm)))
  · exact (.inr (.inr (.inl (slab_entry hfy ly hn h0.symm))))
  · exact (.inr (.inr (.inr ((slab_entry hfz lz hn h0.symm)))))

/-- **C83** (3D): at a finite end of the reported range the exact point of the ray is on the face through which the ray leaves
one of the slabs, up to rounding. -/
theorem C83_exit3 (b : BoundingBox3 S) (ray : Ray3 S) (hf : RayFinite3 b ray) (hb : LeAll b.min b.max)
    (i : Range S) (h : Api.intersect b ray = some i)
    (hs : IsFinite i.stop) :
    NearExit b.min.x b.max.x ray.origin.x ray.direction.x (real ray.origin.x + real ray.direction.x * real i.stop) 0 ∨
    NearExit b.min.y b.max.y ray.origin.y ray.direction.y (real ray.origin.y + real ray.direction.y * real i.stop) 0 ∨
    NearExit b.min.z b.max.z ray.origin.z ray.direction.z (real ray.origin.z + real ray.direction.z * real i.stop) 0 := by
  obtain ⟨hfx, hfy, hfz⟩ := hf
  rw [Point3.leAll] at hb
  have lx : real b.min.x ≤ real b.max.x := real_le_of hfx.1 hfx.2.1 hb.1
  have ly : real b.min.y ≤ real b.max.y := real_le_of hfy.1 hfy.2.1 hb.2.1
  have lz : real b.min.z ≤ real b.max.z := real_le_of hfz.1 hfz.2.1 hb.2.2
  obtain ⟨nx, fx, ny, fy, nz, fz, cs, ce⟩ := hit_slabs3 b ray i h
  rw [hs.val] at ce
  rcases ce with h0 | ⟨hn, h0⟩ | ⟨hn, h0⟩ | ⟨hn, h0⟩
  · exact absurd h0 (EReal.coe_ne_top _)
  · exact (.inl (slab_exit hfx lx hn h0.symm))
  · exact (.inr (.inl (slab_exit hfy ly hn h0.symm)))
  · exact (.inr (.inr ((slab_exit hfz lz hn h0.symm))))

/-- **C83** (3D): the computed points `ray.at(t)` for `t` in the reported range are inside the box, up to rounding. -/
theorem C83_computed_inside3 (b : BoundingBox3 S) (ray : Ray3 S) (hf : RayFinite3 b ray) (hb : LeAll b.min b.max)
    (i : Range S) (h : Api.intersect b ray = some i) (t : S)
    (ht : AllFinite (ray.at t)) (h1 : (i.start ≤? t) = true) (h2 : (t ≤? i.stop) = true) :
    NearSlab b.min.x b.max.x ray.origin.x ray.direction.x (real (ray.at t).x) (atErr ray.origin.x ray.direction.x t) ∧
    NearSlab b.min.y b.max.y ray.origin.y ray.direction.y (real (ray.at t).y) (atErr ray.origin.y ray.direction.y t) ∧
    NearSlab b.min.z b.max.z ray.origin.z ray.direction.z (real (ray.at t).z) (atErr ray.origin.z ray.direction.z t) := by
  have hat := C64_at3 ray t ht
  rw [Point3.allFinite] at ht
  have tf : IsFinite t := (finite_of_mul (finite_of_add ht.1).2).2
  have hin := C83_inside3 b ray hf hb i h t tf h1 h2
  exact ⟨hin.1.computed hat.1, hin.2.1.computed hat.2.1, hin.2.2.computed hat.2.2⟩

/-- **C83** (3D): the computed entry point `ray.at(i.start)` is on a face of the box, up to rounding (or the ray starts
inside the box). -/
theorem C83_computed_entry3 (b : BoundingBox3 S) (ray : Ray3 S) (hf : RayFinite3 b ray) (hb : LeAll b.min b.max)
    (i : Range S) (h : Api.intersect b ray = some i)
    (ht : AllFinite (ray.at i.start)) :
    real i.start = 0 ∨ NearEntry b.min.x b.max.x ray.origin.x ray.direction.x (real (ray.at i.start).x) (atErr ray.origin.x ray.direction.x i.start) ∨
    NearEntry b.min.y b.max.y ray.origin.y ray.direction.y (real (ray.at i.start).y) (atErr ray.origin.y ray.direction.y i.start) ∨
    NearEntry b.min.z b.max.z ray.origin.z ray.direction.z (real (ray.at i.start).z) (atErr ray.origin.z ray.direction.z i.start) := by
  have hat := C64_at3 ray i.start ht
  rw [Point3.allFinite] at ht
  have tf : IsFinite i.start := (finite_of_mul (finite_of_add ht.1).2).2
  rcases C83_entry3 b ray hf hb i h tf with h0 | h0 | h0 | h0
  · exact (.inl h0)
  · exact (.inr (.inl (h0.computed hat.1)))
  · exact (.inr (.inr (.inl (h0.computed hat.2.1))))
  · exact (.inr (.inr (.inr ((h0.computed hat.2.2)))))

/-- **C83** (3D): the computed exit point `ray.at(i.stop)` is on a face of the box, up to rounding. -/
theorem C83_computed_exit3 (b : BoundingBox3 S) (ray : Ray3 S) (hf : RayFinite3 b ray) (hb : LeAll b.min b.max)
    (i : Range S) (h : Api.intersect b ray = some i)
    (ht : AllFinite (ray.at i.stop)) :
    NearExit b.min.x b.max.x ray.origin.x ray.direction.x (real (ray.at i.stop).x) (atErr ray.origin.x ray.direction.x i.stop) ∨
    NearExit b.min.y b.max.y ray.origin.y ray.direction.y (real (ray.at i.stop).y) (atErr ray.origin.y ray.direction.y i.stop) ∨
    NearExit b.min.z b.max.z ray.origin.z ray.direction.z (real (ray.at i.stop).z) (atErr ray.origin.z ray.direction.z i.stop) := by
  have hat := C64_at3 ray i.stop ht
  rw [Point3.allFinite] at ht
  have tf : IsFinite i.stop := (finite_of_mul (finite_of_add ht.1).2).2
  rcases C83_exit3 b ray hf hb i h tf with h0 | h0 | h0
  · exact (.inl (h0.computed hat.1))
  · exact (.inr (.inl (h0.computed hat.2.1)))
  · exact (.inr (.inr ((h0.computed hat.2.2))))
end

/-! ### Concrete `f32` cases: the ray along the `x` axis through a box in front of it. -/

theorem front_slab (n : ℤ) (h : |n| ≤ 16777216) :
    IsFinite ((int32 n h - Scalar.zero) / (Scalar.one : F32)) ∧ real ((int32 n h - Scalar.zero) / (Scalar.one : F32)) = n := by
  have h1 : den ((int32 n h - Scalar.zero) / (Scalar.one : F32)) = den (int32 n h) :=
    (same_div_one _).trans (same_sub_zero _)
  unfold IsFinite real; rw [h1]; exact ⟨trivial, rfl⟩
theorem front_sub (n : ℤ) (h : |n| ≤ 16777216) : IsFinite (int32 n h - (Scalar.zero : F32)) := by
  have h1 : den (int32 n h - (Scalar.zero : F32)) = den (int32 n h) := same_sub_zero _
  unfold IsFinite; rw [h1]; trivial
noncomputable def front2 : BoundingBox2 F32 := ⟨⟨int32 1, int32 (-1)⟩, ⟨int32 3, int32 2⟩⟩
noncomputable def front3 : BoundingBox3 F32 := ⟨⟨int32 1, int32 (-1), int32 (-4)⟩, ⟨int32 3, int32 2, int32 5⟩⟩
noncomputable def along2 : Ray2 F32 := ⟨⟨Scalar.zero, Scalar.zero⟩, ⟨Scalar.one, Scalar.zero⟩⟩
noncomputable def along3 : Ray3 F32 := ⟨⟨Scalar.zero, Scalar.zero, Scalar.zero⟩, ⟨Scalar.one, Scalar.zero, Scalar.zero⟩⟩
theorem front_x : SlabFinite (int32 1) (int32 3) (Scalar.zero : F32) Scalar.one :=
  ⟨front_sub 1 _, front_sub 3 _, finite_one, fun _ => ⟨(front_slab 1 _).1, (front_slab 3 _).1⟩⟩
theorem front_y (a b : ℤ) (ha : |a| ≤ 16777216) (hb : |b| ≤ 16777216) :
    SlabFinite (int32 a ha) (int32 b hb) (Scalar.zero : F32) Scalar.zero :=
  ⟨front_sub a _, front_sub b _, finite_zero, fun h => absurd real_zero h⟩
theorem front_finite2 : RayFinite2 front2 along2 := ⟨front_x, front_y _ _ (by norm_num) (by norm_num)⟩
theorem front_finite3 : RayFinite3 front3 along3 := ⟨front_x, front_y _ _ (by norm_num) (by norm_num), front_y _ _ (by norm_num) (by norm_num)⟩
theorem front_le2 : LeAll front2.min front2.max := Point2.leAll.2 ⟨int32_le (by norm_num), int32_le (by norm_num)⟩
theorem front_le3 : LeAll front3.min front3.max :=
  Point3.leAll.2 ⟨int32_le (by norm_num), int32_le (by norm_num), int32_le (by norm_num)⟩
theorem front_in {t : ℝ} (h : 1 ≤ t) (h' : t ≤ 3) : ExactIn (int32 1) (int32 3) (Scalar.zero : F32) Scalar.one t := by
  unfold ExactIn; rw [real_int32, real_int32, real_zero, real_one]; push_cast; constructor <;> linarith
theorem front_in' (a b : ℤ) (ha : |a| ≤ 16777216) (hb : |b| ≤ 16777216) (h : a < 0) (h' : 0 < b) (t : ℝ) :
    ExactIn (int32 a ha) (int32 b hb) (Scalar.zero : F32) Scalar.zero t := by
  have h1 : (a : ℝ) < 0 := by exact_mod_cast h
  have h2 : (0 : ℝ) < b := by exact_mod_cast h'
  unfold ExactIn; rw [real_int32, real_int32, real_zero]; constructor <;> linarith
theorem front_off : OffFace (int32 1) (int32 3) (Scalar.zero : F32) Scalar.one := by
  intro h; rw [real_one] at h; norm_num at h
theorem front_off' (a b : ℤ) (ha : |a| ≤ 16777216) (hb : |b| ≤ 16777216) (h : a < 0) (h' : 0 < b) :
    OffFace (int32 a ha) (int32 b hb) (Scalar.zero : F32) Scalar.zero := by
  intro _
  have h1 : (a : ℝ) < 0 := by exact_mod_cast h
  have h2 : (0 : ℝ) < b := by exact_mod_cast h'
  rw [real_int32, real_int32, real_zero]; exact iff_of_false h1.ne' h2.ne
/-- The ends of the reported range are finite, and the start is not `0`. -/
theorem front_ends {i : Range F32} {n f : F32} (hr : (i.start ≤? i.stop) = true)
    (hn : IsFinite n) (hn' : real n = 1) (hf : IsFinite f)
    (h1 : val n ≤ val i.start) (h2 : val i.stop ≤ val f) : IsFinite i.start ∧ IsFinite i.stop ∧ real i.start ≠ 0 := by
  obtain ⟨a, b, c⟩ := le_iff.1 hr
  have b1 : (1 : EReal) ≤ val i.start := by rw [hn.val, hn'] at h1; exact_mod_cast h1
  have b2 : val i.stop ≤ ((real f : ℝ) : EReal) := by rw [← hf.val]; exact h2
  have one_bot : (⊥ : EReal) < 1 := EReal.bot_lt_coe 1
  have hs : IsFinite i.start := finite_iff.2 ⟨a, ((c.trans b2).trans_lt (EReal.coe_lt_top _)).ne, (one_bot.trans_le b1).ne'⟩
  have he : IsFinite i.stop := finite_iff.2 ⟨b, (b2.trans_lt (EReal.coe_lt_top _)).ne, (one_bot.trans_le (b1.trans c)).ne'⟩
  refine ⟨hs, he, fun h => ?_⟩
  rw [hs.val, h] at b1
  exact absurd b1 (by rw [not_le]; exact_mod_cast (zero_lt_one : (0 : ℝ) < 1))
theorem front_hit2 : ∃ i : Range F32, Api.intersect front2 along2 = some i ∧
    IsFinite i.start ∧ IsFinite i.stop ∧ real i.start ≠ 0 := by
  have ht := tiny_f32
  obtain ⟨i, hi, -, -⟩ := C65_float_complete2 front2 along2 front_finite2 front_le2
    ⟨front_off, front_off' _ _ (by norm_num) (by norm_num) (by norm_num) (by norm_num)⟩ 1 3 (by norm_num) (by norm_num)
    ⟨front_in le_rfl (by norm_num), front_in' _ _ (by norm_num) (by norm_num) (by norm_num) (by norm_num) _⟩
    ⟨front_in (by norm_num) le_rfl, front_in' _ _ (by norm_num) (by norm_num) (by norm_num) (by norm_num) _⟩
    (by unfold up down; rw [uro_f32]; linarith)
  obtain ⟨q1, q2, o1, -⟩ := slab_order front_x (by rw [real_int32, real_int32]; norm_num) (by rw [real_one]; norm_num)
  obtain ⟨h1, h2, -⟩ := hit_slabs2 front2 along2 i hi
  have hp := o1 (by rw [real_one]; norm_num)
  have p1 := h1 (fun h => q1.not_nan (isNaN_min.1 h).1)
  have p2 := h2 (fun h => q1.not_nan (isNaN_max.1 h).1)
  rw [show fmin ((front2.min.x - along2.origin.x) / along2.direction.x) ((front2.max.x - along2.origin.x) / along2.direction.x) =
    fmin ((int32 1 - Scalar.zero) / (Scalar.one : F32)) ((int32 3 - Scalar.zero) / (Scalar.one : F32)) from rfl,
    val_min q1.not_nan q2.not_nan, min_eq_left (by rw [q1.val, q2.val, EReal.coe_le_coe_iff]; exact hp)] at p1
  rw [show fmax ((front2.min.x - along2.origin.x) / along2.direction.x) ((front2.max.x - along2.origin.x) / along2.direction.x) =
    fmax ((int32 1 - Scalar.zero) / (Scalar.one : F32)) ((int32 3 - Scalar.zero) / (Scalar.one : F32)) from rfl,
    val_max q1.not_nan q2.not_nan, max_eq_right (by rw [q1.val, q2.val, EReal.coe_le_coe_iff]; exact hp)] at p2
  exact ⟨i, hi, front_ends (C34_range2 _ _ i hi).2.1 q1 ((front_slab 1 _).2.trans (by norm_num)) q2 p1 p2⟩
theorem front_hit3 : ∃ i : Range F32, Api.intersect front3 along3 = some i ∧
    IsFinite i.start ∧ IsFinite i.stop ∧ real i.start ≠ 0 := by
  have ht := tiny_f32
  obtain ⟨i, hi, -, -⟩ := C65_float_complete3 front3 along3 front_finite3 front_le3
    ⟨front_off, front_off' _ _ (by norm_num) (by norm_num) (by norm_num) (by norm_num), front_off' _ _ (by norm_num) (by norm_num) (by norm_num) (by norm_num)⟩
    1 3 (by norm_num) (by norm_num)
    ⟨front_in le_rfl (by norm_num), front_in' _ _ (by norm_num) (by norm_num) (by norm_num) (by norm_num) _,
      front_in' _ _ (by norm_num) (by norm_num) (by norm_num) (by norm_num) _⟩
    ⟨front_in (by norm_num) le_rfl, front_in' _ _ (by norm_num) (by norm_num) (by norm_num) (by norm_num) _,
      front_in' _ _ (by norm_num) (by norm_num) (by norm_num) (by norm_num) _⟩
    (by unfold up down; rw [uro_f32]; linarith)
  obtain ⟨q1, q2, o1, -⟩ := slab_order front_x (by rw [real_int32, real_int32]; norm_num) (by rw [real_one]; norm_num)
  obtain ⟨h1, h2, -⟩ := hit_slabs3 front3 along3 i hi
  have hp := o1 (by rw [real_one]; norm_num)
  have p1 := h1 (fun h => q1.not_nan (isNaN_min.1 h).1)
  have p2 := h2 (fun h => q1.not_nan (isNaN_max.1 h).1)
  rw [show fmin ((front3.min.x - along3.origin.x) / along3.direction.x) ((front3.max.x - along3.origin.x) / along3.direction.x) =
    fmin ((int32 1 - Scalar.zero) / (Scalar.one : F32)) ((int32 3 - Scalar.zero) / (Scalar.one : F32)) from rfl,
    val_min q1.not_nan q2.not_nan, min_eq_left (by rw [q1.val, q2.val, EReal.coe_le_coe_iff]; exact hp)] at p1
  rw [show fmax ((front3.min.x - along3.origin.x) / along3.direction.x) ((front3.max.x - along3.origin.x) / along3.direction.x) =
    fmax ((int32 1 - Scalar.zero) / (Scalar.one : F32)) ((int32 3 - Scalar.zero) / (Scalar.one : F32)) from rfl,
    val_max q1.not_nan q2.not_nan, max_eq_right (by rw [q1.val, q2.val, EReal.coe_le_coe_iff]; exact hp)] at p2
  exact ⟨i, hi, front_ends (C34_range3 _ _ i hi).2.1 q1 ((front_slab 1 _).2.trans (by norm_num)) q2 p1 p2⟩
example : ∃ i : Range F32, NearEntry front2.min.x front2.max.x along2.origin.x along2.direction.x
      (real along2.origin.x + real along2.direction.x * real i.start) 0 ∨
    NearEntry front2.min.y front2.max.y along2.origin.y along2.direction.y
      (real along2.origin.y + real along2.direction.y * real i.start) 0 :=
  front_hit2.imp fun i h => (C83_entry2 front2 along2 front_finite2 front_le2 i h.1 h.2.1).resolve_left h.2.2.2
example := front_hit2.imp fun i h => C83_exit2 front2 along2 front_finite2 front_le2 i h.1 h.2.2.1
example := front_hit2.imp fun i h => C83_inside2 front2 along2 front_finite2 front_le2 i h.1 i.start h.2.1
  (le_iff.2 ⟨h.2.1.not_nan, h.2.1.not_nan, le_rfl⟩) (C34_range2 _ _ i h.1).2.1
example := front_hit3.imp fun i h => (C83_entry3 front3 along3 front_finite3 front_le3 i h.1 h.2.1).resolve_left h.2.2.2
example := front_hit3.imp fun i h => C83_exit3 front3 along3 front_finite3 front_le3 i h.1 h.2.2.1
example := front_hit3.imp fun i h => C83_inside3 front3 along3 front_finite3 front_le3 i h.1 i.start h.2.1
  (le_iff.2 ⟨h.2.1.not_nan, h.2.1.not_nan, le_rfl⟩) (C34_range3 _ _ i h.1).2.1
end VecMath
