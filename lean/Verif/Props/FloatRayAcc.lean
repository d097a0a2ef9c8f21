import Verif.Lemmas.FloatSlab
import Verif.Props.FloatRay
/-!
# Layer F: accuracy of ray/box intersection in floating point
-/


namespace VecMath
open Scalar IEEE

section
variable {S : Type} [Scalar S] [IEEE S] [Binary S]

theorem real_le_of {a b o : S} (ha : IsFinite (a - o)) (hb : IsFinite (b - o)) (h : (a ≤? b) = true) :
    real a ≤ real b := by
  have h := (le_iff.1 h).2.2
  rw [(finite_of_sub ha).1.val, (finite_of_sub hb).1.val, EReal.coe_le_coe_iff] at h
  exact h
theorem up_nonneg {t : ℝ} (h : 0 ≤ t) : 0 ≤ up S t := by
  have := tiny_pos (S := S); unfold up; positivity
omit [Binary S] in
theorem not_lt_of {a b : S} {X : EReal} (h : val a ≤ X) (h' : X ≤ val b) : ¬ (b <? a) = true := by
  intro hl
  exact absurd (lt_iff.1 hl).2.2 (not_lt.2 (h.trans h'))

/-! ### 2D -/

/-- **C65** (soundness, 2D): in floating point, if nothing overflows, every parameter `t` that lies in the reported
range with a margin of two roundings gives an exact point of the ray inside the box. -/
theorem C65_float_sound2 (b : BoundingBox2 S) (ray : Ray2 S) (hf : RayFinite2 b ray) (hb : LeAll b.min b.max)
    (i : Range S) (h : Api.intersect b ray = some i) (t : ℝ)
    (h1 : val i.start ≤ (down S t : ℝ)) (h2 : ((up S t : ℝ) : EReal) ≤ val i.stop) : ExactInside2 b ray t := by
  obtain ⟨hfx, hfy⟩ := hf
  rw [Point2.leAll] at hb
  have lx : real b.min.x ≤ real b.max.x := real_le_of hfx.1 hfx.2.1 hb.1
  have ly : real b.min.y ≤ real b.max.y := real_le_of hfy.1 hfy.2.1 hb.2
  have hz := (le_iff.1 (C34_range2 b ray i h).1).2.2
  rw [val_zero] at hz
  have hd : 0 ≤ down S t := by exact_mod_cast hz.trans h1
  change b.intersectRay ray = some i at h
  simp only [BoundingBox2.intersectRay] at h
  split_ifs at h with c1 c2
  obtain rfl := Option.some.inj h
  set s1 : S := fmax Scalar.zero (fmin ((b.min.x - ray.origin.x) / ray.direction.x) ((b.max.x - ray.origin.x) / ray.direction.x)) with hs1
  set e1 : S := fmin infinity (fmax ((b.min.x - ray.origin.x) / ray.direction.x) ((b.max.x - ray.origin.x) / ray.direction.x)) with he1
  set s2 : S := fmax s1 (fmin ((b.min.y - ray.origin.y) / ray.direction.y) ((b.max.y - ray.origin.y) / ray.direction.y)) with hs2
  set e2 : S := fmin e1 (fmax ((b.min.y - ray.origin.y) / ray.direction.y) ((b.max.y - ray.origin.y) / ray.direction.y)) with he2
  obtain ⟨as1, bs1, cs1, ds1⟩ := fmax_step (s := (Scalar.zero : S)) (n := fmin ((b.min.x - ray.origin.x) / ray.direction.x) ((b.max.x - ray.origin.x) / ray.direction.x)) not_nan_zero
  obtain ⟨ae1, be1, ce1, de1⟩ := fmin_step (s := (infinity : S)) (n := fmax ((b.min.x - ray.origin.x) / ray.direction.x) ((b.max.x - ray.origin.x) / ray.direction.x)) not_nan_infinity
  rw [← hs1] at as1 bs1 cs1 ds1
  rw [← he1] at ae1 be1 ce1 de1
  obtain ⟨as2, bs2, cs2, ds2⟩ := fmax_step (s := (s1 : S)) (n := fmin ((b.min.y - ray.origin.y) / ray.direction.y) ((b.max.y - ray.origin.y) / ray.direction.y)) as1
  obtain ⟨ae2, be2, ce2, de2⟩ := fmin_step (s := (e1 : S)) (n := fmax ((b.min.y - ray.origin.y) / ray.direction.y) ((b.max.y - ray.origin.y) / ray.direction.y)) ae1
  rw [← hs2] at as2 bs2 cs2 ds2
  rw [← he2] at ae2 be2 ce2 de2
  refine ⟨?_, ?_⟩
  · exact slab_sound hfx lx hd (fun hn => (((cs1 hn)).trans bs2).trans h1) (fun hn => ((h2).trans be2).trans (ce1 hn)) le_rfl le_rfl
  · exact slab_sound hfy ly hd (fun hn => ((cs2 hn)).trans h1) (fun hn => (h2).trans (ce2 hn)) le_rfl le_rfl

/-- **C65** (completeness, 2D): in floating point, if nothing overflows and the ray does not run in a face plane: if the
exact points of the ray at `t₁` and `t₂` are inside the box and `t₁` is below `t₂` by a margin of two roundings each,
an intersection is reported, and its range covers `t₁ .. t₂` up to two roundings. So `None` is returned only if the
exact intersection is empty or shorter than that margin. -/
theorem C65_float_complete2 (b : BoundingBox2 S) (ray : Ray2 S) (hf : RayFinite2 b ray) (hb : LeAll b.min b.max)
    (ho : OffFaces2 b ray) (t₁ t₂ : ℝ) (h0 : 0 ≤ t₁) (h0' : 0 ≤ t₂) (hi₁ : ExactInside2 b ray t₁)
    (hi₂ : ExactInside2 b ray t₂) (ht : up S t₁ ≤ down S t₂) :
    ∃ i : Range S, Api.intersect b ray = some i ∧ val i.start ≤ (up S t₁ : ℝ) ∧
      ((down S t₂ : ℝ) : EReal) ≤ val i.stop := by
  obtain ⟨hfx, hfy⟩ := hf
  obtain ⟨hox, hoy⟩ := ho
  obtain ⟨ux, uy⟩ := hi₁
  obtain ⟨vx, vy⟩ := hi₂
  rw [Point2.leAll] at hb
  have lx : real b.min.x ≤ real b.max.x := real_le_of hfx.1 hfx.2.1 hb.1
  have ly : real b.min.y ≤ real b.max.y := real_le_of hfy.1 hfy.2.1 hb.2
  have z0 : val (Scalar.zero : S) ≤ (up S t₁ : ℝ) := by rw [val_zero]; exact_mod_cast up_nonneg h0
  have i0 : ((down S t₂ : ℝ) : EReal) ≤ val (infinity : S) := by rw [val_infinity]; exact le_top
  have ht' : ((up S t₁ : ℝ) : EReal) ≤ (down S t₂ : ℝ) := by exact_mod_cast ht
  obtain ⟨wx, zx⟩ := slab_complete hfx hox lx h0 h0' ux vx
  obtain ⟨wy, zy⟩ := slab_complete hfy hoy ly h0 h0' uy vy
  show ∃ i : Range S, b.intersectRay ray = some i ∧ _ ∧ _
  simp only [BoundingBox2.intersectRay, Api.min, Api.max, MinMax.min, MinMax.max]
  set s1 : S := fmax Scalar.zero (fmin ((b.min.x - ray.origin.x) / ray.direction.x) ((b.max.x - ray.origin.x) / ray.direction.x)) with hs1
  set e1 : S := fmin infinity (fmax ((b.min.x - ray.origin.x) / ray.direction.x) ((b.max.x - ray.origin.x) / ray.direction.x)) with he1
  set s2 : S := fmax s1 (fmin ((b.min.y - ray.origin.y) / ray.direction.y) ((b.max.y - ray.origin.y) / ray.direction.y)) with hs2
  set e2 : S := fmin e1 (fmax ((b.min.y - ray.origin.y) / ray.direction.y) ((b.max.y - ray.origin.y) / ray.direction.y)) with he2
  obtain ⟨as1, bs1, cs1, ds1⟩ := fmax_step (s := (Scalar.zero : S)) (n := fmin ((b.min.x - ray.origin.x) / ray.direction.x) ((b.max.x - ray.origin.x) / ray.direction.x)) not_nan_zero
  obtain ⟨ae1, be1, ce1, de1⟩ := fmin_step (s := (infinity : S)) (n := fmax ((b.min.x - ray.origin.x) / ray.direction.x) ((b.max.x - ray.origin.x) / ray.direction.x)) not_nan_infinity
  rw [← hs1] at as1 bs1 cs1 ds1
  rw [← he1] at ae1 be1 ce1 de1
  obtain ⟨as2, bs2, cs2, ds2⟩ := fmax_step (s := (s1 : S)) (n := fmin ((b.min.y - ray.origin.y) / ray.direction.y) ((b.max.y - ray.origin.y) / ray.direction.y)) as1
  obtain ⟨ae2, be2, ce2, de2⟩ := fmin_step (s := (e1 : S)) (n := fmax ((b.min.y - ray.origin.y) / ray.direction.y) ((b.max.y - ray.origin.y) / ray.direction.y)) ae1
  rw [← hs2] at as2 bs2 cs2 ds2
  rw [← he2] at ae2 be2 ce2 de2
  have S1 := ds1 _ z0 wx
  have E1 := de1 _ i0 zx
  have S2 := ds2 _ S1 wy
  have E2 := de2 _ E1 zy
  exact ⟨⟨s2, e2⟩, (if_neg (not_lt_of (S1.trans ht') E1)).trans (if_pos (le_iff.2 ⟨as2, ae2, (S2.trans ht').trans E2⟩)), S2, E2⟩

/-! ### 3D -/

/-- **C65** (soundness, 3D): in floating point, if nothing overflows, every parameter `t` that lies in the reported
range with a margin of two roundings gives an exact point of the ray inside the box. -/
theorem C65_float_sound3 (b : BoundingBox3 S) (ray : Ray3 S) (hf : RayFinite3 b ray) (hb : LeAll b.min b.max)
    (i : Range S) (h : Api.intersect b ray = some i) (t : ℝ)
    (h1 : val i.start ≤ (down S t : ℝ)) (h2 : ((up S t : ℝ) : EReal) ≤ val i.stop) : ExactInside3 b ray t := by
  obtain ⟨hfx, hfy, hfz⟩ := hf
  rw [Point3.leAll] at hb
  have lx : real b.min.x ≤ real b.max.x := real_le_of hfx.1 hfx.2.1 hb.1
  have ly : real b.min.y ≤ real b.max.y := real_le_of hfy.1 hfy.2.1 hb.2.1
  have lz : real b.min.z ≤ real b.max.z := real_le_of hfz.1 hfz.2.1 hb.2.2
  have hz := (le_iff.1 (C34_range3 b ray i h).1).2.2
  rw [val_zero] at hz
  have hd : 0 ≤ down S t := by exact_mod_cast hz.trans h1
  change b.intersectRay ray = some i at h
  simp only [BoundingBox3.intersectRay] at h
  split_ifs at h with c1 c2 c3
  obtain rfl := Option.some.inj h
  set s1 : S := fmax Scalar.zero (fmin ((b.min.x - ray.origin.x) / ray.direction.x) ((b.max.x - ray.origin.x) / ray.direction.x)) with hs1
  set e1 : S := fmin infinity (fmax ((b.min.x - ray.origin.x) / ray.direction.x) ((b.max.x - ray.origin.x) / ray.direction.x)) with he1
  set s2 : S := fmax s1 (fmin ((b.min.y - ray.origin.y) / ray.direction.y) ((b.max.y - ray.origin.y) / ray.direction.y)) with hs2
  set e2 : S := fmin e1 (fmax ((b.min.y - ray.origin.y) / ray.direction.y) ((b.max.y - ray.origin.y) / ray.direction.y)) with he2
  set s3 : S := fmax s2 (fmin ((b.min.z - ray.origin.z) / ray.direction.z) ((b.max.z - ray.origin.z) / ray.direction.z)) with hs3
  set e3 : S := fmin e2 (fmax ((b.min.z - ray.origin.z) / ray.direction.z) ((b.max.z - ray.origin.z) / ray.direction.z)) with he3
  obtain ⟨as1, bs1, cs1, ds1⟩ := fmax_step (s := (Scalar.zero : S)) (n := fmin ((b.min.x - ray.origin.x) / ray.direction.x) ((b.max.x - ray.origin.x) / ray.direction.x)) not_nan_zero
  obtain ⟨ae1, be1, ce1, de1⟩ := fmin_step (s := (infinity : S)) (n := fmax ((b.min.x - ray.origin.x) / ray.direction.x) ((b.max.x - ray.origin.x) / ray.direction.x)) not_nan_infinity
  rw [← hs1] at as1 bs1 cs1 ds1
  rw [← he1] at ae1 be1 ce1 de1
  obtain ⟨as2, bs2, cs2, ds2⟩ := fmax_step (s := (s1 : S)) (n := fmin ((b.min.y - ray.origin.y) / ray.direction.y) ((b.max.y - ray.origin.y) / ray.direction.y)) as1
  obtain ⟨ae2, be2, ce2, de2⟩ := fmin_step (s := (e1 : S)) (n := fmax ((b.min.y - ray.origin.y) / ray.direction.y) ((b.max.y - ray.origin.y) / ray.direction.y)) ae1
  rw [← hs2] at as2 bs2 cs2 ds2
  rw [← he2] at ae2 be2 ce2 de2
  obtain ⟨as3, bs3, cs3, ds3⟩ := fmax_step (s := (s2 : S)) (n := fmin ((b.min.z - ray.origin.z) / ray.direction.z) ((b.max.z - ray.origin.z) / ray.direction.z)) as2
  obtain ⟨ae3, be3, ce3, de3⟩ := fmin_step (s := (e2 : S)) (n := fmax ((b.min.z - ray.origin.z) / ray.direction.z) ((b.max.z - ray.origin.z) / ray.direction.z)) ae2
  rw [← hs3] at as3 bs3 cs3 ds3
  rw [← he3] at ae3 be3 ce3 de3
  refine ⟨?_, ?_, ?_⟩
  · exact slab_sound hfx lx hd (fun hn => ((((cs1 hn)).trans bs2).trans bs3).trans h1) (fun hn => (((h2).trans be3).trans be2).trans (ce1 hn)) le_rfl le_rfl
  · exact slab_sound hfy ly hd (fun hn => (((cs2 hn)).trans bs3).trans h1) (fun hn => ((h2).trans be3).trans (ce2 hn)) le_rfl le_rfl
  · exact slab_sound hfz lz hd (fun hn => ((cs3 hn)).trans h1) (fun hn => (h2).trans (ce3 hn)) le_rfl le_rfl

/-- **C65** (completeness, 3D): in floating point, if nothing overflows and the ray does not run in a face plane: if the
exact points of the ray at `t₁` and `t₂` are inside the box and `t₁` is below `t₂` by a margin of two roundings each,
an intersection is reported, and its range covers `t₁ .. t₂` up to two roundings. So `None` is returned only if the
exact intersection is empty or shorter than that margin. -/
theorem C65_float_complete3 (b : BoundingBox3 S) (ray : Ray3 S) (hf : RayFinite3 b ray) (hb : LeAll b.min b.max)
    (ho : OffFaces3 b ray) (t₁ t₂ : ℝ) (h0 : 0 ≤ t₁) (h0' : 0 ≤ t₂) (hi₁ : ExactInside3 b ray t₁)
    (hi₂ : ExactInside3 b ray t₂) (ht : up S t₁ ≤ down S t₂) :
    ∃ i : Range S, Api.intersect b ray = some i ∧ val i.start ≤ (up S t₁ : ℝ) ∧
      ((down S t₂ : ℝ) : EReal) ≤ val i.stop := by
  obtain ⟨hfx, hfy, hfz⟩ := hf
  obtain ⟨hox, hoy, hoz⟩ := ho
  obtain ⟨ux, uy, uz⟩ := hi₁
  obtain ⟨vx, vy, vz⟩ := hi₂
  rw [Point3.leAll] at hb
  have lx : real b.min.x ≤ real b.max.x := real_le_of hfx.1 hfx.2.1 hb.1
  have ly : real b.min.y ≤ real b.max.y := real_le_of hfy.1 hfy.2.1 hb.2.1
  have lz : real b.min.z ≤ real b.max.z := real_le_of hfz.1 hfz.2.1 hb.2.2
  have z0 : val (Scalar.zero : S) ≤ (up S t₁ : ℝ) := by rw [val_zero]; exact_mod_cast up_nonneg h0
  have i0 : ((down S t₂ : ℝ) : EReal) ≤ val (infinity : S) := by rw [val_infinity]; exact le_top
  have ht' : ((up S t₁ : ℝ) : EReal) ≤ (down S t₂ : ℝ) := by exact_mod_cast ht
  obtain ⟨wx, zx⟩ := slab_complete hfx hox lx h0 h0' ux vx
  obtain ⟨wy, zy⟩ := slab_complete hfy hoy ly h0 h0' uy vy
  obtain ⟨wz, zz⟩ := slab_complete hfz hoz lz h0 h0' uz vz
  show ∃ i : Range S, b.intersectRay ray = some i ∧ _ ∧ _
  simp only [BoundingBox3.intersectRay, Api.min, Api.max, MinMax.min, MinMax.max]
  set s1 : S := fmax Scalar.zero (fmin ((b.min.x - ray.origin.x) / ray.direction.x) ((b.max.x - ray.origin.x) / ray.direction.x)) with hs1
  set e1 : S := fmin infinity (fmax ((b.min.x - ray.origin.x) / ray.direction.x) ((b.max.x - ray.origin.x) / ray.direction.x)) with he1
  set s2 : S := fmax s1 (fmin ((b.min.y - ray.origin.y) / ray.direction.y) ((b.max.y - ray.origin.y) / ray.direction.y)) with hs2
  set e2 : S := fmin e1 (fmax ((b.min.y - ray.origin.y) / ray.direction.y) ((b.max.y - ray.origin.y) / ray.direction.y)) with he2
  set s3 : S := fmax s2 (fmin ((b.min.z - ray.origin.z) / ray.direction.z) ((b.max.z - ray.origin.z) / ray.direction.z)) with hs3
  set e3 : S := fmin e2 (fmax ((b.min.z - ray.origin.z) / ray.direction.z) ((b.max.z - ray.origin.z) / ray.direction.z)) with he3
  obtain ⟨as1, bs1, cs1, ds1⟩ := fmax_step (s := (Scalar.zero : S)) (n := fmin ((b.min.x - ray.origin.x) / ray.direction.x) ((b.max.x - ray.origin.x) / ray.direction.x)) not_nan_zero
  obtain ⟨ae1, be1, ce1, de1⟩ := fmin_step (s := (infinity : S)) (n := fmax ((b.min.x - ray.origin.x) / ray.direction.x) ((b.max.x - ray.origin.x) / ray.direction.x)) not_nan_infinity
  rw [← hs1] at as1 bs1 cs1 ds1
  rw [← he1] at ae1 be1 ce1 de1
  obtain ⟨as2, bs2, cs2, ds2⟩ := fmax_step (s := (s1 : S)) (n := fmin ((b.min.y - ray.origin.y) / ray.direction.y) ((b.max.y - ray.origin.y) / ray.direction.y)) as1
  obtain ⟨ae2, be2, ce2, de2⟩ := fmin_step (s := (e1 : S)) (n := fmax ((b.min.y - ray.origin.y) / ray.direction.y) ((b.max.y - ray.origin.y) / ray.direction.y)) ae1
  rw [← hs2] at as2 bs2 cs2 ds2
  rw [← he2] at ae2 be2 ce2 de2
  obtain ⟨as3, bs3, cs3, ds3⟩ := fmax_step (s := (s2 : S)) (n := fmin ((b.min.z - ray.origin.z) / ray.direction.z) ((b.max.z - ray.origin.z) / ray.direction.z)) as2
  obtain ⟨ae3, be3, ce3, de3⟩ := fmin_step (s := (e2 : S)) (n := fmax ((b.min.z - ray.origin.z) / ray.direction.z) ((b.max.z - ray.origin.z) / ray.direction.z)) ae2
  rw [← hs3] at as3 bs3 cs3 ds3
  rw [← he3] at ae3 be3 ce3 de3
  have S1 := ds1 _ z0 wx
  have E1 := de1 _ i0 zx
  have S2 := ds2 _ S1 wy
  have E2 := de2 _ E1 zy
  have S3 := ds3 _ S2 wz
  have E3 := de3 _ E2 zz
  exact ⟨⟨s3, e3⟩, (if_neg (not_lt_of (S1.trans ht') E1)).trans ((if_neg (not_lt_of (S2.trans ht') E2)).trans (if_pos (le_iff.2 ⟨as3, ae3, (S3.trans ht').trans E3⟩))), S3, E3⟩

end

/-! ### The hypotheses are met: the box `[-1, 1]` and a ray along the x axis from the origin, in `f32` -/

section
open Fl
theorem uro_f32 : uro F32 = 1 / 16777216 := by
  show (2 : ℝ) ^ (-((24 : ℕ) : ℤ)) = _; norm_num
theorem tiny_f32 : tiny F32 ≤ 1 / 100 := by
  have : tiny F32 = 2 ^ (-150 : ℤ) := by
    show (2 : ℝ) ^ (_ : ℤ) = _; congr 1
  rw [this]; norm_num

theorem sub_zero_one : IsFinite ((Scalar.one : F32) - Scalar.zero) ∧ real ((Scalar.one : F32) - Scalar.zero) = 1 := one_sub_zero
theorem negone_sub_zero : IsFinite (-(Scalar.one : F32) - Scalar.zero) ∧ real (-(Scalar.one : F32) - Scalar.zero) = -1 := by
  have h : den (-(Scalar.one : F32) - Scalar.zero) = den (-(Scalar.one : F32)) := same_sub_zero _
  unfold IsFinite real; rw [h]
  exact ⟨finite_neg.2 finite_one, (real_neg _).trans (by rw [real_one])⟩
theorem unit_slab_one : SlabFinite (-(Scalar.one : F32)) Scalar.one Scalar.zero Scalar.one := by
  refine ⟨negone_sub_zero.1, sub_zero_one.1, finite_one, fun _ => ⟨?_, ?_⟩⟩
  · have h := same_div_one (-(Scalar.one : F32) - Scalar.zero)
    unfold IsFinite; rw [show den _ = _ from h]; exact negone_sub_zero.1
  · have h := same_div_one ((Scalar.one : F32) - Scalar.zero)
    unfold IsFinite; rw [show den _ = _ from h]; exact sub_zero_one.1
theorem unit_slab_zero : SlabFinite (-(Scalar.one : F32)) Scalar.one Scalar.zero Scalar.zero :=
  ⟨negone_sub_zero.1, sub_zero_one.1, finite_zero, fun h => absurd real_zero h⟩
theorem unit_le : (-(Scalar.one : F32) ≤? Scalar.one) = true := by
  rw [le_real (finite_neg.2 finite_one) finite_one, real_neg, real_one]; norm_num
theorem unit_off : OffFace (-(Scalar.one : F32)) Scalar.one Scalar.zero Scalar.zero := by
  intro _; rw [real_neg, real_one, real_zero]; norm_num
theorem unit_off' : OffFace (-(Scalar.one : F32)) Scalar.one Scalar.zero Scalar.one := by
  intro h; rw [real_one] at h; norm_num at h
theorem unit_in {d : F32} (h0 : 0 ≤ real d) (h1 : real d ≤ 1) {t : ℝ} (ht : 0 ≤ t) (ht' : t ≤ 1) :
    ExactIn (-(Scalar.one : F32)) Scalar.one Scalar.zero d t := by
  unfold ExactIn; rw [real_neg, real_one, real_zero]
  have := mul_nonneg ht h0
  have := mul_le_mul ht' h1 h0 zero_le_one
  constructor <;> linarith

example : ∃ (b : BoundingBox3 F32) (ray : Ray3 F32) (i : Range F32), RayFinite3 b ray ∧ LeAll b.min b.max ∧
    OffFaces3 b ray ∧ Api.intersect b ray = some i ∧ ExactInside3 b ray (1 / 2) := by
  let b : BoundingBox3 F32 := ⟨⟨-Scalar.one, -Scalar.one, -Scalar.one⟩, ⟨Scalar.one, Scalar.one, Scalar.one⟩⟩
  let ray : Ray3 F32 := ⟨⟨Scalar.zero, Scalar.zero, Scalar.zero⟩, ⟨Scalar.one, Scalar.zero, Scalar.zero⟩⟩
  have hf : RayFinite3 b ray := ⟨unit_slab_one, unit_slab_zero, unit_slab_zero⟩
  have hb : LeAll b.min b.max := Point3.leAll.2 ⟨unit_le, unit_le, unit_le⟩
  have ho : OffFaces3 b ray := ⟨unit_off', unit_off, unit_off⟩
  have z : (0 : ℝ) ≤ real (Scalar.zero : F32) ∧ real (Scalar.zero : F32) ≤ 1 := by rw [real_zero]; norm_num
  have o : (0 : ℝ) ≤ real (Scalar.one : F32) ∧ real (Scalar.one : F32) ≤ 1 := by rw [real_one]; norm_num
  have hin : ∀ t : ℝ, 0 ≤ t → t ≤ 1 → ExactInside3 b ray t := fun t h h' =>
    ⟨unit_in o.1 o.2 h h', unit_in z.1 z.2 h h', unit_in z.1 z.2 h h'⟩
  have ht := tiny_f32
  obtain ⟨i, hi, h1, h2⟩ := C65_float_complete3 b ray hf hb ho 0 1 le_rfl zero_le_one (hin 0 le_rfl zero_le_one)
    (hin 1 zero_le_one le_rfl) (by unfold up down; rw [uro_f32]; linarith)
  refine ⟨b, ray, i, hf, hb, ho, hi, C65_float_sound3 b ray hf hb i hi (1 / 2) (h1.trans ?_) (le_trans ?_ h2)⟩ <;>
    rw [EReal.coe_le_coe_iff] <;> unfold up down <;> rw [uro_f32] <;> linarith
example : ∃ (b : BoundingBox2 F32) (ray : Ray2 F32) (i : Range F32), RayFinite2 b ray ∧ LeAll b.min b.max ∧
    OffFaces2 b ray ∧ Api.intersect b ray = some i ∧ ExactInside2 b ray (1 / 2) := by
  let b : BoundingBox2 F32 := ⟨⟨-Scalar.one, -Scalar.one⟩, ⟨Scalar.one, Scalar.one⟩⟩
  let ray : Ray2 F32 := ⟨⟨Scalar.zero, Scalar.zero⟩, ⟨Scalar.one, Scalar.zero⟩⟩
  have hf : RayFinite2 b ray := ⟨unit_slab_one, unit_slab_zero⟩
  have hb : LeAll b.min b.max := Point2.leAll.2 ⟨unit_le, unit_le⟩
  have ho : OffFaces2 b ray := ⟨unit_off', unit_off⟩
  have z : (0 : ℝ) ≤ real (Scalar.zero : F32) ∧ real (Scalar.zero : F32) ≤ 1 := by rw [real_zero]; norm_num
  have o : (0 : ℝ) ≤ real (Scalar.one : F32) ∧ real (Scalar.one : F32) ≤ 1 := by rw [real_one]; norm_num
  have hin : ∀ t : ℝ, 0 ≤ t → t ≤ 1 → ExactInside2 b ray t := fun t h h' =>
    ⟨unit_in o.1 o.2 h h', unit_in z.1 z.2 h h'⟩
  have ht := tiny_f32
  obtain ⟨i, hi, h1, h2⟩ := C65_float_complete2 b ray hf hb ho 0 1 le_rfl zero_le_one (hin 0 le_rfl zero_le_one)
    (hin 1 zero_le_one le_rfl) (by unfold up down; rw [uro_f32]; linarith)
  refine ⟨b, ray, i, hf, hb, ho, hi, C65_float_sound2 b ray hf hb i hi (1 / 2) (h1.trans ?_) (le_trans ?_ h2)⟩ <;>
    rw [EReal.coe_le_coe_iff] <;> unfold up down <;> rw [uro_f32] <;> linarith
end

end VecMath
