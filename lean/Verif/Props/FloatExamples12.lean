import Verif.Props.FloatCorners
import Verif.Props.FloatExamples11
import Verif.Props.FloatWitness
/-! # Concrete instances for C95 -/

open Classical

namespace VecMath
open Scalar IEEE

theorem upTo_int32 {n : ℤ} {h : |n| ≤ 16777216} {M : ℝ} (hn : |(n : ℝ)| ≤ M) : UpTo M (int32 n h) := ⟨finite_int32, by rw [real_int32]; exact hn⟩
theorem cube_upTo : UpToAll (2 ^ (2 : ℤ)) (cube2 1 3) ∧ UpToAll (2 ^ (2 : ℤ)) (cube3 1 3) := by
  constructor
  · rw [BoundingBox2.upToAll, Point2.upToAll, Point2.upToAll]
    refine ⟨⟨?_, ?_⟩, ?_, ?_⟩ <;> exact upTo_int32 (h := by norm_num) (by norm_num)
  · rw [BoundingBox3.upToAll, Point3.upToAll, Point3.upToAll]
    refine ⟨⟨?_, ?_, ?_⟩, ?_, ?_, ?_⟩ <;> exact upTo_int32 (h := by norm_num) (by norm_num)
theorem shear_upTo : (∀ i j : Fin 2, UpTo (2 ^ (1 : ℤ)) (shear.m[3 * i.val + j.val])) ∧
    (∀ i : Fin 2, UpTo (2 ^ (2 : ℤ)) (shear.m[3 * i.val + 2])) ∧
    (∀ i j : Fin 2, UpTo (2 ^ (1 : ℤ)) (shearInv.m[3 * i.val + j.val])) ∧
    (∀ i : Fin 2, UpTo (2 ^ (3 : ℤ)) (shearInv.m[3 * i.val + 2])) := by
  refine ⟨?_, ?_, ?_, ?_⟩
  · intro i j; fin_cases i <;> fin_cases j <;> exact upTo_int32 (h := by norm_num) (by norm_num)
  · intro i; fin_cases i <;> exact upTo_int32 (h := by norm_num) (by norm_num)
  · intro i j; fin_cases i <;> fin_cases j <;> exact upTo_int32 (h := by norm_num) (by norm_num)
  · intro i; fin_cases i <;> exact upTo_int32 (h := by norm_num) (by norm_num)
theorem shear_affs : shearT.forward.toReal 2 = ![0, 0, 1] ∧ shearT.inv.forward.toReal 2 = ![0, 0, 1] :=
  ⟨by rw [show shearT.forward = shear from rfl, shear_real]; rfl,
   by rw [show shearT.inv.forward = shearInv from rfl, shearInv_real]; rfl⟩

/-- the square from `(1, 1)` to `(3, 3)`, sheared -/
example (build : Build) := C95_room2 (a := 1) (e := 2) shearT build (cube2 1 3) finite_shear shear_affs.1 shear_upTo.1
  (fun i => (shear_upTo.2.1 i).mono (by norm_num)) cube_upTo.1 (cube2_le (by norm_num)) (room32 2)
/-- the images of its corners are finite -/
theorem shear_corners (build : Build) (k : UInt32) (_ : k < 4) (c : Point2 F32) (hc : (cube2 1 3).corner build k = .ok c) :
    UpToAll (3 * 2 ^ ((1 : ℤ) + 2)) (Transform.transform shearT c : Point2 F32) :=
  C86_point2 (a := 1) (b := 2) shearT c finite_shear shear_affs.1 shear_upTo.1 (fun i => (shear_upTo.2.1 i).mono (by norm_num))
    (corner_upTo2 build _ cube_upTo.1 hc) (room32 2)
example (build : Build) := C95_around2 shearT build (cube2 1 3) finite_shear shear_affs.1 cube2_finite (cube2_le (by norm_num))
  (fun k hk c hc => (shear_corners build k hk c hc).allFinite.noNaN)
example (build : Build) := C95_finite2 shearT build (cube2 1 3) (fun k hk c hc => (shear_corners build k hk c hc).allFinite)
example (build : Build) := C95_bounded2 shearT build (cube2 1 3) (shear_corners build)
/-- two levels: the shear and its inverse -/
theorem shear_levels (build : Build) : Levels2 build [shearT, shearT.inv] (cube2 1 3) := by
  refine ⟨finite_shear, shear_affs.1, fun k hk c hc => (shear_corners build k hk c hc).allFinite, fun b' hb' => ?_⟩
  refine ⟨finite_shearInv, shear_affs.2, fun k hk c hc => ?_, fun _ _ => trivial⟩
  obtain ⟨B, e, u⟩ := C95_bounded2 shearT build (cube2 1 3) (shear_corners build)
  obtain rfl : B = b' := Except.ok.inj (e.symm.trans hb')
  have u' : UpToAll (2 ^ (5 : ℤ)) B := fun x hx => (u x hx).mono (by norm_num)
  exact (C86_point2 (a := 1) (b := 5) shearT.inv c finite_shearInv shear_affs.2 shear_upTo.2.2.1
    (fun i => (shear_upTo.2.2.2 i).mono (by norm_num)) (corner_upTo2 build _ u' hc) (room32 2)).allFinite
example (build : Build) := C95_levels2 build [shearT, shearT.inv] (cube2 1 3) cube2_finite (cube2_le (by norm_num)) (shear_levels build)

theorem shear3_upTo : (∀ i j : Fin 3, UpTo (2 ^ (3 : ℤ)) (shear3.m[4 * i.val + j.val])) ∧
    (∀ i : Fin 3, UpTo (2 ^ (3 : ℤ)) (shear3.m[4 * i.val + 3])) := by
  constructor
  · intro i j; fin_cases i <;> fin_cases j <;> exact upTo_int32 (h := by norm_num) (by norm_num)
  · intro i; fin_cases i <;> exact upTo_int32 (h := by norm_num) (by norm_num)
theorem shear3_aff : shear3T.forward.toReal 3 = ![0, 0, 0, 1] := by
  ext j; fin_cases j <;> simp [shear3T, shear3, Matrix4x4.toReal, real_int32]
/-- the cube from `(1, 1, 1)` to `(3, 3, 3)`, sheared -/
example (build : Build) := C95_room3 (a := 3) (e := 2) shear3T build (cube3 1 3) finite_shear3 shear3_aff shear3_upTo.1
  (fun i => (shear3_upTo.2 i).mono (by norm_num)) cube_upTo.2 (cube3_le (by norm_num)) (room32 2)
theorem shear3_corners (build : Build) (k : UInt32) (_ : k < 8) (c : Point3 F32) (hc : (cube3 1 3).corner build k = .ok c) :
    UpToAll (4 * 2 ^ ((3 : ℤ) + 2)) (Transform.transform shear3T c : Point3 F32) :=
  C86_point3 (a := 3) (b := 2) shear3T c finite_shear3 shear3_aff shear3_upTo.1 (fun i => (shear3_upTo.2 i).mono (by norm_num))
    (corner_upTo3 build _ cube_upTo.2 hc) (room32 2)
example (build : Build) := C95_around3 shear3T build (cube3 1 3) finite_shear3 shear3_aff cube3_finite (cube3_le (by norm_num))
  (fun k hk c hc => (shear3_corners build k hk c hc).allFinite.noNaN)
example (build : Build) := C95_levels3 build [shear3T] (cube3 1 3) cube3_finite (cube3_le (by norm_num))
  ⟨finite_shear3, shear3_aff, fun k hk c hc => (shear3_corners build k hk c hc).allFinite, fun _ _ => trivial⟩

/-! ## culling -/
/-- a scaling that is not uniform, and a ray that is parallel to no face -/
example := C95_cull2 (Transform2.scale (.of 2) (.of 4))
  (Transform2.allFinite.2 ⟨Matrix3x3.fin_scale ⟨trivial, trivial⟩, Matrix3x3.fin_scale ⟨Ideal.finite_recip (s := .of 2) trivial (by norm_num), Ideal.finite_recip (s := .of 4) trivial (by norm_num)⟩⟩)
  (C49_real2 ⟨.of 0, .of 0⟩ (by rw [Vector2.allFinite]; exact ⟨trivial, trivial⟩) (.of 2) (.of 4) (.of 1) ⟨⟨trivial, by norm_num⟩, ⟨trivial, by norm_num⟩⟩ ⟨trivial, by norm_num⟩).2.2.1
  (Matrix3x3.scale_affine _ _) .debug exB2 exB2_fin exB2_wf ⟨⟨.of 1, .of 1⟩, ⟨.of 1, .of 1⟩⟩
  (by rw [Ray2.allFinite, Point2.allFinite, Vector2.allFinite]; exact ⟨⟨trivial, trivial⟩, ⟨trivial, trivial⟩⟩)
  (by intro h; have := congrFun h 0; simp [Vector2.toReal] at this)
  (by
    intro i hi
    exfalso
    have e : (Matrix3x3.scale (recip (Ideal.of 2)) (recip (Ideal.of 4)) * (⟨.of 1, .of 1⟩ : Vector2 Ideal)).toReal i = 0 := hi
    rw [Matrix3x3.toReal_mulv' (Matrix3x3.fin_scale ⟨Ideal.finite_recip (s := .of 2) trivial (by norm_num), Ideal.finite_recip (s := .of 4) trivial (by norm_num)⟩) (by rw [Vector2.allFinite]; exact ⟨trivial, trivial⟩), Matrix3x3.linear_scale, Matrix.mulVec_diagonal] at e
    fin_cases i <;> simp [Vector2.toReal, Ideal.real_recip (s := .of 2) trivial (by norm_num), Ideal.real_recip (s := .of 4) trivial (by norm_num)] at e)
/-- a scaling that is not uniform, and a ray that is parallel to no face -/
example := C95_cull3 (Transform3.scale (.of 2) (.of 4) (.of 8))
  (Transform3.allFinite.2 ⟨Matrix4x4.fin_scale ⟨trivial, trivial, trivial⟩, Matrix4x4.fin_scale ⟨Ideal.finite_recip (s := .of 2) trivial (by norm_num), Ideal.finite_recip (s := .of 4) trivial (by norm_num), Ideal.finite_recip (s := .of 8) trivial (by norm_num)⟩⟩)
  (C49_real3 ⟨.of 0, .of 0, .of 0⟩ (by rw [Vector3.allFinite]; exact ⟨trivial, trivial, trivial⟩) (.of 2) (.of 4) (.of 8) (.of 1) ⟨⟨trivial, by norm_num⟩, ⟨trivial, by norm_num⟩, ⟨trivial, by norm_num⟩⟩ ⟨trivial, by norm_num⟩).2.2.1
  (Matrix4x4.scale_affine _ _ _) .debug exB3 exB3_fin exB3_wf ⟨⟨.of 1, .of 1, .of 1⟩, ⟨.of 1, .of 1, .of 1⟩⟩
  (by rw [Ray3.allFinite, Point3.allFinite, Vector3.allFinite]; exact ⟨⟨trivial, trivial, trivial⟩, ⟨trivial, trivial, trivial⟩⟩)
  (by intro h; have := congrFun h 0; simp [Vector3.toReal] at this)
  (by
    intro i hi
    exfalso
    have e : (Matrix4x4.scale (recip (Ideal.of 2)) (recip (Ideal.of 4)) (recip (Ideal.of 8)) * (⟨.of 1, .of 1, .of 1⟩ : Vector3 Ideal)).toReal i = 0 := hi
    rw [Matrix4x4.toReal_mulv' (Matrix4x4.fin_scale ⟨Ideal.finite_recip (s := .of 2) trivial (by norm_num), Ideal.finite_recip (s := .of 4) trivial (by norm_num), Ideal.finite_recip (s := .of 8) trivial (by norm_num)⟩) (by rw [Vector3.allFinite]; exact ⟨trivial, trivial, trivial⟩), Matrix4x4.linear_scale, Matrix.mulVec_diagonal] at e
    fin_cases i <;> simp [Vector3.toReal, Ideal.real_recip (s := .of 2) trivial (by norm_num), Ideal.real_recip (s := .of 4) trivial (by norm_num), Ideal.real_recip (s := .of 8) trivial (by norm_num)] at e)



/-! ## overflow -/
section
open Fl
variable {F : Fmt}
theorem big_prod : val (big F * big F) = ⊤ ∧ val (-big F * big F) = ⊥ := by
  have fb : IsFinite (big F) := finite_big
  have fn : IsFinite (-big F) := finite_neg.2 finite_big
  have p := real_big_pos (F := F)
  have h1 : ¬ IsFinite (big F * big F) := by
    intro h
    have := (correct_mul fb fb).1.1 h
    rw [abs_of_pos (mul_pos p p), ← sq] at this
    exact absurd big_sq (not_le.2 this)
  have h2 : ¬ IsFinite (-big F * big F) := by
    intro h
    have := (correct_mul fn fb).1.1 h
    rw [real_neg, neg_mul, abs_neg, abs_of_pos (mul_pos p p), ← sq] at this
    exact absurd big_sq (not_le.2 this)
  have n1 : ¬ IsNaN (big F * big F) := by unfold IsNaN; rw [mul_finite fb fb]; exact Rounding.finish_ne_nan _ _ _
  have n2 : ¬ IsNaN (-big F * big F) := by unfold IsNaN; rw [mul_finite fn fb]; exact Rounding.finish_ne_nan _ _ _
  have s1 : 0 ≤ val (big F * big F) := by unfold val; rw [mul_finite fb fb]; exact Rounding.finish_nonneg _ (by positivity)
  have s2 : val (-big F * big F) ≤ 0 := by
    unfold val; rw [mul_finite fn fb]; exact Rounding.finish_nonpos _ (by rw [real_neg]; nlinarith)
  rw [finite_iff] at h1 h2
  constructor
  · by_contra h; exact h1 ⟨n1, h, fun h' => by rw [h'] at s1; exact absurd s1 (by simp)⟩
  · by_contra h; exact h2 ⟨n2, fun h' => by rw [h'] at s2; exact absurd s2 (by simp), h⟩
/-- **C95**: overflow can make the image of a corner NaN although the transform is affine and everything is finite. -/
theorem C95_overflow2 (build : Build) : ∃ (t : Transform2 (Fl F)) (b : BoundingBox2 (Fl F)) (c : Point2 (Fl F)), AllFinite t.forward ∧
    t.forward.toReal 2 = ![0, 0, 1] ∧ AllFinite b ∧ LeAll b.min b.max ∧ b.corner build 3 = .ok c ∧
    ¬ NoNaN (Transform.transform t c : Point2 (Fl F)) := by
  let m : Matrix3x3 (Fl F) := ⟨#v[big F, -big F, zero, zero, one, zero, zero, zero, one]⟩
  have fm : AllFinite m := by
    rw [Matrix3x3.allFinite, forall_lt_9]
    exact ⟨finite_big, finite_neg.2 finite_big, finite_zero, finite_zero, finite_one, finite_zero, finite_zero, finite_zero, finite_one⟩
  have am : m.toReal 2 = ![0, 0, 1] := by
    ext j; fin_cases j
    · exact real_zero
    · exact real_zero
    · exact real_one
  have fb : AllFinite (⟨big F, big F⟩ : Point2 (Fl F)) := Point2.allFinite.2 ⟨finite_big, finite_big⟩
  refine ⟨⟨m, m⟩, ⟨⟨big F, big F⟩, ⟨big F, big F⟩⟩, ⟨big F, big F⟩, fm, am, BoundingBox2.allFinite.2 ⟨fb, fb⟩,
    Point2.leAll.2 ⟨le_self finite_big.not_nan, le_self finite_big.not_nan⟩, (corner_ok2 build _).2.2.2, fun h => ?_⟩
  have h1 := (Point2.noNaN.1 h).1
  have hw := weight_one2 (S := Fl F) finite_zero finite_zero finite_one finite_big finite_big real_zero real_zero real_one
  have e := div_weight (x := big F * big F + -big F * big F + zero) hw
  have h2 : ¬ IsNaN ((big F * big F + -big F * big F + zero) / (zero * big F + zero * big F + one)) := h1
  rw [isNaN_num, e, ← isNaN_num] at h2
  have h3 := (nan_of_add h2).1
  have k := nan_of_add h3
  exact h3 ((nan_add_iff k.1 k.2).2 (.inl big_prod))
/-- **C95**: overflow can make the image of a corner NaN although the transform is affine and everything is finite. -/
theorem C95_overflow3 (build : Build) : ∃ (t : Transform3 (Fl F)) (b : BoundingBox3 (Fl F)) (c : Point3 (Fl F)), AllFinite t.forward ∧
    t.forward.toReal 3 = ![0, 0, 0, 1] ∧ AllFinite b ∧ LeAll b.min b.max ∧ b.corner build 7 = .ok c ∧
    ¬ NoNaN (Transform.transform t c : Point3 (Fl F)) := by
  let m : Matrix4x4 (Fl F) := ⟨#v[big F, -big F, zero, zero, zero, one, zero, zero, zero, zero, one, zero, zero, zero, zero, one]⟩
  have fm : AllFinite m := by
    rw [Matrix4x4.allFinite, forall_lt_16]
    exact ⟨finite_big, finite_neg.2 finite_big, finite_zero, finite_zero, finite_zero, finite_one, finite_zero, finite_zero, finite_zero,
      finite_zero, finite_one, finite_zero, finite_zero, finite_zero, finite_zero, finite_one⟩
  have am : m.toReal 3 = ![0, 0, 0, 1] := by
    ext j; fin_cases j
    · exact real_zero
    · exact real_zero
    · exact real_zero
    · exact real_one
  have fb : AllFinite (⟨big F, big F, big F⟩ : Point3 (Fl F)) := Point3.allFinite.2 ⟨finite_big, finite_big, finite_big⟩
  refine ⟨⟨m, m⟩, ⟨⟨big F, big F, big F⟩, ⟨big F, big F, big F⟩⟩, ⟨big F, big F, big F⟩, fm, am, BoundingBox3.allFinite.2 ⟨fb, fb⟩,
    Point3.leAll.2 ⟨le_self finite_big.not_nan, le_self finite_big.not_nan, le_self finite_big.not_nan⟩,
    (corner_ok3 build _).2.2.2.2.2.2.2, fun h => ?_⟩
  have h1 := (Point3.noNaN.1 h).1
  have hw := weight_one3 (S := Fl F) finite_zero finite_zero finite_zero finite_one finite_big finite_big finite_big real_zero real_zero real_zero real_one
  have e := div_weight (x := big F * big F + -big F * big F + zero * big F + zero) hw
  have h2 : ¬ IsNaN ((big F * big F + -big F * big F + zero * big F + zero) / (zero * big F + zero * big F + zero * big F + one)) := h1
  rw [isNaN_num, e, ← isNaN_num] at h2
  have h3 := (nan_of_add (nan_of_add h2).1).1
  have k := nan_of_add h3
  exact h3 ((nan_add_iff k.1 k.2).2 (.inl big_prod))
example (build : Build) := (C95_overflow2 (F := binary32) build).imp fun t h => h.imp fun b h => h.imp fun c h =>
  C95_nan2 t build b h.2.2.2.1 3 (by decide) c h.2.2.2.2.1 h.2.2.2.2.2
example (build : Build) := (C95_overflow3 (F := binary32) build).imp fun t h => h.imp fun b h => h.imp fun c h =>
  C95_nan3 t build b h.2.2.2.1 7 (by decide) c h.2.2.2.2.1 h.2.2.2.2.2
end
end VecMath
