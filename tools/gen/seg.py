L=[]
w=L.append
w('''import Verif.Props.FloatAim
import Verif.Props.FloatExamples12
import Verif.Spec.BoxImage
import Verif.Lemmas.Near
/-!
# Segments in exact arithmetic, the overflow exception, and concrete cases (C96)
-/

open Classical

namespace VecMath
open Scalar IEEE
''')
for n in (2,3):
    D='xyz'[:n]
    conj=' ∧ '.join(f'h.{i}' for i in range(n))
    w(f'''
/-- **C96**, {n}D, exact arithmetic: the ray from `p` along `q - p` is reported to enter the box at a parameter of at most
1 exactly if a point of the segment from `p` to `q` is in the box. -/
theorem C96_segment{n} (b : BoundingBox{n} Ideal) (p q : Point{n} Ideal) (hb : AllFinite b) (wb : LeAll b.min b.max)
    (hp : AllFinite p) (hq : AllFinite q) (hne : q.toReal ≠ p.toReal) (hf : FaceFree{n} b (Ray{n}.new p (q - p))) :
    (∃ i : Range Ideal, Api.intersect b (Ray{n}.new p (q - p)) = some i ∧ (i.start ≤? one) = true) ↔
      ∃ τ : ℝ, 0 ≤ τ ∧ τ ≤ 1 ∧ InBox b.min.toReal b.max.toReal (p.toReal + τ • (q.toReal - p.toReal)) := by
  have fd : AllFinite (q - p) := Vector{n}.fin_subp hq hp
  have ed : (q - p).toReal = q.toReal - p.toReal := Vector{n}.toReal_subp hq hp
  have hr : AllFinite (Ray{n}.new p (q - p)) := Ray{n}.allFinite.2 ⟨hp, fd⟩
  have key : ∀ t : Ideal, IsFinite t → (b.isInside ((Ray{n}.new p (q - p)).at t) = true ↔
      InBox b.min.toReal b.max.toReal (p.toReal + real t • (q.toReal - p.toReal))) := by
    intro t ht
    rw [BoundingBox{n}.inside_real hb (p := (Ray{n}.new p (q - p)).at t) (Point{n}.fin_addv hp (Vector{n}.fin_mul fd ht))]
    have : ((Ray{n}.new p (q - p)).at t).toReal = p.toReal + real t • (q.toReal - p.toReal) := by
      rw [← ed]
      exact (Point{n}.toReal_addv hp (Vector{n}.fin_mul fd ht)).trans (by rw [Vector{n}.toReal_mul fd ht])
    rw [this]; rfl
  obtain ⟨h1, h2⟩ := C35_real{n} b hb wb (Ray{n}.new p (q - p)) hr (by
    show (q - p).toReal ≠ 0
    rw [ed]; exact sub_ne_zero.2 hne) hf
  constructor
  · rintro ⟨i, hi, hs⟩
    obtain ⟨fs, fe, h⟩ := h1 i hi
    have := (h i.start fs).2 ⟨le_self fs.not_nan, (C34_range{n} b _ i hi).2.1⟩
    rw [Ideal.le_real fs finite_one, real_one] at hs
    refine ⟨real i.start, ?_, hs, (key _ fs).1 this.2⟩
    have := this.1
    rwa [Ideal.le_real finite_zero fs, real_zero] at this
  · rintro ⟨τ, h0, hτ, hin⟩
    have ft : IsFinite (Ideal.of τ) := Ideal.finite_of τ
    have z : (zero ≤? Ideal.of τ) = true := by rw [Ideal.le_real finite_zero ft, real_zero]; simpa using h0
    have hin' := (key (.of τ) ft).2 (by simpa using hin)
    cases hi : (Api.intersect b (Ray{n}.new p (q - p)) : Option (Range Ideal)) with
    | none =>
      have := h2.1 hi _ ft z
      rw [this] at hin'; simp at hin'
    | some i =>
      have := ((h1 i hi).2.2 _ ft).1 ⟨z, hin'⟩
      refine ⟨i, rfl, le_trans' this.1 ?_⟩
      rw [Ideal.le_real ft finite_one, real_one]; simpa using hτ
''')
w('''

/-! ## The exception: a direction that overflows -/
section
open Fl
variable {F : Fmt}
theorem bigs_sub : den (big F - -big F) = .inf false := by
  have h := correct_sub (finite_big (F := F)) (finite_neg.2 (finite_big (F := F)))
  have hb := real_big_pos (F := F)
  rw [IEEE.real_neg, sub_neg_eq_add, ← big_double] at h
  have hn : ¬ IsFinite (big F - -big F) := fun hf => by
    have := h.1.1 hf
    rw [abs_of_pos (by positivity)] at this
    exact absurd overflow_le (not_le.2 this)
  unfold IsFinite at hn
  rw [sub_finite finite_big (finite_neg.2 finite_big), IEEE.real_neg, sub_neg_eq_add] at hn ⊢
  rw [Rounding.finish_isFin] at hn
  rw [Rounding.finish_of_not_fits _ hn, decide_eq_false (by linarith)]
theorem zero_sub_big : IsFinite ((zero : Fl F) - -big F) := by
  have h := correct_sub (finite_zero (S := Fl F)) (finite_neg.2 (finite_big (F := F)))
  rw [real_zero, IEEE.real_neg, zero_sub, neg_neg] at h
  exact h.1.2 (finite_lt_overflow finite_big)
/-- One dimension of the test: the direction is infinite, so the near plane is at 0 and the far plane is NaN. -/
theorem overflow_slab : ¬ IsNaN (fmin (((zero : Fl F) - -big F) / (big F - -big F)) ((big F - -big F) / (big F - -big F))) ∧
    val (fmin (((zero : Fl F) - -big F) / (big F - -big F)) ((big F - -big F) / (big F - -big F))) = 0 ∧
    ¬ IsNaN (fmax (((zero : Fl F) - -big F) / (big F - -big F)) ((big F - -big F) / (big F - -big F))) ∧
    val (fmax (((zero : Fl F) - -big F) / (big F - -big F)) ((big F - -big F) / (big F - -big F))) = 0 := by
  have h1 : den (((zero : Fl F) - -big F) / (big F - -big F)) = .mkZero ((den ((zero : Fl F) - -big F)).neg? ^^ false) := by
    rw [den_div, bigs_sub, Rounding.div_fin_inf _ zero_sub_big]
  have h2 : IsNaN ((big F - -big F) / (big F - -big F)) := by
    unfold IsNaN; rw [den_div, bigs_sub, Rounding.div_inf_inf]
  have n1 : ¬ IsNaN (((zero : Fl F) - -big F) / (big F - -big F)) := by
    intro h; unfold IsNaN at h; rw [h1] at h; revert h
    cases ((den ((zero : Fl F) - -big F)).neg? ^^ false) <;> simp [Val.mkZero]
  have v1 : val (((zero : Fl F) - -big F) / (big F - -big F)) = 0 := by
    unfold val; rw [h1]
    cases ((den ((zero : Fl F) - -big F)).neg? ^^ false) <;> simp [Val.mkZero]
  have m1 := min_nan_right (a := ((zero : Fl F) - -big F) / (big F - -big F)) h2
  have m2 := max_nan_right (a := ((zero : Fl F) - -big F) / (big F - -big F)) h2
  exact ⟨by rw [m1.isNaN]; exact n1, by rw [m1.val]; exact v1, by rw [m2.isNaN]; exact n1, by rw [m2.val]; exact v1⟩
theorem overflow_step {s e : Fl F} (hs : ¬ IsNaN s) (vs : val s = 0) (he : ¬ IsNaN e) (ve : 0 ≤ val e) :
    (¬ IsNaN (fmax s (fmin (((zero : Fl F) - -big F) / (big F - -big F)) ((big F - -big F) / (big F - -big F)))) ∧
      val (fmax s (fmin (((zero : Fl F) - -big F) / (big F - -big F)) ((big F - -big F) / (big F - -big F)))) = 0) ∧
    (¬ IsNaN (fmin e (fmax (((zero : Fl F) - -big F) / (big F - -big F)) ((big F - -big F) / (big F - -big F)))) ∧
      val (fmin e (fmax (((zero : Fl F) - -big F) / (big F - -big F)) ((big F - -big F) / (big F - -big F)))) = 0) := by
  obtain ⟨n1, v1, n2, v2⟩ := overflow_slab (F := F)
  refine ⟨⟨max_nn hs, by rw [val_max hs n1, vs, v1, max_self]⟩, ⟨fun h => he (isNaN_min.1 h).1, ?_⟩⟩
  rw [val_min he n2, v2]; exact min_eq_right ve
/-- **C96**, 2D, the exception: if `q - p` overflows, a box containing `q` need not report the parameter 1 of `q`. -/
theorem C96_overflow2 : ∃ (b : BoundingBox2 (Fl F)) (p q : Point2 (Fl F)), AllFinite b ∧ AllFinite p ∧ AllFinite q ∧
    OffFaces2 b (Ray2.new p (q - p)) ∧ b.isInside q = true ∧
    ∃ i : Range (Fl F), Api.intersect b (Ray2.new p (q - p)) = some i ∧ (one ≤? i.stop) = false := by
  have off : OffFace (zero : Fl F) (big F) (-big F) (big F - -big F) := by
    intro _
    rw [IEEE.real_neg, real_zero]
    have := real_big_pos (F := F)
    exact iff_of_false (by linarith) (by linarith)
  refine ⟨⟨⟨zero, zero⟩, ⟨big F, big F⟩⟩, ⟨-big F, -big F⟩, ⟨big F, big F⟩, BoundingBox2.allFinite.2 ⟨(Point2.allFinite.2 ⟨finite_zero, finite_zero⟩), (Point2.allFinite.2 ⟨finite_big, finite_big⟩)⟩, (Point2.allFinite.2 ⟨finite_neg.2 finite_big, finite_neg.2 finite_big⟩), (Point2.allFinite.2 ⟨finite_big, finite_big⟩),
    ⟨off, off⟩, isInside2_iff.2 ⟨⟨le_real finite_zero finite_big |>.2 (by rw [real_zero]; exact real_big_pos.le), le_self finite_big.not_nan⟩, ⟨le_real finite_zero finite_big |>.2 (by rw [real_zero]; exact real_big_pos.le), le_self finite_big.not_nan⟩⟩, ?_⟩
  have s1 := overflow_step (F := F) (s := zero) (e := infinity) not_nan_zero val_zero not_nan_infinity
    (by rw [val_infinity]; exact le_top)
  have s2 := overflow_step (F := F) s1.1.1 s1.1.2 s1.2.1 s1.2.2.ge
  have ng : ∀ {s e : Fl F}, (¬ IsNaN s ∧ val s = 0) ∧ (¬ IsNaN e ∧ val e = 0) → ¬ (s >? e) = true := fun h hc => by
    have := (lt_iff.1 hc).2.2
    rw [h.1.2, h.2.2] at this
    exact lt_irrefl _ this
  have le : ∀ {s e : Fl F}, (¬ IsNaN s ∧ val s = 0) ∧ (¬ IsNaN e ∧ val e = 0) → (s ≤? e) = true := fun h =>
    le_iff.2 ⟨h.1.1, h.2.1, by rw [h.1.2, h.2.2]⟩
  show ∃ i, BoundingBox2.intersectRay _ _ = some i ∧ _
  simp only [BoundingBox2.intersectRay, Api.min, Api.max, MinMax.min, MinMax.max]
  refine ⟨_, (if_neg (ng s1)).trans (if_pos (le s2)), ?_⟩
  rw [← Bool.not_eq_true, le_iff]
  rintro ⟨-, -, h⟩
  have h1 : val (one : Fl F) = 1 := by rw [finite_one.val, real_one]; rfl
  rw [h1] at h
  exact absurd (h.trans (show _ ≤ (0 : EReal) from s2.2.2.le)) (by norm_num)
/-- **C96**, 3D, the exception: if `q - p` overflows, a box containing `q` need not report the parameter 1 of `q`. -/
theorem C96_overflow3 : ∃ (b : BoundingBox3 (Fl F)) (p q : Point3 (Fl F)), AllFinite b ∧ AllFinite p ∧ AllFinite q ∧
    OffFaces3 b (Ray3.new p (q - p)) ∧ b.isInside q = true ∧
    ∃ i : Range (Fl F), Api.intersect b (Ray3.new p (q - p)) = some i ∧ (one ≤? i.stop) = false := by
  have off : OffFace (zero : Fl F) (big F) (-big F) (big F - -big F) := by
    intro _
    rw [IEEE.real_neg, real_zero]
    have := real_big_pos (F := F)
    exact iff_of_false (by linarith) (by linarith)
  refine ⟨⟨⟨zero, zero, zero⟩, ⟨big F, big F, big F⟩⟩, ⟨-big F, -big F, -big F⟩, ⟨big F, big F, big F⟩, BoundingBox3.allFinite.2 ⟨(Point3.allFinite.2 ⟨finite_zero, finite_zero, finite_zero⟩), (Point3.allFinite.2 ⟨finite_big, finite_big, finite_big⟩)⟩, (Point3.allFinite.2 ⟨finite_neg.2 finite_big, finite_neg.2 finite_big, finite_neg.2 finite_big⟩), (Point3.allFinite.2 ⟨finite_big, finite_big, finite_big⟩),
    ⟨off, off, off⟩, isInside3_iff.2 ⟨⟨le_real finite_zero finite_big |>.2 (by rw [real_zero]; exact real_big_pos.le), le_self finite_big.not_nan⟩, ⟨le_real finite_zero finite_big |>.2 (by rw [real_zero]; exact real_big_pos.le), le_self finite_big.not_nan⟩, ⟨le_real finite_zero finite_big |>.2 (by rw [real_zero]; exact real_big_pos.le), le_self finite_big.not_nan⟩⟩, ?_⟩
  have s1 := overflow_step (F := F) (s := zero) (e := infinity) not_nan_zero val_zero not_nan_infinity
    (by rw [val_infinity]; exact le_top)
  have s2 := overflow_step (F := F) s1.1.1 s1.1.2 s1.2.1 s1.2.2.ge
  have s3 := overflow_step (F := F) s2.1.1 s2.1.2 s2.2.1 s2.2.2.ge
  have ng : ∀ {s e : Fl F}, (¬ IsNaN s ∧ val s = 0) ∧ (¬ IsNaN e ∧ val e = 0) → ¬ (s >? e) = true := fun h hc => by
    have := (lt_iff.1 hc).2.2
    rw [h.1.2, h.2.2] at this
    exact lt_irrefl _ this
  have le : ∀ {s e : Fl F}, (¬ IsNaN s ∧ val s = 0) ∧ (¬ IsNaN e ∧ val e = 0) → (s ≤? e) = true := fun h =>
    le_iff.2 ⟨h.1.1, h.2.1, by rw [h.1.2, h.2.2]⟩
  show ∃ i, BoundingBox3.intersectRay _ _ = some i ∧ _
  simp only [BoundingBox3.intersectRay, Api.min, Api.max, MinMax.min, MinMax.max]
  refine ⟨_, (if_neg (ng s1)).trans ((if_neg (ng s2)).trans (if_pos (le s3))), ?_⟩
  rw [← Bool.not_eq_true, le_iff]
  rintro ⟨-, -, h⟩
  have h1 : val (one : Fl F) = 1 := by rw [finite_one.val, real_one]; rfl
  rw [h1] at h
  exact absurd (h.trans (show _ ≤ (0 : EReal) from s3.2.2.le)) (by norm_num)
end
section
theorem int32_sub {a b : ℤ} (h : |a - b| ≤ 16777216) (ha : |a| ≤ 16777216 := by norm_num) (hb : |b| ≤ 16777216 := by norm_num) :
    IsFinite (int32 a ha - int32 b hb) ∧ real (int32 a ha - int32 b hb) = (a : ℝ) - (b : ℝ) := by
  have g : OnGrid 0 16777216 ((a : ℝ) - (b : ℝ)) := by
    have := OnGrid.int (n := a - b) (N := 16777216) (by exact_mod_cast h)
    exact this.congr (by push_cast; ring)
  exact (correct_sub finite_int32 finite_int32).grid (by rw [real_int32, real_int32]; exact g) (fits_f32 le_rfl)

/-- Aiming from `(9, 8, ..)` at the corner `(1, 1, ..)` and at the inner point `(2, 2, ..)` of the box `1 .. 3`. -/
theorem aim_corner2 : AllFinite (⟨int32 1, int32 1⟩ - ⟨int32 9, int32 8⟩ : Vector2 F32) ∧
    OffPlanes2 (cube2 1 3) (Ray2.new ⟨int32 9, int32 8⟩ (⟨int32 1, int32 1⟩ - ⟨int32 9, int32 8⟩)) ∧ (cube2 1 3).isInside ⟨int32 1, int32 1⟩ = true :=
  ⟨Vector2.allFinite.2 ⟨(int32_sub (by norm_num)).1, (int32_sub (by norm_num)).1⟩,
    ⟨fun h => absurd ((int32_sub (a := 1) (b := 9) (by norm_num)).2.symm.trans h) (by norm_num), fun h => absurd ((int32_sub (a := 1) (b := 8) (by norm_num)).2.symm.trans h) (by norm_num)⟩,
    isInside2_iff.2 ⟨⟨int32_le (by norm_num), int32_le (by norm_num)⟩, ⟨int32_le (by norm_num), int32_le (by norm_num)⟩⟩⟩
example := C96_aim2 (cube2 1 3) ⟨int32 9, int32 8⟩ ⟨int32 1, int32 1⟩ cube2_finite (Point2.allFinite.2 (by simp [finite_int32]))
  aim_corner2.1 aim_corner2.2.1.offFaces aim_corner2.2.2
theorem aim_inner2 : AllFinite (⟨int32 2, int32 2⟩ - ⟨int32 9, int32 8⟩ : Vector2 F32) ∧
    OffPlanes2 (cube2 1 3) (Ray2.new ⟨int32 9, int32 8⟩ (⟨int32 2, int32 2⟩ - ⟨int32 9, int32 8⟩)) ∧ (cube2 1 3).isInside ⟨int32 2, int32 2⟩ = true :=
  ⟨Vector2.allFinite.2 ⟨(int32_sub (by norm_num)).1, (int32_sub (by norm_num)).1⟩,
    ⟨fun h => absurd ((int32_sub (a := 2) (b := 9) (by norm_num)).2.symm.trans h) (by norm_num), fun h => absurd ((int32_sub (a := 2) (b := 8) (by norm_num)).2.symm.trans h) (by norm_num)⟩,
    isInside2_iff.2 ⟨⟨int32_le (by norm_num), int32_le (by norm_num)⟩, ⟨int32_le (by norm_num), int32_le (by norm_num)⟩⟩⟩
example := C96_aim2 (cube2 1 3) ⟨int32 9, int32 8⟩ ⟨int32 2, int32 2⟩ cube2_finite (Point2.allFinite.2 (by simp [finite_int32]))
  aim_inner2.1 aim_inner2.2.1.offFaces aim_inner2.2.2
/-- In a tree of one box, and of two copies of it. -/
example := C96_tree2 ⟨int32 9, int32 8⟩ ⟨int32 2, int32 2⟩ (.node (.leaf (cube2 1 3)) (.leaf (cube2 1 3))) (Point2.allFinite.2 (by simp [finite_int32]))
  aim_inner2.1 (by
    intro b hb
    simp only [Tree.leaves, List.cons_append, List.nil_append, List.mem_cons, List.not_mem_nil, or_false, or_self] at hb
    subst hb
    exact ⟨cube2_le (by norm_num), cube2_finite, aim_inner2.2.1⟩) (cube2 1 3) (by simp [Tree.leaves]) aim_inner2.2.2
theorem aim_corner3 : AllFinite (⟨int32 1, int32 1, int32 1⟩ - ⟨int32 9, int32 8, int32 7⟩ : Vector3 F32) ∧
    OffPlanes3 (cube3 1 3) (Ray3.new ⟨int32 9, int32 8, int32 7⟩ (⟨int32 1, int32 1, int32 1⟩ - ⟨int32 9, int32 8, int32 7⟩)) ∧ (cube3 1 3).isInside ⟨int32 1, int32 1, int32 1⟩ = true :=
  ⟨Vector3.allFinite.2 ⟨(int32_sub (by norm_num)).1, (int32_sub (by norm_num)).1, (int32_sub (by norm_num)).1⟩,
    ⟨fun h => absurd ((int32_sub (a := 1) (b := 9) (by norm_num)).2.symm.trans h) (by norm_num), fun h => absurd ((int32_sub (a := 1) (b := 8) (by norm_num)).2.symm.trans h) (by norm_num), fun h => absurd ((int32_sub (a := 1) (b := 7) (by norm_num)).2.symm.trans h) (by norm_num)⟩,
    isInside3_iff.2 ⟨⟨int32_le (by norm_num), int32_le (by norm_num)⟩, ⟨int32_le (by norm_num), int32_le (by norm_num)⟩, ⟨int32_le (by norm_num), int32_le (by norm_num)⟩⟩⟩
example := C96_aim3 (cube3 1 3) ⟨int32 9, int32 8, int32 7⟩ ⟨int32 1, int32 1, int32 1⟩ cube3_finite (Point3.allFinite.2 (by simp [finite_int32]))
  aim_corner3.1 aim_corner3.2.1.offFaces aim_corner3.2.2
theorem aim_inner3 : AllFinite (⟨int32 2, int32 2, int32 2⟩ - ⟨int32 9, int32 8, int32 7⟩ : Vector3 F32) ∧
    OffPlanes3 (cube3 1 3) (Ray3.new ⟨int32 9, int32 8, int32 7⟩ (⟨int32 2, int32 2, int32 2⟩ - ⟨int32 9, int32 8, int32 7⟩)) ∧ (cube3 1 3).isInside ⟨int32 2, int32 2, int32 2⟩ = true :=
  ⟨Vector3.allFinite.2 ⟨(int32_sub (by norm_num)).1, (int32_sub (by norm_num)).1, (int32_sub (by norm_num)).1⟩,
    ⟨fun h => absurd ((int32_sub (a := 2) (b := 9) (by norm_num)).2.symm.trans h) (by norm_num), fun h => absurd ((int32_sub (a := 2) (b := 8) (by norm_num)).2.symm.trans h) (by norm_num), fun h => absurd ((int32_sub (a := 2) (b := 7) (by norm_num)).2.symm.trans h) (by norm_num)⟩,
    isInside3_iff.2 ⟨⟨int32_le (by norm_num), int32_le (by norm_num)⟩, ⟨int32_le (by norm_num), int32_le (by norm_num)⟩, ⟨int32_le (by norm_num), int32_le (by norm_num)⟩⟩⟩
example := C96_aim3 (cube3 1 3) ⟨int32 9, int32 8, int32 7⟩ ⟨int32 2, int32 2, int32 2⟩ cube3_finite (Point3.allFinite.2 (by simp [finite_int32]))
  aim_inner3.1 aim_inner3.2.1.offFaces aim_inner3.2.2
/-- In a tree of one box, and of two copies of it. -/
example := C96_tree3 ⟨int32 9, int32 8, int32 7⟩ ⟨int32 2, int32 2, int32 2⟩ (.node (.leaf (cube3 1 3)) (.leaf (cube3 1 3))) (Point3.allFinite.2 (by simp [finite_int32]))
  aim_inner3.1 (by
    intro b hb
    simp only [Tree.leaves, List.cons_append, List.nil_append, List.mem_cons, List.not_mem_nil, or_false, or_self] at hb
    subst hb
    exact ⟨cube3_le (by norm_num), cube3_finite, aim_inner3.2.1⟩) (cube3 1 3) (by simp [Tree.leaves]) aim_inner3.2.2
/-- From the corner `(1, 1, ..)` of the box `1 .. 3` to the opposite one. -/
theorem aim_across2 : AllFinite (⟨int32 3, int32 3⟩ - ⟨int32 1, int32 1⟩ : Vector2 F32) ∧
    OffFaces2 (cube2 1 3) (Ray2.new ⟨int32 1, int32 1⟩ (⟨int32 3, int32 3⟩ - ⟨int32 1, int32 1⟩)) ∧ (cube2 1 3).isInside ⟨int32 1, int32 1⟩ = true ∧
    (cube2 1 3).isInside ⟨int32 3, int32 3⟩ = true :=
  ⟨Vector2.allFinite.2 ⟨(int32_sub (by norm_num)).1, (int32_sub (by norm_num)).1⟩,
    ⟨fun h => absurd ((int32_sub (a := 3) (b := 1) (by norm_num)).2.symm.trans h) (by norm_num), fun h => absurd ((int32_sub (a := 3) (b := 1) (by norm_num)).2.symm.trans h) (by norm_num)⟩,
    isInside2_iff.2 ⟨⟨int32_le (by norm_num), int32_le (by norm_num)⟩, ⟨int32_le (by norm_num), int32_le (by norm_num)⟩⟩, isInside2_iff.2 ⟨⟨int32_le (by norm_num), int32_le (by norm_num)⟩, ⟨int32_le (by norm_num), int32_le (by norm_num)⟩⟩⟩
example := C96_within2 (cube2 1 3) ⟨int32 1, int32 1⟩ ⟨int32 3, int32 3⟩ cube2_finite (Point2.allFinite.2 (by simp [finite_int32]))
  aim_across2.1 aim_across2.2.1 aim_across2.2.2.1 aim_across2.2.2.2
example := C96_from2 (cube2 1 3) (Ray2.new (⟨int32 1, int32 1⟩ : Point2 F32) ((⟨int32 3, int32 3⟩ : Point2 F32) - (⟨int32 1, int32 1⟩ : Point2 F32))) cube2_finite (Point2.allFinite.2 (by simp [Ray2.new, finite_int32]))
  aim_across2.1 aim_across2.2.1 aim_across2.2.2.1
/-- From the corner `(1, 1, ..)` of the box `1 .. 3` to the opposite one. -/
theorem aim_across3 : AllFinite (⟨int32 3, int32 3, int32 3⟩ - ⟨int32 1, int32 1, int32 1⟩ : Vector3 F32) ∧
    OffFaces3 (cube3 1 3) (Ray3.new ⟨int32 1, int32 1, int32 1⟩ (⟨int32 3, int32 3, int32 3⟩ - ⟨int32 1, int32 1, int32 1⟩)) ∧ (cube3 1 3).isInside ⟨int32 1, int32 1, int32 1⟩ = true ∧
    (cube3 1 3).isInside ⟨int32 3, int32 3, int32 3⟩ = true :=
  ⟨Vector3.allFinite.2 ⟨(int32_sub (by norm_num)).1, (int32_sub (by norm_num)).1, (int32_sub (by norm_num)).1⟩,
    ⟨fun h => absurd ((int32_sub (a := 3) (b := 1) (by norm_num)).2.symm.trans h) (by norm_num), fun h => absurd ((int32_sub (a := 3) (b := 1) (by norm_num)).2.symm.trans h) (by norm_num), fun h => absurd ((int32_sub (a := 3) (b := 1) (by norm_num)).2.symm.trans h) (by norm_num)⟩,
    isInside3_iff.2 ⟨⟨int32_le (by norm_num), int32_le (by norm_num)⟩, ⟨int32_le (by norm_num), int32_le (by norm_num)⟩, ⟨int32_le (by norm_num), int32_le (by norm_num)⟩⟩, isInside3_iff.2 ⟨⟨int32_le (by norm_num), int32_le (by norm_num)⟩, ⟨int32_le (by norm_num), int32_le (by norm_num)⟩, ⟨int32_le (by norm_num), int32_le (by norm_num)⟩⟩⟩
example := C96_within3 (cube3 1 3) ⟨int32 1, int32 1, int32 1⟩ ⟨int32 3, int32 3, int32 3⟩ cube3_finite (Point3.allFinite.2 (by simp [finite_int32]))
  aim_across3.1 aim_across3.2.1 aim_across3.2.2.1 aim_across3.2.2.2
example := C96_from3 (cube3 1 3) (Ray3.new (⟨int32 1, int32 1, int32 1⟩ : Point3 F32) ((⟨int32 3, int32 3, int32 3⟩ : Point3 F32) - (⟨int32 1, int32 1, int32 1⟩ : Point3 F32))) cube3_finite (Point3.allFinite.2 (by simp [Ray3.new, finite_int32]))
  aim_across3.1 aim_across3.2.1 aim_across3.2.2.1
/-- The segment from the origin to `(0, 3)` enters the box of corners `(-1, 2)`, `(3, 5)`, running parallel to two faces. -/
example := C96_segment2 exB2 ⟨.of 0, .of 0⟩ ⟨.of 0, .of 3⟩ exB2_fin exB2_wf (Point2.allFinite.2 ⟨trivial, trivial⟩)
  (Point2.allFinite.2 ⟨trivial, trivial⟩) (fun h => by have := congrFun h 1; simp [Point2.toReal] at this) (by
    rw [faceFree2_iff]
    refine ⟨.inr (.inl ?_), .inl ?_⟩
    · simp [Ray2.new, exB2]
    · show real ((Ideal.of 3 : Ideal) - Ideal.of 0) ≠ 0
      rw [Ideal.real_sub (Ideal.finite_of _) (Ideal.finite_of _)]; simp)
/-- The segment from the origin to `(0, 3, 3)`. -/
example := C96_segment3 exB3 ⟨.of 0, .of 0, .of 0⟩ ⟨.of 0, .of 3, .of 3⟩ exB3_fin exB3_wf (Point3.allFinite.2 ⟨trivial, trivial, trivial⟩)
  (Point3.allFinite.2 ⟨trivial, trivial, trivial⟩) (fun h => by have := congrFun h 1; simp [Point3.toReal] at this) (by
    rw [faceFree3_iff]
    refine ⟨.inr (.inl ?_), .inl ?_, .inl ?_⟩
    · simp [Ray3.new, exB3]
    · show real ((Ideal.of 3 : Ideal) - Ideal.of 0) ≠ 0
      rw [Ideal.real_sub (Ideal.finite_of _) (Ideal.finite_of _)]; simp
    · show real ((Ideal.of 3 : Ideal) - Ideal.of 0) ≠ 0
      rw [Ideal.real_sub (Ideal.finite_of _) (Ideal.finite_of _)]; simp)
end

end VecMath''')
open('/verif/lean/Verif/Props/FloatAimEx.lean','w').write('\n'.join(L))
