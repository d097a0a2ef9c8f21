import Verif.Props.FloatTriangle
import Verif.Props.FloatPlaneEx
import Verif.Props.FloatFootEx
import Verif.Props.FloatChain2Ex
/-!
# C113: concrete cases, and rays that are reported to hit a triangle they miss
-/

open Classical

namespace VecMath
open Scalar IEEE

/-! ## Overflow, in every format -/
section
variable {S : Type} [Scalar S] [IEEE S] [Binary S] {a b c : S} {x y z : ℝ}
theorem keep_mul (ha : Exactly a x) (hb : Exactly b y) (hc : Exactly c z) (h : x * y = z) : Exactly (a * b) z := by
  have k := correct_mul ha.1 hb.1
  rw [ha.2, hb.2, h, ← hc.2] at k
  exact hc.2 ▸ k.exact (inFormat hc.1) (finite_lt_overflow hc.1)
theorem keep_sub (ha : Exactly a x) (hb : Exactly b y) (hc : Exactly c z) (h : x - y = z) : Exactly (a - b) z := by
  have k := correct_sub ha.1 hb.1
  rw [ha.2, hb.2, h, ← hc.2] at k
  exact hc.2 ▸ k.exact (inFormat hc.1) (finite_lt_overflow hc.1)
theorem keep_add (ha : Exactly a x) (hb : Exactly b y) (hc : Exactly c z) (h : x + y = z) : Exactly (a + b) z := by
  have k := correct_add ha.1 hb.1
  rw [ha.2, hb.2, h, ← hc.2] at k
  exact hc.2 ▸ k.exact (inFormat hc.1) (finite_lt_overflow hc.1)
omit [Binary S] in
theorem div_by_inf (ha : IsFinite a) (hb : ¬ IsFinite b) (hn : ¬ IsNaN b) : num (a / b) = num (zero : S) := by
  unfold IsFinite at ha hb
  unfold IsNaN at hn
  have key : ∃ s, den (a / b) = Val.mkZero s := by
    rw [den_div]
    revert hb hn
    induction den b using Val.cases_inf_fin with
    | hn => simp
    | hf y hy => intro h; exact absurd hy h
    | hi t => intro _ _; rw [Rounding.div_fin_inf _ ha]; exact ⟨_, rfl⟩
  obtain ⟨s, e⟩ := key
  have f : IsFinite (a / b) := by unfold IsFinite; rw [e]; cases s <;> simp [Val.mkZero, Val.IsFin]
  have r : real (a / b) = 0 := by unfold real; rw [e]; cases s <;> simp [Val.mkZero, Val.real]
  rw [num_finite f, r, num_finite finite_zero, real_zero]
end

variable {F : Fmt}
/-- The corner triangle with legs of length `big`. -/
noncomputable def wideTri : Triangle (Fl F) := ⟨⟨zero, zero, zero⟩, ⟨Fl.big F, zero, zero⟩, ⟨zero, Fl.big F, zero⟩⟩
/-- A ray that passes outside it. -/
noncomputable def wideRay : Ray3 (Fl F) := ⟨⟨-one, -one, zero⟩, ⟨zero, zero, -one⟩⟩
theorem wide_meets : ¬ Meets (wideRay (F := F)).origin.toReal (wideRay (F := F)).direction.toReal (wideTri (F := F)).a.toReal (wideTri (F := F)).b.toReal (wideTri (F := F)).c.toReal := by
  rintro ⟨t, u, v, h1, h2, h3, h4, h5⟩
  have k := congrFun h5 0
  have k : real (-one : Fl F) + t * real (zero : Fl F) = (1 - u - v) * real (zero : Fl F) + u * real (Fl.big F) + v * real (zero : Fl F) := k
  rw [IEEE.real_neg, real_zero, real_one] at k
  have := mul_nonneg h2 (Fl.real_big_pos (F := F)).le
  linarith
theorem wide_parallel : ¬ Parallel3 (wideRay (F := F)).direction.toReal (wideTri (F := F)).a.toReal (wideTri (F := F)).b.toReal (wideTri (F := F)).c.toReal := by
  rintro ⟨x, y, z, h0, h⟩
  have k0 : x * real (zero : Fl F) + y * (real (Fl.big F) - real (zero : Fl F)) + z * (real (zero : Fl F) - real (zero : Fl F)) = 0 := congrFun h 0
  have k1 : x * real (zero : Fl F) + y * (real (zero : Fl F) - real (zero : Fl F)) + z * (real (Fl.big F) - real (zero : Fl F)) = 0 := congrFun h 1
  have k2 : x * real (-one : Fl F) + y * (real (zero : Fl F) - real (zero : Fl F)) + z * (real (zero : Fl F) - real (zero : Fl F)) = 0 := congrFun h 2
  simp only [IEEE.real_neg, real_zero, real_one, mul_zero, sub_zero, zero_add, add_zero, mul_neg, mul_one, neg_eq_zero] at k0 k1 k2
  have p := (Fl.real_big_pos (F := F)).ne'
  have y0 := (mul_eq_zero.1 k0).resolve_right p
  have z0 := (mul_eq_zero.1 k1).resolve_right p
  tauto
theorem wide_finite : AllFinite (wideRay (F := F)) ∧ (wideTri (F := F)).Finite := by
  have z := finite_zero (S := Fl F)
  have n := finite_neg.2 (finite_one (S := Fl F))
  have b := Fl.finite_big (F := F)
  exact ⟨Ray3.allFinite.2 ⟨Point3.allFinite.2 ⟨n, n, z⟩, Vector3.allFinite.2 ⟨z, z, n⟩⟩, Point3.allFinite.2 ⟨z, z, z⟩, Point3.allFinite.2 ⟨b, z, z⟩, Point3.allFinite.2 ⟨z, b, z⟩⟩
/-- **C113**: in every format there is a ray that misses a triangle, with all coordinates finite and the ray at right angles to the plane of the
triangle, that the test with division reports as a hit: the determinant overflows, so that the weights become zeros. The test without division
says no. -/
theorem C113_overflow : ∃ (r : Ray3 (Fl F)) (k : Triangle (Fl F)), (AllFinite r ∧ k.Finite) ∧
    ¬ Parallel3 r.direction.toReal k.a.toReal k.b.toReal k.c.toReal ∧ ¬ Meets r.origin.toReal r.direction.toReal k.a.toReal k.b.toReal k.c.toReal ∧
    (r.hitTriangle k).isSome = true ∧ r.hitsTriangle k = false := by
  refine ⟨wideRay, wideTri, wide_finite, wide_parallel, wide_meets, ?_⟩
  have z : Exactly (zero : Fl F) 0 := ⟨finite_zero, real_zero⟩
  have n : Exactly (-one : Fl F) (-1) := ⟨finite_neg.2 finite_one, by rw [IEEE.real_neg, real_one]⟩
  have b : Exactly (Fl.big F) (real (Fl.big F)) := ⟨Fl.finite_big, rfl⟩
  have nb : Exactly (-Fl.big F) (-real (Fl.big F)) := ⟨finite_neg.2 Fl.finite_big, IEEE.real_neg _⟩
  have zz : Exactly ((zero : Fl F) - zero) 0 := keep_sub z z z (by ring)
  have bz : Exactly (Fl.big F - zero) (real (Fl.big F)) := keep_sub b z b (by ring)
  have nz : Exactly ((-one : Fl F) - zero) (-1) := keep_sub n z n (by ring)
  have m00 : ∀ {p q : Fl F}, Exactly p 0 → Exactly q 0 → Exactly (p * q) 0 := fun h k => keep_mul h k z (by ring)
  have mx0 : ∀ {p q : Fl F} {x : ℝ}, Exactly p x → Exactly q 0 → Exactly (p * q) 0 := fun h k => keep_mul h k z (by ring)
  have m0x : ∀ {p q : Fl F} {x : ℝ}, Exactly p 0 → Exactly q x → Exactly (p * q) 0 := fun h k => keep_mul h k z (by ring)
  have s00 : ∀ {p q : Fl F}, Exactly p 0 → Exactly q 0 → Exactly (p - q) 0 := fun h k => keep_sub h k z (by ring)
  have a00 : ∀ {p q : Fl F}, Exactly p 0 → Exactly q 0 → Exactly (p + q) 0 := fun h k => keep_add h k z (by ring)
  -- d × (c - a) = (big, 0, 0)
  have c1 : Exactly ((zero : Fl F) * (zero - zero) - -one * (Fl.big F - zero)) (real (Fl.big F)) := keep_sub (m00 z zz) (keep_mul n bz nb (by ring)) b (by ring)
  have c2 : Exactly ((-one : Fl F) * (zero - zero) - zero * (zero - zero)) 0 := s00 (mx0 n zz) (m00 z zz)
  have c3 : Exactly ((zero : Fl F) * (Fl.big F - zero) - zero * (zero - zero)) 0 := s00 (m0x z bz) (m00 z zz)
  -- (o - a) × (b - a) = (0, 0, big)
  have e1 : Exactly (((-one : Fl F) - zero) * (zero - zero) - (zero - zero) * (zero - zero)) 0 := s00 (mx0 nz zz) (m00 zz zz)
  have e2 : Exactly (((zero : Fl F) - zero) * (Fl.big F - zero) - (-one - zero) * (zero - zero)) 0 := s00 (m0x zz bz) (mx0 nz zz)
  have e3 : Exactly (((-one : Fl F) - zero) * (zero - zero) - (-one - zero) * (Fl.big F - zero)) (real (Fl.big F)) := keep_sub (mx0 nz zz) (keep_mul nz bz nb (by ring)) b (by ring)
  have U : Exactly ((wideRay (F := F)).triU wideTri) (-real (Fl.big F)) :=
    keep_add (keep_add (keep_mul nz c1 nb (by ring)) (mx0 nz c2) nb (by ring)) (mx0 zz c3) nb (by ring)
  have V : Exactly ((wideRay (F := F)).triV wideTri) (-real (Fl.big F)) :=
    keep_add (keep_add (mx0 z e1) (mx0 z e2) z (by ring)) (keep_mul n e3 nb (by ring)) nb (by ring)
  have T : Exactly ((wideRay (F := F)).triT wideTri) 0 := a00 (a00 (m0x zz e1) (mx0 bz e2)) (m0x zz e3)
  have D1 : num ((wideRay (F := F)).triDet wideTri) = num (Fl.big F * Fl.big F) := by
    have nn : ∀ {p : Fl F}, Exactly p 0 → num p = num (zero : Fl F) := fun h => num_of_real h.1 finite_zero (by rw [h.2, real_zero])
    have h1 : num (((Fl.big F - zero) * (zero * (zero - zero) - -one * (Fl.big F - zero)) + (zero - zero) * (-one * (zero - zero) - zero * (zero - zero))) + (zero - zero) * (zero * (Fl.big F - zero) - zero * (zero - zero))) =
      num ((Fl.big F - zero) * (zero * (zero - zero) - -one * (Fl.big F - zero))) := (n_add0 (nn (m0x zz c3))).trans (n_add0 (nn (m0x zz c2)))
    refine Eq.trans h1 (num_mul_congr (num_of_real bz.1 b.1 bz.2) (num_of_real c1.1 b.1 c1.2))
  have nD : ¬ IsFinite ((wideRay (F := F)).triDet wideTri) := fun h => big_mul (F := F) (finite_of_num D1.symm h)
  have pD : ¬ IsNaN ((wideRay (F := F)).triDet wideTri) := by
    rw [isNaN_iff_num, D1, ← isNaN_iff_num]; exact not_nan_mul_fin b.1 b.1
  have u0 := div_by_inf U.1 nD pD
  have v0 := div_by_inf V.1 nD pD
  have t0 := div_by_inf T.1 nD pD
  have fu := finite_of_num u0 finite_zero
  have fv := finite_of_num v0 finite_zero
  have ft := finite_of_num t0 finite_zero
  have ru := (real_of_num fu finite_zero u0).trans real_zero
  have rv := (real_of_num fv finite_zero v0).trans real_zero
  have rt := (real_of_num ft finite_zero t0).trans real_zero
  have w := a00 ⟨fu, ru⟩ ⟨fv, rv⟩
  constructor
  · unfold Ray3.hitTriangle
    simp only
    rw [if_pos]
    · rfl
    · simp only [Bool.and_eq_true, ole_real finite_zero fu, ole_real finite_zero fv, ole_real finite_zero ft, ole_real w.1 finite_one, ru, rv, rt, w.2, real_zero, real_one]
      norm_num
  · rw [Bool.eq_false_iff]
    have pb := Fl.real_big_pos (F := F)
    intro h
    unfold Ray3.hitsTriangle at h
    simp only [Bool.or_eq_true, Bool.and_eq_true, ole_real finite_zero U.1, U.2, real_zero] at h
    rcases h with h | h
    · linarith [h.1.1.1.2]
    · have := (lt_iff.1 h.1.1.1.1).2.2
      rw [val_num, D1, ← val_num, finite_zero.val, real_zero] at this
      have bv : 0 ≤ (den (Fl.big F)).ereal := by
        show 0 ≤ val (Fl.big F)
        rw [b.1.val]; exact_mod_cast pb.le
      have np : (IEEE.A (Fl F)).mul (den (Fl.big F)) (den (Fl.big F)) ≠ .nan := by
        rw [← den_mul]; exact not_nan_mul_fin b.1 b.1
      have q := (mul_nonneg_val (IEEE.A (Fl F)) b.1.not_nan b.1.not_nan bv bv).2 np
      rw [← den_mul] at q
      exact absurd this (not_lt.2 q)

/-! ## Rounding, in `f32` -/
/-- A triangle whose long edge runs between the numbers of the format. -/
noncomputable def edgeTri : Triangle F32 := ⟨⟨int32 0, int32 0, int32 0⟩, ⟨int32 4096, int32 0, int32 0⟩, ⟨int32 1, int32 4096, int32 0⟩⟩
/-- A ray that passes just outside it. -/
noncomputable def edgeRay : Ray3 F32 := ⟨⟨int32 2, int32 4095, int32 1⟩, ⟨int32 0, int32 0, int32 (-1)⟩⟩
theorem edge_meets : ¬ Meets edgeRay.origin.toReal edgeRay.direction.toReal edgeTri.a.toReal edgeTri.b.toReal edgeTri.c.toReal := by
  rintro ⟨t, u, v, h1, h2, h3, h4, h5⟩
  have k0 : ((2 : ℤ) : ℝ) + t * ((0 : ℤ) : ℝ) = (1 - u - v) * ((0 : ℤ) : ℝ) + u * ((4096 : ℤ) : ℝ) + v * ((1 : ℤ) : ℝ) := congrFun h5 0
  have k1 : ((4095 : ℤ) : ℝ) + t * ((0 : ℤ) : ℝ) = (1 - u - v) * ((0 : ℤ) : ℝ) + u * ((0 : ℤ) : ℝ) + v * ((4096 : ℤ) : ℝ) := congrFun h5 1
  norm_num at k0 k1
  linarith
theorem edge_parallel : ¬ Parallel3 edgeRay.direction.toReal edgeTri.a.toReal edgeTri.b.toReal edgeTri.c.toReal := by
  rintro ⟨x, y, z, h0, h⟩
  have k0 : x * ((0 : ℤ) : ℝ) + y * (((4096 : ℤ) : ℝ) - ((0 : ℤ) : ℝ)) + z * (((1 : ℤ) : ℝ) - ((0 : ℤ) : ℝ)) = 0 := congrFun h 0
  have k1 : x * ((0 : ℤ) : ℝ) + y * (((0 : ℤ) : ℝ) - ((0 : ℤ) : ℝ)) + z * (((4096 : ℤ) : ℝ) - ((0 : ℤ) : ℝ)) = 0 := congrFun h 1
  have k2 : x * ((-1 : ℤ) : ℝ) + y * (((0 : ℤ) : ℝ) - ((0 : ℤ) : ℝ)) + z * (((0 : ℤ) : ℝ) - ((0 : ℤ) : ℝ)) = 0 := congrFun h 2
  norm_num at k0 k1 k2
  subst k1 k2
  simp at k0 h0
  exact h0 k0
theorem edge_finite : AllFinite edgeRay ∧ edgeTri.Finite := by
  refine ⟨Ray3.allFinite.2 ⟨Point3.allFinite.2 ?_, Vector3.allFinite.2 ?_⟩, Point3.allFinite.2 ?_, Point3.allFinite.2 ?_, Point3.allFinite.2 ?_⟩ <;> exact ⟨trivial, trivial, trivial⟩
/-- One corner of the evaluation: `p · (q × w)` of integer vectors. -/
theorem int_triple {p q w : Vector3 F32} {p1 p2 p3 q1 q2 q3 w1 w2 w3 n : ℤ} (hp : Exactly p.x p1 ∧ Exactly p.y p2 ∧ Exactly p.z p3) (hq : Exactly q.x q1 ∧ Exactly q.y q2 ∧ Exactly q.z q3)
    (hw : Exactly w.x w1 ∧ Exactly w.y w2 ∧ Exactly w.z w3)
    (h : |q2 * w3| ≤ 16777216 ∧ |q3 * w2| ≤ 16777216 ∧ |q3 * w1| ≤ 16777216 ∧ |q1 * w3| ≤ 16777216 ∧ |q1 * w2| ≤ 16777216 ∧ |q2 * w1| ≤ 16777216)
    (h' : |q2 * w3 - q3 * w2| ≤ 16777216 ∧ |q3 * w1 - q1 * w3| ≤ 16777216 ∧ |q1 * w2 - q2 * w1| ≤ 16777216)
    (k : |p1 * (q2 * w3 - q3 * w2)| ≤ 16777216 ∧ |p2 * (q3 * w1 - q1 * w3)| ≤ 16777216 ∧ |p3 * (q1 * w2 - q2 * w1)| ≤ 16777216)
    (k' : |p1 * (q2 * w3 - q3 * w2) + p2 * (q3 * w1 - q1 * w3)| ≤ 16777216 ∧ |p1 * (q2 * w3 - q3 * w2) + p2 * (q3 * w1 - q1 * w3) + p3 * (q1 * w2 - q2 * w1)| ≤ 16777216)
    (e : p1 * (q2 * w3 - q3 * w2) + p2 * (q3 * w1 - q1 * w3) + p3 * (q1 * w2 - q2 * w1) = n) :
    Exactly (Api.dot p (Api.cross q w : Vector3 F32)) (n : ℝ) := e ▸
  int_add32' (int_add32' (int_mul32 hp.1 (int_sub32' (int_mul32 hq.2.1 hw.2.2 h.1) (int_mul32 hq.2.2 hw.2.1 h.2.1) h'.1) k.1)
    (int_mul32 hp.2.1 (int_sub32' (int_mul32 hq.2.2 hw.1 h.2.2.1) (int_mul32 hq.1 hw.2.2 h.2.2.2.1) h'.2.1) k.2.1) k'.1)
    (int_mul32 hp.2.2 (int_sub32' (int_mul32 hq.1 hw.2.1 h.2.2.2.2.1) (int_mul32 hq.2.1 hw.1 h.2.2.2.2.2) h'.2.2) k.2.2) k'.2
theorem int_diff {a b c d e f : ℤ} {ha hb hc hd he hf} (h : |a - d| ≤ 16777216 ∧ |b - e| ≤ 16777216 ∧ |c - f| ≤ 16777216) :
    Exactly ((⟨int32 a ha, int32 b hb, int32 c hc⟩ : Point3 F32) - (⟨int32 d hd, int32 e he, int32 f hf⟩ : Point3 F32) : Vector3 F32).x ((a - d : ℤ) : ℝ) ∧
    Exactly ((⟨int32 a ha, int32 b hb, int32 c hc⟩ : Point3 F32) - (⟨int32 d hd, int32 e he, int32 f hf⟩ : Point3 F32) : Vector3 F32).y ((b - e : ℤ) : ℝ) ∧
    Exactly ((⟨int32 a ha, int32 b hb, int32 c hc⟩ : Point3 F32) - (⟨int32 d hd, int32 e he, int32 f hf⟩ : Point3 F32) : Vector3 F32).z ((c - f : ℤ) : ℝ) :=
  ⟨int_sub32' (exactly_int (h := ha)) (exactly_int (h := hd)) h.1, int_sub32' (exactly_int (h := hb)) (exactly_int (h := he)) h.2.1, int_sub32' (exactly_int (h := hc)) (exactly_int (h := hf)) h.2.2⟩
theorem edge_nums : Exactly (edgeRay.triDet edgeTri) ((16777216 : ℤ) : ℝ) ∧ Exactly (edgeRay.triU edgeTri) ((4097 : ℤ) : ℝ) ∧
    Exactly (edgeRay.triV edgeTri) ((16773120 : ℤ) : ℝ) ∧ Exactly (edgeRay.triT edgeTri) ((16777216 : ℤ) : ℝ) := by
  have b : Exactly (edgeTri.b - edgeTri.a : Vector3 F32).x ((4096 - 0 : ℤ) : ℝ) ∧ Exactly (edgeTri.b - edgeTri.a : Vector3 F32).y ((0 - 0 : ℤ) : ℝ) ∧ Exactly (edgeTri.b - edgeTri.a : Vector3 F32).z ((0 - 0 : ℤ) : ℝ) :=
    int_diff (ha := by norm_num) (hb := by norm_num) (hc := by norm_num) (hd := by norm_num) (he := by norm_num) (hf := by norm_num) (by norm_num)
  have c : Exactly (edgeTri.c - edgeTri.a : Vector3 F32).x ((1 - 0 : ℤ) : ℝ) ∧ Exactly (edgeTri.c - edgeTri.a : Vector3 F32).y ((4096 - 0 : ℤ) : ℝ) ∧ Exactly (edgeTri.c - edgeTri.a : Vector3 F32).z ((0 - 0 : ℤ) : ℝ) :=
    int_diff (ha := by norm_num) (hb := by norm_num) (hc := by norm_num) (hd := by norm_num) (he := by norm_num) (hf := by norm_num) (by norm_num)
  have o : Exactly (edgeRay.origin - edgeTri.a : Vector3 F32).x ((2 - 0 : ℤ) : ℝ) ∧ Exactly (edgeRay.origin - edgeTri.a : Vector3 F32).y ((4095 - 0 : ℤ) : ℝ) ∧ Exactly (edgeRay.origin - edgeTri.a : Vector3 F32).z ((1 - 0 : ℤ) : ℝ) :=
    int_diff (ha := by norm_num) (hb := by norm_num) (hc := by norm_num) (hd := by norm_num) (he := by norm_num) (hf := by norm_num) (by norm_num)
  have d : Exactly edgeRay.direction.x ((0 : ℤ) : ℝ) ∧ Exactly edgeRay.direction.y ((0 : ℤ) : ℝ) ∧ Exactly edgeRay.direction.z ((-1 : ℤ) : ℝ) := ⟨exactly_int (h := by norm_num), exactly_int (h := by norm_num), exactly_int (h := by norm_num)⟩
  refine ⟨?_, ?_, ?_, ?_⟩
  · exact int_triple b d c (by norm_num) (by norm_num) (by norm_num) (by norm_num) (by norm_num)
  · exact int_triple o d c (by norm_num) (by norm_num) (by norm_num) (by norm_num) (by norm_num)
  · exact int_triple d o b (by norm_num) (by norm_num) (by norm_num) (by norm_num) (by norm_num)
  · exact int_triple c o b (by norm_num) (by norm_num) (by norm_num) (by norm_num) (by norm_num)
/-- **C113**: and in `f32` rounding alone is enough: a ray that misses a triangle with small integer corners is reported by both tests, because the
sum of the two weights is rounded to 1. -/
theorem C113_edge : ∃ (r : Ray3 F32) (k : Triangle F32), (AllFinite r ∧ k.Finite) ∧ r.TriFinite k ∧
    ¬ Parallel3 r.direction.toReal k.a.toReal k.b.toReal k.c.toReal ∧ ¬ Meets r.origin.toReal r.direction.toReal k.a.toReal k.b.toReal k.c.toReal ∧
    (r.hitTriangle k).isSome = true ∧ r.hitsTriangle k = true := by
  obtain ⟨D, U, V, T⟩ := edge_nums
  have UV : Exactly (edgeRay.triU edgeTri + edgeRay.triV edgeTri) ((16777216 : ℤ) : ℝ) := by
    refine exec_add U V ?_ (big32 (by norm_num))
    have := Fmt.rnd_lit_even binary32 (x := ((4097 : ℤ) : ℝ) + ((16773120 : ℤ) : ℝ)) 24 1 8388608 (by decide) (by decide) (by norm_num) (by norm_num) (by norm_num) (by norm_num)
    exact this.trans (by norm_num)
  have hf : edgeRay.TriFinite edgeTri := ⟨D.1, T.1, UV.1⟩
  refine ⟨edgeRay, edgeTri, edge_finite, hf, edge_parallel, edge_meets, ?_, ?_⟩
  · have u : Exactly (edgeRay.triU edgeTri / edgeRay.triDet edgeTri) (4097 * 2 ^ (-24 : ℤ)) := by
      refine exec_div U D (by norm_num) ?_ (big32 (by norm_num [abs_div]))
      rw [show ((4097 : ℤ) : ℝ) / ((16777216 : ℤ) : ℝ) = ((4097 : ℤ) : ℝ) * 2 ^ (-24 : ℤ) by norm_num]
      exact (Fmt.rnd_of_has (F := binary32) ⟨4097, -24, by decide, by simp [binary32], rfl⟩).trans (by norm_num)
    have v : Exactly (edgeRay.triV edgeTri / edgeRay.triDet edgeTri) (4095 * 2 ^ (-12 : ℤ)) := by
      refine exec_div V D (by norm_num) ?_ (big32 (by norm_num [abs_div]))
      rw [show ((16773120 : ℤ) : ℝ) / ((16777216 : ℤ) : ℝ) = ((4095 : ℤ) : ℝ) * 2 ^ (-12 : ℤ) by norm_num]
      exact (Fmt.rnd_of_has (F := binary32) ⟨4095, -12, by decide, by simp [binary32], rfl⟩).trans (by norm_num)
    have t : Exactly (edgeRay.triT edgeTri / edgeRay.triDet edgeTri) ((1 : ℤ) : ℝ) := by
      refine exec_div T D (by norm_num) ?_ (big32 (by norm_num))
      rw [show ((16777216 : ℤ) : ℝ) / ((16777216 : ℤ) : ℝ) = ((1 : ℤ) : ℝ) by norm_num]
      exact rnd_int32 (by norm_num)
    have w : Exactly (edgeRay.triU edgeTri / edgeRay.triDet edgeTri + edgeRay.triV edgeTri / edgeRay.triDet edgeTri) 1 := by
      refine exec_add u v ?_ (big32 (by norm_num [abs_of_pos]))
      have := Fmt.rnd_lit_even binary32 (x := 4097 * 2 ^ (-24 : ℤ) + 4095 * 2 ^ (-12 : ℤ)) 0 (-23) 8388608 (by decide) (by decide) (by norm_num) (by norm_num) (by norm_num) (by norm_num)
      exact this.trans (by norm_num)
    unfold Ray3.hitTriangle
    simp only
    rw [if_pos]
    · rfl
    · simp only [Bool.and_eq_true, ole_real finite_zero u.1, ole_real finite_zero v.1, ole_real finite_zero t.1, ole_real w.1 finite_one, u.2, v.2, t.2, w.2, real_zero, real_one]
      norm_num
  · rw [Ray3.hits_real hf, D.2, U.2, V.2, T.2, UV.2]
    left; norm_num

/-! ## Non-vacuity -/
/-- A triangle, a ray that hits it. -/
noncomputable def legTri : Triangle F32 := ⟨⟨int32 0, int32 0, int32 0⟩, ⟨int32 4, int32 0, int32 0⟩, ⟨int32 0, int32 4, int32 0⟩⟩
noncomputable def legRay : Ray3 F32 := ⟨⟨int32 1, int32 1, int32 4⟩, ⟨int32 0, int32 0, int32 (-1)⟩⟩
theorem leg_finite : AllFinite legRay ∧ legTri.Finite := by
  refine ⟨Ray3.allFinite.2 ⟨Point3.allFinite.2 ?_, Vector3.allFinite.2 ?_⟩, Point3.allFinite.2 ?_, Point3.allFinite.2 ?_, Point3.allFinite.2 ?_⟩ <;> exact ⟨trivial, trivial, trivial⟩
theorem on_int {N : ℕ} {n : ℤ} {h} (k : |n| ≤ N) : OnGrid 0 N (real (int32 n h)) := ⟨n, k, by rw [real_int32]; simp⟩
example := C113_grid (e := 0) (f := 0) (M := 1) (N := 4) legRay legTri leg_finite.1 leg_finite.2
  (fun i => by fin_cases i <;> exact on_int (h := by norm_num) (by norm_num)) (fun i => by fin_cases i <;> exact on_int (h := by norm_num) (by norm_num)) (fun i => by fin_cases i <;> exact on_int (h := by norm_num) (by norm_num))
  (fun i => by fin_cases i <;> exact on_int (h := by norm_num) (by norm_num)) (fun i => by fin_cases i <;> exact on_int (h := by norm_num) (by norm_num))
  (fits_f32 (by norm_num)) (fits_f32 (by norm_num)) (fits_f32 (by norm_num)) (fits_f32 (by norm_num)) (fits_f32 (by norm_num))
example := C113_order (e := 0) (f := 0) (M := 1) (N := 4) legRay legTri leg_finite.1 leg_finite.2
  (fun i => by fin_cases i <;> exact on_int (h := by norm_num) (by norm_num)) (fun i => by fin_cases i <;> exact on_int (h := by norm_num) (by norm_num)) (fun i => by fin_cases i <;> exact on_int (h := by norm_num) (by norm_num))
  (fun i => by fin_cases i <;> exact on_int (h := by norm_num) (by norm_num)) (fun i => by fin_cases i <;> exact on_int (h := by norm_num) (by norm_num))
  (fits_f32 (by norm_num)) (fits_f32 (by norm_num)) (fits_f32 (by norm_num)) (fits_f32 (by norm_num)) (fits_f32 (by norm_num))
/-- Integers up to 70 in `f32`, up to 57000 in `f64` (direction included): the grid fits. -/
example : Fits F32 0 (48 * (70 * (70 * 70))) ∧ Fits F64 0 (48 * (57000 * (57000 * 57000))) := by
  constructor <;> refine ⟨by decide, by decide, by decide⟩
theorem leg_nums : Exactly (legRay.triDet legTri) ((16 : ℤ) : ℝ) ∧ Exactly (legRay.triU legTri) ((4 : ℤ) : ℝ) ∧
    Exactly (legRay.triV legTri) ((4 : ℤ) : ℝ) ∧ Exactly (legRay.triT legTri) ((64 : ℤ) : ℝ) := by
  have b : Exactly (legTri.b - legTri.a : Vector3 F32).x ((4 - 0 : ℤ) : ℝ) ∧ Exactly (legTri.b - legTri.a : Vector3 F32).y ((0 - 0 : ℤ) : ℝ) ∧ Exactly (legTri.b - legTri.a : Vector3 F32).z ((0 - 0 : ℤ) : ℝ) :=
    int_diff (ha := by norm_num) (hb := by norm_num) (hc := by norm_num) (hd := by norm_num) (he := by norm_num) (hf := by norm_num) (by norm_num)
  have c : Exactly (legTri.c - legTri.a : Vector3 F32).x ((0 - 0 : ℤ) : ℝ) ∧ Exactly (legTri.c - legTri.a : Vector3 F32).y ((4 - 0 : ℤ) : ℝ) ∧ Exactly (legTri.c - legTri.a : Vector3 F32).z ((0 - 0 : ℤ) : ℝ) :=
    int_diff (ha := by norm_num) (hb := by norm_num) (hc := by norm_num) (hd := by norm_num) (he := by norm_num) (hf := by norm_num) (by norm_num)
  have o : Exactly (legRay.origin - legTri.a : Vector3 F32).x ((1 - 0 : ℤ) : ℝ) ∧ Exactly (legRay.origin - legTri.a : Vector3 F32).y ((1 - 0 : ℤ) : ℝ) ∧ Exactly (legRay.origin - legTri.a : Vector3 F32).z ((4 - 0 : ℤ) : ℝ) :=
    int_diff (ha := by norm_num) (hb := by norm_num) (hc := by norm_num) (hd := by norm_num) (he := by norm_num) (hf := by norm_num) (by norm_num)
  have d : Exactly legRay.direction.x ((0 : ℤ) : ℝ) ∧ Exactly legRay.direction.y ((0 : ℤ) : ℝ) ∧ Exactly legRay.direction.z ((-1 : ℤ) : ℝ) := ⟨exactly_int (h := by norm_num), exactly_int (h := by norm_num), exactly_int (h := by norm_num)⟩
  refine ⟨?_, ?_, ?_, ?_⟩
  · exact int_triple b d c (by norm_num) (by norm_num) (by norm_num) (by norm_num) (by norm_num)
  · exact int_triple o d c (by norm_num) (by norm_num) (by norm_num) (by norm_num) (by norm_num)
  · exact int_triple d o b (by norm_num) (by norm_num) (by norm_num) (by norm_num) (by norm_num)
  · exact int_triple c o b (by norm_num) (by norm_num) (by norm_num) (by norm_num) (by norm_num)
theorem leg_fin : legRay.TriFinite legTri :=
  ⟨leg_nums.1.1, leg_nums.2.2.2.1, (int_add32' leg_nums.2.1 leg_nums.2.2.1 (by norm_num)).1⟩
theorem pt_int {a b c : ℤ} {ha hb hc} : (⟨int32 a ha, int32 b hb, int32 c hc⟩ : Point3 F32).toReal = ![(a : ℝ), b, c] := by
  funext i; fin_cases i <;> rfl
theorem vec_int {a b c : ℤ} {ha hb hc} : (⟨int32 a ha, int32 b hb, int32 c hc⟩ : Vector3 F32).toReal = ![(a : ℝ), b, c] := by
  funext i; fin_cases i <;> rfl
theorem leg_real : legRay.origin.toReal = ![1, 1, 4] ∧ legRay.direction.toReal = ![0, 0, -1] ∧ legTri.a.toReal = ![0, 0, 0] ∧ legTri.b.toReal = ![4, 0, 0] ∧ legTri.c.toReal = ![0, 4, 0] := by
  refine ⟨pt_int.trans (by norm_num), vec_int.trans (by norm_num), pt_int.trans (by norm_num), pt_int.trans (by norm_num), pt_int.trans (by norm_num)⟩
theorem triErr32 {p q r : Fin 3 → ℝ} : triErr F32 4 p q r ≤ 1 / 1000 * triPerm p q r + 1 / 1000 := by
  have P : 0 ≤ triPerm p q r := by unfold triPerm; positivity
  unfold triErr
  have u : uro F32 = 2 ^ (-24 : ℤ) := rfl
  have t : tiny F32 = 2 ^ (-150 : ℤ) := rfl
  rw [u, t]
  refine add_le_add (mul_le_mul_of_nonneg_right (by norm_num) P) (by norm_num)
/-- All the hypotheses of `C113_clear` together. -/
example : legRay.hitsTriangle legTri = true ↔ Meets legRay.origin.toReal legRay.direction.toReal legTri.a.toReal legTri.b.toReal legTri.c.toReal := by
  obtain ⟨r1, r2, r3, r4, r5⟩ := leg_real
  have u : uro F32 ≤ 1 / 1000 := by show (2 : ℝ) ^ (-24 : ℤ) ≤ _; norm_num
  have u0 := uro_pos (S := F32)
  have eD := triErr32 (p := legTri.b.toReal - legTri.a.toReal) (q := legRay.direction.toReal) (r := legTri.c.toReal - legTri.a.toReal)
  have eU := triErr32 (p := legRay.origin.toReal - legTri.a.toReal) (q := legRay.direction.toReal) (r := legTri.c.toReal - legTri.a.toReal)
  have eV := triErr32 (p := legRay.direction.toReal) (q := legRay.origin.toReal - legTri.a.toReal) (r := legTri.b.toReal - legTri.a.toReal)
  have eT := triErr32 (p := legTri.c.toReal - legTri.a.toReal) (q := legRay.origin.toReal - legTri.a.toReal) (r := legTri.b.toReal - legTri.a.toReal)
  have D : (legTri.b.toReal - legTri.a.toReal) ⬝ᵥ crossProduct legRay.direction.toReal (legTri.c.toReal - legTri.a.toReal) = 16 := by
    rw [r2, r3, r4, r5, cross_apply]; simp [dotProduct, Fin.sum_univ_three]; norm_num
  have U : (legRay.origin.toReal - legTri.a.toReal) ⬝ᵥ crossProduct legRay.direction.toReal (legTri.c.toReal - legTri.a.toReal) = 4 := by
    rw [r1, r2, r3, r5, cross_apply]; simp [dotProduct, Fin.sum_univ_three]
  have V : legRay.direction.toReal ⬝ᵥ crossProduct (legRay.origin.toReal - legTri.a.toReal) (legTri.b.toReal - legTri.a.toReal) = 4 := by
    rw [r1, r2, r3, r4, cross_apply]; simp [dotProduct, Fin.sum_univ_three]
  have T : (legTri.c.toReal - legTri.a.toReal) ⬝ᵥ crossProduct (legRay.origin.toReal - legTri.a.toReal) (legTri.b.toReal - legTri.a.toReal) = 64 := by
    rw [r1, r3, r4, r5, cross_apply]; simp [dotProduct, Fin.sum_univ_three]; norm_num
  have pD : triPerm (legTri.b.toReal - legTri.a.toReal) legRay.direction.toReal (legTri.c.toReal - legTri.a.toReal) = 16 := by
    rw [r2, r3, r4, r5]; simp [triPerm]; norm_num
  have pU : triPerm (legRay.origin.toReal - legTri.a.toReal) legRay.direction.toReal (legTri.c.toReal - legTri.a.toReal) = 4 := by
    rw [r1, r2, r3, r5]; simp [triPerm]
  have pV : triPerm legRay.direction.toReal (legRay.origin.toReal - legTri.a.toReal) (legTri.b.toReal - legTri.a.toReal) = 4 := by
    rw [r1, r2, r3, r4]; simp [triPerm]
  have pT : triPerm (legTri.c.toReal - legTri.a.toReal) (legRay.origin.toReal - legTri.a.toReal) (legTri.b.toReal - legTri.a.toReal) = 64 := by
    rw [r1, r3, r4, r5]; simp [triPerm]; norm_num
  rw [pD] at eD; rw [pU] at eU; rw [pV] at eV; rw [pT] at eT
  refine C113_clear legRay legTri leg_fin 4 ?_ ?_ ?_ ?_ 16 4 4 64 _ _ _ _ D.symm U.symm V.symm T.symm rfl rfl rfl rfl ?_ ?_ ?_ ?_ ?_
  · rw [r2]; intro i; fin_cases i <;> norm_num
  · rw [r1, r3]; intro i; fin_cases i <;> norm_num
  · rw [r3, r4]; intro i; fin_cases i <;> norm_num
  · rw [r3, r5]; intro i; fin_cases i <;> norm_num
  · rw [abs_of_pos (by norm_num)]; linarith
  · rw [abs_of_pos (by norm_num)]; linarith
  · rw [abs_of_pos (by norm_num)]; linarith
  · rw [abs_of_pos (by norm_num)]; linarith
  · rw [show |(4 : ℝ) + 4| = 8 by norm_num, show |(16 : ℝ) - (4 + 4)| = 8 by norm_num]
    have k : (1 + uro F32) * (triErr F32 4 (legRay.origin.toReal - legTri.a.toReal) legRay.direction.toReal (legTri.c.toReal - legTri.a.toReal) +
        triErr F32 4 legRay.direction.toReal (legRay.origin.toReal - legTri.a.toReal) (legTri.b.toReal - legTri.a.toReal)) ≤ (1 + uro F32) * 1 :=
      mul_le_mul_of_nonneg_left (by linarith) (by linarith)
    linarith
/-- Something is reported, so `C113_any` applies; the last case of `C113_none`; the exact case. -/
example : ∃ t u v : F32, (zero ≤? t) = true ∧ (IsFinite u ∧ 0 ≤ real u ∧ real u ≤ 1) ∧ (IsFinite v ∧ 0 ≤ real v ∧ real v ≤ 1) := by
  obtain ⟨r, k, -, -, -, -, h, -⟩ := C113_edge
  obtain ⟨⟨t, u, v⟩, h⟩ := Option.isSome_iff_exists.1 h
  exact ⟨t, u, v, C113_any r k t u v h⟩
example : legRay.hitTriangle ⟨legTri.a, legTri.b, legTri.b⟩ = none := by
  refine (C113_none _ _ (.inl ?_)).1
  have b : Exactly (legTri.b - legTri.a : Vector3 F32).x ((4 - 0 : ℤ) : ℝ) ∧ Exactly (legTri.b - legTri.a : Vector3 F32).y ((0 - 0 : ℤ) : ℝ) ∧ Exactly (legTri.b - legTri.a : Vector3 F32).z ((0 - 0 : ℤ) : ℝ) :=
    int_diff (ha := by norm_num) (hb := by norm_num) (hc := by norm_num) (hd := by norm_num) (he := by norm_num) (hf := by norm_num) (by norm_num)
  have d : Exactly legRay.direction.x ((0 : ℤ) : ℝ) ∧ Exactly legRay.direction.y ((0 : ℤ) : ℝ) ∧ Exactly legRay.direction.z ((-1 : ℤ) : ℝ) := ⟨exactly_int (h := by norm_num), exactly_int (h := by norm_num), exactly_int (h := by norm_num)⟩
  have := int_triple (n := 0) b d b (by norm_num) (by norm_num) (by norm_num) (by norm_num) (by norm_num)
  exact ⟨this.1, this.2.trans (by norm_num)⟩
/-- The same triangle and ray in exact arithmetic. -/
noncomputable def exactTri : Triangle Ideal := ⟨⟨Ideal.of 0, Ideal.of 0, Ideal.of 0⟩, ⟨Ideal.of 4, Ideal.of 0, Ideal.of 0⟩, ⟨Ideal.of 0, Ideal.of 4, Ideal.of 0⟩⟩
noncomputable def exactRay : Ray3 Ideal := ⟨⟨Ideal.of 1, Ideal.of 1, Ideal.of 4⟩, ⟨Ideal.of 0, Ideal.of 0, Ideal.of (-1)⟩⟩
example : exactRay.hitsTriangle exactTri = true := by
  refine (C113_exact exactRay exactTri ?_ ?_ ?_).2.1.2 ?_
  · exact Ray3.allFinite.2 ⟨Point3.allFinite.2 ⟨trivial, trivial, trivial⟩, Vector3.allFinite.2 ⟨trivial, trivial, trivial⟩⟩
  · exact ⟨Point3.allFinite.2 ⟨trivial, trivial, trivial⟩, Point3.allFinite.2 ⟨trivial, trivial, trivial⟩, Point3.allFinite.2 ⟨trivial, trivial, trivial⟩⟩
  · rintro ⟨x, y, z, h0, h⟩
    have k0 : x * (0 : ℝ) + y * ((4 : ℝ) - 0) + z * ((0 : ℝ) - 0) = 0 := congrFun h 0
    have k1 : x * (0 : ℝ) + y * ((0 : ℝ) - 0) + z * ((4 : ℝ) - 0) = 0 := congrFun h 1
    have k2 : x * (-1 : ℝ) + y * ((0 : ℝ) - 0) + z * ((0 : ℝ) - 0) = 0 := congrFun h 2
    norm_num at k0 k1 k2
    tauto
  · refine ⟨4, 1 / 4, 1 / 4, by norm_num, by norm_num, by norm_num, by norm_num, ?_⟩
    funext i
    fin_cases i
    · show (1 : ℝ) + 4 * 0 = (1 - 1 / 4 - 1 / 4) * 0 + 1 / 4 * 4 + 1 / 4 * 0
      norm_num
    · show (1 : ℝ) + 4 * 0 = (1 - 1 / 4 - 1 / 4) * 0 + 1 / 4 * 0 + 1 / 4 * 4
      norm_num
    · show (4 : ℝ) + 4 * (-1) = (1 - 1 / 4 - 1 / 4) * 0 + 1 / 4 * 0 + 1 / 4 * 0
      norm_num
end VecMath
