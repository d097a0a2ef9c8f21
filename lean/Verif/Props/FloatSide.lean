import Verif.Spec.Side
import Verif.Lemmas.Approx
import Verif.Lemmas.Mono
import Verif.Lemmas.Grid
import Verif.Lemmas.Symm
import Verif.Lemmas.Octree
import Verif.Lemmas.Mat
import Verif.Props.FloatBasis
import Verif.Props.FloatAxis
import Verif.Props.FloatVector
import Verif.Props.FloatInverse
/-!
# On which side: the signs of `dot` and `cross` in floating point (layer F): C107

(Generated by tools/gen.)
-/

open Classical

namespace VecMath
open Scalar IEEE

section
variable {S : Type} [Scalar S] [IEEE S] {a b c d : S}

theorem val_prod_le (ha : IsFinite a) (hb : IsFinite b) (hc : IsFinite c) (hd : IsFinite d)
    (h : real a * real b ≤ real c * real d) : val (a * b) ≤ val (c * d) := by
  unfold val
  rw [mul_finite ha hb, mul_finite hc hd]
  exact Rounding.finish_mono _ h
theorem val_add_nonpos (h : val a ≤ val (-b)) (hn : ¬ IsNaN (a + b)) : val (a + b) ≤ 0 := by
  obtain ⟨na, nb⟩ := nan_of_add hn
  have hn' : (IEEE.A S).add (den a) (den b) ≠ .nan := by rw [← den_add]; exact hn
  have e := val_neg b
  unfold val at *
  rw [den_add]
  by_cases ha : (den a).ereal = ⊥
  · rw [Rounding.add_bot_left ha hn']; exact bot_le
  by_cases hb : (den b).ereal = ⊥
  · rw [Rounding.add_comm] at hn' ⊢; rw [Rounding.add_bot_left hb hn']; exact bot_le
  rw [e] at h
  have fa := Val.fin_of_between na ha (fun ht => by
    rw [ht, top_le_iff, EReal.neg_eq_top_iff] at h; exact hb h)
  have fb := Val.fin_of_between nb hb (fun ht => by
    rw [ht, EReal.neg_top, le_bot_iff] at h; exact ha h)
  rw [Rounding.add_fin _ fa fb]
  refine Rounding.finish_nonpos _ ?_
  rw [fa.ereal, fb.ereal, ← EReal.coe_neg, EReal.coe_le_coe_iff] at h
  linarith
theorem val_add_nonneg (h : val (-b) ≤ val a) (hn : ¬ IsNaN (a + b)) : 0 ≤ val (a + b) := by
  have e := num_neg_add a b
  have n' : ¬ IsNaN (-a + -b) := by
    rw [isNaN_iff_num, e, ← isNaN_iff_num]
    rwa [isNaN_neg]
  have := val_add_nonpos (a := -a) (b := -b) (val_neg_le h) n'
  rw [val_num, e, ← val_num, val_neg] at this
  simpa using EReal.neg_le.1 this
theorem signSafe_of {x : ℝ} (h1 : x ≤ 0 → val c ≤ 0) (h2 : 0 ≤ x → 0 ≤ val c) : SignSafe c x := by
  have z : val (zero : S) = 0 := by rw [finite_zero.val, real_zero]; rfl
  constructor
  · intro h
    have := (lt_iff.1 h).2.2
    rw [z] at this
    by_contra hx
    exact absurd (h1 (not_lt.1 hx)) (not_le.2 this)
  · intro h
    have := (lt_iff.1 h).2.2
    rw [z] at this
    by_contra hx
    exact absurd (h2 (not_lt.1 hx)) (not_le.2 this)
theorem signSafe_sum (ha : IsFinite a) (hb : IsFinite b) (hc : IsFinite c) (hd : IsFinite d) (hn : ¬ IsNaN (a * b + c * d)) :
    SignSafe (a * b + c * d) (real a * real b + real c * real d) := by
  have e : val (-(c * d)) = val (-c * d) := (same_neg_mul c d).val.symm
  refine signSafe_of (fun h => val_add_nonpos ?_ hn) (fun h => val_add_nonneg ?_ hn)
  · rw [e]; exact val_prod_le ha hb (finite_neg.2 hc) hd (by rw [IEEE.real_neg]; linarith)
  · rw [e]; exact val_prod_le (finite_neg.2 hc) hd ha hb (by rw [IEEE.real_neg]; linarith)
theorem signSafe_diff (ha : IsFinite a) (hb : IsFinite b) (hc : IsFinite c) (hd : IsFinite d) (hn : ¬ IsNaN (a * b - c * d)) :
    SignSafe (a * b - c * d) (real a * real b - real c * real d) := by
  have s := same_sub (a * b) (c * d)
  have e : val (- -(c * d)) = val (c * d) := (same_neg_neg _).val
  rw [s.isNaN] at hn
  refine signSafe_of (fun h => ?_) (fun h => ?_) <;> rw [s.val]
  · refine val_add_nonpos ?_ hn
    rw [e]; exact val_prod_le ha hb hc hd (by linarith)
  · refine val_add_nonneg ?_ hn
    rw [e]; exact val_prod_le hc hd ha hb (by linarith)

/-- **C107**: no component of a computed cross product ever has the wrong sign, even when products overflow or
underflow. -/
theorem C107_cross_sign (u v : Vector3 S) (hu : AllFinite u) (hv : AllFinite v) (hn : NoNaN (Api.cross u v : Vector3 S)) :
    SignSafe (Api.cross u v : Vector3 S).x (crossProduct u.toReal v.toReal 0) ∧
    SignSafe (Api.cross u v : Vector3 S).y (crossProduct u.toReal v.toReal 1) ∧
    SignSafe (Api.cross u v : Vector3 S).z (crossProduct u.toReal v.toReal 2) := by
  rw [Vector3.allFinite] at hu hv
  rw [Vector3.noNaN] at hn
  rw [cross_apply]
  exact ⟨signSafe_diff hu.2.1 hv.2.2 hu.2.2 hv.2.1 hn.1, signSafe_diff hu.2.2 hv.1 hu.1 hv.2.2 hn.2.1,
    signSafe_diff hu.1 hv.2.1 hu.2.1 hv.1 hn.2.2⟩
/-- **C107**: neither does a computed 2D dot product. -/
theorem C107_dot_sign2 (u v : Vector2 S) (hu : AllFinite u) (hv : AllFinite v) (hn : ¬ IsNaN (Api.dot u v)) :
    SignSafe (Api.dot u v) (∑ i, u.toReal i * v.toReal i) := by
  rw [Vector2.allFinite] at hu hv
  rw [Fin.sum_univ_two]
  exact signSafe_sum hu.1 hv.1 hu.2 hv.2 hn

/-- **C107**: swapping two corners of a triangle exactly reverses its computed normal. -/
theorem C107_swap (a b c : Point3 S) (h : NoNaN (Api.cross (b - a : Vector3 S) (c - a : Vector3 S) : Vector3 S)) :
    (Api.cross (b - a : Vector3 S) (c - a : Vector3 S) == -(Api.cross (c - a : Vector3 S) (b - a : Vector3 S) : Vector3 S)) = true :=
  (C11_float_antisymmetric _ _).1 h

/-- **C107** (2D): turning the normal around exactly negates the side, and so does exchanging the point and the point of
the plane. -/
theorem C107_flip2 (n : Vector2 S) (o p : Point2 S) (h : ¬ IsNaN (Api.dot n (p - o : Vector2 S))) :
    (Api.dot (-n) (p - o : Vector2 S) == -Api.dot n (p - o : Vector2 S)) = true ∧
    (Api.dot n (o - p : Vector2 S) == -Api.dot n (p - o : Vector2 S)) = true := by
  have m1 : ∀ a b : S, num (-a * b) = num (-(a * b)) := fun a b => (same_neg_mul a b).num
  have m2 : ∀ a b c : S, num (a * (b - c)) = num (-(a * (c - b))) := fun a b c => by
    have e : num (b - c) = num (-(c - b)) := by
      rw [← num_neg_sub]
      exact ((same_sub b c).trans ((same_add_comm b (-c)).trans (((Same.refl (-c)).add (same_neg_neg b).symm).trans (same_sub (-c) (-b)).symm))).num
    refine (num_mul_congr rfl e).trans ?_
    exact ((same_mul_comm _ _).trans ((same_neg_mul _ _).trans (same_mul_comm _ _).neg)).num
  have hn : ¬ IsNaN (-Api.dot n (p - o : Vector2 S)) := by rwa [isNaN_neg]
  constructor <;> refine beq_of_num' ?_ hn
  · exact (num_add_congr (m1 _ _) (m1 _ _)).trans (num_neg_add _ _)
  · exact (num_add_congr (m2 _ _ _) (m2 _ _ _)).trans (num_neg_add _ _)

/-- **C107** (3D): turning the normal around exactly negates the side, and so does exchanging the point and the point of
the plane. -/
theorem C107_flip3 (n : Vector3 S) (o p : Point3 S) (h : ¬ IsNaN (Api.dot n (p - o : Vector3 S))) :
    (Api.dot (-n) (p - o : Vector3 S) == -Api.dot n (p - o : Vector3 S)) = true ∧
    (Api.dot n (o - p : Vector3 S) == -Api.dot n (p - o : Vector3 S)) = true := by
  have m1 : ∀ a b : S, num (-a * b) = num (-(a * b)) := fun a b => (same_neg_mul a b).num
  have m2 : ∀ a b c : S, num (a * (b - c)) = num (-(a * (c - b))) := fun a b c => by
    have e : num (b - c) = num (-(c - b)) := by
      rw [← num_neg_sub]
      exact ((same_sub b c).trans ((same_add_comm b (-c)).trans (((Same.refl (-c)).add (same_neg_neg b).symm).trans (same_sub (-c) (-b)).symm))).num
    refine (num_mul_congr rfl e).trans ?_
    exact ((same_mul_comm _ _).trans ((same_neg_mul _ _).trans (same_mul_comm _ _).neg)).num
  have hn : ¬ IsNaN (-Api.dot n (p - o : Vector3 S)) := by rwa [isNaN_neg]
  constructor <;> refine beq_of_num' ?_ hn
  · exact (num_add_congr ((num_add_congr (m1 _ _) (m1 _ _)).trans (num_neg_add _ _)) (m1 _ _)).trans (num_neg_add _ _)
  · exact (num_add_congr ((num_add_congr (m2 _ _ _) (m2 _ _ _)).trans (num_neg_add _ _)) (m2 _ _ _)).trans (num_neg_add _ _)
end

section
variable {S : Type} [Scalar S] [IEEE S] [Binary S] {a b c : S}

theorem sub_pos_iff (h : IsFinite (a - b)) : ((0 < real (a - b)) ↔ real b < real a) ∧ (real (a - b) < 0 ↔ real a < real b) ∧
    (real (a - b) = 0 ↔ real a = real b) := by
  have e := err_sub h
  have u := uro_le (S := S)
  have k : |real (a - b) - (real a - real b)| ≤ 1 / 4 * |real a - real b| := e.trans (mul_le_mul_of_nonneg_right u (abs_nonneg _))
  rw [abs_le] at k
  rcases lt_trichotomy (real a) (real b) with hl | he | hg
  · rw [abs_of_neg (by linarith)] at k
    exact ⟨⟨fun _ => by linarith, fun _ => by linarith⟩, ⟨fun _ => hl, fun _ => by linarith⟩, ⟨fun _ => by linarith, fun _ => by linarith⟩⟩
  · rw [he, sub_self, abs_zero] at k
    exact ⟨⟨fun _ => by linarith, fun _ => by linarith⟩, ⟨fun _ => by linarith, fun _ => by linarith⟩, ⟨fun _ => he, fun _ => by linarith⟩⟩
  · rw [abs_of_pos (by linarith)] at k
    exact ⟨⟨fun _ => hg, fun _ => by linarith⟩, ⟨fun _ => by linarith, fun _ => by linarith⟩, ⟨fun _ => by linarith, fun _ => by linarith⟩⟩
theorem approx_diff (h : IsFinite (a - b)) : Approx 1 0 (a - b) (real a - real b) |real a - real b| := by
  refine ⟨le_rfl, ?_⟩
  have := err_sub h
  simpa using this
theorem Approx.abs {k : ℕ} {t x A : ℝ} (h : Approx k t c x A) : Approx k t (Scalar.abs c) |x| A := by
  refine ⟨by rw [abs_abs]; exact h.1, ?_⟩
  rw [IEEE.real_abs]
  exact (abs_abs_sub_abs_le _ _).trans h.2
theorem g_le2 (h : uro S ≤ 1 / 1024) : gam S 3 ≤ 5 * uro S := by
  have := uro_pos (S := S); unfold gam; nlinarith [sq_nonneg (uro S), mul_pos this this]
theorem g_le3 (h : uro S ≤ 1 / 1024) : gam S 4 ≤ 5 * uro S := by
  have p := uro_pos (S := S)
  have h2 : uro S ^ 2 ≤ 1 / 1024 * uro S := by nlinarith
  have h3 : uro S ^ 3 ≤ 1 / 1024 * uro S := by nlinarith [mul_pos p p]
  have h4 : uro S ^ 4 ≤ 1 / 1024 * uro S := by nlinarith [mul_pos p p, mul_pos (mul_pos p p) p]
  unfold gam; nlinarith
theorem t_le2 (h : uro S ≤ 1 / 1024) : ((2 : ℕ) : ℝ) * (1 + uro S) ^ 1 * tiny S ≤ 7 / 2 * tiny S := by
  have := tiny_pos (S := S); push_cast; nlinarith
theorem t_le3 (h : uro S ≤ 1 / 1024) : ((3 : ℕ) : ℝ) * (1 + uro S) ^ 2 * tiny S ≤ 7 / 2 * tiny S := by
  have := tiny_pos (S := S)
  have p := uro_pos (S := S)
  refine mul_le_mul_of_nonneg_right ?_ this.le
  push_cast; nlinarith
theorem filter_bound {u g t T M m : ℝ} (hu : u ≤ 1 / 1024) (hg : g ≤ 5 * u) (ht : t ≤ 7 / 2 * T) (h0 : 0 < u) (hT : 0 ≤ T)
    (hM : 0 ≤ M) (h : -(g * M + t) ≤ m - M) : g * M + t ≤ 8 * u * m + 4 * T := by
  have h1 : g * M ≤ 5 * u * M := mul_le_mul_of_nonneg_right hg hM
  have h2 : 5 * u * M ≤ 5 / 1024 * M := mul_le_mul_of_nonneg_right (by linarith) hM
  have h3 : M ≤ 8 / 5 * (m + t) := by linarith
  have h4 : 5 * u * M ≤ 5 * u * (8 / 5 * (m + t)) := mul_le_mul_of_nonneg_left h3 (by linarith)
  have h5 : 8 * u * t ≤ 8 * u * (7 / 2 * T) := mul_le_mul_of_nonneg_left ht (by linarith)
  have h6 : 8 * u * (7 / 2 * T) ≤ 8 / 1024 * (7 / 2 * T) := mul_le_mul_of_nonneg_right (by linarith) (by linarith)
  linarith
theorem side_test (h : IsFinite (a - b)) (e : (c == a - b) = true) : ((c >? zero) = (a >? b)) ∧ ((c <? zero) = (a <? b)) ∧
    ((c == zero) = (a == b)) := by
  have hf := finite_of_sub h
  have hc : IsFinite c := (finite_num (num_of_beq e)).2 h
  have r := (obeq_real hc h).1 e
  have k := sub_pos_iff h
  refine ⟨Bool.eq_iff_iff.2 ?_, Bool.eq_iff_iff.2 ?_, Bool.eq_iff_iff.2 ?_⟩
  · show (zero <? c) = true ↔ (b <? a) = true
    rw [olt_real finite_zero hc, olt_real hf.2 hf.1, real_zero, r]; exact k.1
  · rw [olt_real hc finite_zero, olt_real hf.1 hf.2, real_zero, r]; exact k.2.1
  · rw [obeq_real hc finite_zero, obeq_real hf.1 hf.2, real_zero, r]; exact k.2.2

/-- **C107** (2D): for a plane whose normal is a coordinate axis the test is exact: the side is decided by comparing
coordinates. -/
theorem C107_axis2 (o p : Point2 S) (d : Dimension2) (h : AllFinite (p - o : Vector2 S)) :
    ((Api.dot (Vector2.axis d : Vector2 S) (p - o : Vector2 S) >? zero) = (p.index d >? o.index d)) ∧
    ((Api.dot (Vector2.axis d : Vector2 S) (p - o : Vector2 S) <? zero) = (p.index d <? o.index d)) ∧
    ((Api.dot (Vector2.axis d : Vector2 S) (p - o : Vector2 S) == zero) = (p.index d == o.index d)) := by
  have e := (C101_dot2 (p - o : Vector2 S) h d).1
  rw [Vector2.allFinite] at h
  cases d
  · exact side_test h.1 e
  · exact side_test h.2 e

theorem approx_side2 (n : Vector2 S) (o p : Point2 S) (h : IsFinite (Api.dot n (p - o : Vector2 S))) :
    Approx 3 ((2 : ℕ) * (1 + uro S) ^ 1 * tiny S) (Api.dot n (p - o : Vector2 S)) (planeSide n.toReal o.toReal p.toReal)
      (planeAbs n.toReal o.toReal p.toReal) := by
  have p0 := (finite_of_add h).1
  have p1 := (finite_of_add h).2
  have k : ∀ {a b c : S}, IsFinite (a * (b - c)) → Approx 2 (tiny S) (a * (b - c)) (real a * (real b - real c)) (|real a| * |real b - real c|) :=
    fun h => ((approx_diff (finite_of_mul h).2).exact_mul h).mono le_rfl (by simp)
  refine ((k p0).start.acc tiny_pos.le le_rfl (k p1) h).congr ?_ ?_
  · rw [planeSide, Fin.sum_univ_two]; rfl
  · rw [planeAbs, Fin.sum_univ_two]; rfl
/-- **C107** (2D): whenever `dot(n, p - o)` is finite, its error is at most `planeErr`. -/
theorem C107_error2 (n : Vector2 S) (o p : Point2 S) (h : IsFinite (Api.dot n (p - o : Vector2 S))) :
    |real (Api.dot n (p - o : Vector2 S)) - planeSide n.toReal o.toReal p.toReal| ≤ planeErr S 2 (planeAbs n.toReal o.toReal p.toReal) :=
  (approx_side2 n o p h).2
/-- **C107** (2D): hence the computed side is right for every point further from the plane than the error bound, and a
computed value beyond the error bound proves the side. -/
theorem C107_side2 (n : Vector2 S) (o p : Point2 S) (h : IsFinite (Api.dot n (p - o : Vector2 S))) :
    (planeErr S 2 (planeAbs n.toReal o.toReal p.toReal) < planeSide n.toReal o.toReal p.toReal →
      (Api.dot n (p - o : Vector2 S) >? zero) = true) ∧
    (planeSide n.toReal o.toReal p.toReal < -planeErr S 2 (planeAbs n.toReal o.toReal p.toReal) →
      (Api.dot n (p - o : Vector2 S) <? zero) = true) ∧
    (planeErr S 2 (planeAbs n.toReal o.toReal p.toReal) < real (Api.dot n (p - o : Vector2 S)) →
      0 < planeSide n.toReal o.toReal p.toReal) ∧
    (real (Api.dot n (p - o : Vector2 S)) < -planeErr S 2 (planeAbs n.toReal o.toReal p.toReal) →
      planeSide n.toReal o.toReal p.toReal < 0) := by
  have e := abs_le.1 (C107_error2 n o p h)
  refine ⟨fun h' => ?_, fun h' => ?_, fun h' => by linarith, fun h' => by linarith⟩
  · exact (olt_real finite_zero h).2 (by rw [real_zero]; linarith)
  · exact (olt_real h finite_zero).2 (by rw [real_zero]; linarith)
/-- **C107** (2D): a certificate in computed numbers only. If `|dot(n, p - o)|` exceeds `8u` times the computed
`dot(n.abs(), (p - o).abs())` plus four times half the smallest positive number, its sign is right. -/
theorem C107_filter2 (hS : Standard S) (n : Vector2 S) (o p : Point2 S) (h : IsFinite (Api.dot n (p - o : Vector2 S)))
    (h' : IsFinite (Api.dot n.abs (p - o : Vector2 S).abs : S)) :
    (8 * uro S * real (Api.dot n.abs (p - o : Vector2 S).abs) + 4 * tiny S < real (Api.dot n (p - o : Vector2 S)) →
      0 < planeSide n.toReal o.toReal p.toReal) ∧
    (real (Api.dot n (p - o : Vector2 S)) < -(8 * uro S * real (Api.dot n.abs (p - o : Vector2 S).abs) + 4 * tiny S) →
      planeSide n.toReal o.toReal p.toReal < 0) := by
  have e := abs_le.1 (C107_error2 n o p h)
  have hM : 0 ≤ planeAbs n.toReal o.toReal p.toReal := Finset.sum_nonneg fun i _ => mul_nonneg (abs_nonneg _) (abs_nonneg _)
  have k : Approx 3 ((2 : ℕ) * (1 + uro S) ^ 1 * tiny S) (Api.dot n.abs (p - o : Vector2 S).abs)
      (planeAbs n.toReal o.toReal p.toReal) (planeAbs n.toReal o.toReal p.toReal) := by
    have p0 := (finite_of_add h').1
    have p1 := (finite_of_add h').2
    have k : ∀ {a b c : S}, IsFinite (Scalar.abs a * Scalar.abs (b - c)) → Approx 2 (tiny S) (Scalar.abs a * Scalar.abs (b - c)) (|real a| * |real b - real c|) (|real a| * |real b - real c|) :=
      fun h => (((approx_diff (finite_abs.1 (finite_of_mul h).2)).abs.exact_mul h).mono le_rfl (by simp)).congr (by rw [IEEE.real_abs]) (by rw [IEEE.real_abs, abs_abs])
    refine ((k p0).start.acc tiny_pos.le le_rfl (k p1) h').congr ?_ ?_ <;>
    · rw [planeAbs, Fin.sum_univ_two]; rfl
  have b := filter_bound hS.uro (g_le2 hS.uro) (t_le2 hS.uro) (uro_pos (S := S)) tiny_pos.le hM (abs_le.1 k.2).1
  have b' : planeErr S 2 (planeAbs n.toReal o.toReal p.toReal) ≤ 8 * uro S * real (Api.dot n.abs (p - o : Vector2 S).abs) + 4 * tiny S := b
  exact ⟨fun q => by linarith, fun q => by linarith⟩

/-- **C107** (3D): for a plane whose normal is a coordinate axis the test is exact: the side is decided by comparing
coordinates. -/
theorem C107_axis3 (o p : Point3 S) (d : Dimension3) (h : AllFinite (p - o : Vector3 S)) :
    ((Api.dot (Vector3.axis d : Vector3 S) (p - o : Vector3 S) >? zero) = (p.index d >? o.index d)) ∧
    ((Api.dot (Vector3.axis d : Vector3 S) (p - o : Vector3 S) <? zero) = (p.index d <? o.index d)) ∧
    ((Api.dot (Vector3.axis d : Vector3 S) (p - o : Vector3 S) == zero) = (p.index d == o.index d)) := by
  have e := (C101_dot3 (p - o : Vector3 S) h d).1
  rw [Vector3.allFinite] at h
  cases d
  · exact side_test h.1 e
  · exact side_test h.2.1 e
  · exact side_test h.2.2 e

theorem approx_side3 (n : Vector3 S) (o p : Point3 S) (h : IsFinite (Api.dot n (p - o : Vector3 S))) :
    Approx 4 ((3 : ℕ) * (1 + uro S) ^ 2 * tiny S) (Api.dot n (p - o : Vector3 S)) (planeSide n.toReal o.toReal p.toReal)
      (planeAbs n.toReal o.toReal p.toReal) := by
  have q := finite_of_add h
  have p0 := (finite_of_add q.1).1
  have p1 := (finite_of_add q.1).2
  have p2 := q.2
  have k : ∀ {a b c : S}, IsFinite (a * (b - c)) → Approx 2 (tiny S) (a * (b - c)) (real a * (real b - real c)) (|real a| * |real b - real c|) :=
    fun h => ((approx_diff (finite_of_mul h).2).exact_mul h).mono le_rfl (by simp)
  refine (((k p0).start.acc tiny_pos.le le_rfl (k p1) q.1).acc tiny_pos.le (by norm_num) (k p2) h).congr ?_ ?_
  · rw [planeSide, Fin.sum_univ_three]; rfl
  · rw [planeAbs, Fin.sum_univ_three]; rfl
/-- **C107** (3D): whenever `dot(n, p - o)` is finite, its error is at most `planeErr`. -/
theorem C107_error3 (n : Vector3 S) (o p : Point3 S) (h : IsFinite (Api.dot n (p - o : Vector3 S))) :
    |real (Api.dot n (p - o : Vector3 S)) - planeSide n.toReal o.toReal p.toReal| ≤ planeErr S 3 (planeAbs n.toReal o.toReal p.toReal) :=
  (approx_side3 n o p h).2
/-- **C107** (3D): hence the computed side is right for every point further from the plane than the error bound, and a
computed value beyond the error bound proves the side. -/
theorem C107_side3 (n : Vector3 S) (o p : Point3 S) (h : IsFinite (Api.dot n (p - o : Vector3 S))) :
    (planeErr S 3 (planeAbs n.toReal o.toReal p.toReal) < planeSide n.toReal o.toReal p.toReal →
      (Api.dot n (p - o : Vector3 S) >? zero) = true) ∧
    (planeSide n.toReal o.toReal p.toReal < -planeErr S 3 (planeAbs n.toReal o.toReal p.toReal) →
      (Api.dot n (p - o : Vector3 S) <? zero) = true) ∧
    (planeErr S 3 (planeAbs n.toReal o.toReal p.toReal) < real (Api.dot n (p - o : Vector3 S)) →
      0 < planeSide n.toReal o.toReal p.toReal) ∧
    (real (Api.dot n (p - o : Vector3 S)) < -planeErr S 3 (planeAbs n.toReal o.toReal p.toReal) →
      planeSide n.toReal o.toReal p.toReal < 0) := by
  have e := abs_le.1 (C107_error3 n o p h)
  refine ⟨fun h' => ?_, fun h' => ?_, fun h' => by linarith, fun h' => by linarith⟩
  · exact (olt_real finite_zero h).2 (by rw [real_zero]; linarith)
  · exact (olt_real h finite_zero).2 (by rw [real_zero]; linarith)
/-- **C107** (3D): a certificate in computed numbers only. If `|dot(n, p - o)|` exceeds `8u` times the computed
`dot(n.abs(), (p - o).abs())` plus four times half the smallest positive number, its sign is right. -/
theorem C107_filter3 (hS : Standard S) (n : Vector3 S) (o p : Point3 S) (h : IsFinite (Api.dot n (p - o : Vector3 S)))
    (h' : IsFinite (Api.dot n.abs (p - o : Vector3 S).abs : S)) :
    (8 * uro S * real (Api.dot n.abs (p - o : Vector3 S).abs) + 4 * tiny S < real (Api.dot n (p - o : Vector3 S)) →
      0 < planeSide n.toReal o.toReal p.toReal) ∧
    (real (Api.dot n (p - o : Vector3 S)) < -(8 * uro S * real (Api.dot n.abs (p - o : Vector3 S).abs) + 4 * tiny S) →
      planeSide n.toReal o.toReal p.toReal < 0) := by
  have e := abs_le.1 (C107_error3 n o p h)
  have hM : 0 ≤ planeAbs n.toReal o.toReal p.toReal := Finset.sum_nonneg fun i _ => mul_nonneg (abs_nonneg _) (abs_nonneg _)
  have k : Approx 4 ((3 : ℕ) * (1 + uro S) ^ 2 * tiny S) (Api.dot n.abs (p - o : Vector3 S).abs)
      (planeAbs n.toReal o.toReal p.toReal) (planeAbs n.toReal o.toReal p.toReal) := by
    have q := finite_of_add h'
    have p0 := (finite_of_add q.1).1
    have p1 := (finite_of_add q.1).2
    have p2 := q.2
    have k : ∀ {a b c : S}, IsFinite (Scalar.abs a * Scalar.abs (b - c)) → Approx 2 (tiny S) (Scalar.abs a * Scalar.abs (b - c)) (|real a| * |real b - real c|) (|real a| * |real b - real c|) :=
      fun h => (((approx_diff (finite_abs.1 (finite_of_mul h).2)).abs.exact_mul h).mono le_rfl (by simp)).congr (by rw [IEEE.real_abs]) (by rw [IEEE.real_abs, abs_abs])
    refine (((k p0).start.acc tiny_pos.le le_rfl (k p1) q.1).acc tiny_pos.le (by norm_num) (k p2) h').congr ?_ ?_ <;>
    · rw [planeAbs, Fin.sum_univ_three]; rfl
  have b := filter_bound hS.uro (g_le3 hS.uro) (t_le3 hS.uro) (uro_pos (S := S)) tiny_pos.le hM (abs_le.1 k.2).1
  have b' : planeErr S 3 (planeAbs n.toReal o.toReal p.toReal) ≤ 8 * uro S * real (Api.dot n.abs (p - o : Vector3 S).abs) + 4 * tiny S := b
  exact ⟨fun q => by linarith, fun q => by linarith⟩

/-- **C107**: a flat triangle. If the three corners agree in one coordinate, the computed normal is exactly parallel to that
axis: its other components are zero. -/
theorem C107_flat (a b c : Point3 S) (hu : AllFinite (b - a : Vector3 S)) (hv : AllFinite (c - a : Vector3 S)) (d d' : Dimension3)
    (h1 : (b.index d == a.index d) = true) (h2 : (c.index d == a.index d) = true) (hd : d' ≠ d) :
    ((Api.cross (b - a : Vector3 S) (c - a : Vector3 S) : Vector3 S).index d' == zero) = true := by
  rw [Vector3.allFinite] at hu hv
  have z : ∀ {p q : S}, IsFinite (p - q) → (p == q) = true → num (p - q) = num (zero : S) := fun h e =>
    num_of_beq ((obeq_real h finite_zero).2 (by
      rw [real_zero, (sub_pos_iff h).2.2]; exact (obeq_real (finite_of_sub h).1 (finite_of_sub h).2).1 e))
  have z0 : num (zero - zero : S) = num (zero : S) := by
    rw [(same_sub zero zero).num]; rw [IEEE.num_zero_add, num_finite (finite_neg.2 finite_zero), IEEE.real_neg, real_zero, neg_zero, num_finite finite_zero, real_zero]
  have m : ∀ {p q r s : S}, IsFinite p → IsFinite q → num r = num (zero : S) → num s = num (zero : S) →
      (p * r - s * q == zero) = true := fun {p q r s} hp hq hr hs => by
    refine beq_of_num' ?_ finite_zero.not_nan
    have e1 : num (p * r) = num (zero : S) := (num_mul_congr rfl hr).trans (by
      rw [(same_mul_comm p zero).num]; exact IEEE.num_zero_mul hp)
    have e2 : num (s * q) = num (zero : S) := (num_mul_congr hs rfl).trans (IEEE.num_zero_mul hq)
    rw [num_sub_congr e1 e2]; exact z0
  have m' : ∀ {p q r s : S}, IsFinite p → IsFinite q → num r = num (zero : S) → num s = num (zero : S) →
      (s * q - p * r == zero) = true := fun {p q r s} hp hq hr hs => by
    refine beq_of_num' ?_ finite_zero.not_nan
    have e1 : num (p * r) = num (zero : S) := (num_mul_congr rfl hr).trans (by
      rw [(same_mul_comm p zero).num]; exact IEEE.num_zero_mul hp)
    have e2 : num (s * q) = num (zero : S) := (num_mul_congr hs rfl).trans (IEEE.num_zero_mul hq)
    rw [num_sub_congr e2 e1]; exact z0
  cases d <;> cases d' <;> first | exact absurd rfl hd | skip
  · exact m hu.2.2 hv.2.2 (z hv.1 h2) (z hu.1 h1)
  · exact m' hu.2.1 hv.2.1 (z hv.1 h2) (z hu.1 h1)
  · exact m' hu.2.2 hv.2.2 (z hv.2.1 h2) (z hu.2.1 h1)
  · exact m hu.1 hv.1 (z hv.2.1 h2) (z hu.2.1 h1)
  · exact m hu.2.1 hv.2.1 (z hv.2.2 h2) (z hu.2.2 h1)
  · exact m' hu.1 hv.1 (z hv.2.2 h2) (z hu.2.2 h1)

theorem approx_volume (a b c d : Point3 S) {M : ℝ}
    (h : IsFinite (Api.dot (Api.cross (b - a : Vector3 S) (c - a : Vector3 S) : Vector3 S) (d - a : Vector3 S)))
    (hM : ∀ i, |d.toReal i - a.toReal i| ≤ M) :
    Approx 8 ((3 : ℕ) * (1 + uro S) ^ 2 * ((1 + 2 * (1 + uro S) ^ 3 * M) * tiny S))
      (Api.dot (Api.cross (b - a : Vector3 S) (c - a : Vector3 S) : Vector3 S) (d - a : Vector3 S))
      (edges a.toReal b.toReal c.toReal d.toReal).det (absDet (edges a.toReal b.toReal c.toReal d.toReal)) := by
  have q := finite_of_add h
  have p0 := (finite_of_add q.1).1
  have p1 := (finite_of_add q.1).2
  have p2 := q.2
  have hM0 : 0 ≤ M := (abs_nonneg _).trans (hM 0)
  have hw := Approx.one_le_pow (S := S) 3
  have ht := tiny_pos (S := S)
  have t0 : 0 ≤ (1 + 2 * (1 + uro S) ^ 3 * M) * tiny S :=
    mul_nonneg (by nlinarith) ht.le
  have k : ∀ {x y z w v : S}, ∀ {x' y' z' w' v' : S}, |real v - real v'| ≤ M →
      IsFinite (((x - x') * (y - y') - (z - z') * (w - w')) * (v - v')) →
      Approx 6 ((1 + 2 * (1 + uro S) ^ 3 * M) * tiny S) (((x - x') * (y - y') - (z - z') * (w - w')) * (v - v'))
        (((real x - real x') * (real y - real y') - (real z - real z') * (real w - real w')) * (real v - real v'))
        ((|real x - real x'| * |real y - real y'| + |real z - real z'| * |real w - real w'|) * |real v - real v'|) := by
    intro x y z w v x' y' z' w' v' hv h
    have f := finite_of_mul h
    have g := finite_of_sub f.1
    have pr : ∀ {x y x' y' : S}, IsFinite ((x - x') * (y - y')) → Approx 3 (tiny S) ((x - x') * (y - y'))
        ((real x - real x') * (real y - real y')) (|real x - real x'| * |real y - real y'|) := fun h =>
      ((approx_diff (finite_of_mul h).1).mul (approx_diff (finite_of_mul h).2) h).mono le_rfl (by simp)
    refine (((pr g.1).sub (pr g.2) f.1).mul (approx_diff f.2) h).mono le_rfl ?_
    have hu := uro_pos (S := S)
    have : (1 + uro S) ^ 3 * |real v - real v'| * tiny S ≤ (1 + uro S) ^ 3 * M * tiny S :=
      mul_le_mul_of_nonneg_right (mul_le_mul_of_nonneg_left hv (by linarith)) ht.le
    calc _ = 2 * ((1 + uro S) ^ 3 * |real v - real v'| * tiny S) + tiny S := by ring
      _ ≤ 2 * ((1 + uro S) ^ 3 * M * tiny S) + tiny S := by linarith
      _ = _ := by ring
  refine (((k (hM 0) p0).start.acc t0 le_rfl (k (hM 1) p1) q.1).acc t0 (by norm_num) (k (hM 2) p2) h).congr ?_ ?_
  · rw [Matrix.det_fin_three]
    simp only [edges, Matrix.cons_val_zero, Matrix.cons_val_one, Matrix.cons_val_two, Matrix.head_cons, Matrix.tail_cons,
      Matrix.cons_val, Pi.sub_apply, Point3.toReal]
    ring
  · rw [absDet_three]
    simp only [edges, Matrix.cons_val_zero, Matrix.cons_val_one, Matrix.cons_val_two, Matrix.head_cons, Matrix.tail_cons,
      Matrix.cons_val, Pi.sub_apply, Point3.toReal]
    ring
/-- **C107**: the computed signed volume `dot(cross(b - a, c - a), d - a)` is within `volumeErr` of the determinant of the
edges, whenever it is finite. -/
theorem C107_volume (a b c d : Point3 S) {M : ℝ}
    (h : IsFinite (Api.dot (Api.cross (b - a : Vector3 S) (c - a : Vector3 S) : Vector3 S) (d - a : Vector3 S)))
    (hM : ∀ i, |d.toReal i - a.toReal i| ≤ M) :
    |real (Api.dot (Api.cross (b - a : Vector3 S) (c - a : Vector3 S) : Vector3 S) (d - a : Vector3 S))
      - (edges a.toReal b.toReal c.toReal d.toReal).det| ≤ volumeErr S (edges a.toReal b.toReal c.toReal d.toReal) M := by
  refine (approx_volume a b c d h hM).2.trans (le_of_eq ?_)
  rw [volumeErr, gam]; push_cast; ring
/-- **C107**: hence it has the right sign for every tetrahedron whose volume exceeds the bound, and a computed value beyond
the bound proves the orientation. -/
theorem C107_orientation (a b c d : Point3 S) {M : ℝ}
    (h : IsFinite (Api.dot (Api.cross (b - a : Vector3 S) (c - a : Vector3 S) : Vector3 S) (d - a : Vector3 S)))
    (hM : ∀ i, |d.toReal i - a.toReal i| ≤ M) :
    let v := Api.dot (Api.cross (b - a : Vector3 S) (c - a : Vector3 S) : Vector3 S) (d - a : Vector3 S)
    let m := edges a.toReal b.toReal c.toReal d.toReal
    (volumeErr S m M < m.det → (v >? zero) = true) ∧ (m.det < -volumeErr S m M → (v <? zero) = true) ∧
    (volumeErr S m M < real v → 0 < m.det) ∧ (real v < -volumeErr S m M → m.det < 0) := by
  have e := abs_le.1 (C107_volume a b c d h hM)
  refine ⟨fun h' => ?_, fun h' => ?_, fun h' => by linarith, fun h' => by linarith⟩
  · exact (olt_real finite_zero h).2 (by rw [real_zero]; linarith)
  · exact (olt_real h finite_zero).2 (by rw [real_zero]; linarith)

/-- **C107**: on a grid (integers, for instance) with enough room the signed volume is exact, and with it the orientation
test. -/
theorem C107_exact_volume {e : ℤ} {N : ℕ} (a b c d : Point3 S) (ha : AllFinite a) (hb : AllFinite b) (hc : AllFinite c) (hd : AllFinite d)
    (ga : ∀ i, OnGrid e N (a.toReal i)) (gb : ∀ i, OnGrid e N (b.toReal i)) (gc : ∀ i, OnGrid e N (c.toReal i))
    (gd : ∀ i, OnGrid e N (d.toReal i)) (f1 : Fits S e (2 * N)) (f2 : Fits S (e + e) (8 * (N * N)))
    (f3 : Fits S (e + e + e) (48 * (N * N * N))) :
    Exactly (Api.dot (Api.cross (b - a : Vector3 S) (c - a : Vector3 S) : Vector3 S) (d - a : Vector3 S))
      (edges a.toReal b.toReal c.toReal d.toReal).det := by
  rw [Point3.allFinite] at ha hb hc hd
  have df : ∀ {p q : S} {i : Fin 3} {P Q : Fin 3 → ℝ}, IsFinite p → IsFinite q → real p = P i → real q = Q i →
      (∀ i, OnGrid e N (P i)) → (∀ i, OnGrid e N (Q i)) → G e (2 * N) (p - q) (real p - real q) := fun {p q i P Q} hp hq eP eQ gP gQ =>
    ((G.of hp (by rw [eP]; exact gP i)).sub (G.of hq (by rw [eQ]; exact gQ i)) (f1.mono (by omega))).mono (by omega)
  have u0 := df (i := 0) hb.1 ha.1 rfl rfl gb ga
  have u1 := df (i := 1) hb.2.1 ha.2.1 rfl rfl gb ga
  have u2 := df (i := 2) hb.2.2 ha.2.2 rfl rfl gb ga
  have v0 := df (i := 0) hc.1 ha.1 rfl rfl gc ga
  have v1 := df (i := 1) hc.2.1 ha.2.1 rfl rfl gc ga
  have v2 := df (i := 2) hc.2.2 ha.2.2 rfl rfl gc ga
  have w0 := df (i := 0) hd.1 ha.1 rfl rfl gd ga
  have w1 := df (i := 1) hd.2.1 ha.2.1 rfl rfl gd ga
  have w2 := df (i := 2) hd.2.2 ha.2.2 rfl rfl gd ga
  have n2 : 2 * (2 * N * (2 * N)) ≤ 8 * (N * N) := by apply le_of_eq; ring
  have n3 : 3 * (8 * (N * N) * (2 * N)) ≤ 48 * (N * N * N) := by apply le_of_eq; ring
  have c0 := (u1.two u2 v2 v1 (f2.mono n2)).mono n2
  have c1 := (u2.two u0 v0 v2 (f2.mono n2)).mono n2
  have c2 := (u0.two u1 v1 v0 (f2.mono n2)).mono n2
  have r := (c0.dot3 c1 c2 w0 w1 w2 (f3.mono n3)).ex
  refine ⟨r.1, r.2.trans ?_⟩
  rw [Matrix.det_fin_three]
  simp only [edges, Matrix.cons_val_zero, Matrix.cons_val_one, Matrix.cons_val_two, Matrix.head_cons, Matrix.tail_cons,
    Matrix.cons_val, Pi.sub_apply, Point3.toReal]
  ring

/-- **C107** (2D): on a grid with enough room the side test is exact. -/
theorem C107_exact_side2 {e f : ℤ} {M N : ℕ} (n : Vector2 S) (o p : Point2 S) (hn : AllFinite n) (ho : AllFinite o) (hp : AllFinite p)
    (gn : ∀ i, OnGrid e M (n.toReal i)) (go : ∀ i, OnGrid f N (o.toReal i)) (gp : ∀ i, OnGrid f N (p.toReal i))
    (f1 : Fits S f (2 * N)) (f2 : Fits S (e + f) (2 * (M * (2 * N)))) :
    Exactly (Api.dot n (p - o : Vector2 S)) (planeSide n.toReal o.toReal p.toReal) := by
  rw [Vector2.allFinite] at hn
  rw [Point2.allFinite] at ho hp
  have df : ∀ {p q : S} {i : Fin 2} {P Q : Fin 2 → ℝ}, IsFinite p → IsFinite q → real p = P i → real q = Q i →
      (∀ i, OnGrid f N (P i)) → (∀ i, OnGrid f N (Q i)) → G f (2 * N) (p - q) (real p - real q) := fun {p q i P Q} hp hq eP eQ gP gQ =>
    ((G.of hp (by rw [eP]; exact gP i)).sub (G.of hq (by rw [eQ]; exact gQ i)) (f1.mono (by omega))).mono (by omega)
  have w0 := df (i := 0) hp.1 ho.1 rfl rfl gp go
  have w1 := df (i := 1) hp.2 ho.2 rfl rfl gp go
  have r := (G.dot2 (G.of hn.1 (gn 0)) (G.of hn.2 (gn 1)) w0 w1 f2).ex
  refine ⟨r.1, r.2.trans ?_⟩
  rw [planeSide, Fin.sum_univ_two]; rfl

/-- **C107** (3D): on a grid with enough room the side test is exact. -/
theorem C107_exact_side3 {e f : ℤ} {M N : ℕ} (n : Vector3 S) (o p : Point3 S) (hn : AllFinite n) (ho : AllFinite o) (hp : AllFinite p)
    (gn : ∀ i, OnGrid e M (n.toReal i)) (go : ∀ i, OnGrid f N (o.toReal i)) (gp : ∀ i, OnGrid f N (p.toReal i))
    (f1 : Fits S f (2 * N)) (f2 : Fits S (e + f) (3 * (M * (2 * N)))) :
    Exactly (Api.dot n (p - o : Vector3 S)) (planeSide n.toReal o.toReal p.toReal) := by
  rw [Vector3.allFinite] at hn
  rw [Point3.allFinite] at ho hp
  have df : ∀ {p q : S} {i : Fin 3} {P Q : Fin 3 → ℝ}, IsFinite p → IsFinite q → real p = P i → real q = Q i →
      (∀ i, OnGrid f N (P i)) → (∀ i, OnGrid f N (Q i)) → G f (2 * N) (p - q) (real p - real q) := fun {p q i P Q} hp hq eP eQ gP gQ =>
    ((G.of hp (by rw [eP]; exact gP i)).sub (G.of hq (by rw [eQ]; exact gQ i)) (f1.mono (by omega))).mono (by omega)
  have w0 := df (i := 0) hp.1 ho.1 rfl rfl gp go
  have w1 := df (i := 1) hp.2.1 ho.2.1 rfl rfl gp go
  have w2 := df (i := 2) hp.2.2 ho.2.2 rfl rfl gp go
  have r := (G.dot3 (G.of hn.1 (gn 0)) (G.of hn.2.1 (gn 1)) (G.of hn.2.2 (gn 2)) w0 w1 w2 f2).ex
  refine ⟨r.1, r.2.trans ?_⟩
  rw [planeSide, Fin.sum_univ_three]; rfl
end
end VecMath
