import Verif.Props.FloatSphere
import Verif.Props.RealSphere
import Verif.Props.FloatSide
import Verif.Props.FloatReflect
import Verif.Props.FloatInvAffine
import Verif.Props.FloatCorners
/-! # C119: rays and balls in floating point

(Generated by tools/gen.) -/

open Classical

namespace VecMath
open Scalar IEEE

section
variable {S : Type} [Scalar S] [IEEE S]
theorem beq_of_num_nn {a b : S} (na : ¬ IsNaN a) (h : num a = num b) : (a == b) = true := by
  have nb : ¬ IsNaN b := fun c => na (by rw [isNaN_num, h, ← isNaN_num]; exact c)
  exact beq_iff.2 ⟨na, nb, by rw [val_num, h, ← val_num]⟩
theorem nan_fin_sub {a b : S} (ha : IsFinite a) (hb : ¬ IsNaN b) : ¬ IsNaN (a - b) := fun c => isNaN_sub_finite ha hb (isNaN_sub_comm.1 c)
theorem ordered_nn {a h k : S} {R : Range S} (e : rootRange a h k = some R) (ha : IsFinite a) (h0 : 0 < real a) (hh : IsFinite h) :
    ¬ IsNaN R.start ∧ ¬ IsNaN R.stop := by
  have := le_iff.1 (rootRange_ordered e ha h0 hh)
  exact ⟨this.1, this.2.1⟩
end
section
variable {S : Type} [Scalar S] [IEEE S] [Binary S]
theorem Fits.twice0 {N : ℕ} (h : Fits S 0 N) : Fits S (0 + 0) N := by simpa using h
theorem no_root_iff {a h k : ℝ} (h0 : 0 < a) : (∀ t : ℝ, ¬ (a * t ^ 2 + 2 * h * t + k ≤ 0)) ↔ h * h - a * k < 0 := by
  simp only [quad_iff h0]
  constructor
  · intro H
    by_contra c
    refine H _ ⟨not_lt.1 c, le_rfl, ?_⟩
    gcongr
    linarith [Real.sqrt_nonneg (h * h - a * k)]
  · intro H t H'
    exact absurd H'.1 (not_le.2 H)
/-- Whole-number coefficients: the discriminant is exact. -/
theorem rootRange_exact {a h k : S} {x y z : ℝ} {A H K : ℕ} (ga : G 0 A a x) (gh : G 0 H h y) (gk : G 0 K k z) (fd : Fits S 0 (H * H + A * K)) :
    rootRange a h k = none ↔ y * y - x * z < 0 := by
  have hh : G 0 (H * H) (h * h) (y * y) := (gh.mul gh (Fits.twice0 (fd.mono (by omega)))).exp (by norm_num)
  have ak : G 0 (A * K) (a * k) (x * z) := (ga.mul gk (Fits.twice0 (fd.mono (by omega)))).exp (by norm_num)
  have d := (hh.sub ak fd).ex
  have l : (zero ≤? (h * h - a * k)) = true ↔ 0 ≤ y * y - x * z := by rw [ole_real finite_zero d.1, real_zero, d.2]
  unfold rootRange
  simp only
  constructor
  · intro e
    by_contra c
    rw [if_pos (l.2 (not_lt.1 c))] at e
    cases e
  · intro c
    exact if_neg (fun H => absurd (l.1 H) (not_le.2 c))
end

/-! ## Dimension 2 -/
section
variable {S : Type} [Scalar S] [IEEE S]
theorem Ray2.ball_def (r : Ray2 S) (c : Point2 S) (ρ : S) : r.ball c ρ = rootRange (Api.dot r.direction r.direction) (Api.dot r.direction (r.origin - c : Vector2 S)) (Api.dot (r.origin - c : Vector2 S) (r.origin - c : Vector2 S) - ρ * ρ) := rfl
/-- **C119**: entry and exit are reported in this order. -/
theorem C119_ordered2 (r : Ray2 S) (c : Point2 S) (ρ : S) (R : Range S) (e : r.ball c ρ = some R) (fa : IsFinite (Api.dot r.direction r.direction)) (pa : 0 < real (Api.dot r.direction r.direction))
    (fh : IsFinite (Api.dot r.direction (r.origin - c : Vector2 S))) :
    (R.start ≤? R.stop) = true := rootRange_ordered e fa pa fh
/-- **C119**: the ray looking backwards finds the same disc, with opposite parameters. -/
theorem C119_back2 (r : Ray2 S) (c : Point2 S) (ρ : S) (fa : IsFinite (Api.dot r.direction r.direction)) (pa : 0 < real (Api.dot r.direction r.direction))
    (fh : IsFinite (Api.dot r.direction (r.origin - c : Vector2 S))) :
    (r.ball c ρ = none ∧ r.back.ball c ρ = none) ∨ ∃ R R', r.ball c ρ = some R ∧ r.back.ball c ρ = some R' ∧
      (R'.start == -R.stop) = true ∧ (R'.stop == -R.start) = true := by
  show (_ ∧ rootRange (Api.dot (-r.direction) (-r.direction)) (Api.dot (-r.direction) (r.origin - c : Vector2 S)) (Api.dot (r.origin - c : Vector2 S) (r.origin - c : Vector2 S) - ρ * ρ) = none) ∨ ∃ R R', _ ∧
    rootRange (Api.dot (-r.direction) (-r.direction)) (Api.dot (-r.direction) (r.origin - c : Vector2 S)) (Api.dot (r.origin - c : Vector2 S) (r.origin - c : Vector2 S) - ρ * ρ) = some R' ∧ _
  have na : num (Api.dot (-r.direction) (-r.direction)) = num (Api.dot r.direction r.direction) := 
    (Vector2.num_dot_neg_left _ _).trans ((num_neg_congr (Vector2.num_dot_neg_right _ _)).trans (same_neg_neg _).num)
  have nh : num (Api.dot (-r.direction) (r.origin - c : Vector2 S)) = num (-Api.dot r.direction (r.origin - c : Vector2 S)) := Vector2.num_dot_neg_left _ _
  have v0 : val (Api.dot r.direction r.direction) ≠ 0 := by rw [fa.val]; exact_mod_cast pa.ne'
  have fa' : IsFinite (Api.dot (-r.direction) (-r.direction)) := finite_of_num na fa
  have pa' : 0 < real (Api.dot (-r.direction) (-r.direction)) := by rw [real_of_num fa' fa na]; exact pa
  have fh' : IsFinite (Api.dot (-r.direction) (r.origin - c : Vector2 S)) := finite_of_num nh (finite_neg.2 fh)
  have v0' : val (Api.dot (-r.direction) (-r.direction)) ≠ 0 := by rw [fa'.val]; exact_mod_cast pa'.ne'
  rcases rootRange_back (a := Api.dot r.direction r.direction) (k := Api.dot (r.origin - c : Vector2 S) (r.origin - c : Vector2 S) - ρ * ρ) nh fa pa fh with ⟨e1, e2⟩ | ⟨R, R1, e1, e2, n1, n2⟩ <;>
  rcases rootRange_congr (h := Api.dot (-r.direction) (r.origin - c : Vector2 S)) (k := Api.dot (r.origin - c : Vector2 S) (r.origin - c : Vector2 S) - ρ * ρ) na rfl rfl v0' with ⟨e3, e4⟩ | ⟨R2, R3, e3, e4, n3, n4⟩
  · exact .inl ⟨e1, e3⟩
  · rw [e2] at e4; cases e4
  · rw [e2] at e4; cases e4
  · rw [e2] at e4
    cases e4
    have nn := ordered_nn e3 fa' pa' fh'
    exact .inr ⟨R, R2, e1, e3, beq_of_num_nn nn.1 (n3.trans n1), beq_of_num_nn nn.2 (n4.trans n2)⟩
/-- **C119**: the sign of the radius plays no role. -/
theorem C119_radius2 (r : Ray2 S) (c : Point2 S) (ρ : S) (fa : IsFinite (Api.dot r.direction r.direction)) (pa : 0 < real (Api.dot r.direction r.direction))
    (fh : IsFinite (Api.dot r.direction (r.origin - c : Vector2 S))) :
    (r.ball c ρ = none ∧ r.ball c (-ρ) = none) ∨ ∃ R R', r.ball c ρ = some R ∧ r.ball c (-ρ) = some R' ∧
      (R'.start == R.start) = true ∧ (R'.stop == R.stop) = true := by
  have q : num (Api.dot (r.origin - c : Vector2 S) (r.origin - c : Vector2 S) - -ρ * -ρ) = num (Api.dot (r.origin - c : Vector2 S) (r.origin - c : Vector2 S) - ρ * ρ) :=
    num_sub_congr rfl ((same_neg_mul ρ (-ρ)).trans ((same_mul_neg ρ ρ).neg.trans (same_neg_neg _))).num
  have v0 : val (Api.dot r.direction r.direction) ≠ 0 := by rw [fa.val]; exact_mod_cast pa.ne'
  rcases rootRange_congr (a := Api.dot r.direction r.direction) (h := Api.dot r.direction (r.origin - c : Vector2 S)) rfl rfl q v0 with ⟨e1, e2⟩ | ⟨R, R', e1, e2, n1, n2⟩
  · exact .inl ⟨e2, e1⟩
  · have nn := ordered_nn e1 fa pa fh
    exact .inr ⟨R', R, e2, e1, beq_of_num_nn nn.1 n1, beq_of_num_nn nn.2 n2⟩
/-- **C119**: a larger disc around the same center is entered no later and left no earlier; in particular it is hit whenever the smaller one
is. -/
theorem C119_grow2 (r : Ray2 S) (c : Point2 S) (ρ ρ' : S) (fa : IsFinite (Api.dot r.direction r.direction)) (pa : 0 < real (Api.dot r.direction r.direction))
    (fh : IsFinite (Api.dot r.direction (r.origin - c : Vector2 S)))
    (fo : IsFinite (Api.dot (r.origin - c : Vector2 S) (r.origin - c : Vector2 S))) (h0 : (zero ≤? ρ) = true) (hρ : (ρ ≤? ρ') = true) (R : Range S) (e : r.ball c ρ = some R) :
    ∃ R', r.ball c ρ' = some R' ∧ (R'.start ≤? R.start) = true ∧ (R.stop ≤? R'.stop) = true := by
  obtain ⟨-, n1, v1⟩ := le_iff.1 h0
  obtain ⟨-, n2, v2⟩ := le_iff.1 hρ
  rw [val_zero] at v1
  have m1 : ¬ IsNaN (ρ * ρ) := fun c => n1 (isNaN_mul_self.1 c)
  have m2 : ¬ IsNaN (ρ' * ρ') := fun c => n2 (isNaN_mul_self.1 c)
  have lm := val_mul_mono v1 v1 v2 v2 m1 m2
  have k1 : ¬ IsNaN (Api.dot (r.origin - c : Vector2 S) (r.origin - c : Vector2 S) - ρ * ρ) := nan_fin_sub fo m1
  have k2 : ¬ IsNaN (Api.dot (r.origin - c : Vector2 S) (r.origin - c : Vector2 S) - ρ' * ρ') := nan_fin_sub fo m2
  exact rootRange_mono e fa pa fh k1 k2 (val_sub_mono le_rfl lm k2 k1)
end
section
variable {S : Type} [Scalar S] [IEEE S] [Binary S]
/-- **C119**: a ray starting inside (as far as the computed distance tells) always hits, with the start between entry and exit. -/
theorem C119_inside2 (r : Ray2 S) (c : Point2 S) (ρ : S) (fa : IsFinite (Api.dot r.direction r.direction)) (pa : 0 < real (Api.dot r.direction r.direction))
    (fh : IsFinite (Api.dot r.direction (r.origin - c : Vector2 S)))
    (hn : Normal S (real (Api.dot r.direction (r.origin - c : Vector2 S)) ^ 2)) (fo : IsFinite (Api.dot (r.origin - c : Vector2 S) (r.origin - c : Vector2 S))) (hi : (Api.dot (r.origin - c : Vector2 S) (r.origin - c : Vector2 S) ≤? ρ * ρ) = true) :
    ∃ R, r.ball c ρ = some R ∧ (R.start ≤? zero) = true ∧ (zero ≤? R.stop) = true := by
  obtain ⟨-, n2, v⟩ := le_iff.1 hi
  refine rootRange_inside fa pa fh hn (nan_fin_sub fo n2) ?_
  rw [← val_self_sub fo]
  exact val_sub_mono le_rfl v (nan_fin_sub fo n2) (nan_fin_sub fo fo.not_nan)
/-- **C119**: a ray starting outside and looking away has left the disc before its start; one looking towards it enters after its start. -/
theorem C119_outside2 (r : Ray2 S) (c : Point2 S) (ρ : S) (fa : IsFinite (Api.dot r.direction r.direction)) (pa : 0 < real (Api.dot r.direction r.direction))
    (fh : IsFinite (Api.dot r.direction (r.origin - c : Vector2 S)))
    (hn : Normal S (real (Api.dot r.direction (r.origin - c : Vector2 S)) ^ 2)) (ho : real (Api.dot r.direction (r.origin - c : Vector2 S)) ^ 2 < overflowAt S) (fo : IsFinite (Api.dot (r.origin - c : Vector2 S) (r.origin - c : Vector2 S)))
    (hi : (ρ * ρ ≤? Api.dot (r.origin - c : Vector2 S) (r.origin - c : Vector2 S)) = true) (R : Range S) (e : r.ball c ρ = some R) :
    ((zero ≤? Api.dot r.direction (r.origin - c : Vector2 S)) = true → (R.stop ≤? zero) = true) ∧ ((Api.dot r.direction (r.origin - c : Vector2 S) ≤? zero) = true → (zero ≤? R.start) = true) := by
  obtain ⟨n2, -, v⟩ := le_iff.1 hi
  have := rootRange_outside e fa pa fh hn ho (nan_fin_sub fo n2) (by
    rw [← val_self_sub fo]
    exact val_sub_mono le_rfl v (nan_fin_sub fo fo.not_nan) (nan_fin_sub fo n2))
  rw [ole_real finite_zero fh, ole_real fh finite_zero, real_zero]
  exact this
/-- **C119**: for whole numbers that are not too large nothing is lost: nothing is reported exactly when the real line misses the real disc. -/
theorem C119_whole2 {M N : ℕ} (r : Ray2 S) (c : Point2 S) (ρ : S) (hr : AllFinite r) (hc : AllFinite c) (hρ : IsFinite ρ) (h0 : r.direction.toReal ≠ 0)
    (gd : ∀ i, OnGrid 0 M (r.direction.toReal i)) (go : ∀ i, OnGrid 0 N (r.origin.toReal i)) (gc : ∀ i, OnGrid 0 N (c.toReal i)) (gρ : OnGrid 0 N (real ρ))
    (hM : 1 ≤ M) (hN : 1 ≤ N) (hF : Fits S 0 (34 * (M * N) ^ 2)) :
    r.ball c ρ = none ↔ ∀ t : ℝ, ¬ InBall r.direction.toReal r.origin.toReal c.toReal (real ρ) t := by
  have q1 : M ≤ M * N := Nat.le_mul_of_pos_right _ hN
  have q2 : N ≤ M * N := Nat.le_mul_of_pos_left _ hM
  have q3 : M * N ≤ (M * N) ^ 2 := by rw [pow_two]; exact Nat.le_mul_of_pos_left _ (by positivity)
  have q4 : M * M ≤ (M * N) ^ 2 := by rw [pow_two]; exact Nat.mul_le_mul q1 q1
  have q5 : N * N ≤ (M * N) ^ 2 := by rw [pow_two]; exact Nat.mul_le_mul q2 q2
  have h5 : (2 * N) * (2 * N) = 4 * (N * N) := by ring
  have h6 : M * (2 * N) = 2 * (M * N) := by ring
  rw [Ray2.allFinite, Point2.allFinite, Vector2.allFinite] at hr
  rw [Point2.allFinite] at hc
  have d0 := G.of hr.2.1 (gd 0)
  have o0 := (G.of hr.1.1 (go 0)).sub (G.of hc.1 (gc 0)) (hF.mono (by omega))
  have o0' := o0.mono (show N + N ≤ 2 * N by omega)
  have d1 := G.of hr.2.2 (gd 1)
  have o1 := (G.of hr.1.2 (go 1)).sub (G.of hc.2 (gc 1)) (hF.mono (by omega))
  have o1' := o1.mono (show N + N ≤ 2 * N by omega)
  have ga := (G.dot2 d0 d1 d0 d1 (Fits.twice0 (hF.mono (by omega)))).exp (show (0 : ℤ) + 0 = 0 by norm_num)
  have gh := (G.dot2 d0 d1 o0' o1' (Fits.twice0 (hF.mono (by omega)))).exp (show (0 : ℤ) + 0 = 0 by norm_num)
  have goo := (G.dot2 o0' o1' o0' o1' (Fits.twice0 (hF.mono (by omega)))).exp (show (0 : ℤ) + 0 = 0 by norm_num)
  have gr := (G.of hρ gρ)
  have gρρ := (gr.mul gr (Fits.twice0 (hF.mono (by omega)))).exp (show (0 : ℤ) + 0 = 0 by norm_num)
  have gk := goo.sub gρρ (hF.mono (by omega))
  have main := rootRange_exact ga gh gk (hF.mono (le_of_eq (by ring)))
  have hD : 0 < r.direction.toReal ⬝ᵥ r.direction.toReal := lt_of_le_of_ne (by rw [dotProduct]; exact Finset.sum_nonneg (fun i _ => mul_self_nonneg _))
    (fun H => h0 (dotProduct_self_eq_zero.1 H.symm))
  have eD : r.direction.toReal ⬝ᵥ r.direction.toReal = real r.direction.x * real r.direction.x + real r.direction.y * real r.direction.y := by
    simp [dotProduct, Fin.sum_univ_succ, Vector2.toReal]; try ring
  rw [eD] at hD
  refine main.trans ((no_root_iff hD).symm.trans (forall_congr' fun t => not_congr ?_))
  unfold InBall
  rw [Fin.sum_univ_two]
  simp only [Vector2.toReal, Point2.toReal, Matrix.cons_val_zero, Matrix.cons_val_one, Matrix.cons_val]
  constructor <;> intro H <;> nlinarith
end

/-! ## Dimension 3 -/
section
variable {S : Type} [Scalar S] [IEEE S]
theorem Ray3.ball_def (r : Ray3 S) (c : Point3 S) (ρ : S) : r.ball c ρ = rootRange (Api.dot r.direction r.direction) (Api.dot r.direction (r.origin - c : Vector3 S)) (Api.dot (r.origin - c : Vector3 S) (r.origin - c : Vector3 S) - ρ * ρ) := rfl
/-- **C119**: entry and exit are reported in this order. -/
theorem C119_ordered3 (r : Ray3 S) (c : Point3 S) (ρ : S) (R : Range S) (e : r.ball c ρ = some R) (fa : IsFinite (Api.dot r.direction r.direction)) (pa : 0 < real (Api.dot r.direction r.direction))
    (fh : IsFinite (Api.dot r.direction (r.origin - c : Vector3 S))) :
    (R.start ≤? R.stop) = true := rootRange_ordered e fa pa fh
/-- **C119**: the ray looking backwards finds the same ball, with opposite parameters. -/
theorem C119_back3 (r : Ray3 S) (c : Point3 S) (ρ : S) (fa : IsFinite (Api.dot r.direction r.direction)) (pa : 0 < real (Api.dot r.direction r.direction))
    (fh : IsFinite (Api.dot r.direction (r.origin - c : Vector3 S))) :
    (r.ball c ρ = none ∧ r.back.ball c ρ = none) ∨ ∃ R R', r.ball c ρ = some R ∧ r.back.ball c ρ = some R' ∧
      (R'.start == -R.stop) = true ∧ (R'.stop == -R.start) = true := by
  show (_ ∧ rootRange (Api.dot (-r.direction) (-r.direction)) (Api.dot (-r.direction) (r.origin - c : Vector3 S)) (Api.dot (r.origin - c : Vector3 S) (r.origin - c : Vector3 S) - ρ * ρ) = none) ∨ ∃ R R', _ ∧
    rootRange (Api.dot (-r.direction) (-r.direction)) (Api.dot (-r.direction) (r.origin - c : Vector3 S)) (Api.dot (r.origin - c : Vector3 S) (r.origin - c : Vector3 S) - ρ * ρ) = some R' ∧ _
  have na : num (Api.dot (-r.direction) (-r.direction)) = num (Api.dot r.direction r.direction) := 
    (Vector3.num_dot_neg_left _ _).trans ((num_neg_congr (Vector3.num_dot_neg_right _ _)).trans (same_neg_neg _).num)
  have nh : num (Api.dot (-r.direction) (r.origin - c : Vector3 S)) = num (-Api.dot r.direction (r.origin - c : Vector3 S)) := Vector3.num_dot_neg_left _ _
  have v0 : val (Api.dot r.direction r.direction) ≠ 0 := by rw [fa.val]; exact_mod_cast pa.ne'
  have fa' : IsFinite (Api.dot (-r.direction) (-r.direction)) := finite_of_num na fa
  have pa' : 0 < real (Api.dot (-r.direction) (-r.direction)) := by rw [real_of_num fa' fa na]; exact pa
  have fh' : IsFinite (Api.dot (-r.direction) (r.origin - c : Vector3 S)) := finite_of_num nh (finite_neg.2 fh)
  have v0' : val (Api.dot (-r.direction) (-r.direction)) ≠ 0 := by rw [fa'.val]; exact_mod_cast pa'.ne'
  rcases rootRange_back (a := Api.dot r.direction r.direction) (k := Api.dot (r.origin - c : Vector3 S) (r.origin - c : Vector3 S) - ρ * ρ) nh fa pa fh with ⟨e1, e2⟩ | ⟨R, R1, e1, e2, n1, n2⟩ <;>
  rcases rootRange_congr (h := Api.dot (-r.direction) (r.origin - c : Vector3 S)) (k := Api.dot (r.origin - c : Vector3 S) (r.origin - c : Vector3 S) - ρ * ρ) na rfl rfl v0' with ⟨e3, e4⟩ | ⟨R2, R3, e3, e4, n3, n4⟩
  · exact .inl ⟨e1, e3⟩
  · rw [e2] at e4; cases e4
  · rw [e2] at e4; cases e4
  · rw [e2] at e4
    cases e4
    have nn := ordered_nn e3 fa' pa' fh'
    exact .inr ⟨R, R2, e1, e3, beq_of_num_nn nn.1 (n3.trans n1), beq_of_num_nn nn.2 (n4.trans n2)⟩
/-- **C119**: the sign of the radius plays no role. -/
theorem C119_radius3 (r : Ray3 S) (c : Point3 S) (ρ : S) (fa : IsFinite (Api.dot r.direction r.direction)) (pa : 0 < real (Api.dot r.direction r.direction))
    (fh : IsFinite (Api.dot r.direction (r.origin - c : Vector3 S))) :
    (r.ball c ρ = none ∧ r.ball c (-ρ) = none) ∨ ∃ R R', r.ball c ρ = some R ∧ r.ball c (-ρ) = some R' ∧
      (R'.start == R.start) = true ∧ (R'.stop == R.stop) = true := by
  have q : num (Api.dot (r.origin - c : Vector3 S) (r.origin - c : Vector3 S) - -ρ * -ρ) = num (Api.dot (r.origin - c : Vector3 S) (r.origin - c : Vector3 S) - ρ * ρ) :=
    num_sub_congr rfl ((same_neg_mul ρ (-ρ)).trans ((same_mul_neg ρ ρ).neg.trans (same_neg_neg _))).num
  have v0 : val (Api.dot r.direction r.direction) ≠ 0 := by rw [fa.val]; exact_mod_cast pa.ne'
  rcases rootRange_congr (a := Api.dot r.direction r.direction) (h := Api.dot r.direction (r.origin - c : Vector3 S)) rfl rfl q v0 with ⟨e1, e2⟩ | ⟨R, R', e1, e2, n1, n2⟩
  · exact .inl ⟨e2, e1⟩
  · have nn := ordered_nn e1 fa pa fh
    exact .inr ⟨R', R, e2, e1, beq_of_num_nn nn.1 n1, beq_of_num_nn nn.2 n2⟩
/-- **C119**: a larger ball around the same center is entered no later and left no earlier; in particular it is hit whenever the smaller one
is. -/
theorem C119_grow3 (r : Ray3 S) (c : Point3 S) (ρ ρ' : S) (fa : IsFinite (Api.dot r.direction r.direction)) (pa : 0 < real (Api.dot r.direction r.direction))
    (fh : IsFinite (Api.dot r.direction (r.origin - c : Vector3 S)))
    (fo : IsFinite (Api.dot (r.origin - c : Vector3 S) (r.origin - c : Vector3 S))) (h0 : (zero ≤? ρ) = true) (hρ : (ρ ≤? ρ') = true) (R : Range S) (e : r.ball c ρ = some R) :
    ∃ R', r.ball c ρ' = some R' ∧ (R'.start ≤? R.start) = true ∧ (R.stop ≤? R'.stop) = true := by
  obtain ⟨-, n1, v1⟩ := le_iff.1 h0
  obtain ⟨-, n2, v2⟩ := le_iff.1 hρ
  rw [val_zero] at v1
  have m1 : ¬ IsNaN (ρ * ρ) := fun c => n1 (isNaN_mul_self.1 c)
  have m2 : ¬ IsNaN (ρ' * ρ') := fun c => n2 (isNaN_mul_self.1 c)
  have lm := val_mul_mono v1 v1 v2 v2 m1 m2
  have k1 : ¬ IsNaN (Api.dot (r.origin - c : Vector3 S) (r.origin - c : Vector3 S) - ρ * ρ) := nan_fin_sub fo m1
  have k2 : ¬ IsNaN (Api.dot (r.origin - c : Vector3 S) (r.origin - c : Vector3 S) - ρ' * ρ') := nan_fin_sub fo m2
  exact rootRange_mono e fa pa fh k1 k2 (val_sub_mono le_rfl lm k2 k1)
end
section
variable {S : Type} [Scalar S] [IEEE S] [Binary S]
/-- **C119**: a ray starting inside (as far as the computed distance tells) always hits, with the start between entry and exit. -/
theorem C119_inside3 (r : Ray3 S) (c : Point3 S) (ρ : S) (fa : IsFinite (Api.dot r.direction r.direction)) (pa : 0 < real (Api.dot r.direction r.direction))
    (fh : IsFinite (Api.dot r.direction (r.origin - c : Vector3 S)))
    (hn : Normal S (real (Api.dot r.direction (r.origin - c : Vector3 S)) ^ 2)) (fo : IsFinite (Api.dot (r.origin - c : Vector3 S) (r.origin - c : Vector3 S))) (hi : (Api.dot (r.origin - c : Vector3 S) (r.origin - c : Vector3 S) ≤? ρ * ρ) = true) :
    ∃ R, r.ball c ρ = some R ∧ (R.start ≤? zero) = true ∧ (zero ≤? R.stop) = true := by
  obtain ⟨-, n2, v⟩ := le_iff.1 hi
  refine rootRange_inside fa pa fh hn (nan_fin_sub fo n2) ?_
  rw [← val_self_sub fo]
  exact val_sub_mono le_rfl v (nan_fin_sub fo n2) (nan_fin_sub fo fo.not_nan)
/-- **C119**: a ray starting outside and looking away has left the ball before its start; one looking towards it enters after its start. -/
theorem C119_outside3 (r : Ray3 S) (c : Point3 S) (ρ : S) (fa : IsFinite (Api.dot r.direction r.direction)) (pa : 0 < real (Api.dot r.direction r.direction))
    (fh : IsFinite (Api.dot r.direction (r.origin - c : Vector3 S)))
    (hn : Normal S (real (Api.dot r.direction (r.origin - c : Vector3 S)) ^ 2)) (ho : real (Api.dot r.direction (r.origin - c : Vector3 S)) ^ 2 < overflowAt S) (fo : IsFinite (Api.dot (r.origin - c : Vector3 S) (r.origin - c : Vector3 S)))
    (hi : (ρ * ρ ≤? Api.dot (r.origin - c : Vector3 S) (r.origin - c : Vector3 S)) = true) (R : Range S) (e : r.ball c ρ = some R) :
    ((zero ≤? Api.dot r.direction (r.origin - c : Vector3 S)) = true → (R.stop ≤? zero) = true) ∧ ((Api.dot r.direction (r.origin - c : Vector3 S) ≤? zero) = true → (zero ≤? R.start) = true) := by
  obtain ⟨n2, -, v⟩ := le_iff.1 hi
  have := rootRange_outside e fa pa fh hn ho (nan_fin_sub fo n2) (by
    rw [← val_self_sub fo]
    exact val_sub_mono le_rfl v (nan_fin_sub fo fo.not_nan) (nan_fin_sub fo n2))
  rw [ole_real finite_zero fh, ole_real fh finite_zero, real_zero]
  exact this
/-- **C119**: for whole numbers that are not too large nothing is lost: nothing is reported exactly when the real line misses the real ball. -/
theorem C119_whole3 {M N : ℕ} (r : Ray3 S) (c : Point3 S) (ρ : S) (hr : AllFinite r) (hc : AllFinite c) (hρ : IsFinite ρ) (h0 : r.direction.toReal ≠ 0)
    (gd : ∀ i, OnGrid 0 M (r.direction.toReal i)) (go : ∀ i, OnGrid 0 N (r.origin.toReal i)) (gc : ∀ i, OnGrid 0 N (c.toReal i)) (gρ : OnGrid 0 N (real ρ))
    (hM : 1 ≤ M) (hN : 1 ≤ N) (hF : Fits S 0 (75 * (M * N) ^ 2)) :
    r.ball c ρ = none ↔ ∀ t : ℝ, ¬ InBall r.direction.toReal r.origin.toReal c.toReal (real ρ) t := by
  have q1 : M ≤ M * N := Nat.le_mul_of_pos_right _ hN
  have q2 : N ≤ M * N := Nat.le_mul_of_pos_left _ hM
  have q3 : M * N ≤ (M * N) ^ 2 := by rw [pow_two]; exact Nat.le_mul_of_pos_left _ (by positivity)
  have q4 : M * M ≤ (M * N) ^ 2 := by rw [pow_two]; exact Nat.mul_le_mul q1 q1
  have q5 : N * N ≤ (M * N) ^ 2 := by rw [pow_two]; exact Nat.mul_le_mul q2 q2
  have h5 : (2 * N) * (2 * N) = 4 * (N * N) := by ring
  have h6 : M * (2 * N) = 2 * (M * N) := by ring
  rw [Ray3.allFinite, Point3.allFinite, Vector3.allFinite] at hr
  rw [Point3.allFinite] at hc
  have d0 := G.of hr.2.1 (gd 0)
  have o0 := (G.of hr.1.1 (go 0)).sub (G.of hc.1 (gc 0)) (hF.mono (by omega))
  have o0' := o0.mono (show N + N ≤ 2 * N by omega)
  have d1 := G.of hr.2.2.1 (gd 1)
  have o1 := (G.of hr.1.2.1 (go 1)).sub (G.of hc.2.1 (gc 1)) (hF.mono (by omega))
  have o1' := o1.mono (show N + N ≤ 2 * N by omega)
  have d2 := G.of hr.2.2.2 (gd 2)
  have o2 := (G.of hr.1.2.2 (go 2)).sub (G.of hc.2.2 (gc 2)) (hF.mono (by omega))
  have o2' := o2.mono (show N + N ≤ 2 * N by omega)
  have ga := (G.dot3 d0 d1 d2 d0 d1 d2 (Fits.twice0 (hF.mono (by omega)))).exp (show (0 : ℤ) + 0 = 0 by norm_num)
  have gh := (G.dot3 d0 d1 d2 o0' o1' o2' (Fits.twice0 (hF.mono (by omega)))).exp (show (0 : ℤ) + 0 = 0 by norm_num)
  have goo := (G.dot3 o0' o1' o2' o0' o1' o2' (Fits.twice0 (hF.mono (by omega)))).exp (show (0 : ℤ) + 0 = 0 by norm_num)
  have gr := (G.of hρ gρ)
  have gρρ := (gr.mul gr (Fits.twice0 (hF.mono (by omega)))).exp (show (0 : ℤ) + 0 = 0 by norm_num)
  have gk := goo.sub gρρ (hF.mono (by omega))
  have main := rootRange_exact ga gh gk (hF.mono (le_of_eq (by ring)))
  have hD : 0 < r.direction.toReal ⬝ᵥ r.direction.toReal := lt_of_le_of_ne (by rw [dotProduct]; exact Finset.sum_nonneg (fun i _ => mul_self_nonneg _))
    (fun H => h0 (dotProduct_self_eq_zero.1 H.symm))
  have eD : r.direction.toReal ⬝ᵥ r.direction.toReal = real r.direction.x * real r.direction.x + real r.direction.y * real r.direction.y + real r.direction.z * real r.direction.z := by
    simp [dotProduct, Fin.sum_univ_succ, Vector3.toReal]; try ring
  rw [eD] at hD
  refine main.trans ((no_root_iff hD).symm.trans (forall_congr' fun t => not_congr ?_))
  unfold InBall
  rw [Fin.sum_univ_three]
  simp only [Vector3.toReal, Point3.toReal, Matrix.cons_val_zero, Matrix.cons_val_one, Matrix.cons_val]
  constructor <;> intro H <;> nlinarith
end

end VecMath
