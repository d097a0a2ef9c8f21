import Verif.Props.FloatBall
import Verif.Props.FloatSideEx
import Verif.Props.FloatPlaneEx
import Verif.Props.FloatInvAffineEx
import Verif.Props.FloatChain2Ex
/-! # C119: the hypotheses are met; the misses

(Generated by tools/gen.) -/

namespace VecMath
open Scalar IEEE

theorem ex_int {x : F32} {a b : ℤ} (h : Exactly x (a : ℝ)) (e : a = b) : Exactly x (b : ℝ) := e ▸ h
theorem exi {n : ℤ} (h : |n| ≤ 16777216 := by norm_num) : Exactly (int32 n h) (n : ℝ) := exactly_int
theorem big32' {x : ℝ} (h : |x| ≤ 2 ^ 50) : |x| < overflowAt F32 := by
  refine lt_of_le_of_lt h ((?_ : (2 : ℝ) ^ 50 ≤ _).trans_lt (half_le_overflow (S := F32)))
  show (2 : ℝ) ^ 50 ≤ 2 ^ ((128 : ℤ) - 1)
  norm_num
/-- A difference that is a short integer times a power of two is exact. -/
theorem wide_sub {x y : F32} {a b m : ℤ} {e : ℕ} (hx : Exactly x (a : ℝ)) (hy : Exactly y (b : ℝ)) (h : a - b = m * 2 ^ e) (hm : |m| ≤ 16777216)
    (hb : |((a : ℝ) - (b : ℝ))| ≤ 2 ^ 50) : Exactly (x - y) ((a - b : ℤ) : ℝ) := by
  have c := correct_sub hx.1 hy.1
  rw [hx.2, hy.2] at c
  have c' := c.exact ⟨⟨m, e, (show (-149 : ℤ) ≤ (e : ℤ) by omega), (show |m| ≤ 2 ^ 24 by omega), by
    rw [← Int.cast_sub, h]; push_cast; rw [zpow_natCast]⟩, (show |((a : ℝ) - (b : ℝ))| < 2 ^ (128 : ℤ) by
      refine lt_of_le_of_lt hb ?_
      norm_num)⟩ (big32' hb)
  rw [Int.cast_sub]; exact c'
theorem sq_normal {x : F32} {a : ℤ} (h : Exactly x (a : ℝ)) : Normal F32 (real x ^ 2) := by
  rw [h.2, ← Int.cast_pow]; exact normal_int _

/-! ### Dimension 2: from outside towards the disc, hitting it; from inside -/
noncomputable def aim2 : Ray2 F32 := ⟨pt2 (-6) (-8), ⟨int32 3, int32 4⟩⟩
noncomputable def from2 : Ray2 F32 := ⟨pt2 1 2, ⟨int32 3, int32 4⟩⟩
noncomputable def mid2 : Point2 F32 := pt2 0 0
theorem aim2_fin : AllFinite aim2 := Ray2.allFinite.2 ⟨Point2.allFinite.2 ⟨trivial, trivial⟩, Vector2.allFinite.2 ⟨trivial, trivial⟩⟩
theorem aim2_a : Exactly (Api.dot aim2.direction aim2.direction) ((25 : ℤ) : ℝ) :=
  ex_int (int_add32' (int_mul32 exi exi (by norm_num)) (int_mul32 exi exi (by norm_num)) (by norm_num)) (by norm_num)
theorem aim2_h : Exactly (Api.dot aim2.direction (aim2.origin - mid2 : Vector2 F32)) ((-50 : ℤ) : ℝ) :=
  ex_int (int_add32' (int_mul32 exi (int_sub32' exi exi (by norm_num)) (by norm_num)) (int_mul32 exi (int_sub32' exi exi (by norm_num)) (by norm_num)) (by norm_num)) (by norm_num)
theorem aim2_o : Exactly (Api.dot (aim2.origin - mid2 : Vector2 F32) (aim2.origin - mid2 : Vector2 F32)) ((100 : ℤ) : ℝ) :=
  ex_int (int_add32' (int_mul32 (int_sub32' exi exi (by norm_num)) (int_sub32' exi exi (by norm_num)) (by norm_num)) (int_mul32 (int_sub32' exi exi (by norm_num)) (int_sub32' exi exi (by norm_num)) (by norm_num)) (by norm_num)) (by norm_num)
theorem aim2_pos : 0 < real (Api.dot aim2.direction aim2.direction) := by rw [aim2_a.2]; norm_num
theorem from2_fin : AllFinite from2 := Ray2.allFinite.2 ⟨Point2.allFinite.2 ⟨trivial, trivial⟩, Vector2.allFinite.2 ⟨trivial, trivial⟩⟩
theorem from2_a : Exactly (Api.dot from2.direction from2.direction) ((25 : ℤ) : ℝ) :=
  ex_int (int_add32' (int_mul32 exi exi (by norm_num)) (int_mul32 exi exi (by norm_num)) (by norm_num)) (by norm_num)
theorem from2_h : Exactly (Api.dot from2.direction (from2.origin - mid2 : Vector2 F32)) ((11 : ℤ) : ℝ) :=
  ex_int (int_add32' (int_mul32 exi (int_sub32' exi exi (by norm_num)) (by norm_num)) (int_mul32 exi (int_sub32' exi exi (by norm_num)) (by norm_num)) (by norm_num)) (by norm_num)
theorem from2_o : Exactly (Api.dot (from2.origin - mid2 : Vector2 F32) (from2.origin - mid2 : Vector2 F32)) ((5 : ℤ) : ℝ) :=
  ex_int (int_add32' (int_mul32 (int_sub32' exi exi (by norm_num)) (int_sub32' exi exi (by norm_num)) (by norm_num)) (int_mul32 (int_sub32' exi exi (by norm_num)) (int_sub32' exi exi (by norm_num)) (by norm_num)) (by norm_num)) (by norm_num)
theorem from2_pos : 0 < real (Api.dot from2.direction from2.direction) := by rw [from2_a.2]; norm_num
theorem aim2_hit : ∃ R, aim2.ball mid2 (int32 5) = some R := by
  have r : Exactly ((int32 5 : F32) * int32 5) ((25 : ℤ) : ℝ) := ex_int (int_mul32 exi exi (by norm_num)) (by norm_num)
  have k := ex_int (int_sub32' aim2_o r (by norm_num)) (show _ = (75 : ℤ) by norm_num)
  have d := ex_int (int_sub32' (int_mul32 aim2_h aim2_h (by norm_num)) (int_mul32 aim2_a k (by norm_num)) (by norm_num)) (show _ = (625 : ℤ) by norm_num)
  exact ⟨_, rootRange_of (le_exact int_zero32 d (by norm_num))⟩
example : ∃ R, aim2.ball mid2 (int32 5) = some R ∧ (R.start ≤? R.stop) = true := by
  obtain ⟨R, e⟩ := aim2_hit
  exact ⟨R, e, C119_ordered2 _ _ _ R e aim2_a.1 aim2_pos aim2_h.1⟩
example : ∃ R', aim2.back.ball mid2 (int32 5) = some R' := by
  obtain ⟨R, e⟩ := aim2_hit
  rcases C119_back2 aim2 mid2 (int32 5) aim2_a.1 aim2_pos aim2_h.1 with ⟨h, -⟩ | ⟨R, R', -, h, -⟩
  · rw [e] at h; cases h
  · exact ⟨R', h⟩
example : ∃ R', aim2.ball mid2 (-int32 5) = some R' := by
  obtain ⟨R, e⟩ := aim2_hit
  rcases C119_radius2 aim2 mid2 (int32 5) aim2_a.1 aim2_pos aim2_h.1 with ⟨h, -⟩ | ⟨R, R', -, h, -⟩
  · rw [e] at h; cases h
  · exact ⟨R', h⟩
example : ∃ R', aim2.ball mid2 (int32 7) = some R' := by
  obtain ⟨R, e⟩ := aim2_hit
  obtain ⟨R', h, -⟩ := C119_grow2 aim2 mid2 (int32 5) (int32 7) aim2_a.1 aim2_pos aim2_h.1 aim2_o.1
    (le_exact int_zero32 exi (by norm_num)) (le_exact exi exi (by norm_num)) R e
  exact ⟨R', h⟩
example : ∃ R, from2.ball mid2 (int32 5) = some R ∧ (R.start ≤? zero) = true ∧ (zero ≤? R.stop) = true :=
  C119_inside2 _ _ _ from2_a.1 from2_pos from2_h.1 (sq_normal from2_h) from2_o.1
    (le_exact from2_o (int_mul32 exi exi (by norm_num)) (by norm_num))
example : ∃ R, aim2.ball mid2 (int32 5) = some R ∧ (zero ≤? R.start) = true := by
  obtain ⟨R, e⟩ := aim2_hit
  exact ⟨R, e, (C119_outside2 _ _ _ aim2_a.1 aim2_pos aim2_h.1 (sq_normal aim2_h)
    (by rw [aim2_h.2]; exact lt_of_abs_lt (big32 (by norm_num))) aim2_o.1
    (le_exact (int_mul32 exi exi (by norm_num)) aim2_o (by norm_num)) R e).2 (le_exact aim2_h int_zero32 (by norm_num))⟩
example : aim2.ball mid2 (int32 5) = none ↔ ∀ t : ℝ, ¬ InBall aim2.direction.toReal aim2.origin.toReal mid2.toReal (real (int32 5)) t := by
  refine C119_whole2 (M := 4) (N := 8) aim2 mid2 (int32 5) aim2_fin (Point2.allFinite.2 ⟨trivial, trivial⟩) trivial ?_ ?_ ?_ ?_ ?_ (by norm_num) (by norm_num)
    (fits_f32 (by norm_num))
  · intro h
    have := congrFun h 0
    change real (int32 3) = 0 at this
    rw [real_int32] at this
    norm_num at this
  · intro i
    fin_cases i <;> exact (OnGrid.int (by norm_num)).congr (exi).2.symm
  · exact fun i => grid_pt2 (by norm_num) (by norm_num) i
  · exact fun i => grid_pt2 (by norm_num) (by norm_num) i
  · exact (OnGrid.int (by norm_num)).congr real_int32.symm

/-! Without rounding -/
noncomputable def aimI2 : Ray2 Ideal := ⟨⟨Ideal.of (-6), Ideal.of (-8)⟩, ⟨Ideal.of 3, Ideal.of 4⟩⟩
noncomputable def midI2 : Point2 Ideal := ⟨Ideal.of 0, Ideal.of 0⟩
theorem aimI2_fin : AllFinite aimI2 := Ray2.allFinite.2 ⟨Point2.allFinite.2 ⟨Ideal.finite_of _, Ideal.finite_of _⟩, Vector2.allFinite.2 ⟨Ideal.finite_of _, Ideal.finite_of _⟩⟩
theorem midI2_fin : AllFinite midI2 := Point2.allFinite.2 ⟨Ideal.finite_of _, Ideal.finite_of _⟩
theorem aimI2_dir : (aimI2.direction == Vector2.zero) = false := by
  rw [Bool.eq_false_iff]
  intro h
  rw [Vector2.beq_toReal (Ray2.allFinite.1 aimI2_fin).2 Vector2.fin_zero] at h
  have := congrFun h 0
  change real (Ideal.of 3) = real (zero : Ideal) at this
  rw [Ideal.real_of, real_zero] at this
  norm_num at this
theorem aimI2_nn : (zero ≤? Ideal.of 5) = true := by rw [Ideal.le_real finite_zero (Ideal.finite_of _), real_zero, Ideal.real_of]; norm_num
theorem aimI2_hit : ∃ R, aimI2.ball midI2 (Ideal.of 5) = some R ∧ real R.stop = 3 := by
  obtain ⟨fa, fh, fk, pa, ea, eh, ek⟩ := Ray2.ball_coeff aimI2_fin midI2_fin (Ideal.finite_of 5) aimI2_dir
  have va : aimI2.direction.toReal ⬝ᵥ aimI2.direction.toReal = 25 := by
    simp [aimI2, Vector2.toReal, dotProduct, Fin.sum_univ_succ]; norm_num
  have vh : aimI2.direction.toReal ⬝ᵥ (aimI2.origin.toReal - midI2.toReal) = -50 := by
    simp [aimI2, midI2, Vector2.toReal, Point2.toReal, dotProduct, Fin.sum_univ_succ]; norm_num
  have vo : (aimI2.origin.toReal - midI2.toReal) ⬝ᵥ (aimI2.origin.toReal - midI2.toReal) = 100 := by
    simp [aimI2, midI2, Point2.toReal, dotProduct, Fin.sum_univ_succ]; norm_num
  rw [va] at ea
  rw [vh] at eh
  rw [vo, Ideal.real_of] at ek
  rcases rootRange_ideal fa fh fk pa with ⟨-, R, e, -, -, -, v⟩ | ⟨d, -⟩
  · refine ⟨R, e, ?_⟩
    rw [v, ea, eh, ek, show (-50 : ℝ) * -50 - 25 * (100 - 5 * 5) = 25 ^ 2 by norm_num, Real.sqrt_sq (by norm_num)]
    norm_num
  · rw [ea, eh, ek] at d
    norm_num at d
example : ∃ R : Range Ideal, ∀ t : Ideal, IsFinite t →
    ((Api.distance midI2 (aimI2.at t) ≤? Ideal.of 5) = true ↔ (R.start ≤? t) = true ∧ (t ≤? R.stop) = true) := by
  obtain ⟨R, e, -⟩ := aimI2_hit
  exact ⟨R, ((C119_exact2 _ _ _ aimI2_fin midI2_fin (Ideal.finite_of 5) aimI2_dir aimI2_nn).1 R e).2.2⟩
example : ∃ R, aimI2.ball midI2 (Ideal.of 5) = some R ∧ (Api.distance midI2 (aimI2.at R.start) == Ideal.of 5) = true := by
  obtain ⟨R, e, -⟩ := aimI2_hit
  exact ⟨R, e, (C119_on2 _ _ _ aimI2_fin midI2_fin (Ideal.finite_of 5) aimI2_dir aimI2_nn R e).1⟩
example : ∃ B : Range Ideal, Api.intersect (midI2.boxAround (Ideal.of 5)) aimI2 = some B := by
  obtain ⟨R, e, v⟩ := aimI2_hit
  have f := ((C119_exact2 _ _ _ aimI2_fin midI2_fin (Ideal.finite_of 5) aimI2_dir aimI2_nn).1 R e).2.1
  obtain ⟨B, h, -⟩ := C119_box_hit2 _ _ _ aimI2_fin midI2_fin (Ideal.finite_of 5) aimI2_dir aimI2_nn (by
    intro i h
    fin_cases i
    all_goals
      simp [aimI2, Vector2.toReal] at h) R e ((Ideal.le_real finite_zero f).2 (by rw [real_zero, v]; norm_num))
  exact ⟨B, h⟩
example (t : Transform2 Ideal) (h : Motion2 t) : ∃ R', (Transform.transform t aimI2 : Ray2 Ideal).ball (Transform.transform t midI2 : Point2 Ideal) (Ideal.of 5) = some R' := by
  obtain ⟨R, e, -⟩ := aimI2_hit
  rcases C119_motion2 t h _ _ _ aimI2_fin midI2_fin (Ideal.finite_of 5) aimI2_dir with ⟨h, -⟩ | ⟨-, R', -, h, -⟩
  · rw [e] at h; cases h
  · exact ⟨R', h⟩

/-! ### Dimension 3: from outside towards the ball, hitting it; from inside -/
noncomputable def aim3 : Ray3 F32 := ⟨pt3 (-3) (-6) (-6), ⟨int32 1, int32 2, int32 2⟩⟩
noncomputable def from3 : Ray3 F32 := ⟨pt3 1 1 1, ⟨int32 1, int32 2, int32 2⟩⟩
noncomputable def mid3 : Point3 F32 := pt3 0 0 0
theorem aim3_fin : AllFinite aim3 := Ray3.allFinite.2 ⟨Point3.allFinite.2 ⟨trivial, trivial, trivial⟩, Vector3.allFinite.2 ⟨trivial, trivial, trivial⟩⟩
theorem aim3_a : Exactly (Api.dot aim3.direction aim3.direction) ((9 : ℤ) : ℝ) :=
  ex_int (int_add32' (int_add32' (int_mul32 exi exi (by norm_num)) (int_mul32 exi exi (by norm_num)) (by norm_num)) (int_mul32 exi exi (by norm_num)) (by norm_num)) (by norm_num)
theorem aim3_h : Exactly (Api.dot aim3.direction (aim3.origin - mid3 : Vector3 F32)) ((-27 : ℤ) : ℝ) :=
  ex_int (int_add32' (int_add32' (int_mul32 exi (int_sub32' exi exi (by norm_num)) (by norm_num)) (int_mul32 exi (int_sub32' exi exi (by norm_num)) (by norm_num)) (by norm_num)) (int_mul32 exi (int_sub32' exi exi (by norm_num)) (by norm_num)) (by norm_num)) (by norm_num)
theorem aim3_o : Exactly (Api.dot (aim3.origin - mid3 : Vector3 F32) (aim3.origin - mid3 : Vector3 F32)) ((81 : ℤ) : ℝ) :=
  ex_int (int_add32' (int_add32' (int_mul32 (int_sub32' exi exi (by norm_num)) (int_sub32' exi exi (by norm_num)) (by norm_num)) (int_mul32 (int_sub32' exi exi (by norm_num)) (int_sub32' exi exi (by norm_num)) (by norm_num)) (by norm_num)) (int_mul32 (int_sub32' exi exi (by norm_num)) (int_sub32' exi exi (by norm_num)) (by norm_num)) (by norm_num)) (by norm_num)
theorem aim3_pos : 0 < real (Api.dot aim3.direction aim3.direction) := by rw [aim3_a.2]; norm_num
theorem from3_fin : AllFinite from3 := Ray3.allFinite.2 ⟨Point3.allFinite.2 ⟨trivial, trivial, trivial⟩, Vector3.allFinite.2 ⟨trivial, trivial, trivial⟩⟩
theorem from3_a : Exactly (Api.dot from3.direction from3.direction) ((9 : ℤ) : ℝ) :=
  ex_int (int_add32' (int_add32' (int_mul32 exi exi (by norm_num)) (int_mul32 exi exi (by norm_num)) (by norm_num)) (int_mul32 exi exi (by norm_num)) (by norm_num)) (by norm_num)
theorem from3_h : Exactly (Api.dot from3.direction (from3.origin - mid3 : Vector3 F32)) ((5 : ℤ) : ℝ) :=
  ex_int (int_add32' (int_add32' (int_mul32 exi (int_sub32' exi exi (by norm_num)) (by norm_num)) (int_mul32 exi (int_sub32' exi exi (by norm_num)) (by norm_num)) (by norm_num)) (int_mul32 exi (int_sub32' exi exi (by norm_num)) (by norm_num)) (by norm_num)) (by norm_num)
theorem from3_o : Exactly (Api.dot (from3.origin - mid3 : Vector3 F32) (from3.origin - mid3 : Vector3 F32)) ((3 : ℤ) : ℝ) :=
  ex_int (int_add32' (int_add32' (int_mul32 (int_sub32' exi exi (by norm_num)) (int_sub32' exi exi (by norm_num)) (by norm_num)) (int_mul32 (int_sub32' exi exi (by norm_num)) (int_sub32' exi exi (by norm_num)) (by norm_num)) (by norm_num)) (int_mul32 (int_sub32' exi exi (by norm_num)) (int_sub32' exi exi (by norm_num)) (by norm_num)) (by norm_num)) (by norm_num)
theorem from3_pos : 0 < real (Api.dot from3.direction from3.direction) := by rw [from3_a.2]; norm_num
theorem aim3_hit : ∃ R, aim3.ball mid3 (int32 3) = some R := by
  have r : Exactly ((int32 3 : F32) * int32 3) ((9 : ℤ) : ℝ) := ex_int (int_mul32 exi exi (by norm_num)) (by norm_num)
  have k := ex_int (int_sub32' aim3_o r (by norm_num)) (show _ = (72 : ℤ) by norm_num)
  have d := ex_int (int_sub32' (int_mul32 aim3_h aim3_h (by norm_num)) (int_mul32 aim3_a k (by norm_num)) (by norm_num)) (show _ = (81 : ℤ) by norm_num)
  exact ⟨_, rootRange_of (le_exact int_zero32 d (by norm_num))⟩
example : ∃ R, aim3.ball mid3 (int32 3) = some R ∧ (R.start ≤? R.stop) = true := by
  obtain ⟨R, e⟩ := aim3_hit
  exact ⟨R, e, C119_ordered3 _ _ _ R e aim3_a.1 aim3_pos aim3_h.1⟩
example : ∃ R', aim3.back.ball mid3 (int32 3) = some R' := by
  obtain ⟨R, e⟩ := aim3_hit
  rcases C119_back3 aim3 mid3 (int32 3) aim3_a.1 aim3_pos aim3_h.1 with ⟨h, -⟩ | ⟨R, R', -, h, -⟩
  · rw [e] at h; cases h
  · exact ⟨R', h⟩
example : ∃ R', aim3.ball mid3 (-int32 3) = some R' := by
  obtain ⟨R, e⟩ := aim3_hit
  rcases C119_radius3 aim3 mid3 (int32 3) aim3_a.1 aim3_pos aim3_h.1 with ⟨h, -⟩ | ⟨R, R', -, h, -⟩
  · rw [e] at h; cases h
  · exact ⟨R', h⟩
example : ∃ R', aim3.ball mid3 (int32 4) = some R' := by
  obtain ⟨R, e⟩ := aim3_hit
  obtain ⟨R', h, -⟩ := C119_grow3 aim3 mid3 (int32 3) (int32 4) aim3_a.1 aim3_pos aim3_h.1 aim3_o.1
    (le_exact int_zero32 exi (by norm_num)) (le_exact exi exi (by norm_num)) R e
  exact ⟨R', h⟩
example : ∃ R, from3.ball mid3 (int32 3) = some R ∧ (R.start ≤? zero) = true ∧ (zero ≤? R.stop) = true :=
  C119_inside3 _ _ _ from3_a.1 from3_pos from3_h.1 (sq_normal from3_h) from3_o.1
    (le_exact from3_o (int_mul32 exi exi (by norm_num)) (by norm_num))
example : ∃ R, aim3.ball mid3 (int32 3) = some R ∧ (zero ≤? R.start) = true := by
  obtain ⟨R, e⟩ := aim3_hit
  exact ⟨R, e, (C119_outside3 _ _ _ aim3_a.1 aim3_pos aim3_h.1 (sq_normal aim3_h)
    (by rw [aim3_h.2]; exact lt_of_abs_lt (big32 (by norm_num))) aim3_o.1
    (le_exact (int_mul32 exi exi (by norm_num)) aim3_o (by norm_num)) R e).2 (le_exact aim3_h int_zero32 (by norm_num))⟩
example : aim3.ball mid3 (int32 3) = none ↔ ∀ t : ℝ, ¬ InBall aim3.direction.toReal aim3.origin.toReal mid3.toReal (real (int32 3)) t := by
  refine C119_whole3 (M := 4) (N := 8) aim3 mid3 (int32 3) aim3_fin (Point3.allFinite.2 ⟨trivial, trivial, trivial⟩) trivial ?_ ?_ ?_ ?_ ?_ (by norm_num) (by norm_num)
    (fits_f32 (by norm_num))
  · intro h
    have := congrFun h 0
    change real (int32 1) = 0 at this
    rw [real_int32] at this
    norm_num at this
  · intro i
    fin_cases i <;> exact (OnGrid.int (by norm_num)).congr (exi).2.symm
  · exact fun i => grid_pt3 (by norm_num) (by norm_num) (by norm_num) i
  · exact fun i => grid_pt3 (by norm_num) (by norm_num) (by norm_num) i
  · exact (OnGrid.int (by norm_num)).congr real_int32.symm

/-! Without rounding -/
noncomputable def aimI3 : Ray3 Ideal := ⟨⟨Ideal.of (-3), Ideal.of (-6), Ideal.of (-6)⟩, ⟨Ideal.of 1, Ideal.of 2, Ideal.of 2⟩⟩
noncomputable def midI3 : Point3 Ideal := ⟨Ideal.of 0, Ideal.of 0, Ideal.of 0⟩
theorem aimI3_fin : AllFinite aimI3 := Ray3.allFinite.2 ⟨Point3.allFinite.2 ⟨Ideal.finite_of _, Ideal.finite_of _, Ideal.finite_of _⟩, Vector3.allFinite.2 ⟨Ideal.finite_of _, Ideal.finite_of _, Ideal.finite_of _⟩⟩
theorem midI3_fin : AllFinite midI3 := Point3.allFinite.2 ⟨Ideal.finite_of _, Ideal.finite_of _, Ideal.finite_of _⟩
theorem aimI3_dir : (aimI3.direction == Vector3.zero) = false := by
  rw [Bool.eq_false_iff]
  intro h
  rw [Vector3.beq_toReal (Ray3.allFinite.1 aimI3_fin).2 Vector3.fin_zero] at h
  have := congrFun h 0
  change real (Ideal.of 1) = real (zero : Ideal) at this
  rw [Ideal.real_of, real_zero] at this
  norm_num at this
theorem aimI3_nn : (zero ≤? Ideal.of 3) = true := by rw [Ideal.le_real finite_zero (Ideal.finite_of _), real_zero, Ideal.real_of]; norm_num
theorem aimI3_hit : ∃ R, aimI3.ball midI3 (Ideal.of 3) = some R ∧ real R.stop = 4 := by
  obtain ⟨fa, fh, fk, pa, ea, eh, ek⟩ := Ray3.ball_coeff aimI3_fin midI3_fin (Ideal.finite_of 3) aimI3_dir
  have va : aimI3.direction.toReal ⬝ᵥ aimI3.direction.toReal = 9 := by
    simp [aimI3, Vector3.toReal, dotProduct, Fin.sum_univ_succ]; norm_num
  have vh : aimI3.direction.toReal ⬝ᵥ (aimI3.origin.toReal - midI3.toReal) = -27 := by
    simp [aimI3, midI3, Vector3.toReal, Point3.toReal, dotProduct, Fin.sum_univ_succ]; norm_num
  have vo : (aimI3.origin.toReal - midI3.toReal) ⬝ᵥ (aimI3.origin.toReal - midI3.toReal) = 81 := by
    simp [aimI3, midI3, Point3.toReal, dotProduct, Fin.sum_univ_succ]; norm_num
  rw [va] at ea
  rw [vh] at eh
  rw [vo, Ideal.real_of] at ek
  rcases rootRange_ideal fa fh fk pa with ⟨-, R, e, -, -, -, v⟩ | ⟨d, -⟩
  · refine ⟨R, e, ?_⟩
    rw [v, ea, eh, ek, show (-27 : ℝ) * -27 - 9 * (81 - 3 * 3) = 9 ^ 2 by norm_num, Real.sqrt_sq (by norm_num)]
    norm_num
  · rw [ea, eh, ek] at d
    norm_num at d
example : ∃ R : Range Ideal, ∀ t : Ideal, IsFinite t →
    ((Api.distance midI3 (aimI3.at t) ≤? Ideal.of 3) = true ↔ (R.start ≤? t) = true ∧ (t ≤? R.stop) = true) := by
  obtain ⟨R, e, -⟩ := aimI3_hit
  exact ⟨R, ((C119_exact3 _ _ _ aimI3_fin midI3_fin (Ideal.finite_of 3) aimI3_dir aimI3_nn).1 R e).2.2⟩
example : ∃ R, aimI3.ball midI3 (Ideal.of 3) = some R ∧ (Api.distance midI3 (aimI3.at R.start) == Ideal.of 3) = true := by
  obtain ⟨R, e, -⟩ := aimI3_hit
  exact ⟨R, e, (C119_on3 _ _ _ aimI3_fin midI3_fin (Ideal.finite_of 3) aimI3_dir aimI3_nn R e).1⟩
example : ∃ B : Range Ideal, Api.intersect (midI3.boxAround (Ideal.of 3)) aimI3 = some B := by
  obtain ⟨R, e, v⟩ := aimI3_hit
  have f := ((C119_exact3 _ _ _ aimI3_fin midI3_fin (Ideal.finite_of 3) aimI3_dir aimI3_nn).1 R e).2.1
  obtain ⟨B, h, -⟩ := C119_box_hit3 _ _ _ aimI3_fin midI3_fin (Ideal.finite_of 3) aimI3_dir aimI3_nn (by
    intro i h
    fin_cases i
    all_goals
      simp [aimI3, Vector3.toReal] at h) R e ((Ideal.le_real finite_zero f).2 (by rw [real_zero, v]; norm_num))
  exact ⟨B, h⟩
example (t : Transform3 Ideal) (h : Motion3 t) : ∃ R', (Transform.transform t aimI3 : Ray3 Ideal).ball (Transform.transform t midI3 : Point3 Ideal) (Ideal.of 3) = some R' := by
  obtain ⟨R, e, -⟩ := aimI3_hit
  rcases C119_motion3 t h _ _ _ aimI3_fin midI3_fin (Ideal.finite_of 3) aimI3_dir with ⟨h, -⟩ | ⟨-, R', -, h, -⟩
  · rw [e] at h; cases h
  · exact ⟨R', h⟩

/-! ### Witnesses -/
noncomputable def farAim : Ray2 F32 := ⟨pt2 6957 9276, ⟨int32 3, int32 4⟩⟩
/-- **C119**: a line straight through the center of a disc of radius 1 that is reported to miss it: `h * h` and `a * k` are rounded
separately, and their difference is negative. -/
theorem C119_miss : ∃ (r : Ray2 F32) (c : Point2 F32), AllFinite r ∧ AllFinite c ∧
    (∃ t : ℝ, ∀ i, r.origin.toReal i + t * r.direction.toReal i = c.toReal i) ∧
    (∃ t, InBall r.direction.toReal r.origin.toReal c.toReal (real (one : F32)) t) ∧ r.ball c one = none := by
  have line : ∀ i, farAim.origin.toReal i + (-2319) * farAim.direction.toReal i = (pt2 0 0).toReal i := by
    intro i
    fin_cases i
    · show real (int32 6957) + (-2319) * real (int32 3) = real (int32 0)
      simp only [real_int32]; norm_num
    · show real (int32 9276) + (-2319) * real (int32 4) = real (int32 0)
      simp only [real_int32]; norm_num
  refine ⟨farAim, pt2 0 0, Ray2.allFinite.2 ⟨Point2.allFinite.2 ⟨trivial, trivial⟩, Vector2.allFinite.2 ⟨trivial, trivial⟩⟩, Point2.allFinite.2 ⟨trivial, trivial⟩,
    ⟨-2319, line⟩, ⟨-2319, ?_⟩, ?_⟩
  · unfold InBall
    simp only [line, sub_self]
    rw [real_one]; norm_num
  have ox : Exactly ((int32 6957 : F32) - int32 0) ((6957 : ℤ) : ℝ) := ex_int (int_sub32' exi exi (by norm_num)) (by norm_num)
  have oy : Exactly ((int32 9276 : F32) - int32 0) ((9276 : ℤ) : ℝ) := ex_int (int_sub32' exi exi (by norm_num)) (by norm_num)
  have a : Exactly (Api.dot farAim.direction farAim.direction) ((25 : ℤ) : ℝ) :=
    ex_int (int_add32' (int_mul32 exi exi (by norm_num)) (int_mul32 exi exi (by norm_num)) (by norm_num)) (by norm_num)
  have h : Exactly (Api.dot farAim.direction (farAim.origin - pt2 0 0 : Vector2 F32)) ((57975 : ℤ) : ℝ) :=
    ex_int (int_add32' (int_mul32 exi ox (by norm_num)) (int_mul32 exi oy (by norm_num)) (by norm_num)) (by norm_num)
  have xx : Exactly (((int32 6957 : F32) - int32 0) * (int32 6957 - int32 0)) ((48399848 : ℤ) : ℝ) := by
    refine exec_mul ox ox ?_ (big32' (by norm_num))
    have := Fmt.rnd_lit binary32 (x := ((6957 : ℤ) : ℝ) * ((6957 : ℤ) : ℝ)) 25 2 12099962 (by decide) (by norm_num) (by norm_num) (by norm_num) (by norm_num)
    exact this.trans (by norm_num)
  have yy : Exactly (((int32 9276 : F32) - int32 0) * (int32 9276 - int32 0)) ((86044176 : ℤ) : ℝ) := by
    refine exec_mul oy oy ?_ (big32' (by norm_num))
    have := Fmt.rnd_lit binary32 (x := ((9276 : ℤ) : ℝ) * ((9276 : ℤ) : ℝ)) 26 3 10755522 (by decide) (by norm_num) (by norm_num) (by norm_num) (by norm_num)
    exact this.trans (by norm_num)
  have oo : Exactly (Api.dot (farAim.origin - pt2 0 0 : Vector2 F32) (farAim.origin - pt2 0 0 : Vector2 F32)) ((134444032 : ℤ) : ℝ) := by
    refine exec_add xx yy ?_ (big32' (by norm_num))
    have := Fmt.rnd_lit_even binary32 (x := ((48399848 : ℤ) : ℝ) + ((86044176 : ℤ) : ℝ)) 27 4 8402752 (by decide) (by decide) (by norm_num) (by norm_num) (by norm_num) (by norm_num)
    exact this.trans (by norm_num)
  have one1 : Exactly (one : F32) ((1 : ℤ) : ℝ) := ⟨finite_one, by rw [real_one]; norm_num⟩
  have rr : Exactly ((one : F32) * one) ((1 : ℤ) : ℝ) := ex_int (int_mul32 one1 one1 (by norm_num)) (by norm_num)
  have k : Exactly (Api.dot (farAim.origin - pt2 0 0 : Vector2 F32) (farAim.origin - pt2 0 0 : Vector2 F32) - one * one) ((134444032 : ℤ) : ℝ) := by
    refine exec_sub oo rr ?_ (big32' (by norm_num))
    have := Fmt.rnd_lit binary32 (x := ((134444032 : ℤ) : ℝ) - ((1 : ℤ) : ℝ)) 27 4 8402752 (by decide) (by norm_num) (by norm_num) (by norm_num) (by norm_num)
    exact this.trans (by norm_num)
  have hh : Exactly (Api.dot farAim.direction (farAim.origin - pt2 0 0 : Vector2 F32) * Api.dot farAim.direction (farAim.origin - pt2 0 0 : Vector2 F32)) ((3361100544 : ℤ) : ℝ) := by
    refine exec_mul h h ?_ (big32' (by norm_num))
    have := Fmt.rnd_lit binary32 (x := ((57975 : ℤ) : ℝ) * ((57975 : ℤ) : ℝ)) 31 8 13129299 (by decide) (by norm_num) (by norm_num) (by norm_num) (by norm_num)
    exact this.trans (by norm_num)
  have ak : Exactly (Api.dot farAim.direction farAim.direction * (Api.dot (farAim.origin - pt2 0 0 : Vector2 F32) (farAim.origin - pt2 0 0 : Vector2 F32) - one * one)) ((3361100800 : ℤ) : ℝ) := by
    refine exec_mul a k ?_ (big32' (by norm_num))
    have := Fmt.rnd_lit binary32 (x := ((25 : ℤ) : ℝ) * ((134444032 : ℤ) : ℝ)) 31 8 13129300 (by decide) (by norm_num) (by norm_num) (by norm_num) (by norm_num)
    exact this.trans (by norm_num)
  have d := ex_int (wide_sub hh ak (m := -1) (e := 8) (by norm_num) (by norm_num) (by norm_num)) (show _ = (-256 : ℤ) by norm_num)
  refine if_neg ?_
  rw [ole_real finite_zero d.1, real_zero, d.2]
  norm_num
/-- **C119**: the computed distance puts a point into a disc that is outside the box around it: the box test would lose it. -/
theorem C119_box_lost : ∃ (c p : Point2 F32) (ρ : F32), AllFinite c ∧ AllFinite p ∧ IsFinite ρ ∧ (Api.distance c p ≤? ρ) = true ∧
    (c.boxAround ρ).isInside p = false := by
  refine ⟨pt2 (-16777216) 0, pt2 1 0, int32 16777216, Point2.allFinite.2 ⟨trivial, trivial⟩, Point2.allFinite.2 ⟨trivial, trivial⟩, trivial, ?_, ?_⟩
  · have dx : Exactly ((int32 1 : F32) - int32 (-16777216)) ((16777216 : ℤ) : ℝ) := by
      refine exec_sub exi exi ?_ (big32' (by norm_num [abs_of_pos]))
      have := Fmt.rnd_lit_even binary32 (x := ((1 : ℤ) : ℝ) - ((-16777216 : ℤ) : ℝ)) 24 1 8388608 (by decide) (by decide) (by norm_num) (by norm_num) (by norm_num) (by norm_num)
      exact this.trans (by norm_num)
    have dy : Exactly ((int32 0 : F32) - int32 0) ((0 : ℤ) : ℝ) := ex_int (int_sub32' exi exi (by norm_num)) (by norm_num)
    have xx : Exactly (((int32 1 : F32) - int32 (-16777216)) * (int32 1 - int32 (-16777216))) ((281474976710656 : ℤ) : ℝ) := by
      refine exec_mul dx dx ?_ (big32' (by norm_num))
      have := Fmt.rnd_lit binary32 (x := ((16777216 : ℤ) : ℝ) * ((16777216 : ℤ) : ℝ)) 48 25 8388608 (by decide) (by norm_num) (by norm_num) (by norm_num) (by norm_num)
      exact this.trans (by norm_num)
    have yy : Exactly (((int32 0 : F32) - int32 0) * (int32 0 - int32 0)) ((0 : ℤ) : ℝ) := ex_int (int_mul32 dy dy (by norm_num)) (by norm_num)
    have s : Exactly (Api.dot (pt2 1 0 - pt2 (-16777216) 0 : Vector2 F32) (pt2 1 0 - pt2 (-16777216) 0 : Vector2 F32)) ((281474976710656 : ℤ) : ℝ) := by
      refine exec_add xx yy ?_ (big32' (by norm_num))
      have := Fmt.rnd_lit binary32 (x := ((281474976710656 : ℤ) : ℝ) + ((0 : ℤ) : ℝ)) 48 25 8388608 (by decide) (by norm_num) (by norm_num) (by norm_num) (by norm_num)
      exact this.trans (by norm_num)
    have q : √((281474976710656 : ℤ) : ℝ) = 16777216 := by
      rw [show ((281474976710656 : ℤ) : ℝ) = 16777216 ^ 2 by norm_num, Real.sqrt_sq (by norm_num)]
    have l : Exactly (Api.distance (pt2 (-16777216) 0) (pt2 1 0)) ((16777216 : ℤ) : ℝ) := by
      refine exec_sqrt s (by norm_num) ?_ (by rw [q]; exact big32' (by norm_num))
      rw [q]
      have := rnd_int32 (n := 16777216) (by norm_num)
      exact_mod_cast this
    exact le_exact l exi (by norm_num)
  · have lo : Exactly ((int32 (-16777216) : F32) - int32 16777216) ((-33554432 : ℤ) : ℝ) := by
      exact ex_int (wide_sub exi exi (m := -8388608) (e := 2) (by norm_num) (by norm_num) (by norm_num)) (by norm_num)
    have hi : Exactly ((int32 (-16777216) : F32) + int32 16777216) ((0 : ℤ) : ℝ) := ex_int (int_add32' exi exi (by norm_num)) (by norm_num)
    rw [Bool.eq_false_iff]
    intro h
    have := ((isInside2_iff.1 h).1).2
    change (int32 1 ≤? fmax ((int32 (-16777216) : F32) - int32 16777216) (int32 (-16777216) + int32 16777216)) = true at this
    have f := fmax_fin lo.1 hi.1
    rw [ole_real (exi (n := 1)).1 f.1, f.2, lo.2, hi.2, real_int32] at this
    norm_num at this

end VecMath
