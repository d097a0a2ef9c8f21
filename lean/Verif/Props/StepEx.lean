import Verif.Props.FloatStep
import Verif.Props.RealStep
import Verif.Props.EncloseEx
import Verif.Props.FloatCosine
import Verif.Props.PathEx
/-! # C123: the hypotheses are met; limiting twice; the walk that does not arrive

(Generated by tools/gen.) -/

namespace VecMath
open Scalar IEEE

section
variable {S : Type} [Scalar S] [IEEE S] [Binary S]
theorem zero_scaled {x m : S} (h : (x == zero) = true) (hm : IsFinite m) : (x * m == zero) = true := by
  have fx : IsFinite x := (finite_num (num_of_beq h)).2 finite_zero
  have rx : real x = 0 := (real_num (num_of_beq h)).trans real_zero
  have := exec_mul (z := 0) (x := 0) (y := real m) ⟨fx, rx⟩ ⟨hm, rfl⟩ (by rw [zero_mul]; exact Fmt.rnd_zero _) (by
    rw [zero_mul, abs_zero]; exact (zpow_pos two_pos _).trans (half_le_overflow (S := S)))
  exact (obeq_real this.1 finite_zero).2 (this.2.trans real_zero.symm)
theorem below_infinity {m x : S} (hm : IsFinite m) (h : (x == infinity) = true) : (m <? x) = true := by
  rw [beq_iff] at h
  rw [lt_iff, hm.val, h.2.2]
  exact ⟨hm.not_nan, h.1, by simp⟩
/-- **C123**, where it fails in floating point: a finite vector whose length overflows is not limited but lost, whatever the limit is. -/
theorem C123_huge2 (v : Vector2 S) (m : S) (hv : AllFinite v) (hm : IsFinite m) (h : overflowAt S ≤ real v.x ^ 2 ∨ overflowAt S ≤ real v.y ^ 2) :
    (v.limit m == Vector2.zero) = true := by
  have k := C13_float_huge2 v hv h
  unfold Vector2.limit
  rw [below_infinity hm k.1]
  have e := Vector2.beq_iff.1 k.2
  exact Vector2.beq_iff.2 ⟨zero_scaled e.1 hm, zero_scaled e.2 hm⟩
/-- **C123**, where it fails in floating point: a finite vector whose length overflows is not limited but lost, whatever the limit is. -/
theorem C123_huge3 (v : Vector3 S) (m : S) (hv : AllFinite v) (hm : IsFinite m)
    (h : overflowAt S ≤ real v.x ^ 2 ∨ overflowAt S ≤ real v.y ^ 2 ∨ overflowAt S ≤ real v.z ^ 2) :
    (v.limit m == Vector3.zero) = true := by
  have k := C13_float_huge3 v hv h
  unfold Vector3.limit
  rw [below_infinity hm k.1]
  have e := Vector3.beq_iff.1 k.2
  exact Vector3.beq_iff.2 ⟨zero_scaled e.1 hm, zero_scaled e.2.1 hm, zero_scaled e.2.2 hm⟩
end

/-! ## Limiting twice: the values in `f32` -/
theorem limit_scale : binary32.rnd ((2965821/4194304 : ℝ) * 3) = (8897463/4194304 : ℝ) := by
  rw [binary32.rnd_lit (1) (-22) 8897463 (by decide)]
  · norm_num
  all_goals norm_num
theorem limit_square : binary32.rnd ((8897463/4194304 : ℝ) * (8897463/4194304 : ℝ)) = (9437185/2097152 : ℝ) := by
  rw [binary32.rnd_lit (2) (-21) 9437185 (by decide)]
  · norm_num
  all_goals norm_num
theorem limit_sum : binary32.rnd ((9437185/2097152 : ℝ) + (9437185/2097152 : ℝ)) = (9437185/1048576 : ℝ) := by
  rw [binary32.rnd_lit (3) (-20) 9437185 (by decide)]
  · norm_num
  all_goals norm_num
theorem limit_sum0 : binary32.rnd ((9437185/1048576 : ℝ) + 0) = (9437185/1048576 : ℝ) := by
  rw [binary32.rnd_lit (3) (-20) 9437185 (by decide)]
  · norm_num
  all_goals norm_num
theorem limit_root : binary32.rnd (√(9437185/1048576 : ℝ)) = (12582913/4194304 : ℝ) := by
  rw [binary32.rnd_lit (1) (-22) 12582913 (by decide)]
  · norm_num
  · rw [Real.le_sqrt (by norm_num) (by norm_num)]; norm_num
  · rw [Real.sqrt_lt' (by norm_num)]; norm_num
  · rw [Real.lt_sqrt (by norm_num)]; norm_num
  · rw [Real.sqrt_lt' (by norm_num)]; norm_num
theorem limit_quot : binary32.rnd ((8897463/4194304 : ℝ) / (12582913/4194304 : ℝ)) = (11863283/16777216 : ℝ) := by
  rw [binary32.rnd_lit (-1) (-24) 11863283 (by decide)]
  · norm_num
  all_goals norm_num
theorem limit_scale2 : binary32.rnd ((11863283/16777216 : ℝ) * 3) = (4448731/2097152 : ℝ) := by
  rw [binary32.rnd_lit (1) (-22) 8897462 (by decide)]
  · norm_num
  all_goals norm_num
theorem limit_35 : binary32.rnd (((3 : ℤ) : ℝ) / ((5 : ℤ) : ℝ)) = (5033165/8388608 : ℝ) := by
  rw [binary32.rnd_lit (-1) (-24) 10066330 (by decide)]
  · norm_num
  all_goals norm_num
theorem limit_45 : binary32.rnd (((4 : ℤ) : ℝ) / ((5 : ℤ) : ℝ)) = (13421773/16777216 : ℝ) := by
  rw [binary32.rnd_lit (-1) (-24) 13421773 (by decide)]
  · norm_num
  all_goals norm_num
theorem limit_18 : binary32.rnd ((18 : ℝ) + 0) = (18 : ℝ) := by
  rw [binary32.rnd_lit (4) (-19) 9437184 (by decide)]
  · norm_num
  all_goals norm_num
theorem three_ex : Exactly (int32 3 : F32) 3 := by have := exi (n := 3); rwa [show ((3 : ℤ) : ℝ) = 3 by norm_num] at this
theorem zero_ex : Exactly (int32 0 : F32) 0 := by have := exi (n := 0); rwa [Int.cast_zero] at this
theorem nine_ex : Exactly (int32 3 * int32 3 : F32) 9 := exec_mul three_ex three_ex sq9_32 (big32' (by norm_num))
theorem farFlat : Exactly (int32 0 - int32 0 : F32) 0 := by
  have := ex_int (b := 0) (int_sub32' (exi (n := 0)) (exi (n := 0)) (by norm_num)) (by norm_num); rwa [Int.cast_zero] at this
theorem zero_zero : Exactly (int32 0 * int32 0 : F32) 0 :=
  exec_mul zero_ex zero_ex (by rw [zero_mul]; exact Fmt.rnd_zero _) (big32' (by norm_num))
theorem zero_over {a b : F32} {y : ℝ} (ha : Exactly a 0) (hb : Exactly b y) (h0 : y ≠ 0) : Exactly (a / b) 0 :=
  exec_div ha hb h0 (by rw [zero_div]; exact Fmt.rnd_zero _) (big32' (by norm_num))
theorem zero_by {a b : F32} {y : ℝ} (ha : Exactly a 0) (hb : Exactly b y) : Exactly (a * b) 0 :=
  exec_mul ha hb (by rw [zero_mul]; exact Fmt.rnd_zero _) (big32' (by norm_num))
theorem sqrt_small {x : ℝ} (h : x ≤ 100) : |√x| < overflowAt F32 := by
  refine big32' ?_
  rw [abs_of_nonneg (Real.sqrt_nonneg _), Real.sqrt_le_left (by norm_num)]
  linarith
/-- The limited component. -/
theorem limit_once {l : F32} (hl : Exactly l (4448731/1048576 : ℝ)) : Exactly (int32 3 / l * int32 3) (8897463/4194304 : ℝ) :=
  exec_mul (exec_div three_ex hl (by norm_num) quot_32 (big32' (by norm_num))) three_ex limit_scale (big32' (by norm_num))
theorem limit_twice {x l : F32} (hx : Exactly x (8897463/4194304 : ℝ)) (hl : Exactly l (12582913/4194304 : ℝ)) : Exactly (x / l * int32 3) (4448731/2097152 : ℝ) :=
  exec_mul (exec_div hx hl (by norm_num) limit_quot (big32' (by norm_num))) three_ex limit_scale2 (big32' (by norm_num))
theorem lt_reals {x y : F32} {a b : ℝ} (hx : Exactly x a) (hy : Exactly y b) (h : a < b) : (x <? y) = true := by
  rw [olt_real hx.1 hy.1, hx.2, hy.2]; exact h

/-! ## Dimension 2 -/
noncomputable def diag2 : Vector2 F32 := ⟨int32 3, int32 3⟩
theorem diag2_length : Exactly (Api.length diag2) (4448731/1048576 : ℝ) := by
  have h18 : Exactly (int32 3 * int32 3 + int32 3 * int32 3 : F32) 18 := exec_add nine_ex nine_ex sum18_32 (big32' (by norm_num))
  exact exec_sqrt h18 (by norm_num) root_32 (sqrt_small (by norm_num))
theorem diag2_limit : diag2.limit (int32 3) = diag2.normalize * int32 3 := by
  have h : (int32 3 <? Api.length diag2) = true := lt_reals three_ex diag2_length (by norm_num)
  unfold Vector2.limit; rw [h]; simp
theorem diag2_x : Exactly (diag2.limit (int32 3)).x (8897463/4194304 : ℝ) := by rw [diag2_limit]; exact limit_once diag2_length
theorem diag2_y : Exactly (diag2.limit (int32 3)).y (8897463/4194304 : ℝ) := by rw [diag2_limit]; exact limit_once diag2_length
theorem diag2_length2 : Exactly (Api.length (diag2.limit (int32 3))) (12582913/4194304 : ℝ) := by
  have h (a : F32) (ha : Exactly a (8897463/4194304 : ℝ)) := exec_mul ha ha limit_square (big32' (by norm_num))
  have s := exec_add (h _ diag2_x) (h _ diag2_y) limit_sum (big32' (by norm_num))
  exact exec_sqrt s (by norm_num) limit_root (sqrt_small (by norm_num))
/-- **C123**, where it fails in floating point: a limited vector can still be longer than the limit, and then limiting it again changes it. In
`f32`, the vector `(3, 3)` limited to 3. -/
theorem C123_not_idempotent2 : ∃ (v : Vector2 F32) (m : F32), AllFinite v ∧ (zero <? m) = true ∧ (m <? Api.length (v.limit m)) = true ∧
    ((v.limit m).limit m == v.limit m) = false := by
  refine ⟨diag2, int32 3, Vector2.allFinite.2 ⟨trivial, trivial⟩, lt_exact int_zero32 exi (by norm_num), lt_reals three_ex diag2_length2 (by norm_num), ?_⟩
  have e : (diag2.limit (int32 3)).limit (int32 3) = (diag2.limit (int32 3)).normalize * int32 3 := by
    have h : (int32 3 <? Api.length (diag2.limit (int32 3))) = true := lt_reals three_ex diag2_length2 (by norm_num)
    generalize diag2.limit (int32 3) = v at h ⊢
    unfold Vector2.limit; rw [h]; simp
  rw [Bool.eq_false_iff]
  intro k
  rw [e] at k
  have k := (Vector2.beq_iff.1 k).1
  have a : Exactly ((diag2.limit (int32 3)).normalize * int32 3).x (4448731/2097152 : ℝ) := limit_twice diag2_x diag2_length2
  have := (exactly_ne a diag2_x (by norm_num)).symm.trans k
  exact Bool.noConfusion this

/-! ### The walk that does not arrive -/
noncomputable def farGoal2 : Point2 F32 := ⟨int32 16777216 + int32 2, int32 0⟩
noncomputable def farStart2 : Point2 F32 := ⟨int32 16777216, int32 0⟩
theorem farGoal2_x : Exactly farGoal2.x ((16777218 : ℤ) : ℝ) := by
  refine exec_add (exi (n := 16777216)) (exi (n := 2)) ?_ (big32' ?_)
  · have := Fmt.rnd_lit binary32 (x := ((16777216 : ℤ) : ℝ) + ((2 : ℤ) : ℝ)) 24 1 8388609 (by decide) (by norm_num) (by norm_num) (by norm_num) (by norm_num)
    exact this.trans (by norm_num)
  · rw [abs_of_pos] <;> norm_num
theorem farGoal2_fin : AllFinite farGoal2 := Point2.allFinite.2 ⟨farGoal2_x.1, trivial⟩
/-- Where the walk is. -/
def Stuck2 (p : Point2 F32) : Prop := Exactly p.x ((16777216 : ℤ) : ℝ) ∧ Exactly p.y ((0 : ℤ) : ℝ)
theorem stuck2_start : Stuck2 farStart2 := ⟨exi, exi⟩
theorem stuck2_distance {p : Point2 F32} (h : Stuck2 p) : Exactly (Api.distance p farGoal2) ((2 : ℤ) : ℝ) := by
  have z {a : F32} (ha : Exactly a ((0 : ℤ) : ℝ)) : (int32 0 - a == zero) = true :=
    beq_exact' (ex_int (int_sub32' exi ha (by norm_num)) (show _ = (0 : ℤ) by norm_num)) (ex_int int_zero32 (by norm_num))
  exact axis_dist2 (ex_int (int_sub32' farGoal2_x h.1 (by norm_num)) (by norm_num)) (z h.2) (by norm_num) (by norm_num)
theorem stuck2_step {p : Point2 F32} (h : Stuck2 p) : Stuck2 (Point2.towards farGoal2 (int32 1) p) := by
  have d := stuck2_distance h
  have c : (Api.distance p farGoal2 ≤? int32 1) = false := by
    rw [Bool.eq_false_iff, Ne, ole_real d.1 (exi (n := 1)).1, d.2, (exi (n := 1)).2]; norm_num
  have e : Point2.towards farGoal2 (int32 1) p = p + ((farGoal2 - p : Vector2 F32).normalize * int32 1 : Vector2 F32) := by
    unfold Point2.towards; rw [c]; simp
  rw [e]
  have sx : Exactly (farGoal2.x - p.x) ((2 : ℤ) : ℝ) := ex_int (int_sub32' farGoal2_x h.1 (by norm_num)) (by norm_num)
  have ux : Exactly ((farGoal2.x - p.x) / Api.distance p farGoal2) ((1 : ℤ) : ℝ) := by
    refine exec_div sx d (by norm_num) ?_ (big32' (by norm_num))
    have := Fmt.rnd_lit binary32 (x := ((2 : ℤ) : ℝ) / ((2 : ℤ) : ℝ)) 0 (-23) 8388608 (by decide) (by norm_num) (by norm_num) (by norm_num) (by norm_num)
    exact this.trans (by norm_num)
  have mx : Exactly ((farGoal2.x - p.x) / Api.distance p farGoal2 * int32 1) ((1 : ℤ) : ℝ) := ex_int (int_mul32 ux exi (by norm_num)) (by norm_num)
  have z {a : F32} (ha : Exactly a ((0 : ℤ) : ℝ)) : Exactly (a + (int32 0 - a) / Api.distance p farGoal2 * int32 1) ((0 : ℤ) : ℝ) := by
    have sa : Exactly (int32 0 - a) 0 := by
      have := ex_int (b := 0) (int_sub32' (exi (n := 0)) ha (by norm_num)) (by norm_num); rwa [Int.cast_zero] at this
    have m := zero_by (zero_over sa d (by norm_num)) (exi (n := 1))
    have m' : Exactly ((int32 0 - a) / Api.distance p farGoal2 * int32 1) ((0 : ℤ) : ℝ) := by rw [Int.cast_zero]; exact m
    exact ex_int (int_add32' ha m' (by norm_num)) (by norm_num)
  exact ⟨lose_one h.1 mx, z h.2⟩
theorem stuck2_always (k : ℕ) : Stuck2 (repeated (Point2.towards farGoal2 (int32 1)) k farStart2) := by
  induction k with
  | zero => exact stuck2_start
  | succ k ih => rw [repeated_succ]; exact stuck2_step ih
/-- **C123**, where it fails in floating point: a walk need not arrive, however long. In `f32`, from `(2^24, 0)` with steps of length 1 towards
`(2^24 + 2, 0)`: in exact arithmetic two steps suffice, but every step is rounded away. -/
theorem C123_stuck2 : ∃ (t p : Point2 F32) (s : F32), AllFinite t ∧ AllFinite p ∧ IsFinite s ∧ (zero <? s) = true ∧
    (Api.distance p t ≤? s + s) = true ∧ ∀ k, (repeated (Point2.towards t s) k p == t) = false ∧ (Api.distance (repeated (Point2.towards t s) k p) t == s + s) = true := by
  have two : Exactly (int32 1 + int32 1 : F32) ((2 : ℤ) : ℝ) := ex_int (int_add32' exi exi (by norm_num)) (by norm_num)
  refine ⟨farGoal2, farStart2, int32 1, farGoal2_fin, Point2.allFinite.2 ⟨trivial, trivial⟩, trivial, lt_exact int_zero32 exi (by norm_num),
    le_exact (stuck2_distance stuck2_start) two le_rfl, fun k => ⟨?_, beq_exact' (stuck2_distance (stuck2_always k)) two⟩⟩
  rw [Bool.eq_false_iff]
  intro h
  have h := (Point2.beq_iff.1 h).1
  have := (exactly_ne (stuck2_always k).1 farGoal2_x (by norm_num)).symm.trans h
  exact Bool.noConfusion this

/-! ### The hypotheses are met -/
theorem farGap2 : Exactly (farGoal2.x - farStart2.x) ((2 : ℤ) : ℝ) := ex_int (int_sub32' farGoal2_x (exi (n := 16777216)) (by norm_num)) (by norm_num)
theorem farGap2_no : (Api.distance farStart2 farGoal2 ≤? int32 1) = false := by
  have d := stuck2_distance stuck2_start
  rw [Bool.eq_false_iff, Ne, ole_real d.1 (exi (n := 1)).1, d.2, (exi (n := 1)).2]; norm_num
theorem farUnit2 : Exactly ((farGoal2.x - farStart2.x) / Api.distance farStart2 farGoal2) 1 := by
  refine exec_div farGap2 (stuck2_distance stuck2_start) (by norm_num) ?_ (big32' (by norm_num))
  have := Fmt.rnd_lit binary32 (x := ((2 : ℤ) : ℝ) / ((2 : ℤ) : ℝ)) 0 (-23) 8388608 (by decide) (by norm_num) (by norm_num) (by norm_num) (by norm_num)
  exact this.trans (by norm_num)
noncomputable def short2 : Vector2 F32 := ⟨int32 3, int32 4⟩
theorem short2_length : Exactly (Api.length short2) ((5 : ℤ) : ℝ) := by
  have s : Exactly (int32 3 * int32 3 + int32 4 * int32 4 : F32) ((25 : ℤ) : ℝ) :=
    ex_int (int_add32' (int_mul32 exi exi (by norm_num)) (int_mul32 exi exi (by norm_num)) (by norm_num)) (by norm_num)
  have e : √((25 : ℤ) : ℝ) = 5 := by rw [show ((25 : ℤ) : ℝ) = 5 ^ 2 by norm_num, Real.sqrt_sq (by norm_num)]
  refine exec_sqrt s (by norm_num) ?_ (by rw [e]; exact big32' (by norm_num))
  rw [e]
  have := Fmt.rnd_lit binary32 (x := 5) 2 (-21) 10485760 (by decide) (by norm_num) (by norm_num) (by norm_num) (by norm_num)
  exact this.trans (by norm_num)
theorem short2_unit : short2.UnitNormal ∧ AllFinite short2.normalize := by
  have h {a : ℤ} {x : F32} (hx : Exactly x (a : ℝ)) (ha : 0 ≤ a) (hb : a ≤ 4) : Normal F32 (real x / real (Api.length short2)) ∧ IsFinite (x / Api.length short2) := by
    rw [hx.2, short2_length.2]
    have a0 : (0 : ℝ) ≤ a := by exact_mod_cast ha
    have a4 : (a : ℝ) ≤ 4 := by exact_mod_cast hb
    constructor
    · rcases ha.eq_or_lt with rfl | h
      · left; norm_num
      · right
        have : (1 : ℝ) ≤ a := by exact_mod_cast h
        rw [abs_of_nonneg (by positivity)]
        show (2 : ℝ) ^ ((-149 : ℤ) + 24 - 1) ≤ _
        refine le_trans (b := 1 / 5) (by norm_num) ?_
        push_cast; linarith
    · refine (correct_div hx.1 short2_length.1 (by rw [short2_length.2]; norm_num)).1.2 ?_
      rw [hx.2, short2_length.2]
      refine big32' ?_
      rw [abs_of_nonneg (by positivity)]
      push_cast
      linarith [show (4 : ℝ) / 5 ≤ 2 ^ 50 by norm_num]
  exact ⟨⟨(h (exi (n := 3)) (by norm_num) (by norm_num)).1, (h (exi (n := 4)) (by norm_num) (by norm_num)).1⟩, Vector2.allFinite.2 ⟨(h (exi (n := 3)) (by norm_num) (by norm_num)).2, (h (exi (n := 4)) (by norm_num) (by norm_num)).2⟩⟩
example := C123_shrink2 short2 (int32 2) (le_exact int_zero32 exi (by norm_num)) (Vector2.allFinite.2 ⟨trivial, trivial⟩) short2_length.1 short2_unit.2 short2_unit.1
example := C123_length2 short2 (int32 2) (le_exact int_zero32 exi (by norm_num)) (lt_exact exi short2_length (by norm_num)) (Vector2.allFinite.2 ⟨trivial, trivial⟩)
    short2_length.1 short2_unit.2 short2_unit.1 (sq_normal exi) (sq_normal exi) (by
  have b (x : ℝ) (h : 1 ≤ x) : Normal F32 x := by
    right; rw [abs_of_nonneg (by linarith)]; show (2 : ℝ) ^ ((-149 : ℤ) + 24 - 1) ≤ _; exact le_trans (by norm_num) h
  have ux := exec_div (exi (n := 3)) short2_length (by norm_num) limit_35 (big32' (by norm_num))
  have uy := exec_div (exi (n := 4)) short2_length (by norm_num) limit_45 (big32' (by norm_num))
  intro i
  rw [(exi (n := 2)).2]
  fin_cases i
  · exact b _ (by show _ ≤ real (int32 3 / Api.length short2) * _; rw [ux.2]; norm_num)
  · exact b _ (by show _ ≤ real (int32 4 / Api.length short2) * _; rw [uy.2]; norm_num))
example := C123_between2 farGoal2 farStart2 (int32 1) (le_exact int_zero32 exi (by norm_num)) (Point2.allFinite.2 ⟨trivial, trivial⟩)
    (Vector2.allFinite.2 ⟨farGap2.1, farFlat.1⟩) farGap2_no (stuck2_distance stuck2_start).1
    (Vector2.allFinite.2 ⟨farUnit2.1, (zero_over farFlat (stuck2_distance stuck2_start) (by norm_num)).1⟩) (by
  have d := (stuck2_distance stuck2_start).2
  refine ⟨?_, ?_⟩
  · right
    show _ ≤ |real (farGoal2.x - farStart2.x) / real (Api.distance farStart2 farGoal2)|
    rw [d, farGap2.2]
    show (2 : ℝ) ^ ((-149 : ℤ) + 24 - 1) ≤ _
    norm_num
  all_goals
    left
    show real (int32 0 - int32 0 : F32) / _ = 0
    rw [farFlat.2, zero_div])
example : repeated (Point2.towards farGoal2 (int32 2)) 1 farStart2 = farGoal2 :=
  C123_arrive2 _ _ _ farGoal2_fin (le_exact int_zero32 exi (by norm_num)) (le_exact (stuck2_distance stuck2_start) exi (by norm_num)) 0
example (v : Vector2 Ideal) (hv : AllFinite v) := C123_exact_limit2 v (Ideal.of 2) hv (Ideal.finite_of _) (ideal_nonneg (by norm_num))
example (t p : Point2 Ideal) (ht : AllFinite t) (hp : AllFinite p) (k : ℕ) :=
  C123_exact_walk2 t p (Ideal.of (1 / 2)) ht hp (Ideal.finite_of _) (ideal_nonneg (by norm_num)) k

/-! ## Dimension 3 -/
noncomputable def diag3 : Vector3 F32 := ⟨int32 3, int32 3, int32 0⟩
theorem diag3_length : Exactly (Api.length diag3) (4448731/1048576 : ℝ) := by
  have h18 : Exactly (int32 3 * int32 3 + int32 3 * int32 3 : F32) 18 := exec_add nine_ex nine_ex sum18_32 (big32' (by norm_num))
  have h18 := exec_add h18 zero_zero limit_18 (big32' (by norm_num))
  exact exec_sqrt h18 (by norm_num) root_32 (sqrt_small (by norm_num))
theorem diag3_limit : diag3.limit (int32 3) = diag3.normalize * int32 3 := by
  have h : (int32 3 <? Api.length diag3) = true := lt_reals three_ex diag3_length (by norm_num)
  unfold Vector3.limit; rw [h]; simp
theorem diag3_x : Exactly (diag3.limit (int32 3)).x (8897463/4194304 : ℝ) := by rw [diag3_limit]; exact limit_once diag3_length
theorem diag3_y : Exactly (diag3.limit (int32 3)).y (8897463/4194304 : ℝ) := by rw [diag3_limit]; exact limit_once diag3_length
theorem diag3_z : Exactly (diag3.limit (int32 3)).z 0 := by
  rw [diag3_limit]; exact zero_by (zero_over zero_ex diag3_length (by norm_num)) three_ex
theorem diag3_length2 : Exactly (Api.length (diag3.limit (int32 3))) (12582913/4194304 : ℝ) := by
  have h (a : F32) (ha : Exactly a (8897463/4194304 : ℝ)) := exec_mul ha ha limit_square (big32' (by norm_num))
  have s := exec_add (h _ diag3_x) (h _ diag3_y) limit_sum (big32' (by norm_num))
  have s := exec_add s (zero_by diag3_z diag3_z) limit_sum0 (big32' (by norm_num))
  exact exec_sqrt s (by norm_num) limit_root (sqrt_small (by norm_num))
/-- **C123**, where it fails in floating point: a limited vector can still be longer than the limit, and then limiting it again changes it. In
`f32`, the vector `(3, 3, 0)` limited to 3. -/
theorem C123_not_idempotent3 : ∃ (v : Vector3 F32) (m : F32), AllFinite v ∧ (zero <? m) = true ∧ (m <? Api.length (v.limit m)) = true ∧
    ((v.limit m).limit m == v.limit m) = false := by
  refine ⟨diag3, int32 3, Vector3.allFinite.2 ⟨trivial, trivial, trivial⟩, lt_exact int_zero32 exi (by norm_num), lt_reals three_ex diag3_length2 (by norm_num), ?_⟩
  have e : (diag3.limit (int32 3)).limit (int32 3) = (diag3.limit (int32 3)).normalize * int32 3 := by
    have h : (int32 3 <? Api.length (diag3.limit (int32 3))) = true := lt_reals three_ex diag3_length2 (by norm_num)
    generalize diag3.limit (int32 3) = v at h ⊢
    unfold Vector3.limit; rw [h]; simp
  rw [Bool.eq_false_iff]
  intro k
  rw [e] at k
  have k := (Vector3.beq_iff.1 k).1
  have a : Exactly ((diag3.limit (int32 3)).normalize * int32 3).x (4448731/2097152 : ℝ) := limit_twice diag3_x diag3_length2
  have := (exactly_ne a diag3_x (by norm_num)).symm.trans k
  exact Bool.noConfusion this

/-! ### The walk that does not arrive -/
noncomputable def farGoal3 : Point3 F32 := ⟨int32 16777216 + int32 2, int32 0, int32 0⟩
noncomputable def farStart3 : Point3 F32 := ⟨int32 16777216, int32 0, int32 0⟩
theorem farGoal3_x : Exactly farGoal3.x ((16777218 : ℤ) : ℝ) := by
  refine exec_add (exi (n := 16777216)) (exi (n := 2)) ?_ (big32' ?_)
  · have := Fmt.rnd_lit binary32 (x := ((16777216 : ℤ) : ℝ) + ((2 : ℤ) : ℝ)) 24 1 8388609 (by decide) (by norm_num) (by norm_num) (by norm_num) (by norm_num)
    exact this.trans (by norm_num)
  · rw [abs_of_pos] <;> norm_num
theorem farGoal3_fin : AllFinite farGoal3 := Point3.allFinite.2 ⟨farGoal3_x.1, trivial, trivial⟩
/-- Where the walk is. -/
def Stuck3 (p : Point3 F32) : Prop := Exactly p.x ((16777216 : ℤ) : ℝ) ∧ Exactly p.y ((0 : ℤ) : ℝ) ∧ Exactly p.z ((0 : ℤ) : ℝ)
theorem stuck3_start : Stuck3 farStart3 := ⟨exi, exi, exi⟩
theorem stuck3_distance {p : Point3 F32} (h : Stuck3 p) : Exactly (Api.distance p farGoal3) ((2 : ℤ) : ℝ) := by
  have z {a : F32} (ha : Exactly a ((0 : ℤ) : ℝ)) : (int32 0 - a == zero) = true :=
    beq_exact' (ex_int (int_sub32' exi ha (by norm_num)) (show _ = (0 : ℤ) by norm_num)) (ex_int int_zero32 (by norm_num))
  exact axis_dist3 (ex_int (int_sub32' farGoal3_x h.1 (by norm_num)) (by norm_num)) (z h.2.1) (z h.2.2) (by norm_num) (by norm_num)
theorem stuck3_step {p : Point3 F32} (h : Stuck3 p) : Stuck3 (Point3.towards farGoal3 (int32 1) p) := by
  have d := stuck3_distance h
  have c : (Api.distance p farGoal3 ≤? int32 1) = false := by
    rw [Bool.eq_false_iff, Ne, ole_real d.1 (exi (n := 1)).1, d.2, (exi (n := 1)).2]; norm_num
  have e : Point3.towards farGoal3 (int32 1) p = p + ((farGoal3 - p : Vector3 F32).normalize * int32 1 : Vector3 F32) := by
    unfold Point3.towards; rw [c]; simp
  rw [e]
  have sx : Exactly (farGoal3.x - p.x) ((2 : ℤ) : ℝ) := ex_int (int_sub32' farGoal3_x h.1 (by norm_num)) (by norm_num)
  have ux : Exactly ((farGoal3.x - p.x) / Api.distance p farGoal3) ((1 : ℤ) : ℝ) := by
    refine exec_div sx d (by norm_num) ?_ (big32' (by norm_num))
    have := Fmt.rnd_lit binary32 (x := ((2 : ℤ) : ℝ) / ((2 : ℤ) : ℝ)) 0 (-23) 8388608 (by decide) (by norm_num) (by norm_num) (by norm_num) (by norm_num)
    exact this.trans (by norm_num)
  have mx : Exactly ((farGoal3.x - p.x) / Api.distance p farGoal3 * int32 1) ((1 : ℤ) : ℝ) := ex_int (int_mul32 ux exi (by norm_num)) (by norm_num)
  have z {a : F32} (ha : Exactly a ((0 : ℤ) : ℝ)) : Exactly (a + (int32 0 - a) / Api.distance p farGoal3 * int32 1) ((0 : ℤ) : ℝ) := by
    have sa : Exactly (int32 0 - a) 0 := by
      have := ex_int (b := 0) (int_sub32' (exi (n := 0)) ha (by norm_num)) (by norm_num); rwa [Int.cast_zero] at this
    have m := zero_by (zero_over sa d (by norm_num)) (exi (n := 1))
    have m' : Exactly ((int32 0 - a) / Api.distance p farGoal3 * int32 1) ((0 : ℤ) : ℝ) := by rw [Int.cast_zero]; exact m
    exact ex_int (int_add32' ha m' (by norm_num)) (by norm_num)
  exact ⟨lose_one h.1 mx, z h.2.1, z h.2.2⟩
theorem stuck3_always (k : ℕ) : Stuck3 (repeated (Point3.towards farGoal3 (int32 1)) k farStart3) := by
  induction k with
  | zero => exact stuck3_start
  | succ k ih => rw [repeated_succ]; exact stuck3_step ih
/-- **C123**, where it fails in floating point: a walk need not arrive, however long. In `f32`, from `(2^24, 0, 0)` with steps of length 1 towards
`(2^24 + 2, 0, 0)`: in exact arithmetic two steps suffice, but every step is rounded away. -/
theorem C123_stuck3 : ∃ (t p : Point3 F32) (s : F32), AllFinite t ∧ AllFinite p ∧ IsFinite s ∧ (zero <? s) = true ∧
    (Api.distance p t ≤? s + s) = true ∧ ∀ k, (repeated (Point3.towards t s) k p == t) = false ∧ (Api.distance (repeated (Point3.towards t s) k p) t == s + s) = true := by
  have two : Exactly (int32 1 + int32 1 : F32) ((2 : ℤ) : ℝ) := ex_int (int_add32' exi exi (by norm_num)) (by norm_num)
  refine ⟨farGoal3, farStart3, int32 1, farGoal3_fin, Point3.allFinite.2 ⟨trivial, trivial, trivial⟩, trivial, lt_exact int_zero32 exi (by norm_num),
    le_exact (stuck3_distance stuck3_start) two le_rfl, fun k => ⟨?_, beq_exact' (stuck3_distance (stuck3_always k)) two⟩⟩
  rw [Bool.eq_false_iff]
  intro h
  have h := (Point3.beq_iff.1 h).1
  have := (exactly_ne (stuck3_always k).1 farGoal3_x (by norm_num)).symm.trans h
  exact Bool.noConfusion this

/-! ### The hypotheses are met -/
theorem farGap3 : Exactly (farGoal3.x - farStart3.x) ((2 : ℤ) : ℝ) := ex_int (int_sub32' farGoal3_x (exi (n := 16777216)) (by norm_num)) (by norm_num)
theorem farGap3_no : (Api.distance farStart3 farGoal3 ≤? int32 1) = false := by
  have d := stuck3_distance stuck3_start
  rw [Bool.eq_false_iff, Ne, ole_real d.1 (exi (n := 1)).1, d.2, (exi (n := 1)).2]; norm_num
theorem farUnit3 : Exactly ((farGoal3.x - farStart3.x) / Api.distance farStart3 farGoal3) 1 := by
  refine exec_div farGap3 (stuck3_distance stuck3_start) (by norm_num) ?_ (big32' (by norm_num))
  have := Fmt.rnd_lit binary32 (x := ((2 : ℤ) : ℝ) / ((2 : ℤ) : ℝ)) 0 (-23) 8388608 (by decide) (by norm_num) (by norm_num) (by norm_num) (by norm_num)
  exact this.trans (by norm_num)
noncomputable def short3 : Vector3 F32 := ⟨int32 3, int32 4, int32 0⟩
theorem short3_length : Exactly (Api.length short3) ((5 : ℤ) : ℝ) := by
  have s : Exactly (int32 3 * int32 3 + int32 4 * int32 4 : F32) ((25 : ℤ) : ℝ) :=
    ex_int (int_add32' (int_mul32 exi exi (by norm_num)) (int_mul32 exi exi (by norm_num)) (by norm_num)) (by norm_num)
  have s := ex_int (b := 25) (int_add32' s (int_mul32 (exi (n := 0)) (exi (n := 0)) (by norm_num)) (by norm_num)) (by norm_num)
  have e : √((25 : ℤ) : ℝ) = 5 := by rw [show ((25 : ℤ) : ℝ) = 5 ^ 2 by norm_num, Real.sqrt_sq (by norm_num)]
  refine exec_sqrt s (by norm_num) ?_ (by rw [e]; exact big32' (by norm_num))
  rw [e]
  have := Fmt.rnd_lit binary32 (x := 5) 2 (-21) 10485760 (by decide) (by norm_num) (by norm_num) (by norm_num) (by norm_num)
  exact this.trans (by norm_num)
theorem short3_unit : short3.UnitNormal ∧ AllFinite short3.normalize := by
  have h {a : ℤ} {x : F32} (hx : Exactly x (a : ℝ)) (ha : 0 ≤ a) (hb : a ≤ 4) : Normal F32 (real x / real (Api.length short3)) ∧ IsFinite (x / Api.length short3) := by
    rw [hx.2, short3_length.2]
    have a0 : (0 : ℝ) ≤ a := by exact_mod_cast ha
    have a4 : (a : ℝ) ≤ 4 := by exact_mod_cast hb
    constructor
    · rcases ha.eq_or_lt with rfl | h
      · left; norm_num
      · right
        have : (1 : ℝ) ≤ a := by exact_mod_cast h
        rw [abs_of_nonneg (by positivity)]
        show (2 : ℝ) ^ ((-149 : ℤ) + 24 - 1) ≤ _
        refine le_trans (b := 1 / 5) (by norm_num) ?_
        push_cast; linarith
    · refine (correct_div hx.1 short3_length.1 (by rw [short3_length.2]; norm_num)).1.2 ?_
      rw [hx.2, short3_length.2]
      refine big32' ?_
      rw [abs_of_nonneg (by positivity)]
      push_cast
      linarith [show (4 : ℝ) / 5 ≤ 2 ^ 50 by norm_num]
  exact ⟨⟨(h (exi (n := 3)) (by norm_num) (by norm_num)).1, (h (exi (n := 4)) (by norm_num) (by norm_num)).1, (h (exi (n := 0)) (by norm_num) (by norm_num)).1⟩, Vector3.allFinite.2 ⟨(h (exi (n := 3)) (by norm_num) (by norm_num)).2, (h (exi (n := 4)) (by norm_num) (by norm_num)).2, (h (exi (n := 0)) (by norm_num) (by norm_num)).2⟩⟩
example := C123_shrink3 short3 (int32 2) (le_exact int_zero32 exi (by norm_num)) (Vector3.allFinite.2 ⟨trivial, trivial, trivial⟩) short3_length.1 short3_unit.2 short3_unit.1
example := C123_length3 short3 (int32 2) (le_exact int_zero32 exi (by norm_num)) (lt_exact exi short3_length (by norm_num)) (Vector3.allFinite.2 ⟨trivial, trivial, trivial⟩)
    short3_length.1 short3_unit.2 short3_unit.1 (sq_normal exi) (sq_normal exi) (sq_normal exi) (by
  have b (x : ℝ) (h : 1 ≤ x) : Normal F32 x := by
    right; rw [abs_of_nonneg (by linarith)]; show (2 : ℝ) ^ ((-149 : ℤ) + 24 - 1) ≤ _; exact le_trans (by norm_num) h
  have ux := exec_div (exi (n := 3)) short3_length (by norm_num) limit_35 (big32' (by norm_num))
  have uy := exec_div (exi (n := 4)) short3_length (by norm_num) limit_45 (big32' (by norm_num))
  intro i
  rw [(exi (n := 2)).2]
  fin_cases i
  · exact b _ (by show _ ≤ real (int32 3 / Api.length short3) * _; rw [ux.2]; norm_num)
  · exact b _ (by show _ ≤ real (int32 4 / Api.length short3) * _; rw [uy.2]; norm_num)
  · left; show real (int32 0 / Api.length short3) * _ = _; rw [(zero_over zero_ex short3_length (by norm_num)).2, zero_mul])
example := C123_between3 farGoal3 farStart3 (int32 1) (le_exact int_zero32 exi (by norm_num)) (Point3.allFinite.2 ⟨trivial, trivial, trivial⟩)
    (Vector3.allFinite.2 ⟨farGap3.1, farFlat.1, farFlat.1⟩) farGap3_no (stuck3_distance stuck3_start).1
    (Vector3.allFinite.2 ⟨farUnit3.1, (zero_over farFlat (stuck3_distance stuck3_start) (by norm_num)).1, (zero_over farFlat (stuck3_distance stuck3_start) (by norm_num)).1⟩) (by
  have d := (stuck3_distance stuck3_start).2
  refine ⟨?_, ?_, ?_⟩
  · right
    show _ ≤ |real (farGoal3.x - farStart3.x) / real (Api.distance farStart3 farGoal3)|
    rw [d, farGap3.2]
    show (2 : ℝ) ^ ((-149 : ℤ) + 24 - 1) ≤ _
    norm_num
  all_goals
    left
    show real (int32 0 - int32 0 : F32) / _ = 0
    rw [farFlat.2, zero_div])
example : repeated (Point3.towards farGoal3 (int32 2)) 1 farStart3 = farGoal3 :=
  C123_arrive3 _ _ _ farGoal3_fin (le_exact int_zero32 exi (by norm_num)) (le_exact (stuck3_distance stuck3_start) exi (by norm_num)) 0
example (v : Vector3 Ideal) (hv : AllFinite v) := C123_exact_limit3 v (Ideal.of 2) hv (Ideal.finite_of _) (ideal_nonneg (by norm_num))
example (t p : Point3 Ideal) (ht : AllFinite t) (hp : AllFinite p) (k : ℕ) :=
  C123_exact_walk3 t p (Ideal.of (1 / 2)) ht hp (Ideal.finite_of _) (ideal_nonneg (by norm_num)) k

end VecMath
