import Verif.Props.FloatChain2
import Verif.Props.FloatBasisEx
import Verif.Props.FloatCellsEx
import Verif.Lemmas.Octree
/-!
# C102: concrete `f32` cases, and where composing and applying one after the other differ
-/

namespace VecMath
open Scalar IEEE

/-- `2^-24`, half of the distance from 1 to the next number -/
noncomputable def half24 : F32 := Fl.of (F := binary32) (2 ^ (-24 : ℤ)) ⟨1, -24, by decide, by decide, by norm_num⟩ (by
  show |(2 ^ (-24 : ℤ) : ℝ)| < 2 ^ (128 : ℤ); norm_num [abs_of_pos])
theorem exactly_half24 : Exactly half24 (2 ^ (-24 : ℤ)) := ⟨trivial, rfl⟩
theorem exactly_int {n : ℤ} {h : |n| ≤ 16777216} : Exactly (int32 n h) (n : ℝ) := ⟨trivial, real_int32⟩
theorem one_plus : Exactly (int32 1 + half24) 1 := by
  refine exec_add (x := 1) (y := 2 ^ (-24 : ℤ)) ⟨trivial, by rw [real_int32]; norm_num⟩ exactly_half24 ?_ ?_
  · have := Fmt.rnd_lit_even binary32 (x := 1 + 2 ^ (-24 : ℤ)) 0 (-23) 8388608 (by decide) (by decide) (by norm_num) (by norm_num) (by norm_num) (by norm_num)
    exact this.trans (by norm_num)
  · refine lt_of_lt_of_le ?_ overflow32
    norm_num [abs_of_pos]
theorem twice_half : Exactly (half24 + half24) (2 ^ (-23 : ℤ)) := by
  refine exec_add exactly_half24 exactly_half24 ?_ ?_
  · have := Fmt.rnd_lit binary32 (x := 2 ^ (-24 : ℤ) + 2 ^ (-24 : ℤ)) (-23) (-46) 8388608 (by decide) (by norm_num) (by norm_num) (by norm_num) (by norm_num)
    exact this.trans (by norm_num)
  · refine lt_of_lt_of_le ?_ overflow32
    norm_num [abs_of_pos]
theorem one_plus_twice : Exactly (int32 1 + (half24 + half24)) (1 + 2 ^ (-23 : ℤ)) := by
  refine exec_add (x := 1) ⟨trivial, by rw [real_int32]; norm_num⟩ twice_half ?_ ?_
  · have := Fmt.rnd_lit binary32 (x := 1 + 2 ^ (-23 : ℤ)) 0 (-23) 8388609 (by decide) (by norm_num) (by norm_num) (by norm_num) (by norm_num)
    exact this.trans (by norm_num)
  · refine lt_of_lt_of_le ?_ overflow32
    norm_num [abs_of_pos]
theorem three_half : Exactly (int32 3 * half24) (3 * 2 ^ (-24 : ℤ)) := by
  refine exec_mul (x := 3) ⟨trivial, by rw [real_int32]; norm_num⟩ exactly_half24 ?_ ?_
  · have := Fmt.rnd_lit binary32 (x := 3 * 2 ^ (-24 : ℤ)) (-23) (-46) 12582912 (by decide) (by norm_num) (by norm_num) (by norm_num) (by norm_num)
    exact this.trans (by norm_num)
  · refine lt_of_lt_of_le ?_ overflow32
    norm_num [abs_of_pos]
theorem three_times_one {a : F32} (ha : Exactly a 1) : Exactly (int32 3 * a) 3 := by
  refine exec_mul (x := 3) ⟨trivial, by rw [real_int32]; norm_num⟩ ha ?_ ?_
  · have := Fmt.rnd_lit binary32 (x := 3 * 1) 1 (-22) 12582912 (by decide) (by norm_num) (by norm_num) (by norm_num) (by norm_num)
    exact this.trans (by norm_num)
  · refine lt_of_lt_of_le ?_ overflow32
    norm_num [abs_of_pos]
theorem three_sum : Exactly (int32 3 * int32 1 + int32 3 * half24) (3 + 2 ^ (-22 : ℤ)) := by
  refine exec_add (three_times_one ⟨trivial, by rw [real_int32]; norm_num⟩) three_half ?_ ?_
  · have := Fmt.rnd_lit binary32 (x := 3 + 3 * 2 ^ (-24 : ℤ)) 1 (-22) 12582913 (by decide) (by norm_num) (by norm_num) (by norm_num) (by norm_num)
    exact this.trans (by norm_num)
  · refine lt_of_lt_of_le ?_ overflow32
    norm_num [abs_of_pos]
noncomputable def third32 : ℝ := 11184811 * 2 ^ (-25 : ℤ)
theorem recip_three : Exactly (recip (int32 3)) third32 := by
  have o : Exactly (one : F32) 1 := ⟨finite_one, real_one⟩
  refine exec_div (y := 3) o ⟨trivial, by rw [real_int32]; norm_num⟩ (by norm_num) ?_ ?_
  · have := Fmt.rnd_lit binary32 (x := 1 / 3) (-2) (-25) 11184811 (by decide) (by norm_num) (by norm_num) (by norm_num) (by norm_num)
    exact this.trans (by norm_num [third32])
  · refine lt_of_lt_of_le ?_ overflow32
    norm_num [abs_of_pos]
theorem recip_nine : Exactly (recip (int32 3 * int32 3)) (14913081 * 2 ^ (-27 : ℤ)) := by
  have o : Exactly (one : F32) 1 := ⟨finite_one, real_one⟩
  have n : Exactly (int32 3 * int32 3) 9 := by
    refine exec_mul (x := 3) (y := 3) ⟨trivial, by rw [real_int32]; norm_num⟩ ⟨trivial, by rw [real_int32]; norm_num⟩ ?_ ?_
    · have := Fmt.rnd_lit binary32 (x := 3 * 3) 3 (-20) 9437184 (by decide) (by norm_num) (by norm_num) (by norm_num) (by norm_num)
      exact this.trans (by norm_num)
    · refine lt_of_lt_of_le ?_ overflow32
      norm_num [abs_of_pos]
  refine exec_div (y := 9) o n (by norm_num) ?_ ?_
  · have := Fmt.rnd_lit binary32 (x := 1 / 9) (-4) (-27) 14913081 (by decide) (by norm_num) (by norm_num) (by norm_num) (by norm_num)
    exact this.trans (by norm_num)
  · refine lt_of_lt_of_le ?_ overflow32
    norm_num [abs_of_pos]
theorem recip_sq : Exactly (recip (int32 3) * recip (int32 3)) (14913082 * 2 ^ (-27 : ℤ)) := by
  refine exec_mul recip_three recip_three ?_ ?_
  · have := Fmt.rnd_lit binary32 (x := third32 * third32) (-4) (-27) 14913082 (by decide) (by norm_num [third32]) (by norm_num [third32])
      (by norm_num [third32]) (by norm_num [third32])
    exact this.trans (by norm_num)
  · refine lt_of_lt_of_le ?_ overflow32
    rw [abs_of_pos (by norm_num [third32])]
    norm_num [third32]

theorem exactly_beq {a b : F32} {x : ℝ} (h : (a == b) = true) (hb : Exactly b x) : Exactly a x :=
  ⟨(finite_num (num_of_beq h)).2 hb.1, (real_num (num_of_beq h)).trans hb.2⟩
theorem exactly_ne {a b : F32} {x y : ℝ} (ha : Exactly a x) (hb : Exactly b y) (h : x ≠ y) : (a == b) = false := by
  rw [Bool.eq_false_iff]
  intro e
  exact h (ha.2.symm.trans ((obeq_real ha.1 hb.1).1 e ▸ hb.2))
theorem one32 : Exactly (int32 1) 1 := ⟨trivial, by rw [real_int32]; norm_num⟩
noncomputable def q11 : Point2 F32 := ⟨int32 1, int32 1⟩
noncomputable def vhalf : Vector2 F32 := ⟨half24, half24⟩
theorem finite_q11 : AllFinite q11 := Point2.allFinite.2 ⟨trivial, trivial⟩
theorem finite_vhalf : AllFinite vhalf := Vector2.allFinite.2 ⟨trivial, trivial⟩
theorem moved_q11 : Exactly (Transform.transform (Transform2.translate vhalf) q11 : Point2 F32).x 1 ∧
    Exactly (Transform.transform (Transform2.translate vhalf) q11 : Point2 F32).y 1 := by
  have b := Point2.beq_iff.1 (C46_float_translate2 vhalf vhalf q11 finite_q11 finite_vhalf.noNaN finite_vhalf).1
  exact ⟨exactly_beq b.1 one_plus, exactly_beq b.2 one_plus⟩

/-- **C102** ends here: `translate(v).and_then(scale(s))` does not do to a point what the two do one after the other.
In `f32`, with `v = (2^-24, 2^-24)` and `s = 3`, the point `(1, 1)` goes to `3 + 2^-22` and to `3`. -/
theorem C102_shift_scale_false : ∃ (s : F32) (v : Vector2 F32) (p : Point2 F32), AllFinite v ∧ AllFinite p ∧ IsFinite s ∧
    real (Transform.transform ((Transform2.translate v).andThen (Transform2.scale s s)) p : Point2 F32).x = 3 + 2 ^ (-22 : ℤ) ∧
    real (Transform.transform (Transform2.scale s s) (Transform.transform (Transform2.translate v) p : Point2 F32) : Point2 F32).x = 3 := by
  refine ⟨int32 3, vhalf, q11, finite_vhalf, finite_q11, trivial, ?_, ?_⟩
  · have b := Point2.beq_iff.1 (C102_shift_scale2 (int32 3) (int32 3) finite_int32 finite_int32 vhalf finite_vhalf q11 finite_q11 three_half.1 three_half.1)
    exact (exactly_beq b.1 three_sum).2
  · have b := Point2.beq_iff.1 (C46_float_scale2 (int32 3) (int32 3) vhalf _ finite_int32 finite_int32
      (Point2.allFinite.2 ⟨moved_q11.1.1, moved_q11.2.1⟩) finite_vhalf).1
    exact (exactly_beq b.1 (three_times_one moved_q11.1)).2
/-- **C102** ends here: a chain of translations as one transform does not do to a point what the translations do one after
the other: the offsets are summed first. In `f32`, two steps of `2^-24` from 1 lead nowhere; composed, they lead to the
next number. -/
theorem C102_walk_false : ∃ (v : Vector2 F32) (p : Point2 F32), AllFinite v ∧ AllFinite p ∧
    real (Transform.transform ((Transform2.translate v).andThen (Transform2.translate v)) p : Point2 F32).x = 1 + 2 ^ (-23 : ℤ) ∧
    real (Transform.transform (Transform2.translate v) (Transform.transform (Transform2.translate v) p : Point2 F32) : Point2 F32).x = 1 := by
  refine ⟨vhalf, q11, finite_vhalf, finite_q11, ?_, ?_⟩
  · have e := (Transform2.beq_iff.1 (C102_translate2 vhalf vhalf finite_vhalf finite_vhalf)).1
    have fs : AllFinite (vhalf + vhalf) := Vector2.allFinite.2 ⟨twice_half.1, twice_half.1⟩
    have b := Point2.beq_iff.1 (C46_float_translate2 (vhalf + vhalf) vhalf q11 finite_q11 fs.noNaN finite_vhalf).1
    have c : num (Transform.transform ((Transform2.translate vhalf).andThen (Transform2.translate vhalf)) q11 : Point2 F32).x
        = num (Transform.transform (Transform2.translate (vhalf + vhalf)) q11 : Point2 F32).x := by
      rw [Matrix3x3.beq_iff, forall_lt_9] at e
      obtain ⟨e0, e1, e2, e3, e4, e5, e6, e7, e8⟩ := e
      have w : num (((Transform2.translate vhalf).andThen (Transform2.translate vhalf)).forward.m[6] * q11.x +
          ((Transform2.translate vhalf).andThen (Transform2.translate vhalf)).forward.m[7] * q11.y +
          ((Transform2.translate vhalf).andThen (Transform2.translate vhalf)).forward.m[8]) = num
          ((Transform2.translate (vhalf + vhalf)).forward.m[6] * q11.x + (Transform2.translate (vhalf + vhalf)).forward.m[7] * q11.y +
          (Transform2.translate (vhalf + vhalf)).forward.m[8]) :=
        num_add_congr (num_add_congr (num_mul_congr (num_of_beq e6) rfl) (num_mul_congr (num_of_beq e7) rfl)) (num_of_beq e8)
      refine num_div_congr (num_add_congr (num_add_congr (num_mul_congr (num_of_beq e0) rfl) (num_mul_congr (num_of_beq e1) rfl)) (num_of_beq e2)) w ?_
      rw [val_num, w]
      have h1 : num ((Transform2.translate (vhalf + vhalf)).forward.m[6] * q11.x + (Transform2.translate (vhalf + vhalf)).forward.m[7] * q11.y +
          (Transform2.translate (vhalf + vhalf)).forward.m[8]) = num (one : F32) := by
        show num (zero * q11.x + zero * q11.y + one) = num (one : F32)
        have f1 : IsFinite q11.x := trivial
        have f2 : IsFinite q11.y := trivial
        num_simp [f1, f2]
      rw [h1, ← val_num, val_one]; norm_num
    exact (real_num c).trans (exactly_beq b.1 one_plus_twice).2
  · have b := Point2.beq_iff.1 (C46_float_translate2 vhalf vhalf _ (Point2.allFinite.2 ⟨moved_q11.1.1, moved_q11.2.1⟩) finite_vhalf.noNaN finite_vhalf).1
    have := exec_add moved_q11.1 exactly_half24 (z := 1)
      ((Fmt.rnd_lit_even binary32 (x := 1 + 2 ^ (-24 : ℤ)) 0 (-23) 8388608 (by decide) (by decide) (by norm_num) (by norm_num) (by norm_num) (by norm_num)).trans (by norm_num))
      (lt_of_lt_of_le (by norm_num [abs_of_pos]) overflow32)
    exact (exactly_beq b.1 this).2
/-- **C102** ends here: two scalings by 3 are not `scale(9)`: their inverses differ in the last bit of `f32`. -/
theorem C102_scale_false : ((((Transform2.scale (int32 3) (int32 3)).andThen (Transform2.scale (int32 3) (int32 3))) : Transform2 F32)
    == Transform2.scale (int32 3 * int32 3) (int32 3 * int32 3)) = false := by
  rw [Bool.eq_false_iff]
  intro h
  have r3 := recip_three.1
  have e := (C102_scale2 (int32 3) (int32 3) (int32 3) (int32 3) finite_int32 finite_int32 finite_int32 finite_int32).2 r3 r3 r3 r3
  have h2 := (Transform2.beq_iff.1 h).2
  rw [Matrix3x3.beq_iff, forall_lt_9] at e h2
  have a := exactly_beq e.1 recip_sq
  have := (obeq_real a.1 recip_nine.1).1 h2.1
  rw [a.2, recip_nine.2] at this
  norm_num at this

/-! Concrete instances. -/
example := C102_translate2 v34 vhalf finite_v34 finite_vhalf
example := C102_translations2 [v34, v34] (by simp [finite_v34])
  (by
    intro us h
    have f1 : AllFinite (Vector2.addAssign Vector2.zero v34) := by
      exact Vector2.allFinite.2 ⟨(add_zero_left (b := (zero : F32)) (a := int32 3) finite_int32 ⟨finite_zero, real_zero⟩).1,
        (add_zero_left (b := (zero : F32)) (a := int32 4) finite_int32 ⟨finite_zero, real_zero⟩).1⟩
    have g (n : ℤ) (hn : |n| ≤ 16777216) (hk : |n| ≤ 100) : IsFinite ((zero : F32) + int32 n hn + int32 n hn) := by
      have z := add_zero_left (b := (zero : F32)) (a := int32 n hn) finite_int32 ⟨finite_zero, real_zero⟩
      refine (correct_add z.1 (finite_int32 (h := hn))).1.2 ?_
      rw [z.2, real_int32]
      refine lt_of_lt_of_le ?_ overflow32
      have := abs_add_le (n : ℝ) n
      have h : |(n : ℝ)| ≤ 100 := by exact_mod_cast hk
      linarith
    obtain ⟨k, e⟩ := h
    rcases us with _ | ⟨a, _ | ⟨b, _ | ⟨c, us⟩⟩⟩
    · exact Vector2.allFinite.2 ⟨finite_zero, finite_zero⟩
    · simp only [List.cons_append, List.cons.injEq] at e
      rw [e.1]; exact f1
    · simp only [List.cons_append, List.cons.injEq] at e
      rw [e.1, e.2.1]
      exact Vector2.allFinite.2 ⟨g 3 (by norm_num) (by norm_num), g 4 (by norm_num) (by norm_num)⟩
    · simp at e)
example := C102_place2 (int32 3) (int32 2) finite_int32 finite_int32 v34 finite_v34 p45 finite_p45
example := C102_unit2 (Transform2.translate v34) finite_translate34

end VecMath
