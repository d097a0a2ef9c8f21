import Verif.Props.FloatCells
import Verif.Props.FloatExamples2
import Verif.Props.FloatWitness
import Verif.Lemmas.Exec
import Verif.Lemmas.Near
/-!
# Length and components, uniform grids: exact arithmetic, exceptions and concrete cases (C98, C99)
-/

open Classical

namespace VecMath
open Scalar IEEE

/-! ## C98 -/

section
open Fl
variable {F : Fmt}
/-- **C98**, exception: where the squares underflow, a component can exceed the length. In every binary format the vector
`(t, 0)` with `t` the smallest positive number has the length zero. -/
theorem C98_underflow2 : ∃ v : Vector2 (Fl F), AllFinite v ∧ (Api.length v == zero) = true ∧
    (Scalar.abs (v.index .X) ≤? Api.length v) = false := by
  have ff : AllFinite (⟨small F, zero⟩ : Vector2 (Fl F)) := by rw [Vector2.allFinite]; exact ⟨trivial, trivial⟩
  have h := (C13_float_tiny2 (⟨small F, zero⟩ : Vector2 (Fl F)) ff small_sq (by simpa [real_zero] using tiny_pos)).1
  refine ⟨_, ff, h, ?_⟩
  rw [Bool.eq_false_iff]
  intro hc
  obtain ⟨fz, rz⟩ := isZero_iff.2 h
  have hc' := (le_iff_real (show IsFinite (Scalar.abs (small F)) from finite_abs.2 finite_small) fz).1 hc
  rw [rz, real_abs] at hc'
  exact absurd hc' (not_le.2 (abs_pos.2 real_small_pos.ne'))
/-- **C98**, exception, 3D. -/
theorem C98_underflow3 : ∃ v : Vector3 (Fl F), AllFinite v ∧ (Api.length v == zero) = true ∧
    (Scalar.abs (v.index .X) ≤? Api.length v) = false := by
  have ff : AllFinite (⟨small F, zero, zero⟩ : Vector3 (Fl F)) := by rw [Vector3.allFinite]; exact ⟨trivial, trivial, trivial⟩
  have h := (C13_float_tiny3 (⟨small F, zero, zero⟩ : Vector3 (Fl F)) ff small_sq (by simpa [real_zero] using tiny_pos)
    (by simpa [real_zero] using tiny_pos)).1
  refine ⟨_, ff, h, ?_⟩
  rw [Bool.eq_false_iff]
  intro hc
  obtain ⟨fz, rz⟩ := isZero_iff.2 h
  have hc' := (le_iff_real (show IsFinite (Scalar.abs (small F)) from finite_abs.2 finite_small) fz).1 hc
  rw [rz, real_abs] at hc'
  exact absurd hc' (not_le.2 (abs_pos.2 real_small_pos.ne'))
end

theorem zero_int32 : IsZero (int32 0 : F32) := ⟨trivial, by rw [real_int32]; norm_num⟩
theorem int_normal {n : ℤ} {h} (h0 : n ≠ 0) : minNormal F32 ≤ real (int32 n h) ^ 2 := by
  refine (one_normal (S := F32)).trans ?_
  rw [real_int32]
  have : 1 ≤ |n| := Int.one_le_abs h0
  have : (1 : ℝ) ≤ |(n : ℝ)| := by exact_mod_cast this
  nlinarith [abs_nonneg (n : ℝ), sq_abs (n : ℝ)]
/-- `(-3, 0)` has the length 3, `(0, 0, 16777215)` has the length 16777215, though their squares are rounded -/
example := C98_axis2 (⟨int32 (-3), int32 0⟩ : Vector2 F32) .X trivial
  (by intro e he; cases e; exacts [absurd rfl he, isZero_iff.1 zero_int32])
  (.inr ((int_normal (by norm_num) : minNormal F32 ≤ real (int32 (-3)) ^ 2).trans (le_abs_self _)))
  ((show real (int32 (-3)) ^ 2 ≤ 1000000 by rw [real_int32]; norm_num).trans_lt (by
    have := overflow32; show (1000000 : ℝ) < 2 ^ (128 : ℤ) - 2 ^ ((128 : ℤ) - (24 : ℕ) - 1); norm_num))
example := C98_axis3 (⟨int32 0, int32 0, int32 16777215⟩ : Vector3 F32) .Z trivial
  (by
    have z : (int32 0 == (zero : F32)) = true := isZero_iff.1 zero_int32
    intro e he; cases e; exacts [z, z, absurd rfl he])
  (.inr ((int_normal (by norm_num) : minNormal F32 ≤ real (int32 16777215) ^ 2).trans (le_abs_self _)))
  ((show real (int32 16777215) ^ 2 ≤ 281474943156225 by rw [real_int32]; norm_num).trans_lt (by
    show (281474943156225 : ℝ) < 2 ^ (128 : ℤ) - 2 ^ ((128 : ℤ) - (24 : ℕ) - 1); norm_num))
example := C98_component2 v34 finite_v34 .X (int_normal (by norm_num) : minNormal F32 ≤ real (int32 3) ^ 2) .Y
example := C98_normalize3 v236 finite_v236 .X (int_normal (by norm_num) : minNormal F32 ≤ real (int32 2) ^ 2) .Z
/-- a case with an overflow: the length of `(2^127, 0)` is infinite and exceeds the component -/
example := C98_component2 (⟨Fl.big binary32, zero⟩ : Vector2 F32) (Vector2.allFinite.2 ⟨Fl.finite_big, finite_zero⟩) .X
  (by
    refine (one_normal (S := F32)).trans ?_
    show (1 : ℝ) ≤ real (Fl.big binary32) ^ 2
    rw [Fl.real_big]
    show (1 : ℝ) ≤ (2 ^ ((128 : ℤ) - 1)) ^ 2
    norm_num) .Y

/-! ## C99 -/

theorem real_floorOf {S : Type} [Scalar S] [IEEE S] {x : S} (h : IsFinite x) :
    IsFinite (Scalar.floor x) ∧ real (Scalar.floor x) = ⌊real x⌋ := by
  obtain ⟨h1, k, h2, h3, h4⟩ := (floorOf x).2.2 h
  refine ⟨h1, h2.trans ?_⟩
  congr 1
  exact le_antisymm (Int.le_floor.2 h3) (h4 _ (Int.floor_le _))

section
variable {x y s : Ideal}
theorem cell_ideal (hx : IsFinite x) (hs : IsFinite s) (s0 : 0 < real s) :
    IsFinite (Scalar.floor (x / s)) ∧ ∃ k : ℤ, real (Scalar.floor (x / s)) = k ∧ k * real s ≤ real x ∧ real x < (k + 1) * real s := by
  have hd := Ideal.finite_div hx hs s0.ne'
  obtain ⟨h1, h2⟩ := real_floorOf hd
  refine ⟨h1, _, h2, ?_, ?_⟩
  · rw [Ideal.real_div hx hs s0.ne', ← le_div_iff₀ s0]; exact Int.floor_le _
  · rw [Ideal.real_div hx hs s0.ne', ← div_lt_iff₀ s0]; exact Int.lt_floor_add_one _
end
/-- **C99**, 2D, exact arithmetic: the cell of a point is the cell it is in. -/
theorem C99_real2 (p : Point2 Ideal) (s : Ideal) (hp : AllFinite p) (hs : IsFinite s) (h0 : (zero <? s) = true) (d : Dimension2) :
    IsFinite ((p.cell s).index d) ∧ ∃ k : ℤ, real ((p.cell s).index d) = k ∧ k * real s ≤ real (p.index d) ∧
      real (p.index d) < (k + 1) * real s := by
  rw [Point2.allFinite] at hp
  cases d
  exacts [cell_ideal hp.1 hs (pos_real hs h0), cell_ideal hp.2 hs (pos_real hs h0)]
/-- **C99**, 3D, exact arithmetic: the cell of a point is the cell it is in. -/
theorem C99_real3 (p : Point3 Ideal) (s : Ideal) (hp : AllFinite p) (hs : IsFinite s) (h0 : (zero <? s) = true) (d : Dimension3) :
    IsFinite ((p.cell s).index d) ∧ ∃ k : ℤ, real ((p.cell s).index d) = k ∧ k * real s ≤ real (p.index d) ∧
      real (p.index d) < (k + 1) * real s := by
  rw [Point3.allFinite] at hp
  cases d
  exacts [cell_ideal hp.1 hs (pos_real hs h0), cell_ideal hp.2.1 hs (pos_real hs h0), cell_ideal hp.2.2 hs (pos_real hs h0)]

/-- `25165826`, one less than three cells of size `8388609` -/
noncomputable def high32 : F32 := Fl.of (F := binary32) 25165826 ⟨12582913, 1, by decide, by decide, by norm_num⟩ (by
  show |(25165826 : ℝ)| < 2 ^ (128 : ℤ); norm_num)
theorem limit32 : cellLimit F32 = 8388608 := by
  show (2 : ℝ) ^ ((24 : ℕ) - 1) = _; norm_num
theorem high_quotient : Exactly (high32 / int32 8388609) 3 := by
  refine exec_div (x := 25165826) (y := 8388609) ⟨trivial, rfl⟩ ⟨trivial, by rw [real_int32]; norm_num⟩ (by norm_num) ?_ ?_
  · have := Fmt.rnd_lit binary32 (x := 25165826 / 8388609) 1 (-22) 12582912 (by decide) (by norm_num) (by norm_num) (by norm_num) (by norm_num)
    exact this.trans (by norm_num)
  · refine lt_of_lt_of_le ?_ overflow32
    norm_num [abs_of_pos]
/-- **C99**, exception: the quotient can be rounded up to the next integer. In `f32`, `(25165826, …)` is in the cell 2 of
a grid of cell size 8388609, but `(p / s).floor()` says 3. -/
theorem C99_high : ∃ (p : Point2 F32) (s : F32), AllFinite p ∧ IsFinite s ∧ (∀ d, |real (p.index d)| < cellLimit F32 * real s) ∧
    real (p.cell s).x = 3 ∧ 2 * real s ≤ real p.x ∧ real p.x < 3 * real s := by
  refine ⟨⟨high32, high32⟩, int32 8388609, Point2.allFinite.2 ⟨trivial, trivial⟩, trivial, ?_, ?_, ?_, ?_⟩
  · intro d
    have : |real high32| < cellLimit F32 * real (int32 8388609) := by
      rw [limit32, real_int32]; show |(25165826 : ℝ)| < _; norm_num [abs_of_pos]
    cases d
    exacts [this, this]
  · show real (Scalar.floor (high32 / int32 8388609)) = 3
    rw [(real_floorOf high_quotient.1).2, high_quotient.2]; norm_num
  · rw [real_int32]; show _ ≤ (25165826 : ℝ); norm_num
  · rw [real_int32]; show (25165826 : ℝ) < _; norm_num

/-- `-2^-30` -/
noncomputable def below32 : F32 := Fl.of (F := binary32) (-(2 ^ (-30 : ℤ))) ⟨-1, -30, by decide, by decide, by norm_num⟩ (by
  show |(-(2 ^ (-30 : ℤ)) : ℝ)| < 2 ^ (128 : ℤ); norm_num [abs_of_pos])
theorem real_below : real below32 = -(2 ^ (-30 : ℤ)) := rfl
theorem below_diff : Exactly (int32 1 - below32) 1 := by
  refine exec_sub (x := 1) (y := -(2 ^ (-30 : ℤ))) ⟨trivial, by rw [real_int32]; norm_num⟩ ⟨trivial, rfl⟩ ?_ ?_
  · have := Fmt.rnd_lit binary32 (x := 1 - -(2 ^ (-30 : ℤ))) 0 (-23) 8388608 (by decide) (by norm_num) (by norm_num) (by norm_num) (by norm_num)
    exact this.trans (by norm_num)
  · refine lt_of_lt_of_le ?_ overflow32
    norm_num [abs_of_pos]
theorem below_quotient : Exactly (below32 / int32 1) (-(2 ^ (-30 : ℤ))) := by
  have e : (-(2 ^ (-30 : ℤ)) / 1 : ℝ) = real below32 := by rw [real_below, div_one]
  refine exec_div (x := -(2 ^ (-30 : ℤ))) (y := 1) ⟨trivial, rfl⟩ ⟨trivial, by rw [real_int32]; norm_num⟩ (by norm_num) ?_ ?_
  · rw [e]; exact (Binary.F F32).rnd_of_has (isFinite_has (a := below32) trivial)
  · refine lt_of_lt_of_le ?_ overflow32
    norm_num [abs_of_pos]
/-- **C99**, exception: two points whose computed distance is the cell size can be two cells apart: in `f32` the distance
of `(-2^-30, 0)` and `(1, 0)` is computed as 1, but they are in the cells -1 and 1 of the grid of cell size 1. -/
theorem C99_touching : ∃ (p q : Point2 F32), AllFinite p ∧ AllFinite q ∧
    (Api.distance p q == (int32 1 : F32)) = true ∧ real (p.cell (int32 1)).x = -1 ∧ real (q.cell (int32 1)).x = 1 := by
  refine ⟨⟨below32, int32 0⟩, ⟨int32 1, int32 0⟩, Point2.allFinite.2 ⟨trivial, trivial⟩, Point2.allFinite.2 ⟨trivial, trivial⟩, ?_, ?_, ?_⟩
  · have h := C98_axis_distance2 (⟨below32, int32 0⟩ : Point2 F32) ⟨int32 1, int32 0⟩ .X below_diff.1
      (by
        intro e he
        cases e
        · exact absurd rfl he
        · exact isZero_iff.1 (zero_int32.sub zero_int32))
      (by
        show Normal F32 (real (int32 1 - below32) ^ 2)
        rw [below_diff.2]; exact normal_int_of 1 (by norm_num))
      (by
        show real (int32 1 - below32) ^ 2 < _
        rw [below_diff.2]; exact lt_of_lt_of_le (by norm_num) overflow32)
    obtain ⟨h1, h2, h3⟩ := beq_iff.1 h
    refine beq_iff.2 ⟨h1, finite_int32.not_nan, h3.trans ?_⟩
    have fa : IsFinite (Scalar.abs (int32 1 - below32)) := finite_abs.2 below_diff.1
    show val (Scalar.abs (int32 1 - below32)) = _
    rw [fa.val, finite_int32.val, real_abs, below_diff.2, real_int32]
    norm_num
  · show real (Scalar.floor (below32 / int32 1)) = -1
    rw [(real_floorOf below_quotient.1).2, below_quotient.2]
    have : ⌊(-(2 ^ (-30 : ℤ)) : ℝ)⌋ = -1 := Int.floor_eq_iff.2 ⟨by norm_num, by norm_num⟩
    rw [this]; norm_num
  · show real (Scalar.floor (int32 1 / int32 1)) = 1
    have q : Exactly (int32 1 / int32 1) 1 := by
      refine exec_div (x := 1) (y := 1) ⟨trivial, by rw [real_int32]; norm_num⟩ ⟨trivial, by rw [real_int32]; norm_num⟩ (by norm_num) ?_
        (lt_of_lt_of_le (by norm_num) overflow32)
      have e : (1 / 1 : ℝ) = real (int32 1) := by rw [real_int32]; norm_num
      rw [e, (Binary.F F32).rnd_of_has (isFinite_has finite_int32), real_int32]; norm_num
    rw [(real_floorOf q.1).2, q.2]; norm_num

/-! ### concrete cases -/
theorem pos_int32 {n : ℤ} {h} (h0 : 0 < n) : ((zero : F32) <? int32 n h) = true := by
  rw [lt_iff, finite_zero.val, finite_int32.val, real_zero, real_int32]
  exact ⟨finite_zero.not_nan, finite_int32.not_nan, by exact_mod_cast h0⟩
theorem limit_int32 {n m : ℤ} {h h'} (hn : |n| < 8388608) (hm : 1 ≤ m) : |real (int32 n h)| < cellLimit F32 * real (int32 m h') := by
  rw [limit32, real_int32, real_int32]
  have a : |(n : ℝ)| < 8388608 := by exact_mod_cast hn
  have b : (1 : ℝ) ≤ m := by exact_mod_cast hm
  nlinarith
/-- grids of cell size 10 and 4, the points `(25, -7)` and `(31, -1)` -/
noncomputable def pa : Point2 F32 := ⟨int32 25, int32 (-7)⟩
noncomputable def pb : Point2 F32 := ⟨int32 31, int32 (-1)⟩
theorem finite_pa : AllFinite pa := Point2.allFinite.2 ⟨trivial, trivial⟩
theorem finite_pb : AllFinite pb := Point2.allFinite.2 ⟨trivial, trivial⟩
theorem lim_pa {m : ℤ} {h'} (hm : 1 ≤ m) (d : Dimension2) : |real (pa.index d)| < cellLimit F32 * real (int32 m h') := by
  cases d
  exacts [limit_int32 (n := 25) (h := by norm_num) (by norm_num) hm, limit_int32 (n := -7) (h := by norm_num) (by norm_num) hm]
theorem lim_pb {m : ℤ} {h'} (hm : 1 ≤ m) (d : Dimension2) : |real (pb.index d)| < cellLimit F32 * real (int32 m h') := by
  cases d
  exacts [limit_int32 (n := 31) (h := by norm_num) (by norm_num) hm, limit_int32 (n := -1) (h := by norm_num) (by norm_num) hm]
example := C99_order2 pa pb (int32 10) finite_int32 (pos_int32 (by norm_num))
  (Point2.leAll.2 ⟨int32_le (by norm_num), int32_le (by norm_num)⟩)
example := C99_where2 pa (int32 10) finite_pa finite_int32 (pos_int32 (by norm_num)) .Y (lim_pa (by norm_num) .Y)
example := C99_exact2 pa (int32 4) 2 finite_pa finite_int32 (by rw [real_int32]; norm_num) .X (lim_pa (by norm_num) .X)
  (.inl (by show 0 ≤ real (int32 25); rw [real_int32]; norm_num))
example := C99_neighbours2 pa pb (int32 10) finite_pa finite_pb finite_int32 (pos_int32 (by norm_num)) (lim_pa (by norm_num))
  (lim_pb (by norm_num)) (by
    intro d
    cases d
    · show |real (int32 25) - real (int32 31)| ≤ _; rw [real_int32, real_int32, real_int32]; norm_num [abs_le]
    · show |real (int32 (-7)) - real (int32 (-1))| ≤ _; rw [real_int32, real_int32, real_int32]; norm_num [abs_le])
/-- `(25, -7)` and `(25, -1)` are at the distance 6 -/
theorem dist_six : (Api.distance pa (⟨int32 25, int32 (-1)⟩ : Point2 F32) <? int32 10) = true := by
  have d6 : Exactly (int32 (-1) - int32 (-7)) 6 := by
    refine exec_sub (x := -1) (y := -7) ⟨trivial, by rw [real_int32]; norm_num⟩ ⟨trivial, by rw [real_int32]; norm_num⟩ ?_
      (lt_of_lt_of_le (by norm_num [abs_of_pos]) overflow32)
    have e : (-1 - -7 : ℝ) = real (int32 6) := by rw [real_int32]; norm_num
    rw [e, (Binary.F F32).rnd_of_has (isFinite_has finite_int32), real_int32]; norm_num
  have d0 : IsZero (int32 25 - int32 25 : F32) := by
    refine ⟨?_, ?_⟩
    · rw [(correct_sub finite_int32 finite_int32).1]; exact lt_of_lt_of_le (by norm_num) overflow32
    · rw [real_sub]
      · rw [rnd_eq, sub_self]; exact (Binary.F F32).rnd_zero
      · rw [(correct_sub finite_int32 finite_int32).1]; exact lt_of_lt_of_le (by norm_num) overflow32
  have h := C98_axis_distance2 pa (⟨int32 25, int32 (-1)⟩ : Point2 F32) .Y d6.1
    (by intro e he; cases e; exacts [isZero_iff.1 d0, absurd rfl he])
    (by
      show Normal F32 (real (int32 (-1) - int32 (-7)) ^ 2)
      rw [d6.2]; exact normal_int_of 36 (by norm_num))
    (by
      show real (int32 (-1) - int32 (-7)) ^ 2 < _
      rw [d6.2]; exact lt_of_lt_of_le (by norm_num) overflow32)
  obtain ⟨h1, h2, h3⟩ := beq_iff.1 h
  refine lt_iff.2 ⟨h1, finite_int32.not_nan, ?_⟩
  rw [h3]
  have fa : IsFinite (Scalar.abs (int32 (-1) - int32 (-7) : F32)) := finite_abs.2 d6.1
  show val (Scalar.abs (int32 (-1) - int32 (-7) : F32)) < _
  rw [fa.val, finite_int32.val, real_abs, d6.2, real_int32]
  norm_num [abs_of_pos]
example := C99_within2 pa ⟨int32 25, int32 (-1)⟩ (int32 10) finite_pa (Point2.allFinite.2 ⟨trivial, trivial⟩) finite_int32
  (pos_int32 (by norm_num)) (int_normal (by norm_num)) (lim_pa (by norm_num))
  (by intro d; cases d; exacts [limit_int32 (n := 25) (h := by norm_num) (by norm_num) (by norm_num), limit_int32 (n := -1) (h := by norm_num) (by norm_num) (by norm_num)])
  dist_six
/-- the cube from `(1, 1, 1)` to `(3, 3, 3)` and its minimum corner -/
example := C99_query3 (⟨⟨int32 1, int32 1, int32 1⟩, ⟨int32 3, int32 3, int32 3⟩⟩ : BoundingBox3 F32) ⟨int32 2, int32 2, int32 2⟩ (int32 10) finite_int32 (pos_int32 (by norm_num))
  (by rw [isInside3_iff]; refine ⟨⟨?_, ?_⟩, ⟨?_, ?_⟩, ?_, ?_⟩ <;> exact int32_le (by norm_num))
end VecMath
