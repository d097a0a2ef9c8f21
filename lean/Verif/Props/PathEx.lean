import Verif.Props.FloatPath
import Verif.Props.RealPath
import Verif.Props.EncloseEx
/-! # C122: the hypotheses are met; the computed length of a path can be less than the distance of its ends, and depends on the direction

(Generated by tools/gen.) -/

namespace VecMath
open Scalar IEEE

theorem tie24' : (Binary.F F32).rnd (((16777216 : ℤ) : ℝ) + ((1 : ℤ) : ℝ)) = ((16777216 : ℤ) : ℝ) := by
  have e : ((16777216 : ℤ) : ℝ) + ((1 : ℤ) : ℝ) = ((16777216 : ℤ) : ℝ) - ((-1 : ℤ) : ℝ) := by norm_num
  rw [e]; exact tie24
theorem zero_plus {x : F32} {a : ℤ} (h : Exactly x (a : ℝ)) : Exactly (zero + x) (a : ℝ) :=
  ⟨(finite_num (num_zero_add x)).2 h.1, (real_num (num_zero_add x)).trans h.2⟩
theorem lose_one {x y : F32} (hx : Exactly x ((16777216 : ℤ) : ℝ)) (hy : Exactly y ((1 : ℤ) : ℝ)) : Exactly (x + y) ((16777216 : ℤ) : ℝ) := by
  refine exec_add hx hy tie24' (big32' ?_)
  rw [abs_of_pos] <;> norm_num
theorem keep_two {x y : F32} (hx : Exactly x ((2 : ℤ) : ℝ)) (hy : Exactly y ((16777216 : ℤ) : ℝ)) : Exactly (x + y) ((16777218 : ℤ) : ℝ) := by
  refine exec_add hx hy ?_ (big32' ?_)
  · have := Fmt.rnd_lit binary32 (x := ((2 : ℤ) : ℝ) + ((16777216 : ℤ) : ℝ)) 24 1 8388609 (by decide) (by norm_num) (by norm_num) (by norm_num) (by norm_num)
    exact this.trans (by norm_num)
  · rw [abs_of_pos] <;> norm_num
theorem keep_two' {x y : F32} (hx : Exactly x ((16777216 : ℤ) : ℝ)) (hy : Exactly y ((2 : ℤ) : ℝ)) : Exactly (x + y) ((16777218 : ℤ) : ℝ) := by
  refine exec_add hx hy ?_ (big32' ?_)
  · have := Fmt.rnd_lit binary32 (x := ((16777216 : ℤ) : ℝ) + ((2 : ℤ) : ℝ)) 24 1 8388609 (by decide) (by norm_num) (by norm_num) (by norm_num) (by norm_num)
    exact this.trans (by norm_num)
  · rw [abs_of_pos] <;> norm_num

/-! ## Dimension 2 -/
theorem legA2 : Exactly (Api.distance (⟨int32 (-16777216), int32 0⟩ : Point2 F32) (⟨int32 (0), int32 0⟩ : Point2 F32)) ((16777216 : ℤ) : ℝ) :=
  axis_dist2 (ex_int (int_sub32' (exi (n := 0)) (exi (n := -16777216)) (by norm_num)) (by norm_num)) zero_gap (by norm_num) (by norm_num)
theorem legB2 : Exactly (Api.distance (⟨int32 (0), int32 0⟩ : Point2 F32) (⟨int32 (1), int32 0⟩ : Point2 F32)) ((1 : ℤ) : ℝ) :=
  axis_dist2 (ex_int (int_sub32' (exi (n := 1)) (exi (n := 0)) (by norm_num)) (by norm_num)) zero_gap (by norm_num) (by norm_num)
theorem legC2 : Exactly (Api.distance (⟨int32 (1), int32 0⟩ : Point2 F32) (⟨int32 (2), int32 0⟩ : Point2 F32)) ((1 : ℤ) : ℝ) :=
  axis_dist2 (ex_int (int_sub32' (exi (n := 2)) (exi (n := 1)) (by norm_num)) (by norm_num)) zero_gap (by norm_num) (by norm_num)
theorem legAll2 : Exactly (Api.distance (⟨int32 (-16777216), int32 0⟩ : Point2 F32) (⟨int32 (2), int32 0⟩ : Point2 F32)) ((16777218 : ℤ) : ℝ) := by
  refine axis_dist2 (ex_int (wide_sub (exi (n := 2)) (exi (n := -16777216)) (m := 8388609) (e := 1) (by norm_num) (by norm_num) ?_) (by norm_num)) zero_gap (by norm_num) (by norm_num)
  rw [abs_of_pos] <;> norm_num
theorem distBack2 {p q : Point2 F32} {a : ℝ} (h : Exactly (Api.distance p q) a) : Exactly (Api.distance q p) a := by
  have s := C15_float_symmetric2 q p
  exact exactly_beq (s.beq (mt s.isNaN.1 h.1.not_nan)) h
noncomputable def path2 : List (Point2 F32) := [(⟨int32 (-16777216), int32 0⟩ : Point2 F32), (⟨int32 (0), int32 0⟩ : Point2 F32), (⟨int32 (1), int32 0⟩ : Point2 F32), (⟨int32 (2), int32 0⟩ : Point2 F32)]
theorem path2_fin : ∀ p ∈ path2, AllFinite p := by
  simp only [path2, List.forall_mem_cons, List.not_mem_nil, IsEmpty.forall_iff, implies_true, and_true, Point2.allFinite]
  exact ⟨⟨trivial, trivial⟩, ⟨trivial, trivial⟩, ⟨trivial, trivial⟩, trivial, trivial⟩
theorem path2_length : Exactly (Point2.pathLength path2) ((16777216 : ℤ) : ℝ) :=
  lose_one (lose_one (zero_plus legA2) legB2) legC2
theorem pathBack2 : Exactly (Point2.pathLength path2.reverse) ((16777218 : ℤ) : ℝ) :=
  keep_two (ex_int (int_add32' (zero_plus (distBack2 legC2)) (distBack2 legB2) (by norm_num)) (by norm_num)) (distBack2 legA2)
/-- **C122**, where it fails in floating point: the computed length of a path can be less than the computed distance of its ends. In `f32`, for the path
along the first axis through `-2^24`, `0`, `1` and `2` the two legs of length 1 are lost one after the other. -/
theorem C122_shorter2 : ∃ (p q : Point2 F32) (ps : List (Point2 F32)), (∀ r ∈ p :: (ps ++ [q]), AllFinite r) ∧
    (Point2.pathLength (p :: (ps ++ [q])) <? Api.distance p q) = true :=
  ⟨(⟨int32 (-16777216), int32 0⟩ : Point2 F32), (⟨int32 (2), int32 0⟩ : Point2 F32), [(⟨int32 (0), int32 0⟩ : Point2 F32), (⟨int32 (1), int32 0⟩ : Point2 F32)], path2_fin, lt_exact path2_length legAll2 (by norm_num)⟩
/-- **C122**, where it fails in floating point: the computed length of a path depends on the direction in which it is walked. -/
theorem C122_back_differs2 : ∃ ps : List (Point2 F32), (∀ r ∈ ps, AllFinite r) ∧ (Point2.pathLength ps <? Point2.pathLength ps.reverse) = true :=
  ⟨path2, path2_fin, lt_exact path2_length pathBack2 (by norm_num)⟩
/-- **C122**, where it fails in floating point: a detour can make the computed length of a path smaller. -/
theorem C122_detour2 : ∃ (as bs : List (Point2 F32)) (q : Point2 F32), (∀ r ∈ as ++ q :: bs, AllFinite r) ∧
    (Point2.pathLength (as ++ q :: bs) <? Point2.pathLength (as ++ bs)) = true := by
  have l : Exactly (Api.distance (⟨int32 (0), int32 0⟩ : Point2 F32) (⟨int32 (2), int32 0⟩ : Point2 F32)) ((2 : ℤ) : ℝ) :=
    axis_dist2 (ex_int (int_sub32' (exi (n := 2)) (exi (n := 0)) (by norm_num)) (by norm_num)) zero_gap (by norm_num) (by norm_num)
  refine ⟨[(⟨int32 (-16777216), int32 0⟩ : Point2 F32), (⟨int32 (0), int32 0⟩ : Point2 F32)], [(⟨int32 (2), int32 0⟩ : Point2 F32)], (⟨int32 (1), int32 0⟩ : Point2 F32), path2_fin, lt_exact path2_length (b := 16777218) ?_ (by norm_num)⟩
  exact keep_two' (zero_plus legA2) l

/-! ### The hypotheses are met -/
example : (Api.distance (⟨int32 (-16777216), int32 0⟩ : Point2 F32) (⟨int32 (0), int32 0⟩ : Point2 F32) ≤? Point2.pathLength path2) = true :=
  (C122_grow2 path2 [] (by rw [List.append_nil]; exact path2_fin)).2.2.1 _ (by simp [path2, legs])
example : (Point2.pathLength (path2.take 2) ≤? Point2.pathLength path2) = true := by
  have := (C122_grow2 (path2.take 2) (path2.drop 2) (by rw [List.take_append_drop]; exact path2_fin)).2.2.2
  rwa [List.take_append_drop] at this
theorem path2_normal : ∀ u ∈ legs Point2.NoUnderflow path2, u := by
  have z : Exactly (int32 0 - int32 0 : F32) ((0 : ℤ) : ℝ) := ex_int (int_sub32' exi exi (by norm_num)) (by norm_num)
  have s : ∀ {a b : ℤ} (ha : |a| ≤ 16777216) (hb : |b| ≤ 16777216) (h : |b - a| ≤ 16777216), (⟨int32 a ha, int32 0⟩ : Point2 F32).NoUnderflow (⟨int32 b hb, int32 0⟩ : Point2 F32) :=
    fun ha hb h => ⟨sq_normal (int_sub32' (exi hb) (exi ha) h), sq_normal z⟩
  simp only [path2, legs, List.tail_cons, List.zipWith_cons_cons, List.zipWith_nil_right, List.forall_mem_cons, List.not_mem_nil, IsEmpty.forall_iff, implies_true, and_true]
  exact ⟨s _ _ (by norm_num), s _ _ (by norm_num), s _ _ (by norm_num)⟩
example : Within F32 6 (real (Point2.pathLength path2)) (legs (fun p q => euclid p.toReal q.toReal) path2).sum :=
  C122_error2 path2 path2_length.1 path2_normal
example : (1 - uro F32) ^ 6 * real (Api.distance (⟨int32 (-16777216), int32 0⟩ : Point2 F32) (⟨int32 (2), int32 0⟩ : Point2 F32) : F32) ≤ (1 + uro F32) ^ 3 * real (Point2.pathLength path2) :=
  C122_float_direct2 (⟨int32 (-16777216), int32 0⟩ : Point2 F32) (⟨int32 (2), int32 0⟩ : Point2 F32) [(⟨int32 (0), int32 0⟩ : Point2 F32), (⟨int32 (1), int32 0⟩ : Point2 F32)] path2_length.1 legAll2.1 path2_normal ⟨by
    refine sq_normal (ex_int (wide_sub (exi (n := 2)) (exi (n := -16777216)) (m := 8388609) (e := 1) (by norm_num) (by norm_num) ?_) (b := 16777218) (by norm_num))
    rw [abs_of_pos] <;> norm_num, sq_normal (int_sub32' (exi (n := 0)) (exi (n := 0)) (by norm_num))⟩
/-- Three points: the lengths of the legs are 1 and 1. -/
example : Exactly (Point2.pathLength (path2.tail)) 2 := by
  have := C122_exact2 (e := 0) (N := 16777216) (⟨show (-149 : ℤ) ≤ 0 by norm_num, show 16777216 ≤ 2 ^ 24 by norm_num, show (0 : ℤ) + (24 : ℕ) < 128 by norm_num⟩ : Fits F32 0 16777216)
    path2.tail (fun p hp => path2_fin p (List.mem_of_mem_tail hp)) (by
      simp only [path2, legs, List.tail_cons, List.zipWith_cons_cons, List.zipWith_nil_right, List.forall_mem_cons, List.not_mem_nil, IsEmpty.forall_iff, implies_true, and_true]
      exact ⟨⟨legB2.1, 1, 1, by norm_num, by rw [legB2.2]; norm_num⟩, legC2.1, 1, 1, by norm_num, by rw [legC2.2]; norm_num⟩)
    (by simp [path2, legs, legB2.2, legC2.2]; norm_num)
  have e : ((legs (Api.distance : Point2 F32 → Point2 F32 → F32) path2.tail).map real).sum = 2 := by
    simp [path2, legs, legB2.2, legC2.2]; norm_num
  rwa [e] at this
example : (Api.distance (⟨Ideal.of 0, Ideal.of 0⟩ : Point2 Ideal) (⟨Ideal.of 3, Ideal.of 0⟩ : Point2 Ideal) ≤? Point2.pathLength [(⟨Ideal.of 0, Ideal.of 0⟩ : Point2 Ideal), (⟨Ideal.of 7, Ideal.of 0⟩ : Point2 Ideal), (⟨Ideal.of 3, Ideal.of 0⟩ : Point2 Ideal)]) = true :=
  C122_direct2 _ _ [(⟨Ideal.of 7, Ideal.of 0⟩ : Point2 Ideal)] (discI2_fin 0) (discI2_fin 3) (by simpa using discI2_fin 7)
theorem pathI2_fin : ∀ r ∈ [(⟨Ideal.of 0, Ideal.of 0⟩ : Point2 Ideal), (⟨Ideal.of 7, Ideal.of 0⟩ : Point2 Ideal), (⟨Ideal.of 3, Ideal.of 0⟩ : Point2 Ideal)], AllFinite r := by
  simp only [List.forall_mem_cons, List.not_mem_nil, IsEmpty.forall_iff, implies_true, and_true]
  exact ⟨discI2_fin 0, discI2_fin 7, discI2_fin 3⟩
example : (Point2.pathLength [(⟨Ideal.of 0, Ideal.of 0⟩ : Point2 Ideal), (⟨Ideal.of 3, Ideal.of 0⟩ : Point2 Ideal)] ≤? Point2.pathLength [(⟨Ideal.of 0, Ideal.of 0⟩ : Point2 Ideal), (⟨Ideal.of 7, Ideal.of 0⟩ : Point2 Ideal), (⟨Ideal.of 3, Ideal.of 0⟩ : Point2 Ideal)]) = true :=
  C122_insert2 [(⟨Ideal.of 0, Ideal.of 0⟩ : Point2 Ideal)] [(⟨Ideal.of 3, Ideal.of 0⟩ : Point2 Ideal)] (⟨Ideal.of 7, Ideal.of 0⟩ : Point2 Ideal) pathI2_fin
example : (Point2.pathLength [(⟨Ideal.of 0, Ideal.of 0⟩ : Point2 Ideal), (⟨Ideal.of 7, Ideal.of 0⟩ : Point2 Ideal), (⟨Ideal.of 3, Ideal.of 0⟩ : Point2 Ideal)] == Point2.pathLength [(⟨Ideal.of 0, Ideal.of 0⟩ : Point2 Ideal), (⟨Ideal.of 7, Ideal.of 0⟩ : Point2 Ideal)] + Point2.pathLength [(⟨Ideal.of 7, Ideal.of 0⟩ : Point2 Ideal), (⟨Ideal.of 3, Ideal.of 0⟩ : Point2 Ideal)]) = true :=
  C122_split2 [(⟨Ideal.of 0, Ideal.of 0⟩ : Point2 Ideal)] [(⟨Ideal.of 3, Ideal.of 0⟩ : Point2 Ideal)] (⟨Ideal.of 7, Ideal.of 0⟩ : Point2 Ideal) pathI2_fin
example : (Point2.pathLength [(⟨Ideal.of 3, Ideal.of 0⟩ : Point2 Ideal), (⟨Ideal.of 7, Ideal.of 0⟩ : Point2 Ideal), (⟨Ideal.of 0, Ideal.of 0⟩ : Point2 Ideal)] == Point2.pathLength [(⟨Ideal.of 0, Ideal.of 0⟩ : Point2 Ideal), (⟨Ideal.of 7, Ideal.of 0⟩ : Point2 Ideal), (⟨Ideal.of 3, Ideal.of 0⟩ : Point2 Ideal)]) = true :=
  C122_reverse2 [(⟨Ideal.of 0, Ideal.of 0⟩ : Point2 Ideal), (⟨Ideal.of 7, Ideal.of 0⟩ : Point2 Ideal), (⟨Ideal.of 3, Ideal.of 0⟩ : Point2 Ideal)] pathI2_fin
example (v : Vector2 Ideal) (h : AllFinite v) :
    (Point2.pathLength ([(⟨Ideal.of 0, Ideal.of 0⟩ : Point2 Ideal), (⟨Ideal.of 7, Ideal.of 0⟩ : Point2 Ideal), (⟨Ideal.of 3, Ideal.of 0⟩ : Point2 Ideal)].map fun p => (Transform.transform (Transform2.translate v) p : Point2 Ideal)) == Point2.pathLength [(⟨Ideal.of 0, Ideal.of 0⟩ : Point2 Ideal), (⟨Ideal.of 7, Ideal.of 0⟩ : Point2 Ideal), (⟨Ideal.of 3, Ideal.of 0⟩ : Point2 Ideal)]) = true :=
  C122_motion2 _ (.translate v h) _ pathI2_fin

/-! ## Dimension 3 -/
theorem legA3 : Exactly (Api.distance (⟨int32 (-16777216), int32 0, int32 0⟩ : Point3 F32) (⟨int32 (0), int32 0, int32 0⟩ : Point3 F32)) ((16777216 : ℤ) : ℝ) :=
  axis_dist3 (ex_int (int_sub32' (exi (n := 0)) (exi (n := -16777216)) (by norm_num)) (by norm_num)) zero_gap zero_gap (by norm_num) (by norm_num)
theorem legB3 : Exactly (Api.distance (⟨int32 (0), int32 0, int32 0⟩ : Point3 F32) (⟨int32 (1), int32 0, int32 0⟩ : Point3 F32)) ((1 : ℤ) : ℝ) :=
  axis_dist3 (ex_int (int_sub32' (exi (n := 1)) (exi (n := 0)) (by norm_num)) (by norm_num)) zero_gap zero_gap (by norm_num) (by norm_num)
theorem legC3 : Exactly (Api.distance (⟨int32 (1), int32 0, int32 0⟩ : Point3 F32) (⟨int32 (2), int32 0, int32 0⟩ : Point3 F32)) ((1 : ℤ) : ℝ) :=
  axis_dist3 (ex_int (int_sub32' (exi (n := 2)) (exi (n := 1)) (by norm_num)) (by norm_num)) zero_gap zero_gap (by norm_num) (by norm_num)
theorem legAll3 : Exactly (Api.distance (⟨int32 (-16777216), int32 0, int32 0⟩ : Point3 F32) (⟨int32 (2), int32 0, int32 0⟩ : Point3 F32)) ((16777218 : ℤ) : ℝ) := by
  refine axis_dist3 (ex_int (wide_sub (exi (n := 2)) (exi (n := -16777216)) (m := 8388609) (e := 1) (by norm_num) (by norm_num) ?_) (by norm_num)) zero_gap zero_gap (by norm_num) (by norm_num)
  rw [abs_of_pos] <;> norm_num
theorem distBack3 {p q : Point3 F32} {a : ℝ} (h : Exactly (Api.distance p q) a) : Exactly (Api.distance q p) a := by
  have s := C15_float_symmetric3 q p
  exact exactly_beq (s.beq (mt s.isNaN.1 h.1.not_nan)) h
noncomputable def path3 : List (Point3 F32) := [(⟨int32 (-16777216), int32 0, int32 0⟩ : Point3 F32), (⟨int32 (0), int32 0, int32 0⟩ : Point3 F32), (⟨int32 (1), int32 0, int32 0⟩ : Point3 F32), (⟨int32 (2), int32 0, int32 0⟩ : Point3 F32)]
theorem path3_fin : ∀ p ∈ path3, AllFinite p := by
  simp only [path3, List.forall_mem_cons, List.not_mem_nil, IsEmpty.forall_iff, implies_true, and_true, Point3.allFinite]
  exact ⟨⟨trivial, trivial, trivial⟩, ⟨trivial, trivial, trivial⟩, ⟨trivial, trivial, trivial⟩, trivial, trivial, trivial⟩
theorem path3_length : Exactly (Point3.pathLength path3) ((16777216 : ℤ) : ℝ) :=
  lose_one (lose_one (zero_plus legA3) legB3) legC3
theorem pathBack3 : Exactly (Point3.pathLength path3.reverse) ((16777218 : ℤ) : ℝ) :=
  keep_two (ex_int (int_add32' (zero_plus (distBack3 legC3)) (distBack3 legB3) (by norm_num)) (by norm_num)) (distBack3 legA3)
/-- **C122**, where it fails in floating point: the computed length of a path can be less than the computed distance of its ends. In `f32`, for the path
along the first axis through `-2^24`, `0`, `1` and `2` the two legs of length 1 are lost one after the other. -/
theorem C122_shorter3 : ∃ (p q : Point3 F32) (ps : List (Point3 F32)), (∀ r ∈ p :: (ps ++ [q]), AllFinite r) ∧
    (Point3.pathLength (p :: (ps ++ [q])) <? Api.distance p q) = true :=
  ⟨(⟨int32 (-16777216), int32 0, int32 0⟩ : Point3 F32), (⟨int32 (2), int32 0, int32 0⟩ : Point3 F32), [(⟨int32 (0), int32 0, int32 0⟩ : Point3 F32), (⟨int32 (1), int32 0, int32 0⟩ : Point3 F32)], path3_fin, lt_exact path3_length legAll3 (by norm_num)⟩
/-- **C122**, where it fails in floating point: the computed length of a path depends on the direction in which it is walked. -/
theorem C122_back_differs3 : ∃ ps : List (Point3 F32), (∀ r ∈ ps, AllFinite r) ∧ (Point3.pathLength ps <? Point3.pathLength ps.reverse) = true :=
  ⟨path3, path3_fin, lt_exact path3_length pathBack3 (by norm_num)⟩
/-- **C122**, where it fails in floating point: a detour can make the computed length of a path smaller. -/
theorem C122_detour3 : ∃ (as bs : List (Point3 F32)) (q : Point3 F32), (∀ r ∈ as ++ q :: bs, AllFinite r) ∧
    (Point3.pathLength (as ++ q :: bs) <? Point3.pathLength (as ++ bs)) = true := by
  have l : Exactly (Api.distance (⟨int32 (0), int32 0, int32 0⟩ : Point3 F32) (⟨int32 (2), int32 0, int32 0⟩ : Point3 F32)) ((2 : ℤ) : ℝ) :=
    axis_dist3 (ex_int (int_sub32' (exi (n := 2)) (exi (n := 0)) (by norm_num)) (by norm_num)) zero_gap zero_gap (by norm_num) (by norm_num)
  refine ⟨[(⟨int32 (-16777216), int32 0, int32 0⟩ : Point3 F32), (⟨int32 (0), int32 0, int32 0⟩ : Point3 F32)], [(⟨int32 (2), int32 0, int32 0⟩ : Point3 F32)], (⟨int32 (1), int32 0, int32 0⟩ : Point3 F32), path3_fin, lt_exact path3_length (b := 16777218) ?_ (by norm_num)⟩
  exact keep_two' (zero_plus legA3) l

/-! ### The hypotheses are met -/
example : (Api.distance (⟨int32 (-16777216), int32 0, int32 0⟩ : Point3 F32) (⟨int32 (0), int32 0, int32 0⟩ : Point3 F32) ≤? Point3.pathLength path3) = true :=
  (C122_grow3 path3 [] (by rw [List.append_nil]; exact path3_fin)).2.2.1 _ (by simp [path3, legs])
example : (Point3.pathLength (path3.take 2) ≤? Point3.pathLength path3) = true := by
  have := (C122_grow3 (path3.take 2) (path3.drop 2) (by rw [List.take_append_drop]; exact path3_fin)).2.2.2
  rwa [List.take_append_drop] at this
theorem path3_normal : ∀ u ∈ legs Point3.NoUnderflow path3, u := by
  have z : Exactly (int32 0 - int32 0 : F32) ((0 : ℤ) : ℝ) := ex_int (int_sub32' exi exi (by norm_num)) (by norm_num)
  have s : ∀ {a b : ℤ} (ha : |a| ≤ 16777216) (hb : |b| ≤ 16777216) (h : |b - a| ≤ 16777216), (⟨int32 a ha, int32 0, int32 0⟩ : Point3 F32).NoUnderflow (⟨int32 b hb, int32 0, int32 0⟩ : Point3 F32) :=
    fun ha hb h => ⟨sq_normal (int_sub32' (exi hb) (exi ha) h), sq_normal z, sq_normal z⟩
  simp only [path3, legs, List.tail_cons, List.zipWith_cons_cons, List.zipWith_nil_right, List.forall_mem_cons, List.not_mem_nil, IsEmpty.forall_iff, implies_true, and_true]
  exact ⟨s _ _ (by norm_num), s _ _ (by norm_num), s _ _ (by norm_num)⟩
example : Within F32 7 (real (Point3.pathLength path3)) (legs (fun p q => euclid p.toReal q.toReal) path3).sum :=
  C122_error3 path3 path3_length.1 path3_normal
example : (1 - uro F32) ^ 7 * real (Api.distance (⟨int32 (-16777216), int32 0, int32 0⟩ : Point3 F32) (⟨int32 (2), int32 0, int32 0⟩ : Point3 F32) : F32) ≤ (1 + uro F32) ^ 4 * real (Point3.pathLength path3) :=
  C122_float_direct3 (⟨int32 (-16777216), int32 0, int32 0⟩ : Point3 F32) (⟨int32 (2), int32 0, int32 0⟩ : Point3 F32) [(⟨int32 (0), int32 0, int32 0⟩ : Point3 F32), (⟨int32 (1), int32 0, int32 0⟩ : Point3 F32)] path3_length.1 legAll3.1 path3_normal ⟨by
    refine sq_normal (ex_int (wide_sub (exi (n := 2)) (exi (n := -16777216)) (m := 8388609) (e := 1) (by norm_num) (by norm_num) ?_) (b := 16777218) (by norm_num))
    rw [abs_of_pos] <;> norm_num, sq_normal (int_sub32' (exi (n := 0)) (exi (n := 0)) (by norm_num)), sq_normal (int_sub32' (exi (n := 0)) (exi (n := 0)) (by norm_num))⟩
/-- Three points: the lengths of the legs are 1 and 1. -/
example : Exactly (Point3.pathLength (path3.tail)) 2 := by
  have := C122_exact3 (e := 0) (N := 16777216) (⟨show (-149 : ℤ) ≤ 0 by norm_num, show 16777216 ≤ 2 ^ 24 by norm_num, show (0 : ℤ) + (24 : ℕ) < 128 by norm_num⟩ : Fits F32 0 16777216)
    path3.tail (fun p hp => path3_fin p (List.mem_of_mem_tail hp)) (by
      simp only [path3, legs, List.tail_cons, List.zipWith_cons_cons, List.zipWith_nil_right, List.forall_mem_cons, List.not_mem_nil, IsEmpty.forall_iff, implies_true, and_true]
      exact ⟨⟨legB3.1, 1, 1, by norm_num, by rw [legB3.2]; norm_num⟩, legC3.1, 1, 1, by norm_num, by rw [legC3.2]; norm_num⟩)
    (by simp [path3, legs, legB3.2, legC3.2]; norm_num)
  have e : ((legs (Api.distance : Point3 F32 → Point3 F32 → F32) path3.tail).map real).sum = 2 := by
    simp [path3, legs, legB3.2, legC3.2]; norm_num
  rwa [e] at this
example : (Api.distance (⟨Ideal.of 0, Ideal.of 0, Ideal.of 0⟩ : Point3 Ideal) (⟨Ideal.of 3, Ideal.of 0, Ideal.of 0⟩ : Point3 Ideal) ≤? Point3.pathLength [(⟨Ideal.of 0, Ideal.of 0, Ideal.of 0⟩ : Point3 Ideal), (⟨Ideal.of 7, Ideal.of 0, Ideal.of 0⟩ : Point3 Ideal), (⟨Ideal.of 3, Ideal.of 0, Ideal.of 0⟩ : Point3 Ideal)]) = true :=
  C122_direct3 _ _ [(⟨Ideal.of 7, Ideal.of 0, Ideal.of 0⟩ : Point3 Ideal)] (discI3_fin 0) (discI3_fin 3) (by simpa using discI3_fin 7)
theorem pathI3_fin : ∀ r ∈ [(⟨Ideal.of 0, Ideal.of 0, Ideal.of 0⟩ : Point3 Ideal), (⟨Ideal.of 7, Ideal.of 0, Ideal.of 0⟩ : Point3 Ideal), (⟨Ideal.of 3, Ideal.of 0, Ideal.of 0⟩ : Point3 Ideal)], AllFinite r := by
  simp only [List.forall_mem_cons, List.not_mem_nil, IsEmpty.forall_iff, implies_true, and_true]
  exact ⟨discI3_fin 0, discI3_fin 7, discI3_fin 3⟩
example : (Point3.pathLength [(⟨Ideal.of 0, Ideal.of 0, Ideal.of 0⟩ : Point3 Ideal), (⟨Ideal.of 3, Ideal.of 0, Ideal.of 0⟩ : Point3 Ideal)] ≤? Point3.pathLength [(⟨Ideal.of 0, Ideal.of 0, Ideal.of 0⟩ : Point3 Ideal), (⟨Ideal.of 7, Ideal.of 0, Ideal.of 0⟩ : Point3 Ideal), (⟨Ideal.of 3, Ideal.of 0, Ideal.of 0⟩ : Point3 Ideal)]) = true :=
  C122_insert3 [(⟨Ideal.of 0, Ideal.of 0, Ideal.of 0⟩ : Point3 Ideal)] [(⟨Ideal.of 3, Ideal.of 0, Ideal.of 0⟩ : Point3 Ideal)] (⟨Ideal.of 7, Ideal.of 0, Ideal.of 0⟩ : Point3 Ideal) pathI3_fin
example : (Point3.pathLength [(⟨Ideal.of 0, Ideal.of 0, Ideal.of 0⟩ : Point3 Ideal), (⟨Ideal.of 7, Ideal.of 0, Ideal.of 0⟩ : Point3 Ideal), (⟨Ideal.of 3, Ideal.of 0, Ideal.of 0⟩ : Point3 Ideal)] == Point3.pathLength [(⟨Ideal.of 0, Ideal.of 0, Ideal.of 0⟩ : Point3 Ideal), (⟨Ideal.of 7, Ideal.of 0, Ideal.of 0⟩ : Point3 Ideal)] + Point3.pathLength [(⟨Ideal.of 7, Ideal.of 0, Ideal.of 0⟩ : Point3 Ideal), (⟨Ideal.of 3, Ideal.of 0, Ideal.of 0⟩ : Point3 Ideal)]) = true :=
  C122_split3 [(⟨Ideal.of 0, Ideal.of 0, Ideal.of 0⟩ : Point3 Ideal)] [(⟨Ideal.of 3, Ideal.of 0, Ideal.of 0⟩ : Point3 Ideal)] (⟨Ideal.of 7, Ideal.of 0, Ideal.of 0⟩ : Point3 Ideal) pathI3_fin
example : (Point3.pathLength [(⟨Ideal.of 3, Ideal.of 0, Ideal.of 0⟩ : Point3 Ideal), (⟨Ideal.of 7, Ideal.of 0, Ideal.of 0⟩ : Point3 Ideal), (⟨Ideal.of 0, Ideal.of 0, Ideal.of 0⟩ : Point3 Ideal)] == Point3.pathLength [(⟨Ideal.of 0, Ideal.of 0, Ideal.of 0⟩ : Point3 Ideal), (⟨Ideal.of 7, Ideal.of 0, Ideal.of 0⟩ : Point3 Ideal), (⟨Ideal.of 3, Ideal.of 0, Ideal.of 0⟩ : Point3 Ideal)]) = true :=
  C122_reverse3 [(⟨Ideal.of 0, Ideal.of 0, Ideal.of 0⟩ : Point3 Ideal), (⟨Ideal.of 7, Ideal.of 0, Ideal.of 0⟩ : Point3 Ideal), (⟨Ideal.of 3, Ideal.of 0, Ideal.of 0⟩ : Point3 Ideal)] pathI3_fin
example (v : Vector3 Ideal) (h : AllFinite v) :
    (Point3.pathLength ([(⟨Ideal.of 0, Ideal.of 0, Ideal.of 0⟩ : Point3 Ideal), (⟨Ideal.of 7, Ideal.of 0, Ideal.of 0⟩ : Point3 Ideal), (⟨Ideal.of 3, Ideal.of 0, Ideal.of 0⟩ : Point3 Ideal)].map fun p => (Transform.transform (Transform3.translate v) p : Point3 Ideal)) == Point3.pathLength [(⟨Ideal.of 0, Ideal.of 0, Ideal.of 0⟩ : Point3 Ideal), (⟨Ideal.of 7, Ideal.of 0, Ideal.of 0⟩ : Point3 Ideal), (⟨Ideal.of 3, Ideal.of 0, Ideal.of 0⟩ : Point3 Ideal)]) = true :=
  C122_motion3 _ (.translate v h) _ pathI3_fin

end VecMath
