import Verif.Props.FloatShadow
import Verif.Props.RealShadow
import Verif.Props.AreaEx
import Verif.Props.FloatRayAcc
/-! # C125: the hypotheses are met; an axis reported by mistake and one not found

(Generated by tools/gen.) -/

namespace VecMath
open Scalar IEEE

section
variable {x y : F32} {a b c : ℤ}
theorem shadow_add (hx : Exactly x a) (hy : Exactly y b) (h : binary32.rnd ((a + b : ℤ) : ℝ) = (c : ℝ)) (hb : |a + b| ≤ 2 ^ 50) : Exactly (x + y) (c : ℝ) := by
  refine exec_add hx hy ?_ (big32' ?_) <;> rw [← Int.cast_add]
  · exact h
  · exact_mod_cast hb
end
noncomputable def vec2 (a b : ℤ) (ha : |a| ≤ 16777216 := by norm_num) (hb : |b| ≤ 16777216 := by norm_num) : Vector2 F32 := ⟨int32 a ha, int32 b hb⟩

/-! ## Numbers that are rounded in `f32` -/
theorem shadow_rnd_33883125 : binary32.rnd ((33883125 : ℤ) : ℝ) = ((33883124 : ℤ) : ℝ) := by
  rw [binary32.rnd_lit (25) (2) 8470781 (by decide)]
  all_goals norm_num
theorem shadow_rnd_49626888 : binary32.rnd ((49626888 : ℤ) : ℝ) = ((49626888 : ℤ) : ℝ) := by
  rw [binary32.rnd_lit (25) (2) 12406722 (by decide)]
  all_goals norm_num
theorem shadow_rnd_49680375 : binary32.rnd ((49680375 : ℤ) : ℝ) = ((49680376 : ℤ) : ℝ) := by
  rw [binary32.rnd_lit (25) (2) 12420094 (by decide)]
  all_goals norm_num
theorem shadow_rnd_33936612 : binary32.rnd ((33936612 : ℤ) : ℝ) = ((33936612 : ℤ) : ℝ) := by
  rw [binary32.rnd_lit (25) (2) 8484153 (by decide)]
  all_goals norm_num
theorem shadow_rnd_16777217 : binary32.rnd ((16777217 : ℤ) : ℝ) = ((16777216 : ℤ) : ℝ) := by
  rw [binary32.rnd_lit_even (24) (1) 8388608 (by decide) (by decide)]
  all_goals norm_num

/-! ## The projections -/
theorem shadow_p : Exactly ((vec2 (6375) (6554)).along (pt2 (1239) (1197))) ((15743763 : ℤ) : ℝ) := by
  have a : Exactly (int32 (6375) (by norm_num) * int32 (1239) (by norm_num) : F32) ((7898625 : ℤ) : ℝ) := ex_int (int_mul32 (exi (by norm_num)) (exi (by norm_num)) (by norm_num)) (by norm_num)
  have b : Exactly (int32 (6554) (by norm_num) * int32 (1197) (by norm_num) : F32) ((7845138 : ℤ) : ℝ) := ex_int (int_mul32 (exi (by norm_num)) (exi (by norm_num)) (by norm_num)) (by norm_num)
  exact ex_int (int_add32' a b (by norm_num)) (by norm_num)
theorem shadow_q : Exactly ((vec2 (6375) (6554)).along (pt2 (-5315) (7572))) ((15743764 : ℤ) : ℝ) := by
  have a : Exactly (int32 (6375) (by norm_num) * int32 (-5315) (by norm_num) : F32) ((-33883124 : ℤ) : ℝ) := area_mul (exi (by norm_num)) (exi (by norm_num)) (by rw [show (6375 : ℤ) * -5315 = -33883125 by norm_num]; exact (rnd_less shadow_rnd_33883125)) (by norm_num)
  have b : Exactly (int32 (6554) (by norm_num) * int32 (7572) (by norm_num) : F32) ((49626888 : ℤ) : ℝ) := area_mul (exi (by norm_num)) (exi (by norm_num)) (by rw [show (6554 : ℤ) * 7572 = 49626888 by norm_num]; exact shadow_rnd_49626888) (by norm_num)
  exact ex_int (int_add32' a b (by norm_num)) (by norm_num)
theorem shadow_r : Exactly ((vec2 (6375) (6554)).along (pt2 (7793) (-5178))) ((15743764 : ℤ) : ℝ) := by
  have a : Exactly (int32 (6375) (by norm_num) * int32 (7793) (by norm_num) : F32) ((49680376 : ℤ) : ℝ) := area_mul (exi (by norm_num)) (exi (by norm_num)) (by rw [show (6375 : ℤ) * 7793 = 49680375 by norm_num]; exact shadow_rnd_49680375) (by norm_num)
  have b : Exactly (int32 (6554) (by norm_num) * int32 (-5178) (by norm_num) : F32) ((-33936612 : ℤ) : ℝ) := area_mul (exi (by norm_num)) (exi (by norm_num)) (by rw [show (6554 : ℤ) * -5178 = -33936612 by norm_num]; exact (rnd_less shadow_rnd_33936612)) (by norm_num)
  exact ex_int (int_add32' a b (by norm_num)) (by norm_num)
theorem shadow_u : Exactly ((vec2 (1) (1)).along (pt2 (16777215) (1))) ((16777216 : ℤ) : ℝ) := by
  have a : Exactly (int32 (1) (by norm_num) * int32 (16777215) (by norm_num) : F32) ((16777215 : ℤ) : ℝ) := ex_int (int_mul32 (exi (by norm_num)) (exi (by norm_num)) (by norm_num)) (by norm_num)
  have b : Exactly (int32 (1) (by norm_num) * int32 (1) (by norm_num) : F32) ((1 : ℤ) : ℝ) := ex_int (int_mul32 (exi (by norm_num)) (exi (by norm_num)) (by norm_num)) (by norm_num)
  exact ex_int (int_add32' a b (by norm_num)) (by norm_num)
theorem shadow_v : Exactly ((vec2 (1) (1)).along (pt2 (16777215) (2))) ((16777216 : ℤ) : ℝ) := by
  have a : Exactly (int32 (1) (by norm_num) * int32 (16777215) (by norm_num) : F32) ((16777215 : ℤ) : ℝ) := ex_int (int_mul32 (exi (by norm_num)) (exi (by norm_num)) (by norm_num)) (by norm_num)
  have b : Exactly (int32 (1) (by norm_num) * int32 (2) (by norm_num) : F32) ((2 : ℤ) : ℝ) := ex_int (int_mul32 (exi (by norm_num)) (exi (by norm_num)) (by norm_num)) (by norm_num)
  exact shadow_add a b (by rw [show (16777215 : ℤ) + 2 = 16777217 by norm_num]; exact shadow_rnd_16777217) (by norm_num)

/-! ## The witnesses -/
/-- **C125**, where it fails in floating point: in exact arithmetic no axis separates a point from two points it lies between. Here it is the point in the
middle, and the projections of the two others are both computed larger than its own. -/
theorem C125_between : ∃ (n : Vector2 F32) (p q r : Point2 F32), AllFinite n ∧ AllFinite p ∧ AllFinite q ∧ AllFinite r ∧
    p.toReal = midpoint ℝ q.toReal r.toReal ∧ ¬ Disjoint (Point2.hull [p]) (Point2.hull [q, r]) ∧ n.separates [p] [q, r] = true := by
  have hm : (pt2 (1239) (1197) : Point2 F32).toReal = midpoint ℝ (pt2 (-5315) (7572) : Point2 F32).toReal (pt2 (7793) (-5178) : Point2 F32).toReal := by
    rw [midpoint_eq_smul_add]
    funext i; fin_cases i <;> simp [Point2.toReal, pt2, real_int32] <;> norm_num
  refine ⟨vec2 (6375) (6554), pt2 (1239) (1197), pt2 (-5315) (7572), pt2 (7793) (-5178), Vector2.allFinite.2 ⟨trivial, trivial⟩, finite_pt2, finite_pt2, finite_pt2, hm, ?_, ?_⟩
  · refine Set.not_disjoint_iff.2 ⟨_, subset_convexHull ℝ _ ⟨_, List.mem_singleton.2 rfl, rfl⟩, ?_⟩
    rw [hm]
    exact (convex_convexHull ℝ _).midpoint_mem (subset_convexHull ℝ _ ⟨_, by simp, rfl⟩) (subset_convexHull ℝ _ ⟨_, by simp, rfl⟩)
  · refine (Vector2.separates_iff _ (by simp) (by simp) ?_ ?_).2 (Or.inl ?_)
    · simp only [List.mem_cons, List.not_mem_nil, or_false, forall_eq]
      exact shadow_p.1
    · simp only [List.mem_cons, List.not_mem_nil, or_false, forall_eq_or_imp, forall_eq]
      exact ⟨shadow_q.1, shadow_r.1⟩
    · simp only [List.mem_cons, List.not_mem_nil, or_false, forall_eq_or_imp, forall_eq]
      rw [shadow_p.2, shadow_q.2, shadow_r.2]
      norm_num
/-- **C125**, where it fails in floating point: an axis that separates two points is not found, because their projections are rounded to the same number. -/
theorem C125_missed : ∃ (n : Vector2 F32) (p q : Point2 F32), AllFinite n ∧ AllFinite p ∧ AllFinite q ∧ n.toReal ⬝ᵥ p.toReal < n.toReal ⬝ᵥ q.toReal ∧
    n.separates [p] [q] = false := by
  refine ⟨vec2 1 1, pt2 16777215 1, pt2 16777215 2, Vector2.allFinite.2 ⟨trivial, trivial⟩, finite_pt2, finite_pt2, ?_, ?_⟩
  · simp [dotProduct, Fin.sum_univ_two, Vector2.toReal, Point2.toReal, vec2, pt2, real_int32]
  · rw [← Bool.not_eq_true, Vector2.separates_iff _ (by simp) (by simp)]
    · simp only [List.mem_cons, List.not_mem_nil, or_false, forall_eq]
      rw [shadow_u.2, shadow_v.2]
      norm_num
    · simp only [List.mem_cons, List.not_mem_nil, or_false, forall_eq]
      exact shadow_u.1
    · simp only [List.mem_cons, List.not_mem_nil, or_false, forall_eq]
      exact shadow_v.1

/-! ## The hypotheses are met -/
theorem finite_vec2 {a b : ℤ} {ha : |a| ≤ 16777216} {hb : |b| ≤ 16777216} : AllFinite (vec2 a b ha hb) := Vector2.allFinite.2 ⟨trivial, trivial⟩
theorem grid_vec2 {a b : ℤ} {ha : |a| ≤ 16777216} {hb : |b| ≤ 16777216} {N : ℕ} (h1 : |a| ≤ N) (h2 : |b| ≤ N) (i : Fin 2) :
    OnGrid 0 N ((vec2 a b ha hb).toReal i) := by
  fin_cases i
  · exact (OnGrid.int h1).congr (real_int32 (n := a) (h := ha)).symm
  · exact (OnGrid.int h2).congr (real_int32 (n := b) (h := hb)).symm
theorem small_along (n0 n1 p0 p1 : ℤ) (h0 : |n0| ≤ 100) (h1 : |n1| ≤ 100) (k0 : |p0| ≤ 100) (k1 : |p1| ≤ 100) (h0' : |n0| ≤ 16777216) (h1' : |n1| ≤ 16777216)
    (k0' : |p0| ≤ 16777216) (k1' : |p1| ≤ 16777216) : Exactly ((vec2 n0 n1 h0' h1').along (pt2 p0 p1 k0' k1')) ((n0 * p0 + n1 * p1 : ℤ) : ℝ) := by
  have a : Exactly (int32 n0 h0' * int32 p0 k0' : F32) ((n0 * p0 : ℤ) : ℝ) :=
    int_mul32 exactly_int exactly_int (by rw [abs_mul]; nlinarith [abs_nonneg n0, abs_nonneg p0])
  have b : Exactly (int32 n1 h1' * int32 p1 k1' : F32) ((n1 * p1 : ℤ) : ℝ) :=
    int_mul32 exactly_int exactly_int (by rw [abs_mul]; nlinarith [abs_nonneg n1, abs_nonneg p1])
  refine int_add32' a b ((abs_add_le _ _).trans ?_)
  rw [abs_mul, abs_mul]
  nlinarith [abs_nonneg n0, abs_nonneg p0, abs_nonneg n1, abs_nonneg p1]
/-- A triangle and a segment, and an axis between them. -/
theorem C125_triangle : (vec2 1 2 : Vector2 F32).separates [pt2 0 0, pt2 4 0, pt2 0 2] [pt2 5 0, pt2 1 3] = true := by
  refine (Vector2.separates_iff _ (by simp) (by simp) ?_ ?_).2 (Or.inl ?_)
  · simp only [List.mem_cons, List.not_mem_nil, or_false, forall_eq_or_imp, forall_eq]
    exact ⟨(small_along 1 2 0 0 (by norm_num) (by norm_num) (by norm_num) (by norm_num) _ _ _ _).1,
      (small_along 1 2 4 0 (by norm_num) (by norm_num) (by norm_num) (by norm_num) _ _ _ _).1,
      (small_along 1 2 0 2 (by norm_num) (by norm_num) (by norm_num) (by norm_num) _ _ _ _).1⟩
  · simp only [List.mem_cons, List.not_mem_nil, or_false, forall_eq_or_imp, forall_eq]
    exact ⟨(small_along 1 2 5 0 (by norm_num) (by norm_num) (by norm_num) (by norm_num) _ _ _ _).1,
      (small_along 1 2 1 3 (by norm_num) (by norm_num) (by norm_num) (by norm_num) _ _ _ _).1⟩
  · simp only [List.mem_cons, List.not_mem_nil, or_false, forall_eq_or_imp, forall_eq]
    rw [(small_along 1 2 0 0 (by norm_num) (by norm_num) (by norm_num) (by norm_num) _ _ _ _).2,
      (small_along 1 2 4 0 (by norm_num) (by norm_num) (by norm_num) (by norm_num) _ _ _ _).2,
      (small_along 1 2 0 2 (by norm_num) (by norm_num) (by norm_num) (by norm_num) _ _ _ _).2,
      (small_along 1 2 5 0 (by norm_num) (by norm_num) (by norm_num) (by norm_num) _ _ _ _).2,
      (small_along 1 2 1 3 (by norm_num) (by norm_num) (by norm_num) (by norm_num) _ _ _ _).2]
    norm_num
theorem C125_triangle_grid (p : Point2 F32) (h : p ∈ [pt2 0 0, pt2 4 0, pt2 0 2] ∨ p ∈ [pt2 5 0, pt2 1 3]) : AllFinite p ∧ ∀ i, OnGrid 0 8 (p.toReal i) := by
  simp only [List.mem_cons, List.not_mem_nil, or_false] at h
  rcases h with (rfl | rfl | rfl) | (rfl | rfl) <;> exact ⟨finite_pt2, grid_pt2 (by norm_num) (by norm_num)⟩
/-- On this grid the answer is right: the convex hulls are disjoint. -/
example : (∀ x ∈ Point2.hull [pt2 0 0, pt2 4 0, pt2 0 2], ∀ y ∈ Point2.hull [pt2 5 0, pt2 1 3], (vec2 1 2).toReal ⬝ᵥ x < (vec2 1 2).toReal ⬝ᵥ y) ∨
    (∀ x ∈ Point2.hull [pt2 0 0, pt2 4 0, pt2 0 2], ∀ y ∈ Point2.hull [pt2 5 0, pt2 1 3], (vec2 1 2).toReal ⬝ᵥ y < (vec2 1 2).toReal ⬝ᵥ x) :=
  (C125_exact2 (e := 0) (f := 0) (M := 2) (N := 8) (vec2 1 2) _ _ (by simp) (by simp) finite_vec2 (grid_vec2 (by norm_num) (by norm_num))
    C125_triangle_grid (fits_f32 (by norm_num))).1 C125_triangle
/-- The corners of a box, as a list. -/
theorem corners_box2 {S : Type} [Scalar S] (a : BoundingBox2 S) (build : Build) :
    ∃ cs : List (Point2 S), ∀ p, p ∈ cs ↔ ∃ k : UInt32, k < 4 ∧ a.corner build k = .ok p := by
  have e : ∀ k : UInt32, k < 4 → ∃ p, a.corner build k = .ok p := fun k hk => ⟨_, by unfold BoundingBox2.corner; rw [if_neg (by simp [hk])]⟩
  obtain ⟨p0, h0⟩ := e 0 (by decide)
  obtain ⟨p1, h1⟩ := e 1 (by decide)
  obtain ⟨p2, h2⟩ := e 2 (by decide)
  obtain ⟨p3, h3⟩ := e 3 (by decide)
  refine ⟨[p0, p1, p2, p3], fun p => ⟨fun h => ?_, fun ⟨k, hk, h⟩ => ?_⟩⟩
  · simp only [List.mem_cons, List.not_mem_nil, or_false] at h
    rcases h with rfl | rfl | rfl | rfl
    exacts [⟨0, by decide, h0⟩, ⟨1, by decide, h1⟩, ⟨2, by decide, h2⟩, ⟨3, by decide, h3⟩]
  · have hk' : k = 0 ∨ k = 1 ∨ k = 2 ∨ k = 3 := by
      have : k.toNat < 4 := hk
      simp only [← UInt32.toNat_inj]
      change k.toNat = 0 ∨ k.toNat = 1 ∨ k.toNat = 2 ∨ k.toNat = 3
      omega
    rcases hk' with rfl | rfl | rfl | rfl
    · rw [h0] at h; cases h; simp
    · rw [h1] at h; cases h; simp
    · rw [h2] at h; cases h; simp
    · rw [h3] at h; cases h; simp
/-- Two boxes side by side. -/
example : ∃ cs ds : List (Point2 F32), (Vector2.xAxis : Vector2 F32).separates cs ds = true ∨ (Vector2.yAxis : Vector2 F32).separates cs ds = true := by
  have l : ∀ m n : ℤ, ∀ (hm : |m| ≤ 16777216) (hn : |n| ≤ 16777216), m ≤ n → (int32 m hm ≤? int32 n hn : Bool) = true := fun m n hm hn h =>
    (ole_real' finite_int32 finite_int32).2 (by rw [real_int32, real_int32]; exact_mod_cast h)
  obtain ⟨cs, hc⟩ := corners_box2 (⟨pt2 0 0, pt2 2 2⟩ : BoundingBox2 F32) .debug
  obtain ⟨ds, hd⟩ := corners_box2 (⟨pt2 3 1, pt2 5 4⟩ : BoundingBox2 F32) .debug
  refine ⟨cs, ds, (C125_boxes2 ⟨pt2 0 0, pt2 2 2⟩ ⟨pt2 3 1, pt2 5 4⟩ .debug cs ds ⟨finite_pt2, finite_pt2⟩ ⟨finite_pt2, finite_pt2⟩ ?_ ?_ hc hd).1 ?_⟩
  · exact Point2.leAll.2 ⟨l 0 2 (by norm_num) (by norm_num) (by norm_num), l 0 2 (by norm_num) (by norm_num) (by norm_num)⟩
  · exact Point2.leAll.2 ⟨l 3 5 (by norm_num) (by norm_num) (by norm_num), l 1 4 (by norm_num) (by norm_num) (by norm_num)⟩
  · rw [← Bool.not_eq_true, overlaps2_iff]
    rintro ⟨⟨h, -⟩, -⟩
    change (int32 3 (by norm_num) ≤? int32 2 (by norm_num)) = true at h
    have := (ole_real' finite_int32 finite_int32).1 h
    rw [real_int32, real_int32] at this
    norm_num at this
theorem shadow_error (p : Point2 F32) (h : p = pt2 0 0 ∨ p = pt2 9 0) :
    ((1 + uro F32) ^ 2 - 1) * (∑ i, |(vec2 1 1).toReal i * p.toReal i|) + 2 * (1 + uro F32) ^ (1) * tiny F32 ≤ 1 := by
  have ht : tiny F32 ≤ 1 / 16777216 := by
    have : tiny F32 = 2 ^ (-150 : ℤ) := by show (2 : ℝ) ^ (_ : ℤ) = _; congr 1
    rw [this]; norm_num
  rw [uro_f32, Fin.sum_univ_two]
  rcases h with rfl | rfl <;> simp [Vector2.toReal, Point2.toReal, vec2, pt2, real_int32] <;> norm_num <;> linarith
theorem shadow_wide : (∀ p ∈ [(pt2 0 0 : Point2 F32)], IsFinite ((vec2 1 1).along p)) ∧ (∀ q ∈ [(pt2 9 0 : Point2 F32)], IsFinite ((vec2 1 1).along q)) := by
  simp only [List.mem_cons, List.not_mem_nil, or_false, forall_eq]
  exact ⟨(small_along 1 1 0 0 (by norm_num) (by norm_num) (by norm_num) (by norm_num) _ _ _ _).1,
    (small_along 1 1 9 0 (by norm_num) (by norm_num) (by norm_num) (by norm_num) _ _ _ _).1⟩
/-- A wide gap is found. -/
example : (vec2 1 1 : Vector2 F32).separates [pt2 0 0] [pt2 9 0] = true := by
  refine C125_found2 _ _ _ (by simp) (by simp) shadow_wide.1 shadow_wide.2 1 (fun p h => shadow_error p (by simpa using h)) ?_
  simp [dotProduct, Fin.sum_univ_two, Vector2.toReal, Point2.toReal, vec2, pt2, real_int32]
  norm_num
/-- A wide computed gap is real. -/
example : Disjoint (Point2.hull [(pt2 0 0 : Point2 F32)]) (Point2.hull [(pt2 9 0 : Point2 F32)]) := by
  refine (C125_sound2 (vec2 1 1) _ _ (by simp) (by simp) shadow_wide.1 shadow_wide.2 1 (fun p h => shadow_error p (by simpa using h)) ?_).2
  obtain ⟨-, -, d, hd, e⟩ := highest_real (ds := [(pt2 0 0 : Point2 F32)].map (vec2 1 1).along) (by simp) (by simpa using shadow_wide.1)
  obtain ⟨-, -, d', hd', e'⟩ := lowest_real (ds := [(pt2 9 0 : Point2 F32)].map (vec2 1 1).along) (by simp) (by simpa using shadow_wide.2)
  simp only [List.map_cons, List.map_nil, List.mem_cons, List.not_mem_nil, or_false] at hd hd'
  rw [e, e', hd, hd', (small_along 1 1 0 0 (by norm_num) (by norm_num) (by norm_num) (by norm_num) _ _ _ _).2,
    (small_along 1 1 9 0 (by norm_num) (by norm_num) (by norm_num) (by norm_num) _ _ _ _).2]
  norm_num
/-- In exact arithmetic two points are apart, so there is an axis. -/
example : ∃ n : Vector2 Ideal, AllFinite n ∧ n.separates [⟨Ideal.of 0, Ideal.of 0⟩] [⟨Ideal.of 1, Ideal.of 0⟩] = true := by
  refine (C125_axis2 _ _ (by simp) (by simp) ?_).1 ?_
  · simp only [List.mem_cons, List.not_mem_nil, or_false]
    rintro p (rfl | rfl) <;> exact Point2.allFinite.2 ⟨Ideal.finite_of _, Ideal.finite_of _⟩
  · unfold Point2.hull
    simp only [List.mem_cons, List.not_mem_nil, or_false, exists_eq_left, Set.ofPred_eq_eq_singleton, convexHull_singleton, Set.disjoint_singleton]
    intro h
    have := congrFun h 0
    simp [Point2.toReal, Ideal.real_of] at this

end VecMath
