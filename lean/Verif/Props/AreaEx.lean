import Verif.Props.FloatArea
import Verif.Props.FloatBallEx
import Verif.Props.FloatPlaneEx
import Verif.Props.FloatInvAffineEx
import Verif.Props.FloatExamples
/-! # C124: the hypotheses are met; areas seen from far away; the choice of the first vertex

(Generated by tools/gen.) -/

namespace VecMath
open Scalar IEEE

section
variable {x y : F32} {a b c : ℤ}
theorem area_mul (hx : Exactly x a) (hy : Exactly y b) (h : binary32.rnd ((a * b : ℤ) : ℝ) = (c : ℝ)) (hb : |a * b| ≤ 2 ^ 50) : Exactly (x * y) (c : ℝ) := by
  refine exec_mul hx hy ?_ (big32' ?_) <;> rw [← Int.cast_mul]
  · exact h
  · exact_mod_cast hb
theorem area_dif (m n k : ℤ) (hm : |m| ≤ 16777216) (hn : |n| ≤ 16777216) (h : |m - n| ≤ 16777216) (e : m - n = k) :
    Exactly (int32 m hm - int32 n hn : F32) ((k : ℤ) : ℝ) := ex_int (int_sub32' (exi hm) (exi hn) h) e
theorem rnd_less {n m : ℤ} (h : binary32.rnd (n : ℝ) = m) : binary32.rnd ((-n : ℤ) : ℝ) = ((-m : ℤ) : ℝ) := by
  rw [Int.cast_neg, binary32.rnd_neg, h, Int.cast_neg]
end

/-! ## Products that are rounded in `f32` -/
theorem area_rnd_36167118 : binary32.rnd ((36167118 : ℤ) : ℝ) = ((36167120 : ℤ) : ℝ) := by
  rw [binary32.rnd_lit_even (25) (2) 9041780 (by decide) (by decide)]
  all_goals norm_num
theorem area_rnd_36174164 : binary32.rnd ((36174164 : ℤ) : ℝ) = ((36174164 : ℤ) : ℝ) := by
  rw [binary32.rnd_lit (25) (2) 9043541 (by decide)]
  all_goals norm_num
theorem area_rnd_36160072 : binary32.rnd ((36160072 : ℤ) : ℝ) = ((36160072 : ℤ) : ℝ) := by
  rw [binary32.rnd_lit (25) (2) 9040018 (by decide)]
  all_goals norm_num
theorem area_rnd_36161985 : binary32.rnd ((36161985 : ℤ) : ℝ) = ((36161984 : ℤ) : ℝ) := by
  rw [binary32.rnd_lit (25) (2) 9040496 (by decide)]
  all_goals norm_num
theorem area_rnd_36169030 : binary32.rnd ((36169030 : ℤ) : ℝ) = ((36169032 : ℤ) : ℝ) := by
  rw [binary32.rnd_lit_even (25) (2) 9042258 (by decide) (by decide)]
  all_goals norm_num
theorem area_rnd_16972191 : binary32.rnd ((16972191 : ℤ) : ℝ) = ((16972192 : ℤ) : ℝ) := by
  rw [binary32.rnd_lit_even (24) (1) 8486096 (by decide) (by decide)]
  all_goals norm_num

/-! ## The triangles, one by one -/
theorem far_area_origin_0 {a b c d : F32} (ha : Exactly a ((5134 : ℤ) : ℝ)) (hb : Exactly b ((7046 : ℤ) : ℝ)) (hc : Exactly c ((5133 : ℤ) : ℝ)) (hd : Exactly d ((7046 : ℤ) : ℝ)) :
    Exactly (-b * c + a * d) ((7044 : ℤ) : ℝ) := by
  have nb : Exactly (-b) ((-7046 : ℤ) : ℝ) := ex_int (int_neg32 hb) (by norm_num)
  have p : Exactly (-b * c) ((-36167120 : ℤ) : ℝ) := area_mul nb hc (by rw [show (-7046 : ℤ) * 5133 = -36167118 by norm_num]; exact (rnd_less area_rnd_36167118)) (by norm_num)
  have q : Exactly (a * d) ((36174164 : ℤ) : ℝ) := area_mul ha hd (by rw [show (5134 : ℤ) * 7046 = 36174164 by norm_num]; exact area_rnd_36174164) (by norm_num)
  exact ex_int (int_add32' p q (by norm_num)) (by norm_num)
theorem far_area_origin_1 {a b c d : F32} (ha : Exactly a ((5133 : ℤ) : ℝ)) (hb : Exactly b ((7046 : ℤ) : ℝ)) (hc : Exactly c ((5132 : ℤ) : ℝ)) (hd : Exactly d ((7045 : ℤ) : ℝ)) :
    Exactly (-b * c + a * d) ((1912 : ℤ) : ℝ) := by
  have nb : Exactly (-b) ((-7046 : ℤ) : ℝ) := ex_int (int_neg32 hb) (by norm_num)
  have p : Exactly (-b * c) ((-36160072 : ℤ) : ℝ) := area_mul nb hc (by rw [show (-7046 : ℤ) * 5132 = -36160072 by norm_num]; exact (rnd_less area_rnd_36160072)) (by norm_num)
  have q : Exactly (a * d) ((36161984 : ℤ) : ℝ) := area_mul ha hd (by rw [show (5133 : ℤ) * 7045 = 36161985 by norm_num]; exact area_rnd_36161985) (by norm_num)
  exact ex_int (int_add32' p q (by norm_num)) (by norm_num)
theorem far_area_origin_2 {a b c d : F32} (ha : Exactly a ((5132 : ℤ) : ℝ)) (hb : Exactly b ((7045 : ℤ) : ℝ)) (hc : Exactly c ((5134 : ℤ) : ℝ)) (hd : Exactly d ((7046 : ℤ) : ℝ)) :
    Exactly (-b * c + a * d) ((-8960 : ℤ) : ℝ) := by
  have nb : Exactly (-b) ((-7045 : ℤ) : ℝ) := ex_int (int_neg32 hb) (by norm_num)
  have p : Exactly (-b * c) ((-36169032 : ℤ) : ℝ) := area_mul nb hc (by rw [show (-7045 : ℤ) * 5134 = -36169030 by norm_num]; exact (rnd_less area_rnd_36169030)) (by norm_num)
  have q : Exactly (a * d) ((36160072 : ℤ) : ℝ) := area_mul ha hd (by rw [show (5132 : ℤ) * 7046 = 36160072 by norm_num]; exact area_rnd_36160072) (by norm_num)
  exact ex_int (int_add32' p q (by norm_num)) (by norm_num)
/-- Seen from the origin the area of a small triangle far away is lost. -/
theorem far_area_origin : Exactly ((pt2 (0) (0) : Point2 F32).areaFrom [pt2 (5134) (7046), pt2 (5133) (7046), pt2 (5132) (7045), pt2 (5134) (7046)]) ((-4 : ℤ) : ℝ) := by
  have t0 := far_area_origin_0 (area_dif (5134) (0) (5134) (by norm_num) (by norm_num) (by norm_num) (by norm_num)) (area_dif (7046) (0) (7046) (by norm_num) (by norm_num) (by norm_num) (by norm_num)) (area_dif (5133) (0) (5133) (by norm_num) (by norm_num) (by norm_num) (by norm_num)) (area_dif (7046) (0) (7046) (by norm_num) (by norm_num) (by norm_num) (by norm_num))
  have s0 := ex_int (b := 7044) (int_add32' int_zero32 t0 (by norm_num)) (by norm_num)
  have t1 := far_area_origin_1 (area_dif (5133) (0) (5133) (by norm_num) (by norm_num) (by norm_num) (by norm_num)) (area_dif (7046) (0) (7046) (by norm_num) (by norm_num) (by norm_num) (by norm_num)) (area_dif (5132) (0) (5132) (by norm_num) (by norm_num) (by norm_num) (by norm_num)) (area_dif (7045) (0) (7045) (by norm_num) (by norm_num) (by norm_num) (by norm_num))
  have s1 := ex_int (b := 8956) (int_add32' s0 t1 (by norm_num)) (by norm_num)
  have t2 := far_area_origin_2 (area_dif (5132) (0) (5132) (by norm_num) (by norm_num) (by norm_num) (by norm_num)) (area_dif (7045) (0) (7045) (by norm_num) (by norm_num) (by norm_num) (by norm_num)) (area_dif (5134) (0) (5134) (by norm_num) (by norm_num) (by norm_num) (by norm_num)) (area_dif (7046) (0) (7046) (by norm_num) (by norm_num) (by norm_num) (by norm_num))
  have s2 := ex_int (b := -4) (int_add32' s1 t2 (by norm_num)) (by norm_num)
  exact s2
theorem far_area_fan_0 {a b c d : F32} (ha : Exactly a ((-1 : ℤ) : ℝ)) (hb : Exactly b ((0 : ℤ) : ℝ)) (hc : Exactly c ((-2 : ℤ) : ℝ)) (hd : Exactly d ((-1 : ℤ) : ℝ)) :
    Exactly (-b * c + a * d) ((1 : ℤ) : ℝ) := by
  have nb : Exactly (-b) ((0 : ℤ) : ℝ) := ex_int (int_neg32 hb) (by norm_num)
  have p : Exactly (-b * c) ((0 : ℤ) : ℝ) := ex_int (int_mul32 nb hc (by norm_num)) (by norm_num)
  have q : Exactly (a * d) ((1 : ℤ) : ℝ) := ex_int (int_mul32 ha hd (by norm_num)) (by norm_num)
  exact ex_int (int_add32' p q (by norm_num)) (by norm_num)
/-- The fan around its first vertex gives the area. -/
theorem far_area_fan : Exactly ((pt2 (5134) (7046) : Point2 F32).areaFrom [pt2 (5133) (7046), pt2 (5132) (7045)]) ((1 : ℤ) : ℝ) := by
  have t0 := far_area_fan_0 (area_dif (5133) (5134) (-1) (by norm_num) (by norm_num) (by norm_num) (by norm_num)) (area_dif (7046) (7046) (0) (by norm_num) (by norm_num) (by norm_num) (by norm_num)) (area_dif (5132) (5134) (-2) (by norm_num) (by norm_num) (by norm_num) (by norm_num)) (area_dif (7045) (7046) (-1) (by norm_num) (by norm_num) (by norm_num) (by norm_num))
  have s0 := ex_int (b := 1) (int_add32' int_zero32 t0 (by norm_num)) (by norm_num)
  exact s0
theorem cyclic_area_1_0 {a b c d : F32} (ha : Exactly a ((4167 : ℤ) : ℝ)) (hb : Exactly b ((2565 : ℤ) : ℝ)) (hc : Exactly c ((237 : ℤ) : ℝ)) (hd : Exactly d ((4073 : ℤ) : ℝ)) :
    Exactly (-b * c + a * d) ((16364287 : ℤ) : ℝ) := by
  have nb : Exactly (-b) ((-2565 : ℤ) : ℝ) := ex_int (int_neg32 hb) (by norm_num)
  have p : Exactly (-b * c) ((-607905 : ℤ) : ℝ) := ex_int (int_mul32 nb hc (by norm_num)) (by norm_num)
  have q : Exactly (a * d) ((16972192 : ℤ) : ℝ) := area_mul ha hd (by rw [show (4167 : ℤ) * 4073 = 16972191 by norm_num]; exact area_rnd_16972191) (by norm_num)
  exact ex_int (int_add32' p q (by norm_num)) (by norm_num)
/-- One choice of the first vertex. -/
theorem cyclic_area_1 : Exactly ((pt2 (0) (0) : Point2 F32).areaFrom [pt2 (4167) (2565), pt2 (237) (4073)]) ((16364287 : ℤ) : ℝ) := by
  have t0 := cyclic_area_1_0 (area_dif (4167) (0) (4167) (by norm_num) (by norm_num) (by norm_num) (by norm_num)) (area_dif (2565) (0) (2565) (by norm_num) (by norm_num) (by norm_num) (by norm_num)) (area_dif (237) (0) (237) (by norm_num) (by norm_num) (by norm_num) (by norm_num)) (area_dif (4073) (0) (4073) (by norm_num) (by norm_num) (by norm_num) (by norm_num))
  have s0 := ex_int (b := 16364287) (int_add32' int_zero32 t0 (by norm_num)) (by norm_num)
  exact s0
theorem cyclic_area_2_0 {a b c d : F32} (ha : Exactly a ((-3930 : ℤ) : ℝ)) (hb : Exactly b ((1508 : ℤ) : ℝ)) (hc : Exactly c ((-4167 : ℤ) : ℝ)) (hd : Exactly d ((-2565 : ℤ) : ℝ)) :
    Exactly (-b * c + a * d) ((16364286 : ℤ) : ℝ) := by
  have nb : Exactly (-b) ((-1508 : ℤ) : ℝ) := ex_int (int_neg32 hb) (by norm_num)
  have p : Exactly (-b * c) ((6283836 : ℤ) : ℝ) := ex_int (int_mul32 nb hc (by norm_num)) (by norm_num)
  have q : Exactly (a * d) ((10080450 : ℤ) : ℝ) := ex_int (int_mul32 ha hd (by norm_num)) (by norm_num)
  exact ex_int (int_add32' p q (by norm_num)) (by norm_num)
/-- Another choice. -/
theorem cyclic_area_2 : Exactly ((pt2 (4167) (2565) : Point2 F32).areaFrom [pt2 (237) (4073), pt2 (0) (0)]) ((16364286 : ℤ) : ℝ) := by
  have t0 := cyclic_area_2_0 (area_dif (237) (4167) (-3930) (by norm_num) (by norm_num) (by norm_num) (by norm_num)) (area_dif (4073) (2565) (1508) (by norm_num) (by norm_num) (by norm_num) (by norm_num)) (area_dif (0) (4167) (-4167) (by norm_num) (by norm_num) (by norm_num) (by norm_num)) (area_dif (0) (2565) (-2565) (by norm_num) (by norm_num) (by norm_num) (by norm_num))
  have s0 := ex_int (b := 16364286) (int_add32' int_zero32 t0 (by norm_num)) (by norm_num)
  exact s0

/-! ## The witnesses -/
/-- **C124**, where it fails in floating point: in exact arithmetic the area does not depend on the point it is seen from, and the vertices of a small
triangle far from the origin turn left around an area of one half. Seen from the origin the computed double area is -4, with the wrong sign; the fan around
the first vertex computes it exactly. -/
theorem C124_far : ∃ o a b c : Point2 F32, AllFinite o ∧ o.toReal = 0 ∧ AllFinite a ∧ AllFinite b ∧ AllFinite c ∧ exactArea2 a.toReal [b.toReal, c.toReal] = 1 ∧
    Exactly (a.polygon [b, c]) 1 ∧ Exactly (o.areaFrom [a, b, c, a]) (-4) := by
  refine ⟨pt2 0 0, pt2 (5134) (7046), pt2 (5133) (7046), pt2 (5132) (7045), Point2.allFinite.2 ⟨trivial, trivial⟩, ?_, Point2.allFinite.2 ⟨trivial, trivial⟩, Point2.allFinite.2 ⟨trivial, trivial⟩, Point2.allFinite.2 ⟨trivial, trivial⟩, ?_, ?_, ?_⟩
  · funext i; fin_cases i <;> simp [Point2.toReal, pt2, real_int32]
  · simp [exactArea2, perp, Point2.toReal, pt2, real_int32]
    norm_num
  · have := far_area_fan
    rw [Int.cast_one] at this
    exact this
  · have := far_area_origin
    rwa [show ((-4 : ℤ) : ℝ) = -4 by norm_num] at this
/-- **C124**, where it fails in floating point: without room on the grid the area depends on the vertex the polygon begins with. -/
theorem C124_first_vertex : ∃ a b c : Point2 F32, AllFinite a ∧ AllFinite b ∧ AllFinite c ∧ (a.polygon [b, c] == b.polygon [c, a]) = false := by
  refine ⟨pt2 (0) (0), pt2 (4167) (2565), pt2 (237) (4073), Point2.allFinite.2 ⟨trivial, trivial⟩, Point2.allFinite.2 ⟨trivial, trivial⟩, Point2.allFinite.2 ⟨trivial, trivial⟩, ?_⟩
  exact exactly_ne cyclic_area_1 cyclic_area_2 (by norm_num)
/-! ## The hypotheses are met -/
/-- **C124** in `f32`: the areas of polygons with up to eight more vertices and integer coordinates up to 512 are exact. -/
theorem C124_small2 (o : Point2 F32) (ps : List (Point2 F32)) (hl : ps.length ≤ 8) (h : ∀ p ∈ o :: ps, AllFinite p ∧ ∀ i, OnGrid 0 512 (p.toReal i)) :
    Exactly (o.polygon ps) (exactArea2 o.toReal (ps.map Point2.toReal)) :=
  C124_exact2 (e := 0) (M := 512) (fits_f32 (by norm_num)) o ps (fits_f32 (by omega)) h
theorem C124_small3 (o : Point3 F32) (ps : List (Point3 F32)) (hl : ps.length ≤ 8) (h : ∀ p ∈ o :: ps, AllFinite p ∧ ∀ i, OnGrid 0 512 (p.toReal i)) :
    AllFinite (o.polygon ps) ∧ (o.polygon ps).toReal = exactArea3 o.toReal (ps.map Point3.toReal) :=
  C124_exact3 (e := 0) (M := 512) (fits_f32 (by norm_num)) o ps (fits_f32 (by omega)) h
theorem area_grid2 {a b : ℤ} {ha : |a| ≤ 16777216} {hb : |b| ≤ 16777216} (h1 : |a| ≤ 512) (h2 : |b| ≤ 512) :
    AllFinite (pt2 a b ha hb) ∧ ∀ i, OnGrid 0 512 ((pt2 a b ha hb).toReal i) := by
  exact ⟨finite_pt2, grid_pt2 h1 h2⟩
/-- A pentagon, with a repeated vertex and closed: nothing changes, and the area is the exact one. -/
theorem C124_pentagon : Exactly ((pt2 0 0 : Point2 F32).polygon [pt2 4 0, pt2 6 3, pt2 3 5, pt2 (-1) 3]) 47 := by
  have := C124_small2 (pt2 0 0) [pt2 4 0, pt2 6 3, pt2 3 5, pt2 (-1) 3] (by simp) (by
    intro p hp
    simp only [List.mem_cons, List.not_mem_nil, or_false] at hp
    rcases hp with rfl | rfl | rfl | rfl | rfl <;> exact area_grid2 (by norm_num) (by norm_num))
  have e : exactArea2 (pt2 0 0 : Point2 F32).toReal ([pt2 4 0, pt2 6 3, pt2 3 5, pt2 (-1) 3].map Point2.toReal) = 47 := by
    simp [exactArea2, perp, Point2.toReal, pt2, real_int32]
    norm_num
  rwa [e] at this
example : ((pt2 0 0 : Point2 F32).polygon ([pt2 4 0, pt2 6 3, pt2 3 5, pt2 (-1) 3] ++ [pt2 0 0]) == (pt2 0 0 : Point2 F32).polygon [pt2 4 0, pt2 6 3, pt2 3 5, pt2 (-1) 3]) = true := by
  refine C124_close2 _ _ (C124_small2 (pt2 0 0) _ (by simp) ?_).1
  intro p hp
  simp only [List.mem_cons, List.mem_append, List.not_mem_nil, or_false] at hp
  rcases hp with rfl | (rfl | rfl | rfl | rfl) | rfl <;> exact area_grid2 (by norm_num) (by norm_num)
example : ((pt2 0 0 : Point2 F32).areaFrom ([pt2 4 0] ++ pt2 6 3 :: pt2 6 3 :: [pt2 3 5]) == (pt2 0 0 : Point2 F32).areaFrom ([pt2 4 0] ++ pt2 6 3 :: [pt2 3 5])) = true := by
  refine C124_repeat2 _ _ _ _ (C124_small2 (pt2 0 0) _ (by simp) ?_).1
  intro p hp
  simp only [List.mem_cons, List.mem_append, List.not_mem_nil, or_false, false_or] at hp
  rcases hp with rfl | rfl | rfl | rfl | rfl <;> exact area_grid2 (by norm_num) (by norm_num)
example : ((pt3 0 0 1 : Point3 F32).polygon ([pt3 4 0 2, pt3 6 3 5, pt3 3 5 0] ++ [pt3 0 0 1]) == (pt3 0 0 1 : Point3 F32).polygon [pt3 4 0 2, pt3 6 3 5, pt3 3 5 0]) = true := by
  refine C124_close3 _ _ (C124_small3 (pt3 0 0 1) _ (by simp) ?_).1
  intro p hp
  simp only [List.mem_cons, List.mem_append, List.not_mem_nil, or_false] at hp
  rcases hp with rfl | (rfl | rfl | rfl) | rfl <;> exact ⟨finite_pt3, grid_pt3 (by norm_num) (by norm_num) (by norm_num)⟩
example : ((pt3 0 0 1 : Point3 F32).areaFrom ([pt3 4 0 2] ++ pt3 6 3 5 :: pt3 6 3 5 :: [pt3 3 5 0]) == (pt3 0 0 1 : Point3 F32).areaFrom ([pt3 4 0 2] ++ pt3 6 3 5 :: [pt3 3 5 0])) = true := by
  refine C124_repeat3 _ _ _ _ (C124_small3 (pt3 0 0 1) _ (by simp) ?_).1
  intro p hp
  simp only [List.mem_cons, List.mem_append, List.not_mem_nil, or_false, false_or] at hp
  rcases hp with rfl | rfl | rfl | rfl | rfl <;> exact ⟨finite_pt3, grid_pt3 (by norm_num) (by norm_num) (by norm_num)⟩
example : IsFinite ((⟨pt2 1 2, pt2 4 7⟩ : BoundingBox2 F32).area + (⟨pt2 1 2, pt2 4 7⟩ : BoundingBox2 F32).area) := by
  have w : Exactly (int32 4 - int32 1 : F32) ((3 : ℤ) : ℝ) := area_dif 4 1 3 (by norm_num) (by norm_num) (by norm_num) (by norm_num)
  have h : Exactly (int32 7 - int32 2 : F32) ((5 : ℤ) : ℝ) := area_dif 7 2 5 (by norm_num) (by norm_num) (by norm_num) (by norm_num)
  have a := int_mul32 w h (by norm_num)
  exact (int_add32' a a (by norm_num)).1
/-- The bound on the error applies to the triangle above whose area is rounded. -/
example : IsFinite ((pt2 0 0 : Point2 F32).areaFrom [pt2 4167 2565, pt2 237 4073]) := cyclic_area_1.1
end VecMath
