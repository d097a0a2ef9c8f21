import Verif.Props.FloatMesh
import Verif.Props.AreaEx
import Verif.Props.ClipEx
/-! # C128: the hypotheses are met; in `f32` a closed surface that encloses nothing can have a volume -/

namespace VecMath
open Scalar IEEE

section
variable {x y : F32} {a b c : ℤ}
theorem mesh_add (hx : Exactly x a) (hy : Exactly y b) (h : binary32.rnd ((a + b : ℤ) : ℝ) = (c : ℝ)) (hb : |a + b| ≤ 2 ^ 50) : Exactly (x + y) (c : ℝ) := by
  refine exec_add hx hy ?_ (big32' ?_) <;> rw [← Int.cast_add]
  · exact h
  · exact_mod_cast hb
theorem mesh_sub (hx : Exactly x a) (hy : Exactly y b) (h : binary32.rnd ((a - b : ℤ) : ℝ) = (c : ℝ)) (hb : |a - b| ≤ 2 ^ 50) : Exactly (x - y) (c : ℝ) := by
  refine exec_sub hx hy ?_ (big32' ?_) <;> rw [← Int.cast_sub]
  · exact h
  · exact_mod_cast hb
end
theorem mesh_rnd_a : binary32.rnd ((16785409 : ℤ) : ℝ) = ((16785408 : ℤ) : ℝ) := by
  rw [binary32.rnd_lit_even 24 1 8392704 (by decide) (by decide)]
  all_goals norm_num
theorem mesh_rnd_b : binary32.rnd ((16785408 : ℤ) : ℝ) = ((16785408 : ℤ) : ℝ) := by
  rw [binary32.rnd_lit 24 1 8392704 (by decide)]
  all_goals norm_num
theorem mesh_rnd_c : binary32.rnd ((50356224 : ℤ) : ℝ) = ((50356224 : ℤ) : ℝ) := by
  rw [binary32.rnd_lit 25 2 12589056 (by decide)]
  all_goals norm_num
theorem mesh_rnd_d : binary32.rnd ((50356227 : ℤ) : ℝ) = ((50356228 : ℤ) : ℝ) := by
  rw [binary32.rnd_lit 25 2 12589057 (by decide)]
  all_goals norm_num
theorem mesh_rnd_e : binary32.rnd ((50356228 : ℤ) : ℝ) = ((50356228 : ℤ) : ℝ) := by
  rw [binary32.rnd_lit 25 2 12589057 (by decide)]
  all_goals norm_num
theorem mesh_rnd_f : binary32.rnd ((-4 : ℤ) : ℝ) = ((-4 : ℤ) : ℝ) := by
  rw [show ((-4 : ℤ) : ℝ) = -(4 : ℝ) by norm_num, binary32.rnd_neg, binary32.rnd_lit 2 (-21) 8388608 (by decide)]
  all_goals norm_num

noncomputable def meshA : Point3 F32 := pt3 4097 0 0
noncomputable def meshB : Point3 F32 := pt3 0 4097 0
noncomputable def meshC : Point3 F32 := pt3 0 0 3
noncomputable def meshO : Point3 F32 := pt3 0 0 0
theorem mesh_z {x y : F32} (hx : Exactly x ((0 : ℤ) : ℝ)) {a : ℤ} (hy : Exactly y (a : ℝ)) : Exactly (x * y) ((0 : ℤ) : ℝ) :=
  ex_int (int_mul32 hx hy (by norm_num)) (by norm_num)
theorem mesh_z' {x y : F32} {a : ℤ} (hx : Exactly x (a : ℝ)) (hy : Exactly y ((0 : ℤ) : ℝ)) : Exactly (x * y) ((0 : ℤ) : ℝ) :=
  ex_int (int_mul32 hx hy (by norm_num)) (by norm_num)
theorem mesh_zs {x y : F32} (hx : Exactly x ((0 : ℤ) : ℝ)) (hy : Exactly y ((0 : ℤ) : ℝ)) : Exactly (x - y) ((0 : ℤ) : ℝ) :=
  ex_int (int_sub32' hx hy (by norm_num)) (by norm_num)
theorem mesh_za {x y : F32} (hx : Exactly x ((0 : ℤ) : ℝ)) (hy : Exactly y ((0 : ℤ) : ℝ)) : Exactly (x + y) ((0 : ℤ) : ℝ) :=
  ex_int (int_add32' hx hy (by norm_num)) (by norm_num)
/-- The corners as seen from the origin. -/
theorem mesh_from (m : ℤ) (hm : |m| ≤ 16777216) : Exactly (int32 m hm - int32 0 (by norm_num) : F32) ((m : ℤ) : ℝ) :=
  area_dif m 0 m hm (by norm_num) (by rwa [sub_zero]) (sub_zero m)
theorem mesh_tetra1 : Exactly (meshO.tetra (meshA, meshB, meshC)) ((50356224 : ℤ) : ℝ) := by
  have ax := mesh_from 4097 (by norm_num)
  have z := mesh_from 0 (by norm_num)
  have c := mesh_from 3 (by norm_num)
  have x := mesh_zs (mesh_z z z) (mesh_z z ax)
  have y := mesh_zs (mesh_z z z) (mesh_z' ax z)
  have w : Exactly _ ((16785408 : ℤ) : ℝ) := mesh_sub (a := 16785408) (b := 0)
    (area_mul ax ax (by rw [show (4097 : ℤ) * 4097 = 16785409 by norm_num]; exact mesh_rnd_a) (by norm_num)) (mesh_z z z)
    (by rw [sub_zero]; exact mesh_rnd_b) (by norm_num)
  have d : Exactly _ ((50356224 : ℤ) : ℝ) := area_mul w c (by rw [show (16785408 : ℤ) * 3 = 50356224 by norm_num]; exact mesh_rnd_c) (by norm_num)
  exact mesh_add (a := 0) (b := 50356224) (mesh_za (mesh_z x z) (mesh_z y z)) d (by rw [zero_add]; exact mesh_rnd_c) (by norm_num)
theorem mesh_tetra2 : Exactly (meshO.tetra (meshA, meshC, meshB)) ((-50356228 : ℤ) : ℝ) := by
  have ax := mesh_from 4097 (by norm_num)
  have z := mesh_from 0 (by norm_num)
  have c := mesh_from 3 (by norm_num)
  have x := mesh_zs (mesh_z z c) (mesh_z z z)
  have y : Exactly _ ((-12291 : ℤ) : ℝ) := ex_int (int_sub32' (mesh_z z z) (ex_int (b := 12291) (int_mul32 ax c (by norm_num)) (by norm_num)) (by norm_num)) (by norm_num)
  have w := mesh_zs (mesh_z' ax z) (mesh_z z z)
  have d : Exactly _ ((-50356228 : ℤ) : ℝ) := area_mul y ax (by rw [show (-12291 : ℤ) * 4097 = -50356227 by norm_num]; exact rnd_less mesh_rnd_d) (by norm_num)
  have s := mesh_add (a := 0) (b := -50356228) (mesh_z x z) d (by rw [zero_add]; exact rnd_less mesh_rnd_e) (by norm_num)
  exact mesh_add (a := -50356228) (b := 0) s (mesh_z w z) (by rw [add_zero]; exact rnd_less mesh_rnd_e) (by norm_num)
/-- The two sides of one triangle. -/
theorem mesh_closed {P : Type} (a b c : P) : Closed [((a, b, c) : Face P), (a, c, b)] := by
  have : Closed [((0, 1, 2) : Face (Fin 3)), (0, 2, 1)] := by unfold Closed; decide
  exact this.image ![a, b, c]
/-- **C128**, where it fails in floating point: the two sides of one triangle are a closed surface that encloses nothing, but in `f32` its computed volume,
seen from the origin, can be negative. The two sides name the corners in orders that are rounded differently. -/
theorem C128_leak : ∃ (o : Point3 F32) (fs : List (Face (Point3 F32))), AllFinite o ∧ FiniteMesh fs ∧ Closed (fs.map (Face.image Point3.toReal)) ∧ fs.length = 2 ∧
    (∀ q, exactVolume q (fs.map (Face.image Point3.toReal)) = 0) ∧ Exactly (o.volumeFrom fs) (-4) := by
  refine ⟨meshO, [(meshA, meshB, meshC), (meshA, meshC, meshB)], Point3.allFinite.2 ⟨trivial, trivial, trivial⟩, ?_, mesh_closed _ _ _, rfl, ?_, ?_⟩
  · have f : ∀ x y z hx hy hz, AllFinite (pt3 x y z hx hy hz : Point3 F32) := fun _ _ _ _ _ _ => Point3.allFinite.2 ⟨trivial, trivial, trivial⟩
    intro g hg
    simp only [List.mem_cons, List.not_mem_nil, or_false] at hg
    rcases hg with rfl | rfl <;> exact ⟨f _ _ _ _ _ _, f _ _ _ _ _ _, f _ _ _ _ _ _⟩
  · intro q
    simp only [exactVolume, List.map_cons, List.map_nil, List.sum_cons, List.sum_nil, Face.image, edges_triple, triple]
    ring
  · have s1 := mesh_add (c := 50356224) int_zero32 mesh_tetra1 (by rw [zero_add]; exact mesh_rnd_c) (by norm_num)
    have s2 : Exactly _ ((-4 : ℤ) : ℝ) := mesh_add s1 mesh_tetra2 (by rw [show (50356224 : ℤ) + -50356228 = -4 by norm_num]; exact mesh_rnd_f) (by norm_num)
    rw [Int.cast_neg] at s2
    exact_mod_cast s2

/-! ## The hypotheses are met -/
/-- A tetrahedron is a closed surface with a volume; so is every box. -/
theorem tetrahedron_closed {P : Type} (a b c d : P) : Closed [((a, c, b) : Face P), (a, b, d), (b, c, d), (a, d, c)] := by
  have : Closed [((0, 2, 1) : Face (Fin 4)), (0, 1, 3), (1, 2, 3), (0, 3, 2)] := by unfold Closed; decide
  exact this.image ![a, b, c, d]
example (o q : Point3 Ideal) (a b c d : Point3 Ideal) (ho : AllFinite o) (hq : AllFinite q) (ha : AllFinite a) (hb : AllFinite b) (hc : AllFinite c) (hd : AllFinite d) :
    (o.volumeFrom [(a, c, b), (a, b, d), (b, c, d), (a, d, c)] == q.volumeFrom [(a, c, b), (a, b, d), (b, c, d), (a, d, c)]) = true := by
  refine C128_anywhere o q _ ho hq ?_ (tetrahedron_closed _ _ _ _)
  intro f hf
  simp only [List.mem_cons, List.not_mem_nil, or_false] at hf
  rcases hf with rfl | rfl | rfl | rfl
  exacts [⟨ha, hc, hb⟩, ⟨ha, hb, hd⟩, ⟨hb, hc, hd⟩, ⟨ha, hd, hc⟩]
/-- The unit tetrahedron has the six-fold volume 1. -/
example : exactVolume 0 [((![0, 0, 0], ![0, 1, 0], ![1, 0, 0]) : Face (Fin 3 → ℝ)), (![0, 0, 0], ![1, 0, 0], ![0, 0, 1]), (![1, 0, 0], ![0, 1, 0], ![0, 0, 1]),
    (![0, 0, 0], ![0, 0, 1], ![0, 1, 0])] = 1 := by
  simp [exactVolume, edges_triple, triple]
/-- In `f32`, with small integers, the computed volume is exact. -/
example : Exactly ((pt3 7 (-3) 5 : Point3 F32).volumeFrom [(pt3 0 0 0, pt3 0 3 0, pt3 2 0 0), (pt3 0 0 0, pt3 2 0 0, pt3 0 0 4), (pt3 2 0 0, pt3 0 3 0, pt3 0 0 4),
    (pt3 0 0 0, pt3 0 0 4, pt3 0 3 0)])
    (exactVolume (pt3 7 (-3) 5 : Point3 F32).toReal ([(pt3 0 0 0, pt3 0 3 0, pt3 2 0 0), (pt3 0 0 0, pt3 2 0 0, pt3 0 0 4), (pt3 2 0 0, pt3 0 3 0, pt3 0 0 4),
    (pt3 0 0 0, pt3 0 0 4, pt3 0 3 0)].map (Face.image Point3.toReal))) := by
  refine C128_exact (e := 0) (N := 7) _ _ (fits_f32 (by norm_num)) (fits_f32 (by norm_num)) (fits_f32 (by norm_num))
    ⟨finite_pt3, grid_pt3 (by norm_num) (by norm_num) (by norm_num)⟩ ?_
  intro f hf p hp
  simp only [List.mem_cons, List.not_mem_nil, or_false] at hf
  rcases hf with rfl | rfl | rfl | rfl <;> simp only [List.mem_cons, List.not_mem_nil, or_false] at hp <;> rcases hp with rfl | rfl | rfl <;>
    exact ⟨finite_pt3, grid_pt3 (by norm_num) (by norm_num) (by norm_num)⟩
/-- A single triangle is not closed. -/
example : ¬ Closed [((0, 1, 2) : Face (Fin 3))] := by unfold Closed; decide

end VecMath
