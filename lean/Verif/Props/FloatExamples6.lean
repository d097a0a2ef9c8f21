import Verif.Props.FloatExamples2
import Verif.Props.FloatScale
/-!
# C74: concrete `f32` cases
-/

open Classical

namespace VecMath
open Scalar IEEE Fl

theorem scaled_int32 {n m : ℤ} (k : ℕ) (e : m = 2 ^ k * n) (h : |n| ≤ 16777216 := by norm_num) (h' : |m| ≤ 16777216 := by norm_num) : Scaled (k : ℤ) (int32 n h) (int32 m h') := by
  show Val.fin _ = Val.fin _
  rw [e]; push_cast; rfl
theorem G_int32 {n : ℤ} {h} {N : ℕ} (hN : |n| ≤ N) : G 0 N (int32 n h) (n : ℝ) := ⟨⟨finite_int32, real_int32⟩, n, hN, by simp⟩
theorem sub32 {m n : ℤ} (hm : |m| ≤ 1000) (hn : |n| ≤ 1000) (h : |m| ≤ 16777216 := by norm_num) (h' : |n| ≤ 16777216 := by norm_num) : Exactly (int32 m h - int32 n h') ((m : ℝ) - n) :=
  ((G_int32 (N := 1000) hm).sub (G_int32 (N := 1000) hn) (fits_f32 (by norm_num))).ex
theorem sub32_alike {m n m' n' : ℤ} (h : |m| ≤ 16777216 := by norm_num) (h' : |n| ≤ 16777216 := by norm_num)
    (g : |m'| ≤ 16777216 := by norm_num) (g' : |n'| ≤ 16777216 := by norm_num) (hm : |m| ≤ 1000 := by norm_num) (hn : |n| ≤ 1000 := by norm_num)
    (hm' : |m'| ≤ 1000 := by norm_num) (hn' : |n'| ≤ 1000 := by norm_num) :
    Alike (int32 m h - int32 n h') (int32 m' g - int32 n' g') :=
  alike_of (sub32 hm hn h h').1 (sub32 hm' hn' g g').1
theorem safe32 {a d a' d' : F32} {x y x' y' : ℝ} (ha : Exactly a x) (hd : Exactly d y) (ha' : Exactly a' x') (hd' : Exactly d' y')
    (h0 : y ≠ 0) (h0' : y' ≠ 0) (h : 1 / 8 ≤ |x / y|) (h3 : |x / y| < 3) (h' : 1 / 8 ≤ |x' / y'|) (h3' : |x' / y'| < 3) :
    QuotientSafe a d a' d' := by
  have key : ∀ {x : ℝ}, 1 / 8 ≤ |x| → Normal F32 x := fun {x} h => by
    rcases div_normal h with h | h
    · left; simpa using h
    · right; rwa [abs_abs] at h
  refine ⟨?_, ?_, alike_of ?_ ?_⟩
  · rw [ha.2, hd.2]; exact key h
  · rw [ha'.2, hd'.2]; exact key h'
  · rw [(correct_div ha.1 hd.1 (by rw [hd.2]; exact h0)).1, ha.2, hd.2]; exact h3.trans_le three_le_overflow
  · rw [(correct_div ha'.1 hd'.1 (by rw [hd'.2]; exact h0')).1, ha'.2, hd'.2]; exact h3'.trans_le three_le_overflow

/-- `(6, 8)` -/
noncomputable def v68 : Vector2 F32 := ⟨int32 6, int32 8⟩
theorem scaled_v34 : ScaledAll 1 v34 v68 := Vector2.rel.2 ⟨scaled_int32 1 (by norm_num), scaled_int32 1 (by norm_num)⟩
theorem length_v68 : Exactly (Api.length v68) 10 := by
  have hg : ∀ i, OnGrid 0 8 (v68.toReal i) := by
    intro i; fin_cases i
    · exact OnGrid.int (n := 6) (by norm_num)
    · exact OnGrid.int (n := 8) (by norm_num)
  have f : AllFinite v68 := Vector2.allFinite.2 ⟨trivial, trivial⟩
  have h5 : √(∑ i, v68.toReal i ^ 2) = 10 := by
    rw [show ∑ i, v68.toReal i ^ 2 = 10 ^ 2 by
      rw [Fin.sum_univ_two]; show ((6 : ℤ) : ℝ) ^ 2 + ((8 : ℤ) : ℝ) ^ 2 = _; norm_num]
    exact Real.sqrt_sq (by norm_num)
  have := C68_length2 (d := 0) (K := 10) v68 f hg (fits_f32 (by norm_num))
    (by rw [h5]; exact OnGrid.int (n := 10) (by norm_num)) (fits_f32 (by norm_num))
  rwa [h5] at this
theorem normal_v34 (i : Fin 2) : Normal F32 (v34.toReal i ^ 2) := by
  fin_cases i
  · exact normal_int_of 9 (show ((3 : ℤ) : ℝ) ^ 2 = _ by norm_num)
  · exact normal_int_of 16 (show ((4 : ℤ) : ℝ) ^ 2 = _ by norm_num)
theorem normal_v68 (i : Fin 2) : Normal F32 (v68.toReal i ^ 2) := by
  fin_cases i
  · exact normal_int_of 36 (show ((6 : ℤ) : ℝ) ^ 2 = _ by norm_num)
  · exact normal_int_of 64 (show ((8 : ℤ) : ℝ) ^ 2 = _ by norm_num)
example := C74_length2 scaled_v34 normal_v34 normal_v68 length_v34.1 length_v68.1
example : SameAll v34.normalize v68.normalize := C74_normalize2 scaled_v34 normal_v34 normal_v68 length_v34.1 length_v68.1

/-- `rayIn3` in half the unit of length. -/
noncomputable def rayIn3' : Ray3 F32 := ⟨⟨int32 4, int32 4, int32 4⟩, ⟨int32 4, int32 6, int32 12⟩⟩
/-- The box `1 .. 3` is hit; so is the box `2 .. 6` by the ray of twice the size, at the same parameters. -/
example : ∃ i j, Api.intersect (cube3 1 3) rayIn3 = some i ∧ Api.intersect (cube3 2 6) rayIn3' = some j ∧
    (i.start == j.start) = true ∧ (i.stop == j.stop) = true := by
  obtain ⟨i, hi⟩ := hit3
  have h := C74_hit3 (k := 1) (b := cube3 1 3) (b' := cube3 2 6) (r := rayIn3) (r' := rayIn3')
    (BoundingBox3.rel.2 ⟨scaled_int32 1 (by norm_num), scaled_int32 1 (by norm_num), scaled_int32 1 (by norm_num),
      scaled_int32 1 (by norm_num), scaled_int32 1 (by norm_num), scaled_int32 1 (by norm_num)⟩)
    (Point3.rel.2 ⟨scaled_int32 1 (by norm_num), scaled_int32 1 (by norm_num), scaled_int32 1 (by norm_num)⟩)
    (Vector3.rel.2 ⟨scaled_int32 1 (by norm_num), scaled_int32 1 (by norm_num), scaled_int32 1 (by norm_num)⟩)
    (Vector3.rel.2 ⟨sub32_alike, sub32_alike, sub32_alike⟩) (Vector3.rel.2 ⟨sub32_alike, sub32_alike, sub32_alike⟩)
  rw [hi] at h
  rcases hj : (Api.intersect (cube3 2 6) rayIn3' : Option (Range F32)) with _ | j <;> rw [hj] at h
  · exact h.elim
  · exact ⟨i, j, hi, rfl, h⟩
theorem ex_int32 {n : ℤ} (h : |n| ≤ 16777216 := by norm_num) : Exactly (int32 n h) n := ⟨finite_int32, real_int32⟩
/-- Doubling the direction halves the parameters. -/
example : ScaledHit (0 - 1) (Api.intersect (cube2 1 3) rayIn2) (Api.intersect (cube2 1 3) (⟨rayIn2.origin, v68⟩ : Ray2 F32)) := by
  have e1 : Exactly (int32 1 - int32 2) (((1 : ℤ) : ℝ) - (2 : ℤ)) := sub32 (by norm_num) (by norm_num)
  have e3 : Exactly (int32 3 - int32 2) (((3 : ℤ) : ℝ) - (2 : ℤ)) := sub32 (by norm_num) (by norm_num)
  refine C74_hit_scaled2 (j := 0) (k := 1)
    (BoundingBox2.rel.2 ⟨.refl _, .refl _, .refl _, .refl _⟩) (Point2.rel.2 ⟨.refl _, .refl _⟩) scaled_v34
    (Vector2.rel.2 ⟨Iff.rfl, Iff.rfl⟩) (Vector2.rel.2 ⟨Iff.rfl, Iff.rfl⟩)
    ⟨safe32 e1 (ex_int32 (n := 3)) e1 (ex_int32 (n := 6)) ?_ ?_ ?_ ?_ ?_ ?_, safe32 e1 (ex_int32 (n := 4)) e1 (ex_int32 (n := 8)) ?_ ?_ ?_ ?_ ?_ ?_⟩
    ⟨safe32 e3 (ex_int32 (n := 3)) e3 (ex_int32 (n := 6)) ?_ ?_ ?_ ?_ ?_ ?_, safe32 e3 (ex_int32 (n := 4)) e3 (ex_int32 (n := 8)) ?_ ?_ ?_ ?_ ?_ ?_⟩ <;>
    norm_num [abs_div]
end VecMath
