import Verif.Props.FloatExamples2
import Verif.Props.FloatSymmetry
import Verif.Props.FloatBoxTr
/-!
# C73: concrete `f32` cases, and what mirroring and renaming do change
-/

open Classical

namespace VecMath
open Scalar IEEE Fl

/-! A box hit by a ray: so are all mirror images and all renamings of the axes (`C73_mirror_hit3`, `C73_permute_hit3`). -/

example (fx fy fz : Bool) :
    ∃ i, Api.intersect ((cube3 1 3).mirror fx fy fz) (rayIn3.mirror fx fy fz) = some i := by
  obtain ⟨i, h⟩ := hit3
  have := C73_mirror_hit3 fx fy fz (cube3 1 3) rayIn3
  rw [h] at this
  unfold SameHit at this
  split at this
  · simp at *
  · exact ⟨_, by assumption⟩
  · exact this.elim
example : ∃ i, Api.intersect (cube3 1 3) (⟨rayIn3.origin.permute .Y .Z .X, rayIn3.direction.permute .Y .Z .X⟩ : Ray3 F32) =
    some i := by
  obtain ⟨i, h⟩ := hit3
  have := C73_permute_hit3 .Y .Z .X (by decide) (by decide) (by decide) (cube3 1 3) rayIn3
  rw [h] at this
  unfold SameHit at this
  split at this
  · simp at *
  · exact ⟨_, by assumption⟩
  · exact this.elim
example (fx fy : Bool) : Exactly (Api.length (v34.mirror fx fy)) 5 := by
  have h := C73_mirror_length2 fx fy v34
  obtain ⟨h1, h2⟩ := length_v34
  unfold Exactly IsFinite real at *
  rw [h]; exact ⟨h1, h2⟩

section
variable {F : Fmt}

theorem exactly_add {a b : Fl F} {x y z : ℝ} (ha : Exactly a x) (hb : Exactly b y) (h : F.rnd (x + y) = z)
    (h3 : |x + y| < 3) : Exactly (a + b) z := by
  have hf : IsFinite (a + b) := by
    rw [(correct_add ha.1 hb.1).1, ha.2, hb.2]; exact h3.trans_le three_le_overflow
  exact ⟨hf, by rw [real_add hf, rnd_eq, ha.2, hb.2]; exact h⟩
theorem exactly_sub {a b : Fl F} {x y z : ℝ} (ha : Exactly a x) (hb : Exactly b y) (h : F.rnd (x - y) = z)
    (h3 : |x - y| < 3) : Exactly (a - b) z := by
  have hf : IsFinite (a - b) := by
    rw [(correct_sub ha.1 hb.1).1, ha.2, hb.2]; exact h3.trans_le three_le_overflow
  exact ⟨hf, by rw [real_sub hf, rnd_eq, ha.2, hb.2]; exact h⟩
theorem exactly_mul {a b : Fl F} {x y z : ℝ} (ha : Exactly a x) (hb : Exactly b y) (h : F.rnd (x * y) = z)
    (h3 : |x * y| < 3) : Exactly (a * b) z := by
  have hf : IsFinite (a * b) := by
    rw [(correct_mul ha.1 hb.1).1, ha.2, hb.2]; exact h3.trans_le three_le_overflow
  exact ⟨hf, by rw [real_mul hf, rnd_eq, ha.2, hb.2]; exact h⟩
theorem exactly_neg {a : Fl F} {x : ℝ} (ha : Exactly a x) : Exactly (-a) (-x) :=
  ⟨finite_neg.2 ha.1, by rw [real_neg, ha.2]⟩
theorem exactly_one : Exactly (Scalar.one : Fl F) 1 := ⟨finite_one, real_one⟩
theorem exactly_half : Exactly (Scalar.half : Fl F) (1 / 2) := ⟨finite_half, real_half⟩
theorem exactly_small : Exactly (small F) (2 ^ F.emin) := ⟨finite_small, real_small⟩
theorem rnd_one' : F.rnd 1 = 1 := F.rounding.rnd_one
theorem small_le_quarter : (2 : ℝ) ^ F.emin ≤ 1 / 4 := by
  rw [show (1 / 4 : ℝ) = 2 ^ (-2 : ℤ) by norm_num]
  exact Fmt.z_le (bound F).1
theorem rnd_small : F.rnd (2 ^ F.emin) = 2 ^ F.emin := F.rnd_of_has (F.has_zpow le_rfl)

/-- **C73** ends here: in every binary format there are finite vectors of space whose inner product changes when the
axes are renamed, since the sum is rounded in the order x, y, z. -/
theorem C73_permute_dot_false : ∃ u v : Vector3 (Fl F), AllFinite u ∧ AllFinite v ∧
    Exactly (Api.dot u v) 0 ∧ Exactly (Api.dot (u.permute .X .Z .Y) (v.permute .X .Z .Y)) (2 ^ F.emin) := by
  have h4 := small_le_quarter (F := F)
  have h0 : (0 : ℝ) < 2 ^ F.emin := Fmt.z_pos _
  have l := exactly_one (F := F)
  have n := exactly_neg l
  have m1 : Exactly ((Scalar.one : Fl F) * Scalar.one) 1 := exactly_mul l l (by rw [mul_one, rnd_one']) (by norm_num)
  have mn : Exactly ((Scalar.one : Fl F) * -Scalar.one) (-1) :=
    exactly_mul l n (by rw [one_mul, F.rnd_neg, rnd_one']) (by norm_num)
  have ms : Exactly ((Scalar.one : Fl F) * small F) (2 ^ F.emin) :=
    exactly_mul l exactly_small (by rw [one_mul, rnd_small]) (by rw [one_mul, abs_of_pos h0]; linarith)
  refine ⟨⟨Scalar.one, Scalar.one, Scalar.one⟩, ⟨Scalar.one, small F, -Scalar.one⟩,
    Vector3.allFinite.2 ⟨finite_one, finite_one, finite_one⟩,
    Vector3.allFinite.2 ⟨finite_one, finite_small, finite_neg.2 finite_one⟩, ?_, ?_⟩
  · refine exactly_add (exactly_add m1 ms (z := 1) ?_ ?_) mn ?_ ?_
    · have := rnd_one_small (F := F); rwa [real_small, add_comm] at this
    · rw [abs_of_pos (by linarith)]; linarith
    · norm_num; exact F.rnd_zero
    · norm_num
  · refine exactly_add (exactly_add m1 mn (z := 0) ?_ ?_) ms ?_ ?_
    · norm_num; exact F.rnd_zero
    · norm_num
    · rw [zero_add, rnd_small]
    · rw [zero_add, abs_of_pos h0]; linarith

/-- **C73** ends here: in every binary format there is a finite well-formed box such that the center of the mirror image
is not the mirror image of the center. -/
theorem C73_mirror_center_false : ∃ b : BoundingBox2 (Fl F), AllFinite b ∧ LeAll b.min b.max ∧
    Exactly b.center.x (1 / 2 - 2 ^ (-(F.p : ℤ))) ∧ Exactly (b.mirror true false).center.x (-(1 / 2)) := by
  have hp := F.hp
  have hmin := F.hmin
  have h0 : (0 : ℝ) < 2 ^ (-(F.p : ℤ)) := Fmt.z_pos _
  have h4 : (2 : ℝ) ^ (-(F.p : ℤ)) ≤ 1 / 4 := by
    rw [show (1 / 4 : ℝ) = 2 ^ (-2 : ℤ) by norm_num]
    exact Fmt.z_le (by omega)
  let e : Fl F := pow2 (-(F.p : ℤ)) (by omega) (by have := F.hmax; omega)
  have he : Exactly e (2 ^ (-(F.p : ℤ))) := ⟨trivial, rfl⟩
  have l := exactly_one (F := F)
  have hr : F.rnd (1 + 2 ^ (-(F.p : ℤ))) = 1 := by
    refine le_antisymm rnd_one_eps ?_
    calc (1 : ℝ) = F.rnd 1 := rnd_one'.symm
      _ ≤ _ := F.rnd_mono (by linarith)
  have hh : F.rnd (1 / 2) = 1 / 2 := by
    have := F.rnd_of_has (F.has_zpow (k := -1) (by have := bound F; omega))
    rwa [show (2 : ℝ) ^ (-1 : ℤ) = 1 / 2 by norm_num] at this
  have hc : F.rnd (1 / 2 - 2 ^ (-(F.p : ℤ))) = 1 / 2 - 2 ^ (-(F.p : ℤ)) := by
    refine F.rnd_of_has ⟨2 ^ (F.p - 1) - 1, -(F.p : ℤ), by omega, ?_, ?_⟩
    · have h1 : (1 : ℤ) ≤ 2 ^ (F.p - 1) := one_le_pow₀ (by norm_num)
      have h2 : (2 : ℤ) ^ (F.p - 1) ≤ 2 ^ F.p := pow_le_pow_right₀ (by norm_num) (by omega)
      rw [abs_of_nonneg (by omega)]; omega
    · have e2 : ((2 ^ (F.p - 1) : ℤ) : ℝ) * 2 ^ (-(F.p : ℤ)) = 1 / 2 := by
        push_cast
        rw [← zpow_natCast, ← zpow_add₀ (by norm_num), show ((F.p - 1 : ℕ) : ℤ) + -(F.p : ℤ) = -1 by omega]
        norm_num
      push_cast at e2 ⊢
      rw [sub_mul, e2, one_mul]
  have hm : Exactly ((Scalar.one : Fl F) * Scalar.half) (1 / 2) :=
    exactly_mul l exactly_half (by rw [one_mul, hh]) (by norm_num)
  have hd : ∀ d : Fl F, Exactly d 1 → Exactly (d * Scalar.half) (1 / 2) := fun d h =>
    exactly_mul h exactly_half (by rw [one_mul, hh]) (by norm_num)
  refine ⟨⟨⟨-e, -e⟩, ⟨Scalar.one, Scalar.one⟩⟩, BoundingBox2.allFinite.2 ⟨Point2.allFinite.2 ⟨finite_neg.2 he.1, finite_neg.2 he.1⟩,
    Point2.allFinite.2 ⟨finite_one, finite_one⟩⟩, ?_, ?_, ?_⟩
  · have : (-e ≤? (Scalar.one : Fl F)) = true := by
      rw [le_real (finite_neg.2 he.1) finite_one, real_neg, he.2, real_one]; linarith
    exact Point2.leAll.2 ⟨this, this⟩
  · show Exactly (-e + (Scalar.one - -e) * Scalar.half) _
    have hx : Exactly ((Scalar.one : Fl F) - -e) 1 :=
      exactly_sub l (exactly_neg he) (by rw [sub_neg_eq_add, hr]) (by rw [sub_neg_eq_add, abs_of_pos (by linarith)]; linarith)
    refine exactly_add (exactly_neg he) (hd _ hx) ?_ ?_
    · rw [neg_add_eq_sub, hc]
    · rw [neg_add_eq_sub, abs_of_pos (by linarith)]; linarith
  · show Exactly (-Scalar.one + (- -e - -Scalar.one) * Scalar.half) _
    have hx : Exactly (- -e - -(Scalar.one : Fl F)) 1 := by
      refine exactly_sub (exactly_neg (exactly_neg he)) (exactly_neg l) ?_ ?_
      · rw [neg_neg, sub_neg_eq_add, add_comm, hr]
      · rw [neg_neg, sub_neg_eq_add, abs_of_pos (by linarith)]; linarith
    refine exactly_add (exactly_neg l) (hd _ hx) ?_ ?_
    · rw [show (-1 + 1 / 2 : ℝ) = -(1 / 2) by norm_num, F.rnd_neg, hh]
    · norm_num
end
end VecMath
