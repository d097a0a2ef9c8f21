import Verif.Props.FloatFlatInv
import Verif.Lemmas.RealInv
/-! # C117 without rounding: inverting any matrix of the plane in space -/

open Classical

namespace VecMath
open Scalar IEEE

/-- The copy in space of a real matrix of the plane. -/
def liftR (A : Matrix (Fin 3) (Fin 3) ℝ) : Matrix (Fin 4) (Fin 4) ℝ :=
  !![A 0 0, A 0 1, 0, A 0 2; A 1 0, A 1 1, 0, A 1 2; 0, 0, 1, 0; A 2 0, A 2 1, 0, A 2 2]
theorem liftR_det (A : Matrix (Fin 3) (Fin 3) ℝ) : (liftR A).det = A.det := by
  rw [Matrix.det_fin_three, Matrix.det_succ_row_zero]
  simp [Fin.sum_univ_succ, Matrix.det_fin_three, liftR, Fin.succAbove]
  ring
theorem liftR_mul (A B : Matrix (Fin 3) (Fin 3) ℝ) : liftR A * liftR B = liftR (A * B) := by
  ext i j
  fin_cases i <;> fin_cases j <;> simp [Matrix.mul_apply, Fin.sum_univ_succ, liftR] <;> ring
theorem liftR_one : liftR 1 = 1 := by
  ext i j
  fin_cases i <;> fin_cases j <;> simp [liftR]
theorem liftR_inv {A : Matrix (Fin 3) (Fin 3) ℝ} (h : A.det ≠ 0) : (liftR A)⁻¹ = liftR A⁻¹ := by
  apply Matrix.inv_eq_right_inv
  rw [liftR_mul, Matrix.mul_nonsing_inv _ (isUnit_iff_ne_zero.2 h), liftR_one]

local notation "Z" => SameNumber (S := Ideal) (T := Ideal)
theorem number_real {a b : Ideal} (ha : IsFinite a) (hb : IsFinite b) : Z a b ↔ real a = real b := by
  rw [sameNumber_iff]
  exact ⟨real_of_num ha hb, num_of_real ha hb⟩
theorem flatM_real {a : Matrix3x3 Ideal} {b : Matrix4x4 Ideal} (ha : AllFinite a) (hb : AllFinite b) : FlatM Z a b ↔ b.toReal = liftR a.toReal := by
  rw [Matrix3x3.allFinite] at ha
  rw [Matrix4x4.allFinite] at hb
  have r : ∀ (i j : ℕ) (hi : i < 9) (hj : j < 16), Z a.m[i] b.m[j] ↔ real b.m[j] = real a.m[i] := fun i j hi hj =>
    (number_real (ha i hi) (hb j hj)).trans eq_comm
  have z : ∀ (j : ℕ) (hj : j < 16), Vanishes b.m[j] ↔ real b.m[j] = 0 := fun j hj =>
    (number_real finite_zero (hb j hj)).trans (by rw [real_zero]; exact eq_comm)
  have o : ∀ (j : ℕ) (hj : j < 16), Z one b.m[j] ↔ real b.m[j] = 1 := fun j hj =>
    (number_real finite_one (hb j hj)).trans (by rw [real_one]; exact eq_comm)
  unfold FlatM PlaneM KeepsZ
  simp only [r, z, o]
  constructor
  · rintro ⟨⟨⟨e0, e1, e2⟩, ⟨e3, e4, e5⟩, e6, e7, e8⟩, ⟨z2, z6, z14⟩, ⟨z8, z9, z11⟩, z10⟩
    funext i j
    fin_cases i <;> fin_cases j <;> assumption
  · intro h
    have k : ∀ i j, b.toReal i j = liftR a.toReal i j := fun i j => by rw [h]
    exact ⟨⟨⟨k 0 0, k 0 1, k 0 3⟩, ⟨k 1 0, k 1 1, k 1 3⟩, k 3 0, k 3 1, k 3 3⟩, ⟨k 0 2, k 1 2, k 3 2⟩, ⟨k 2 0, k 2 1, k 2 3⟩, k 2 2⟩
/-- **C117** without rounding: for every matrix, also one that is not affine. -/
theorem C117_real_inverse {a : Matrix3x3 Ideal} {b : Matrix4x4 Ideal} (h : FlatM Z a b) (ha : AllFinite a) (hb : AllFinite b) :
    Outcome (FlatM Z) a.inverse b.inverse := by
  have e := (flatM_real ha hb).1 h
  have d : b.toReal.det = a.toReal.det := by rw [e, liftR_det]
  rcases Matrix3x3.inverse_cases ha with ⟨h0, k⟩ | ⟨h0, n, k, fn, en⟩ <;> rcases Matrix4x4.inverse_cases hb with ⟨h0', k'⟩ | ⟨h0', n', k', fn', en'⟩
  · rw [k, k']; exact .error _
  · exact absurd (d.trans h0) h0'
  · exact absurd (d.symm.trans h0') h0
  · rw [k, k']
    refine .ok ((flatM_real fn fn').2 ?_)
    rw [en, en', e, liftR_inv h0]

end VecMath
