import Verif.Lemmas.Perturb
import Verif.Lemmas.LookAt
import Verif.Lemmas.Permanent
/-! # Determinant, adjugate and their absolute values for a real affine 4x4 matrix given by its columns -/

namespace VecMath
open Scalar IEEE

/-- columns `r`, `n`, `d`, offset `o`, last row `0 0 0 1` -/
def cam (r n d o : Fin 3 → ℝ) : Matrix (Fin 4) (Fin 4) ℝ :=
  !![r 0, n 0, d 0, o 0; r 1, n 1, d 1, o 1; r 2, n 2, d 2, o 2; 0, 0, 0, 1]
/-- rows `a`, `b`, `c`, offset `p`, last row `0 0 0 q` -/
def rowsOf (a b c p : Fin 3 → ℝ) (q : ℝ) : Matrix (Fin 4) (Fin 4) ℝ :=
  !![a 0, a 1, a 2, p 0; b 0, b 1, b 2, p 1; c 0, c 1, c 2, p 2; 0, 0, 0, q]

theorem adj_cam (r n d o : Fin 3 → ℝ) : (cam r n d o).adjugate =
    rowsOf (crossProduct n d) (crossProduct d r) (crossProduct r n)
      ![-(crossProduct n d ⬝ᵥ o), -(crossProduct d r ⬝ᵥ o), -(crossProduct r n ⬝ᵥ o)] (crossProduct n d ⬝ᵥ r) := by
  ext i j
  rw [Matrix.adjugate_fin_succ_eq_det_submatrix, Matrix.det_fin_three]
  fin_cases i <;> fin_cases j <;>
    simp [cam, rowsOf, cross_apply, dot3, Fin.succAbove, Matrix.submatrix_apply, Fin.lt_def, -Matrix.cons_dotProduct] <;> ring
theorem det_cam (r n d o : Fin 3 → ℝ) : (cam r n d o).det = crossProduct n d ⬝ᵥ r := by
  have h := congrFun (congrFun (Matrix.mul_adjugate (cam r n d o)) 3) 3
  rw [adj_cam] at h
  simp [Matrix.mul_apply, Fin.sum_univ_four, cam, rowsOf] at h
  exact h.symm

theorem absAdj_cam {r n d o : Fin 3 → ℝ} {A L : ℝ} (hA : 0 ≤ A) (hr : ∀ i, |r i| ≤ A) (hn : ∀ i, |n i| ≤ A) (hd : ∀ i, |d i| ≤ A)
    (hL : |o 0| + |o 1| + |o 2| ≤ L) : ∀ i j, absAdj (cam r n d o) i j ≤ rowsOf (fun _ => 2 * A ^ 2) (fun _ => 2 * A ^ 2) (fun _ => 2 * A ^ 2) (fun _ => 2 * A ^ 2 * L) (6 * A ^ 3) i j := by
  have sq : ∀ {x y : ℝ}, |x| ≤ A → |y| ≤ A → |x| * |y| ≤ A ^ 2 := fun hx hy => by
    rw [sq]; exact mul_le_mul hx hy (abs_nonneg _) hA
  have cu : ∀ {x y z : ℝ}, |x| ≤ A → |y| ≤ A → |z| ≤ A → |x| * |y| * |z| ≤ A ^ 3 := fun hx hy hz => by
    rw [pow_succ]; exact mul_le_mul (sq hx hy) hz (abs_nonneg _) (by positivity)
  have l0 := abs_nonneg (o 0)
  have l1 := abs_nonneg (o 1)
  have l2 := abs_nonneg (o 2)
  have a2 : 0 ≤ A ^ 2 := by positivity
  have key : ∀ {x1 x2 x3 y1 y2 y3 : ℝ}, |x1| ≤ A → |x2| ≤ A → |x3| ≤ A → |y1| ≤ A → |y2| ≤ A → |y3| ≤ A →
      |x1| * |y2| * |o 2| + |y1| * |o 1| * |x3| + |o 0| * |x2| * |y3| + |x1| * |o 1| * |y3| + |y1| * |x2| * |o 2| + |o 0| * |y2| * |x3| ≤ 2 * A ^ 2 * L := by
    intro x1 x2 x3 y1 y2 y3 p1 p2 p3 q1 q2 q3
    have := mul_le_mul_of_nonneg_right (sq p1 q2) l2
    have := mul_le_mul_of_nonneg_right (sq q1 p3) l1
    have := mul_le_mul_of_nonneg_right (sq p2 q3) l0
    have := mul_le_mul_of_nonneg_right (sq p1 q3) l1
    have := mul_le_mul_of_nonneg_right (sq q1 p2) l2
    have := mul_le_mul_of_nonneg_right (sq q2 p3) l0
    have := mul_le_mul_of_nonneg_left hL a2
    nlinarith
  intro i j
  rw [absAdj, absDet_three]
  fin_cases i <;> fin_cases j <;>
    simp [cam, rowsOf, Fin.succAbove, Matrix.submatrix_apply, Fin.lt_def]
  · linarith [sq (hn 1) (hd 2), sq (hd 1) (hn 2)]
  · linarith [sq (hn 0) (hd 2), sq (hd 0) (hn 2)]
  · linarith [sq (hn 0) (hd 1), sq (hd 0) (hn 1)]
  · linarith [key (hn 0) (hn 1) (hn 2) (hd 0) (hd 1) (hd 2)]
  · linarith [sq (hr 1) (hd 2), sq (hd 1) (hr 2)]
  · linarith [sq (hr 0) (hd 2), sq (hd 0) (hr 2)]
  · linarith [sq (hr 0) (hd 1), sq (hd 0) (hr 1)]
  · linarith [key (hr 0) (hr 1) (hr 2) (hd 0) (hd 1) (hd 2)]
  · linarith [sq (hr 1) (hn 2), sq (hn 1) (hr 2)]
  · linarith [sq (hr 0) (hn 2), sq (hn 0) (hr 2)]
  · linarith [sq (hr 0) (hn 1), sq (hn 0) (hr 1)]
  · linarith [key (hr 0) (hr 1) (hr 2) (hn 0) (hn 1) (hn 2)]
  · linarith [cu (hr 0) (hn 1) (hd 2), cu (hn 0) (hd 1) (hr 2), cu (hd 0) (hr 1) (hn 2), cu (hr 0) (hd 1) (hn 2), cu (hn 0) (hr 1) (hd 2), cu (hd 0) (hn 1) (hr 2)]

theorem absDet_cam {r n d o : Fin 3 → ℝ} {A : ℝ} (hA : 0 ≤ A) (hr : ∀ i, |r i| ≤ A) (hn : ∀ i, |n i| ≤ A) (hd : ∀ i, |d i| ≤ A) :
    absDet (cam r n d o) ≤ 6 * A ^ 3 := by
  have cu : ∀ {x y z : ℝ}, |x| ≤ A → |y| ≤ A → |z| ≤ A → |x| * |y| * |z| ≤ A ^ 3 := fun hx hy hz => by
    rw [pow_succ, sq]; exact mul_le_mul (mul_le_mul hx hy (abs_nonneg _) hA) hz (abs_nonneg _) (by positivity)
  rw [absDet_succ, Fin.sum_univ_four]
  simp only [absAdj, absDet_three]
  simp [cam, Fin.succAbove, Matrix.submatrix_apply, Fin.lt_def]
  linarith [cu (hr 0) (hn 1) (hd 2), cu (hn 0) (hd 1) (hr 2), cu (hd 0) (hr 1) (hn 2), cu (hr 0) (hd 1) (hn 2), cu (hn 0) (hr 1) (hd 2), cu (hd 0) (hn 1) (hr 2)]

end VecMath
