import Verif.Spec.Curve
import Mathlib.Algebra.Module.LinearMap.End
import Mathlib.Data.Nat.Choose.Sum
import Mathlib.Analysis.Convex.Combination
/-! # Bézier curves over the reals -/

namespace VecMath
open Finset

/-- Interpolation of reals. -/
def mixR (x a b : ℝ) : ℝ := a + (b - a) * x

/-- The next control point. -/
def shift : Module.End ℝ (ℕ → ℝ) where
  toFun c i := c (i + 1)
  map_add' _ _ := rfl
  map_smul' _ _ := rfl
/-- One row of the scheme. -/
def row (x : ℝ) : Module.End ℝ (ℕ → ℝ) := (1 - x) • (1 : Module.End ℝ (ℕ → ℝ)) + x • shift

theorem row_apply (x : ℝ) (c : ℕ → ℝ) (i : ℕ) : row x c i = mixR x (c i) (c (i + 1)) := by
  show (1 - x) * c i + x * c (i + 1) = c i + (c (i + 1) - c i) * x
  ring
theorem casteljau_row (x : ℝ) (c : ℕ → ℝ) (k i : ℕ) : casteljau (mixR x) c k i = (row x ^ k) c i := by
  induction k generalizing i with
  | zero => rfl
  | succ k ih =>
    rw [pow_succ', Module.End.mul_apply, row_apply, ← ih, ← ih]
    rfl
theorem shift_pow (j : ℕ) (c : ℕ → ℝ) (i : ℕ) : (shift ^ j) c i = c (i + j) := by
  induction j generalizing i with
  | zero => rfl
  | succ j ih =>
    rw [pow_succ', Module.End.mul_apply]
    show (shift ^ j) c (i + 1) = _
    rw [ih]; congr 1; omega
theorem mix_pow (A B : Module.End ℝ (ℕ → ℝ)) (h : Commute A B) (s : ℝ) (n : ℕ) (c : ℕ → ℝ) (i : ℕ) :
    (((1 - s) • A + s • B) ^ n) c i = ∑ j ∈ range (n + 1), (n.choose j : ℝ) * ((1 - s) ^ (n - j) * s ^ j) * (A ^ (n - j) * B ^ j) c i := by
  have hc : Commute (s • B) ((1 - s) • A) := (h.symm.smul_left s).smul_right (1 - s)
  rw [add_comm, hc.add_pow, LinearMap.sum_apply, Finset.sum_apply]
  refine sum_congr rfl fun j hj => ?_
  rw [smul_pow, smul_pow, smul_mul_smul_comm, (h.symm.pow_pow j (n - j)).eq]
  have : ((s ^ j * (1 - s) ^ (n - j)) • (A ^ (n - j) * B ^ j) * ((n.choose j : ℕ) : Module.End ℝ (ℕ → ℝ)))
      = ((n.choose j : ℝ) * ((1 - s) ^ (n - j) * s ^ j)) • (A ^ (n - j) * B ^ j) := by
    rw [← nsmul_eq_mul', ← Nat.cast_smul_eq_nsmul ℝ, smul_smul, mul_comm (s ^ j)]
  rw [this]
  rfl
theorem row_commute (x y : ℝ) : Commute (row x) (row y) := by
  unfold row
  have h1 : Commute ((1 - x) • (1 : Module.End ℝ (ℕ → ℝ)) + x • shift) ((1 - y) • (1 : Module.End ℝ (ℕ → ℝ))) := (Commute.one_right _).smul_right _
  refine h1.add_right (Commute.smul_right (Commute.add_left ?_ ?_) y)
  · exact (Commute.one_left _).smul_left _
  · exact (Commute.refl _).smul_left _
theorem row_shift (x : ℝ) : Commute (row x) shift := by
  unfold row
  exact Commute.add_left ((Commute.one_left _).smul_left _) ((Commute.refl _).smul_left _)
/-- The scheme computes the Bernstein form. -/
theorem casteljau_bezier (x : ℝ) (c : ℕ → ℝ) (n : ℕ) : casteljau (mixR x) c n 0 = bezier c n x := by
  rw [casteljau_row]
  unfold row
  rw [mix_pow _ _ (Commute.one_left _)]
  unfold bezier
  refine sum_congr rfl fun j _ => ?_
  rw [one_pow, one_mul, shift_pow, Nat.zero_add]
/-- The part up to `x`. -/
theorem bezier_upTo (x s : ℝ) (c : ℕ → ℝ) (n : ℕ) : bezier (fun k => casteljau (mixR x) c k 0) n s = bezier c n (s * x) := by
  rw [← casteljau_bezier (s * x), casteljau_row]
  have e : row (s * x) = (1 - s) • 1 + s • row x := by
    unfold row
    ext1 v
    funext i
    show (1 - s * x) * v i + s * x * v (i + 1) = (1 - s) * v i + s * ((1 - x) * v i + x * v (i + 1))
    ring
  rw [e, mix_pow _ _ (Commute.one_left _)]
  unfold bezier
  refine sum_congr rfl fun j _ => ?_
  rw [one_pow, one_mul]
  exact congrArg _ (casteljau_row x c j 0)
/-- The part after `x`. -/
theorem bezier_after (x s : ℝ) (c : ℕ → ℝ) (n : ℕ) : bezier (fun k => casteljau (mixR x) c (n - k) k) n s = bezier c n (x + s - s * x) := by
  rw [← casteljau_bezier (x + s - s * x), casteljau_row]
  have e : row (x + s - s * x) = (1 - s) • row x + s • shift := by
    unfold row
    ext1 v
    funext i
    show (1 - (x + s - s * x)) * v i + (x + s - s * x) * v (i + 1) = (1 - s) * ((1 - x) * v i + x * v (i + 1)) + s * v (i + 1)
    ring
  rw [e, mix_pow _ _ (row_shift x)]
  unfold bezier
  refine sum_congr rfl fun j _ => ?_
  refine congrArg _ ((casteljau_row x c (n - j) j).trans ?_)
  rw [(((row_shift x).pow_pow (n - j) j)).eq, Module.End.mul_apply, shift_pow, Nat.zero_add]
theorem weight_nonneg {x : ℝ} (h0 : 0 ≤ x) (h1 : x ≤ 1) (n j : ℕ) : 0 ≤ (n.choose j : ℝ) * ((1 - x) ^ (n - j) * x ^ j) :=
  mul_nonneg (Nat.cast_nonneg _) (mul_nonneg (pow_nonneg (by linarith) _) (pow_nonneg h0 _))
theorem weight_sum (x : ℝ) (n : ℕ) : ∑ j ∈ range (n + 1), (n.choose j : ℝ) * ((1 - x) ^ (n - j) * x ^ j) = 1 := by
  have := add_pow x (1 - x) n
  rw [add_sub_cancel, one_pow] at this
  refine Eq.trans ?_ this.symm
  exact sum_congr rfl fun j _ => by ring
theorem bezier_between {c : ℕ → ℝ} {n : ℕ} {x lo hi : ℝ} (h0 : 0 ≤ x) (h1 : x ≤ 1) (h : ∀ j ≤ n, lo ≤ c j ∧ c j ≤ hi) :
    lo ≤ bezier c n x ∧ bezier c n x ≤ hi := by
  unfold bezier
  have w := weight_nonneg h0 h1 n
  constructor
  · have e : lo = ∑ j ∈ range (n + 1), (n.choose j : ℝ) * ((1 - x) ^ (n - j) * x ^ j) * lo := by rw [← sum_mul, weight_sum, one_mul]
    refine e.le.trans ?_
    exact sum_le_sum fun j hj => mul_le_mul_of_nonneg_left (h j (by simpa [Nat.lt_succ_iff] using hj)).1 (w j)
  · have e : hi = ∑ j ∈ range (n + 1), (n.choose j : ℝ) * ((1 - x) ^ (n - j) * x ^ j) * hi := by rw [← sum_mul, weight_sum, one_mul]
    refine le_trans ?_ e.ge
    exact sum_le_sum fun j hj => mul_le_mul_of_nonneg_left (h j (by simpa [Nat.lt_succ_iff] using hj)).2 (w j)
/-- Affine maps. -/
theorem bezier_affine {ι : Type} [Fintype ι] (a : ι → ℝ) (b : ℝ) (c : ι → ℕ → ℝ) (n : ℕ) (x : ℝ) :
    bezier (fun k => ∑ i, a i * c i k + b) n x = ∑ i, a i * bezier (c i) n x + b := by
  unfold bezier
  have e : b = ∑ j ∈ range (n + 1), (n.choose j : ℝ) * ((1 - x) ^ (n - j) * x ^ j) * b := by rw [← sum_mul, weight_sum, one_mul]
  conv_rhs => rw [e]
  simp only [mul_add, sum_add_distrib, mul_sum]
  rw [sum_comm]
  congr 1
  exact sum_congr rfl fun i _ => sum_congr rfl fun j _ => by ring
theorem bezier_zero (c : ℕ → ℝ) (n : ℕ) : bezier c n 0 = c 0 := by
  rw [← casteljau_bezier]
  have : ∀ k i, casteljau (mixR 0) c k i = c i := by
    intro k
    induction k with
    | zero => intro i; rfl
    | succ k ih => intro i; show mixR 0 _ _ = _; rw [ih, ih, mixR, mul_zero, add_zero]
  exact this n 0
theorem bezier_one (c : ℕ → ℝ) (n : ℕ) : bezier c n 1 = c n := by
  rw [← casteljau_bezier]
  have : ∀ k i, casteljau (mixR 1) c k i = c (i + k) := by
    intro k
    induction k with
    | zero => intro i; rfl
    | succ k ih => intro i; show mixR 1 _ _ = _; rw [ih, ih, mixR]; rw [show i + 1 + k = i + (k + 1) by omega]; ring
  rw [this, Nat.zero_add]

end VecMath
