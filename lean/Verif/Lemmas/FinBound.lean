import Verif.Lemmas.Approx
import Verif.Spec.Trig
/-! # Results that are finite because they are small -/

namespace VecMath
open Scalar IEEE

variable {S : Type} [Scalar S] [IEEE S] [Binary S]

theorem tiny_le_one : tiny S ≤ 1 / 4 := by
  unfold tiny
  have := Fmt.z_le (show (Binary.F S).emin - 1 ≤ -2 by have := (Binary.F S).emin_le; omega)
  refine this.trans (le_of_eq ?_)
  norm_num

variable {a b c d x y z w : S}

/-- finite, and at most `M` in absolute value -/
def Bd (M : ℝ) (a : S) : Prop := IsFinite a ∧ |real a| ≤ M

theorem Bd.mul {M N K : ℝ} (hS : Ample S) (ha : Bd M a) (hb : Bd N b) (hK : 33 / 32 * (M * N) + 1 / 4 ≤ K) (h : K < 64) :
    Bd K (a * b) := by
  have hM : 0 ≤ M := (abs_nonneg _).trans ha.2
  have hN : 0 ≤ N := (abs_nonneg _).trans hb.2
  have h1 : |real a * real b| ≤ M * N := by rw [abs_mul]; exact mul_le_mul ha.2 hb.2 (abs_nonneg _) hM
  have hf : IsFinite (a * b) := (correct_mul ha.1 hb.1).1.2 (by
    have := hS.overflow
    have : 0 ≤ M * N := by positivity
    linarith)
  refine ⟨hf, ?_⟩
  have e := err_mul hf
  have t := tiny_le_one (S := S)
  have u := hS.uro
  have p := abs_add_le (real (a * b) - real a * real b) (real a * real b)
  rw [sub_add_cancel] at p
  have q : uro S * |real a * real b| ≤ 1 / 32 * (M * N) := mul_le_mul u h1 (abs_nonneg _) (by norm_num)
  linarith
theorem Bd.add {M N K : ℝ} (hS : Ample S) (ha : Bd M a) (hb : Bd N b) (hK : 33 / 32 * (M + N) ≤ K) (h : K < 64) :
    Bd K (a + b) := by
  have hM : 0 ≤ M := (abs_nonneg _).trans ha.2
  have hN : 0 ≤ N := (abs_nonneg _).trans hb.2
  have h1 : |real a + real b| ≤ M + N := (abs_add_le _ _).trans (add_le_add ha.2 hb.2)
  have hf : IsFinite (a + b) := (correct_add ha.1 hb.1).1.2 (by
    have := hS.overflow
    linarith)
  refine ⟨hf, ?_⟩
  have e := err_add hf
  have u := hS.uro
  have p := abs_add_le (real (a + b) - (real a + real b)) (real a + real b)
  rw [sub_add_cancel] at p
  have q : uro S * |real a + real b| ≤ 1 / 32 * (M + N) := mul_le_mul u h1 (abs_nonneg _) (by norm_num)
  linarith
theorem Bd.neg {M : ℝ} (ha : Bd M a) : Bd M (-a) :=
  ⟨finite_neg.2 ha.1, by rw [IEEE.real_neg, abs_neg]; exact ha.2⟩
theorem Bd.sub {M N K : ℝ} (hS : Ample S) (ha : Bd M a) (hb : Bd N b) (hK : 33 / 32 * (M + N) ≤ K) (h : K < 64) :
    Bd K (a - b) := by
  have hM : 0 ≤ M := (abs_nonneg _).trans ha.2
  have hN : 0 ≤ N := (abs_nonneg _).trans hb.2
  have h1 : |real a - real b| ≤ M + N := (abs_sub _ _).trans (add_le_add ha.2 hb.2)
  have hf : IsFinite (a - b) := (correct_sub ha.1 hb.1).1.2 (by
    have := hS.overflow
    linarith)
  refine ⟨hf, ?_⟩
  have e := err_sub hf
  have u := hS.uro
  have p := abs_add_le (real (a - b) - (real a - real b)) (real a - real b)
  rw [sub_add_cancel] at p
  have q : uro S * |real a - real b| ≤ 1 / 32 * (M + N) := mul_le_mul u h1 (abs_nonneg _) (by norm_num)
  linarith
theorem Bd.one : Bd (S := S) 1 one := ⟨finite_one, by rw [real_one, abs_one]⟩

theorem term_bd (hS : Ample S) (ha : IsFinite a) (hb : IsFinite b) (h : |real a| * |real b| ≤ 16) :
    Bd (33 / 32 * (|real a| * |real b|) + 1 / 4) (a * b) :=
  Bd.mul hS ⟨ha, le_rfl⟩ ⟨hb, le_rfl⟩ le_rfl (by linarith)
theorem row3_bd (hS : Ample S) (ha : IsFinite a) (hb : IsFinite b) (hc : IsFinite c) (hx : IsFinite x) (hy : IsFinite y)
    (hz : IsFinite z) (h : |real a| * |real x| + |real b| * |real y| + |real c| * |real z| ≤ 16) :
    IsFinite (a * x + b * y + c * z) := by
  have p1 : 0 ≤ |real a| * |real x| := by positivity
  have p2 : 0 ≤ |real b| * |real y| := by positivity
  have p3 : 0 ≤ |real c| * |real z| := by positivity
  have h1 := term_bd hS ha hx (by linarith)
  have h2 := term_bd hS hb hy (by linarith)
  have h3 := term_bd hS hc hz (by linarith)
  have h4 := Bd.add hS h1 h2 le_rfl (by linarith)
  exact (Bd.add hS h4 h3 le_rfl (by linarith)).1
theorem row4_bd (hS : Ample S) (ha : IsFinite a) (hb : IsFinite b) (hc : IsFinite c) (hd : IsFinite d) (hx : IsFinite x)
    (hy : IsFinite y) (hz : IsFinite z) (hw : IsFinite w)
    (h : |real a| * |real x| + |real b| * |real y| + |real c| * |real z| + |real d| * |real w| ≤ 16) :
    IsFinite (a * x + b * y + c * z + d * w) := by
  have p1 : 0 ≤ |real a| * |real x| := by positivity
  have p2 : 0 ≤ |real b| * |real y| := by positivity
  have p3 : 0 ≤ |real c| * |real z| := by positivity
  have p4 : 0 ≤ |real d| * |real w| := by positivity
  have h1 := term_bd hS ha hx (by linarith)
  have h2 := term_bd hS hb hy (by linarith)
  have h3 := term_bd hS hc hz (by linarith)
  have h3' := term_bd hS hd hw (by linarith)
  have h4 := Bd.add hS h1 h2 le_rfl (by linarith)
  have h5 := Bd.add hS h4 h3 le_rfl (by linarith)
  exact (Bd.add hS h5 h3' le_rfl (by linarith)).1

end VecMath
