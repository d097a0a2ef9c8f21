import Verif.Spec.Triangle
import Verif.Lemmas.Real
import Verif.Spec.Grid
import Mathlib.LinearAlgebra.Matrix.ToLinearEquiv
import Mathlib.LinearAlgebra.CrossProduct
import Mathlib.Tactic.LinearCombination
/-!
# Rays and triangles in exact real arithmetic (layer R): C113
-/

namespace VecMath
open Scalar IEEE

section
variable (o d a b c : Fin 3 → ℝ)
/-- The determinant and the three numerators. -/
def detR : ℝ := (b - a) ⬝ᵥ crossProduct d (c - a)
def numU : ℝ := (o - a) ⬝ᵥ crossProduct d (c - a)
def numV : ℝ := d ⬝ᵥ crossProduct (o - a) (b - a)
def numT : ℝ := (c - a) ⬝ᵥ crossProduct (o - a) (b - a)

theorem tri_solve (h : detR d a b c ≠ 0) (t u v : ℝ) : o + t • d = (1 - u - v) • a + u • b + v • c ↔
    t = numT o a b c / detR d a b c ∧ u = numU o d a c / detR d a b c ∧ v = numV o d a b / detR d a b c := by
  constructor
  · intro e
    have e0 := congrFun e 0
    have e1 := congrFun e 1
    have e2 := congrFun e 2
    simp only [Pi.add_apply, Pi.smul_apply, smul_eq_mul] at e0 e1 e2
    rw [eq_div_iff h, eq_div_iff h, eq_div_iff h]
    unfold detR numU numV numT
    simp only [cross_apply, dotProduct, Fin.sum_univ_three, Pi.sub_apply, Matrix.cons_val_zero, Matrix.cons_val_one, Matrix.cons_val, Matrix.of_apply]
    refine ⟨?_, ?_, ?_⟩
    · linear_combination (-((b 1 - a 1) * (c 2 - a 2) - (b 2 - a 2) * (c 1 - a 1))) * e0 - ((b 2 - a 2) * (c 0 - a 0) - (b 0 - a 0) * (c 2 - a 2)) * e1
        - ((b 0 - a 0) * (c 1 - a 1) - (b 1 - a 1) * (c 0 - a 0)) * e2
    · linear_combination (-(d 1 * (c 2 - a 2) - d 2 * (c 1 - a 1))) * e0 - (d 2 * (c 0 - a 0) - d 0 * (c 2 - a 2)) * e1
        - (d 0 * (c 1 - a 1) - d 1 * (c 0 - a 0)) * e2
    · linear_combination (d 1 * (b 2 - a 2) - d 2 * (b 1 - a 1)) * e0 + (d 2 * (b 0 - a 0) - d 0 * (b 2 - a 2)) * e1
        + (d 0 * (b 1 - a 1) - d 1 * (b 0 - a 0)) * e2
  · rintro ⟨rfl, rfl, rfl⟩
    have key : ∀ i, detR d a b c * o i + numT o a b c * d i = (detR d a b c - numU o d a c - numV o d a b) * a i + numU o d a c * b i + numV o d a b * c i := by
      intro i
      unfold detR numU numV numT
      simp only [cross_apply, dotProduct, Fin.sum_univ_three, Pi.sub_apply, Matrix.cons_val_zero, Matrix.cons_val_one, Matrix.cons_val, Matrix.of_apply]
      fin_cases i <;> simp <;> ring
    funext i
    simp only [Pi.add_apply, Pi.smul_apply, smul_eq_mul]
    have k := key i
    field_simp
    linear_combination k
theorem det_parallel : detR d a b c = 0 ↔ Parallel3 d a b c := by
  have e : detR d a b c = -Matrix.det (Matrix.of ![d, b - a, c - a]) := by
    unfold detR
    rw [Matrix.det_fin_three]
    simp only [cross_apply, dotProduct, Fin.sum_univ_three, Pi.sub_apply, Matrix.cons_val_zero, Matrix.cons_val_one, Matrix.cons_val, Matrix.of_apply]
    ring
  rw [e, neg_eq_zero, ← Matrix.exists_vecMul_eq_zero_iff]
  unfold Parallel3
  constructor
  · rintro ⟨w, hw, h⟩
    refine ⟨w 0, w 1, w 2, ?_, ?_⟩
    · by_contra k
      push Not at k
      exact hw (by funext i; fin_cases i; exacts [k.1, k.2.1, k.2.2])
    · rw [← h]
      funext i
      simp [Matrix.vecMul, dotProduct, Fin.sum_univ_three]
  · rintro ⟨x, y, z, hn, h⟩
    refine ⟨![x, y, z], ?_, ?_⟩
    · intro k
      have k0 : x = 0 := congrFun k 0
      have k1 : y = 0 := congrFun k 1
      have k2 : z = 0 := congrFun k 2
      rcases hn with hn | hn | hn <;> contradiction
    · rw [← h]
      funext i
      simp [Matrix.vecMul, dotProduct, Fin.sum_univ_three]
/-- The numerators decide. -/
theorem meets_iff (h : detR d a b c ≠ 0) : Meets o d a b c ↔
    MeetsAt o d a b c (numT o a b c / detR d a b c) (numU o d a c / detR d a b c) (numV o d a b / detR d a b c) := by
  constructor
  · rintro ⟨t, u, v, k⟩
    obtain ⟨rfl, rfl, rfl⟩ := (tri_solve o d a b c h t u v).1 k.2.2.2.2
    exact k
  · exact fun k => ⟨_, _, _, k⟩
theorem meets_signs (h : detR d a b c ≠ 0) : Meets o d a b c ↔
    (0 < detR d a b c ∧ 0 ≤ numU o d a c ∧ 0 ≤ numV o d a b ∧ numU o d a c + numV o d a b ≤ detR d a b c ∧ 0 ≤ numT o a b c) ∨
    (detR d a b c < 0 ∧ numU o d a c ≤ 0 ∧ numV o d a b ≤ 0 ∧ detR d a b c ≤ numU o d a c + numV o d a b ∧ numT o a b c ≤ 0) := by
  rw [meets_iff o d a b c h]
  unfold MeetsAt
  rw [tri_solve o d a b c h, ← add_div]
  simp only [and_true]
  rcases lt_or_gt_of_ne h with k | k
  · simp only [k, k.le, not_lt.2 k.le, false_and, true_and, false_or, div_nonneg_iff, div_le_one_of_neg k]
    simp only [not_le.2 k, and_false, false_or, and_true]
    tauto
  · simp only [k, k.le, not_lt.2 k.le, false_and, true_and, or_false, div_nonneg_iff, div_le_one k]
    simp only [not_le.2 k, and_false, or_false, and_true]
    tauto
/-- The order of the corners does not matter. -/
theorem Meets.turn (h : Meets o d a b c) : Meets o d b c a := by
  obtain ⟨t, u, v, h1, h2, h3, h4, h5⟩ := h
  refine ⟨t, v, 1 - u - v, h1, h3, by linarith, by linarith, ?_⟩
  rw [h5]; module
theorem Meets.swap (h : Meets o d a b c) : Meets o d a c b := by
  obtain ⟨t, u, v, h1, h2, h3, h4, h5⟩ := h
  refine ⟨t, v, u, h1, h3, h2, by linarith, ?_⟩
  rw [h5]; module
end

section
variable {r : Ray3 Ideal} {k : Triangle Ideal}
theorem Ray3.tri_real (hr : AllFinite r) (hk : k.Finite) :
    Exactly (r.triDet k) (detR r.direction.toReal k.a.toReal k.b.toReal k.c.toReal) ∧
    Exactly (r.triU k) (numU r.origin.toReal r.direction.toReal k.a.toReal k.c.toReal) ∧
    Exactly (r.triV k) (numV r.origin.toReal r.direction.toReal k.a.toReal k.b.toReal) ∧
    Exactly (r.triT k) (numT r.origin.toReal k.a.toReal k.b.toReal k.c.toReal) := by
  rw [Ray3.allFinite] at hr
  obtain ⟨ho, hd⟩ := hr
  obtain ⟨ha, hb, hc⟩ := hk
  have fb := Vector3.fin_subp hb ha
  have fc := Vector3.fin_subp hc ha
  have fo := Vector3.fin_subp ho ha
  have f1 := Vector3.fin_cross hd fc
  have f2 := Vector3.fin_cross fo fb
  refine ⟨⟨Vector3.fin_dot fb f1, ?_⟩, ⟨Vector3.fin_dot fo f1, ?_⟩, ⟨Vector3.fin_dot hd f2, ?_⟩, ⟨Vector3.fin_dot fc f2, ?_⟩⟩
  · exact (Vector3.real_dot fb f1).trans (by rw [Vector3.toReal_cross hd fc, Vector3.toReal_subp hb ha, Vector3.toReal_subp hc ha]; rfl)
  · exact (Vector3.real_dot fo f1).trans (by rw [Vector3.toReal_cross hd fc, Vector3.toReal_subp ho ha, Vector3.toReal_subp hc ha]; rfl)
  · exact (Vector3.real_dot hd f2).trans (by rw [Vector3.toReal_cross fo fb, Vector3.toReal_subp ho ha, Vector3.toReal_subp hb ha]; rfl)
  · exact (Vector3.real_dot fc f2).trans (by rw [Vector3.toReal_cross fo fb, Vector3.toReal_subp ho ha, Vector3.toReal_subp hc ha, Vector3.toReal_subp hb ha]; rfl)
end
/-- **C113**: in exact arithmetic, for every finite ray and triangle not parallel to it, both tests say whether the ray and the triangle
have a point in common, and the distance and the weights reported are those of the only common point. -/
theorem C113_exact (r : Ray3 Ideal) (k : Triangle Ideal) (hr : AllFinite r) (hk : k.Finite)
    (hp : ¬ Parallel3 r.direction.toReal k.a.toReal k.b.toReal k.c.toReal) :
    ((r.hitTriangle k).isSome = true ↔ Meets r.origin.toReal r.direction.toReal k.a.toReal k.b.toReal k.c.toReal) ∧
    (r.hitsTriangle k = true ↔ Meets r.origin.toReal r.direction.toReal k.a.toReal k.b.toReal k.c.toReal) ∧
    ∀ t u v, r.hitTriangle k = some (t, u, v) → ∀ t' u' v',
      MeetsAt r.origin.toReal r.direction.toReal k.a.toReal k.b.toReal k.c.toReal t' u' v' ↔ (t' = real t ∧ u' = real u ∧ v' = real v) := by
  obtain ⟨eD, eU, eV, eT⟩ := Ray3.tri_real hr hk
  have h : detR r.direction.toReal k.a.toReal k.b.toReal k.c.toReal ≠ 0 := fun e => hp ((det_parallel _ _ _ _).1 e)
  have hD : real (r.triDet k) ≠ 0 := by rw [eD.2]; exact h
  have fu := Ideal.finite_div eU.1 eD.1 hD
  have fv := Ideal.finite_div eV.1 eD.1 hD
  have ft := Ideal.finite_div eT.1 eD.1 hD
  have ru : real (r.triU k / r.triDet k) = _ := (Ideal.real_div eU.1 eD.1 hD).trans (by rw [eU.2, eD.2])
  have rv : real (r.triV k / r.triDet k) = _ := (Ideal.real_div eV.1 eD.1 hD).trans (by rw [eV.2, eD.2])
  have rt : real (r.triT k / r.triDet k) = _ := (Ideal.real_div eT.1 eD.1 hD).trans (by rw [eT.2, eD.2])
  have cond : ((zero ≤? r.triU k / r.triDet k) && (zero ≤? r.triV k / r.triDet k) && (r.triU k / r.triDet k + r.triV k / r.triDet k ≤? one) && (zero ≤? r.triT k / r.triDet k)) = true ↔
      MeetsAt r.origin.toReal r.direction.toReal k.a.toReal k.b.toReal k.c.toReal (real (r.triT k / r.triDet k)) (real (r.triU k / r.triDet k)) (real (r.triV k / r.triDet k)) := by
    simp only [Bool.and_eq_true, Ideal.le_real finite_zero fu, Ideal.le_real finite_zero fv, Ideal.le_real (Ideal.finite_add fu fv) finite_one, Ideal.le_real finite_zero ft,
      Ideal.real_add fu fv, real_zero, real_one]
    unfold MeetsAt
    have := (tri_solve r.origin.toReal r.direction.toReal k.a.toReal k.b.toReal k.c.toReal h _ _ _).2 ⟨rt, ru, rv⟩
    tauto
  refine ⟨?_, ?_, ?_⟩
  · rw [meets_iff _ _ _ _ _ h, ← rt, ← ru, ← rv, ← cond]
    unfold Ray3.hitTriangle
    simp only
    split <;> simp_all
  · rw [meets_signs _ _ _ _ _ h]
    unfold Ray3.hitsTriangle
    simp only [Bool.or_eq_true, Bool.and_eq_true, Ideal.lt_real finite_zero eD.1, Ideal.lt_real eD.1 finite_zero, Ideal.le_real finite_zero eU.1, Ideal.le_real eU.1 finite_zero,
      Ideal.le_real finite_zero eV.1, Ideal.le_real eV.1 finite_zero, Ideal.le_real finite_zero eT.1, Ideal.le_real eT.1 finite_zero,
      Ideal.le_real (Ideal.finite_add eU.1 eV.1) eD.1, Ideal.le_real eD.1 (Ideal.finite_add eU.1 eV.1), Ideal.real_add eU.1 eV.1, eD.2, eU.2, eV.2, eT.2, real_zero]
    tauto
  · intro t u v e t' u' v'
    unfold Ray3.hitTriangle at e
    simp only at e
    split at e
    · rename_i hc
      obtain ⟨rfl, rfl, rfl⟩ : _ = t ∧ _ = u ∧ _ = v := by simpa using e
      have m := cond.1 hc
      constructor
      · intro m'
        rw [rt, ru, rv]
        exact (tri_solve _ _ _ _ _ h t' u' v').1 m'.2.2.2.2
      · rintro ⟨rfl, rfl, rfl⟩; exact m
    · cases e
/-- **C113**: a ray parallel to the plane of the triangle (and any degenerate triangle) is never reported, even if it runs through it. -/
theorem C113_parallel (r : Ray3 Ideal) (k : Triangle Ideal) (hr : AllFinite r) (hk : k.Finite)
    (hp : Parallel3 r.direction.toReal k.a.toReal k.b.toReal k.c.toReal) : r.hitsTriangle k = false := by
  obtain ⟨eD, eU, eV, eT⟩ := Ray3.tri_real hr hk
  have h := (det_parallel _ _ _ _).2 hp
  rw [Bool.eq_false_iff]
  unfold Ray3.hitsTriangle
  simp only [ne_eq, Bool.or_eq_true, Bool.and_eq_true, Ideal.lt_real finite_zero eD.1, Ideal.lt_real eD.1 finite_zero, eD.2, h, real_zero, lt_irrefl, false_and, or_self, not_false_eq_true]
end VecMath
