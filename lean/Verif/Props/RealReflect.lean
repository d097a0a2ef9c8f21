import Verif.Spec.Reflect
import Verif.Lemmas.Real
import Verif.Props.RealVector
import Mathlib.LinearAlgebra.Matrix.DotProduct
/-!
# Rejection and reflection in exact real arithmetic (layer R): C109

(Generated by tools/gen.)
-/

namespace VecMath
open Scalar IEEE

section
variable {k : ℕ} (v u n : Fin k → ℝ)
theorem mirror_dot (h : n ⬝ᵥ n = 1) : (v - (v ⬝ᵥ n + v ⬝ᵥ n) • n) ⬝ᵥ n = -(v ⬝ᵥ n) := by
  rw [sub_dotProduct, smul_dotProduct, h, smul_eq_mul]; ring
theorem mirror_iso (h : n ⬝ᵥ n = 1) : (v - (v ⬝ᵥ n + v ⬝ᵥ n) • n) ⬝ᵥ (u - (u ⬝ᵥ n + u ⬝ᵥ n) • n) = v ⬝ᵥ u := by
  rw [sub_dotProduct, dotProduct_sub, dotProduct_sub, smul_dotProduct, dotProduct_smul, smul_dotProduct, dotProduct_smul, h, dotProduct_comm n u]
  simp only [smul_eq_mul]; ring
theorem reject_dot (h : n ⬝ᵥ n = 1) : (v - (v ⬝ᵥ n) • n) ⬝ᵥ n = 0 := by
  rw [sub_dotProduct, smul_dotProduct, h, smul_eq_mul]; ring
theorem reject_pyth (h : n ⬝ᵥ n = 1) (s : ℝ) : (v - s • n) ⬝ᵥ (v - s • n) = (v - (v ⬝ᵥ n) • n) ⬝ᵥ (v - (v ⬝ᵥ n) • n) + (s - v ⬝ᵥ n) ^ 2 := by
  simp only [sub_dotProduct, dotProduct_sub, smul_dotProduct, dotProduct_smul, h, dotProduct_comm n v, smul_eq_mul]; ring
end

/-! ## Dimension 2 -/
section
variable {v u n : Vector2 Ideal}
theorem Vector2.fin_reflect (hv : AllFinite v) (hn : AllFinite n) : AllFinite (v.reflect n) := by
  unfold Vector2.reflect; rv_simp [hv, hn]
theorem Vector2.fin_reject (hv : AllFinite v) (hn : AllFinite n) : AllFinite (v.reject n) := by
  unfold Vector2.reject; rv_simp [hv, hn]
theorem Vector2.toReal_reflect (hv : AllFinite v) (hn : AllFinite n) :
    (v.reflect n).toReal = v.toReal - (v.toReal ⬝ᵥ n.toReal + v.toReal ⬝ᵥ n.toReal) • n.toReal := by
  unfold Vector2.reflect; rv_simp [hv, hn]
theorem Vector2.toReal_reject (hv : AllFinite v) (hn : AllFinite n) : (v.reject n).toReal = v.toReal - (v.toReal ⬝ᵥ n.toReal) • n.toReal := by
  unfold Vector2.reject; rv_simp [hv, hn]
theorem Vector2.unit (hn : AllFinite n) (h : (Api.dot n n == (one : Ideal)) = true) : n.toReal ⬝ᵥ n.toReal = 1 := by
  rw [Ideal.beq_real (Vector2.fin_dot hn hn) finite_one, Vector2.real_dot hn hn, real_one] at h; exact h
end
/-- **C109** (2D): every finite nonzero vector can be normalized to such an `n`. -/
theorem C109_unit2 (m : Vector2 Ideal) (hm : AllFinite m) (h0 : (m == Vector2.zero) = false) :
    AllFinite m.normalize ∧ (Api.dot m.normalize m.normalize == (one : Ideal)) = true := by
  have h : m.toReal ≠ 0 := fun h => by
    have : (m == Vector2.zero) = true := by rw [Vector2.beq_toReal hm Vector2.fin_zero, h, Vector2.toReal_zero]
    rw [this] at h0; cases h0
  have f := Vector2.fin_normalize hm h
  refine ⟨f, ?_⟩
  rw [Ideal.beq_real (Vector2.fin_dot f f) finite_one, Vector2.real_dot f f, Vector2.toReal_normalize hm h, real_one]
  rw [smul_dotProduct, dotProduct_smul, smul_eq_mul, smul_eq_mul]
  have e : m.toReal ⬝ᵥ m.toReal = ‖m.toE‖ * ‖m.toE‖ := by
    rw [← Vector2.real_length hm, Vector2.real_length_sq hm]
  have p : ‖m.toE‖ ≠ 0 := by
    rw [← Vector2.real_length hm]; exact fun q => h ((Vector2.real_length_eq_zero hm).1 q)
  rw [e]; field_simp
/-- **C109** (2D): reflection at the plane (line) perpendicular to a unit vector. -/
theorem C109_reflect2 (v u n : Vector2 Ideal) (hv : AllFinite v) (hu : AllFinite u) (hn : AllFinite n) (h1 : (Api.dot n n == (one : Ideal)) = true) :
    ((v.reflect n).reflect n == v) = true ∧
    (Api.dot (v.reflect n) n == -(Api.dot v n : Ideal)) = true ∧
    (Api.dot (v.reflect n) (u.reflect n) == (Api.dot v u : Ideal)) = true ∧
    (Api.length (v.reflect n) == (Api.length v : Ideal)) = true ∧
    ((Api.dot u n == (zero : Ideal)) = true → (u.reflect n == u) = true ∧ (Api.dot (v.reflect n) u == (Api.dot v u : Ideal)) = true) ∧
    (n.reflect n == -n) = true ∧ (v.reflect (-n) == v.reflect n) = true := by
  have e := Vector2.unit hn h1
  have fr := Vector2.fin_reflect hv hn
  have fu := Vector2.fin_reflect hu hn
  have tr := Vector2.toReal_reflect hv hn
  refine ⟨?_, ?_, ?_, ?_, ?_, ?_, ?_⟩
  · rw [Vector2.beq_toReal (Vector2.fin_reflect fr hn) hv, Vector2.toReal_reflect fr hn, tr, mirror_dot _ _ e]
    module
  · rw [Ideal.beq_real (Vector2.fin_dot fr hn) (finite_neg.2 (Vector2.fin_dot hv hn)), Vector2.real_dot fr hn, IEEE.real_neg, Vector2.real_dot hv hn, tr]
    exact mirror_dot _ _ e
  · rw [Ideal.beq_real (Vector2.fin_dot fr fu) (Vector2.fin_dot hv hu), Vector2.real_dot fr fu, Vector2.real_dot hv hu, tr, Vector2.toReal_reflect hu hn]
    exact mirror_iso _ _ _ e
  · rw [Ideal.beq_real (Vector2.fin_length fr) (Vector2.fin_length hv)]
    have a := Vector2.real_length_sq fr
    have b := Vector2.real_length_sq hv
    rw [tr, mirror_iso _ _ _ e, ← b] at a
    have p : 0 ≤ real (Api.length (v.reflect n) : Ideal) := by rw [Vector2.real_length fr]; exact norm_nonneg _
    have q : 0 ≤ real (Api.length v : Ideal) := by rw [Vector2.real_length hv]; exact norm_nonneg _
    nlinarith
  · intro h0
    rw [Ideal.beq_real (Vector2.fin_dot hu hn) finite_zero, Vector2.real_dot hu hn, real_zero] at h0
    constructor
    · rw [Vector2.beq_toReal fu hu, Vector2.toReal_reflect hu hn, h0]; simp
    · rw [Ideal.beq_real (Vector2.fin_dot fr hu) (Vector2.fin_dot hv hu), Vector2.real_dot fr hu, Vector2.real_dot hv hu, tr, sub_dotProduct, smul_dotProduct,
        dotProduct_comm n.toReal, h0]; simp
  · rw [Vector2.beq_toReal (Vector2.fin_reflect hn hn) (Vector2.fin_neg hn), Vector2.toReal_reflect hn hn, Vector2.toReal_neg hn, e]
    module
  · have fn := Vector2.fin_neg hn
    rw [Vector2.beq_toReal (Vector2.fin_reflect hv fn) fr, Vector2.toReal_reflect hv fn, tr, Vector2.toReal_neg hn, dotProduct_neg]
    module
/-- **C109** (2D): the rejection is perpendicular to the unit vector, `v` is the sum of it and the projection, rejecting again
changes nothing, and it is the shortest of all `v - n * s`. -/
theorem C109_reject2 (v n : Vector2 Ideal) (s : Ideal) (hv : AllFinite v) (hn : AllFinite n) (hs : IsFinite s) (h1 : (Api.dot n n == (one : Ideal)) = true) :
    (Api.dot (v.reject n) n == (zero : Ideal)) = true ∧
    (v.reject n + n * (Api.dot v n : Ideal) == v) = true ∧
    ((v.reject n).reject n == v.reject n) = true ∧
    (Api.dot (v.reject n) (v.reject n) + Api.dot v n * Api.dot v n == (Api.dot v v : Ideal)) = true ∧
    ((Api.length (v.reject n) : Ideal) ≤? Api.length (v - n * s)) = true := by
  have e := Vector2.unit hn h1
  have fr := Vector2.fin_reject hv hn
  have tr := Vector2.toReal_reject hv hn
  have fd := Vector2.fin_dot hv hn
  refine ⟨?_, ?_, ?_, ?_, ?_⟩
  · rw [Ideal.beq_real (Vector2.fin_dot fr hn) finite_zero, Vector2.real_dot fr hn, real_zero, tr]
    exact reject_dot _ _ e
  · rw [Vector2.beq_toReal (Vector2.fin_add fr (Vector2.fin_mul hn fd)) hv, Vector2.toReal_add fr (Vector2.fin_mul hn fd), Vector2.toReal_mul hn fd, Vector2.real_dot hv hn, tr]
    exact sub_add_cancel _ _
  · rw [Vector2.beq_toReal (Vector2.fin_reject fr hn) fr, Vector2.toReal_reject fr hn, tr, reject_dot _ _ e]; simp
  · rw [Ideal.beq_real (by rv_simp [fr, hv, hn]) (Vector2.fin_dot hv hv)]
    rv_simp [fr, hv, hn]
    rw [tr]
    have := reject_pyth v.toReal n.toReal e 0
    simp only [zero_smul, sub_zero, zero_sub] at this
    rw [this]; ring
  · have fm := Vector2.fin_mul hn hs
    have fs := Vector2.fin_sub hv fm
    rw [Ideal.le_real (Vector2.fin_length fr) (Vector2.fin_length fs)]
    have a := Vector2.real_length_sq fr
    have b := Vector2.real_length_sq fs
    rw [tr] at a
    rw [Vector2.toReal_sub hv fm, Vector2.toReal_mul hn hs, reject_pyth _ _ e] at b
    have p : 0 ≤ real (Api.length (v.reject n) : Ideal) := by rw [Vector2.real_length fr]; exact norm_nonneg _
    have q : 0 ≤ real (Api.length (v - n * s) : Ideal) := by rw [Vector2.real_length fs]; exact norm_nonneg _
    nlinarith [sq_nonneg (real s - v.toReal ⬝ᵥ n.toReal)]

/-! ## Dimension 3 -/
section
variable {v u n : Vector3 Ideal}
theorem Vector3.fin_reflect (hv : AllFinite v) (hn : AllFinite n) : AllFinite (v.reflect n) := by
  unfold Vector3.reflect; rv_simp [hv, hn]
theorem Vector3.fin_reject (hv : AllFinite v) (hn : AllFinite n) : AllFinite (v.reject n) := by
  unfold Vector3.reject; rv_simp [hv, hn]
theorem Vector3.toReal_reflect (hv : AllFinite v) (hn : AllFinite n) :
    (v.reflect n).toReal = v.toReal - (v.toReal ⬝ᵥ n.toReal + v.toReal ⬝ᵥ n.toReal) • n.toReal := by
  unfold Vector3.reflect; rv_simp [hv, hn]
theorem Vector3.toReal_reject (hv : AllFinite v) (hn : AllFinite n) : (v.reject n).toReal = v.toReal - (v.toReal ⬝ᵥ n.toReal) • n.toReal := by
  unfold Vector3.reject; rv_simp [hv, hn]
theorem Vector3.unit (hn : AllFinite n) (h : (Api.dot n n == (one : Ideal)) = true) : n.toReal ⬝ᵥ n.toReal = 1 := by
  rw [Ideal.beq_real (Vector3.fin_dot hn hn) finite_one, Vector3.real_dot hn hn, real_one] at h; exact h
end
/-- **C109** (3D): every finite nonzero vector can be normalized to such an `n`. -/
theorem C109_unit3 (m : Vector3 Ideal) (hm : AllFinite m) (h0 : (m == Vector3.zero) = false) :
    AllFinite m.normalize ∧ (Api.dot m.normalize m.normalize == (one : Ideal)) = true := by
  have h : m.toReal ≠ 0 := fun h => by
    have : (m == Vector3.zero) = true := by rw [Vector3.beq_toReal hm Vector3.fin_zero, h, Vector3.toReal_zero]
    rw [this] at h0; cases h0
  have f := Vector3.fin_normalize hm h
  refine ⟨f, ?_⟩
  rw [Ideal.beq_real (Vector3.fin_dot f f) finite_one, Vector3.real_dot f f, Vector3.toReal_normalize hm h, real_one]
  rw [smul_dotProduct, dotProduct_smul, smul_eq_mul, smul_eq_mul]
  have e : m.toReal ⬝ᵥ m.toReal = ‖m.toE‖ * ‖m.toE‖ := by
    rw [← Vector3.real_length hm, Vector3.real_length_sq hm]
  have p : ‖m.toE‖ ≠ 0 := by
    rw [← Vector3.real_length hm]; exact fun q => h ((Vector3.real_length_eq_zero hm).1 q)
  rw [e]; field_simp
/-- **C109** (3D): reflection at the plane (line) perpendicular to a unit vector. -/
theorem C109_reflect3 (v u n : Vector3 Ideal) (hv : AllFinite v) (hu : AllFinite u) (hn : AllFinite n) (h1 : (Api.dot n n == (one : Ideal)) = true) :
    ((v.reflect n).reflect n == v) = true ∧
    (Api.dot (v.reflect n) n == -(Api.dot v n : Ideal)) = true ∧
    (Api.dot (v.reflect n) (u.reflect n) == (Api.dot v u : Ideal)) = true ∧
    (Api.length (v.reflect n) == (Api.length v : Ideal)) = true ∧
    ((Api.dot u n == (zero : Ideal)) = true → (u.reflect n == u) = true ∧ (Api.dot (v.reflect n) u == (Api.dot v u : Ideal)) = true) ∧
    (n.reflect n == -n) = true ∧ (v.reflect (-n) == v.reflect n) = true := by
  have e := Vector3.unit hn h1
  have fr := Vector3.fin_reflect hv hn
  have fu := Vector3.fin_reflect hu hn
  have tr := Vector3.toReal_reflect hv hn
  refine ⟨?_, ?_, ?_, ?_, ?_, ?_, ?_⟩
  · rw [Vector3.beq_toReal (Vector3.fin_reflect fr hn) hv, Vector3.toReal_reflect fr hn, tr, mirror_dot _ _ e]
    module
  · rw [Ideal.beq_real (Vector3.fin_dot fr hn) (finite_neg.2 (Vector3.fin_dot hv hn)), Vector3.real_dot fr hn, IEEE.real_neg, Vector3.real_dot hv hn, tr]
    exact mirror_dot _ _ e
  · rw [Ideal.beq_real (Vector3.fin_dot fr fu) (Vector3.fin_dot hv hu), Vector3.real_dot fr fu, Vector3.real_dot hv hu, tr, Vector3.toReal_reflect hu hn]
    exact mirror_iso _ _ _ e
  · rw [Ideal.beq_real (Vector3.fin_length fr) (Vector3.fin_length hv)]
    have a := Vector3.real_length_sq fr
    have b := Vector3.real_length_sq hv
    rw [tr, mirror_iso _ _ _ e, ← b] at a
    have p : 0 ≤ real (Api.length (v.reflect n) : Ideal) := by rw [Vector3.real_length fr]; exact norm_nonneg _
    have q : 0 ≤ real (Api.length v : Ideal) := by rw [Vector3.real_length hv]; exact norm_nonneg _
    nlinarith
  · intro h0
    rw [Ideal.beq_real (Vector3.fin_dot hu hn) finite_zero, Vector3.real_dot hu hn, real_zero] at h0
    constructor
    · rw [Vector3.beq_toReal fu hu, Vector3.toReal_reflect hu hn, h0]; simp
    · rw [Ideal.beq_real (Vector3.fin_dot fr hu) (Vector3.fin_dot hv hu), Vector3.real_dot fr hu, Vector3.real_dot hv hu, tr, sub_dotProduct, smul_dotProduct,
        dotProduct_comm n.toReal, h0]; simp
  · rw [Vector3.beq_toReal (Vector3.fin_reflect hn hn) (Vector3.fin_neg hn), Vector3.toReal_reflect hn hn, Vector3.toReal_neg hn, e]
    module
  · have fn := Vector3.fin_neg hn
    rw [Vector3.beq_toReal (Vector3.fin_reflect hv fn) fr, Vector3.toReal_reflect hv fn, tr, Vector3.toReal_neg hn, dotProduct_neg]
    module
/-- **C109** (3D): the rejection is perpendicular to the unit vector, `v` is the sum of it and the projection, rejecting again
changes nothing, and it is the shortest of all `v - n * s`. -/
theorem C109_reject3 (v n : Vector3 Ideal) (s : Ideal) (hv : AllFinite v) (hn : AllFinite n) (hs : IsFinite s) (h1 : (Api.dot n n == (one : Ideal)) = true) :
    (Api.dot (v.reject n) n == (zero : Ideal)) = true ∧
    (v.reject n + n * (Api.dot v n : Ideal) == v) = true ∧
    ((v.reject n).reject n == v.reject n) = true ∧
    (Api.dot (v.reject n) (v.reject n) + Api.dot v n * Api.dot v n == (Api.dot v v : Ideal)) = true ∧
    ((Api.length (v.reject n) : Ideal) ≤? Api.length (v - n * s)) = true := by
  have e := Vector3.unit hn h1
  have fr := Vector3.fin_reject hv hn
  have tr := Vector3.toReal_reject hv hn
  have fd := Vector3.fin_dot hv hn
  refine ⟨?_, ?_, ?_, ?_, ?_⟩
  · rw [Ideal.beq_real (Vector3.fin_dot fr hn) finite_zero, Vector3.real_dot fr hn, real_zero, tr]
    exact reject_dot _ _ e
  · rw [Vector3.beq_toReal (Vector3.fin_add fr (Vector3.fin_mul hn fd)) hv, Vector3.toReal_add fr (Vector3.fin_mul hn fd), Vector3.toReal_mul hn fd, Vector3.real_dot hv hn, tr]
    exact sub_add_cancel _ _
  · rw [Vector3.beq_toReal (Vector3.fin_reject fr hn) fr, Vector3.toReal_reject fr hn, tr, reject_dot _ _ e]; simp
  · rw [Ideal.beq_real (by rv_simp [fr, hv, hn]) (Vector3.fin_dot hv hv)]
    rv_simp [fr, hv, hn]
    rw [tr]
    have := reject_pyth v.toReal n.toReal e 0
    simp only [zero_smul, sub_zero, zero_sub] at this
    rw [this]; ring
  · have fm := Vector3.fin_mul hn hs
    have fs := Vector3.fin_sub hv fm
    rw [Ideal.le_real (Vector3.fin_length fr) (Vector3.fin_length fs)]
    have a := Vector3.real_length_sq fr
    have b := Vector3.real_length_sq fs
    rw [tr] at a
    rw [Vector3.toReal_sub hv fm, Vector3.toReal_mul hn hs, reject_pyth _ _ e] at b
    have p : 0 ≤ real (Api.length (v.reject n) : Ideal) := by rw [Vector3.real_length fr]; exact norm_nonneg _
    have q : 0 ≤ real (Api.length (v - n * s) : Ideal) := by rw [Vector3.real_length fs]; exact norm_nonneg _
    nlinarith [sq_nonneg (real s - v.toReal ⬝ᵥ n.toReal)]

/-! ## Non-vacuity -/
example := C109_reflect2 ⟨.of 1, .of 2⟩ ⟨.of (-3), .of 5⟩ ⟨.of (3 / 5), .of (4 / 5)⟩ (Vector2.allFinite.2 ⟨trivial, trivial⟩)
  (Vector2.allFinite.2 ⟨trivial, trivial⟩) (Vector2.allFinite.2 ⟨trivial, trivial⟩) (by
    have f : AllFinite (⟨.of (3 / 5), .of (4 / 5)⟩ : Vector2 Ideal) := Vector2.allFinite.2 ⟨trivial, trivial⟩
    rw [Ideal.beq_real (Vector2.fin_dot f f) finite_one, Vector2.real_dot f f, real_one]
    show ∑ i, _ = _
    rw [Fin.sum_univ_two]
    show (3 / 5 : ℝ) * (3 / 5) + 4 / 5 * (4 / 5) = 1
    norm_num)
example (m : Vector3 Ideal) (hm : AllFinite m) (h0 : (m == Vector3.zero) = false) (v u : Vector3 Ideal) (hv : AllFinite v) (hu : AllFinite u) :=
  C109_reflect3 v u m.normalize hv hu (C109_unit3 m hm h0).1 (C109_unit3 m hm h0).2
example (m : Vector2 Ideal) (hm : AllFinite m) (h0 : (m == Vector2.zero) = false) (v : Vector2 Ideal) (hv : AllFinite v) (s : Ideal) (hs : IsFinite s) :=
  C109_reject2 v m.normalize s hv (C109_unit2 m hm h0).1 hs (C109_unit2 m hm h0).2
example (m : Vector3 Ideal) (hm : AllFinite m) (h0 : (m == Vector3.zero) = false) (v : Vector3 Ideal) (hv : AllFinite v) (s : Ideal) (hs : IsFinite s) :=
  C109_reject3 v m.normalize s hv (C109_unit3 m hm h0).1 hs (C109_unit3 m hm h0).2
end VecMath
