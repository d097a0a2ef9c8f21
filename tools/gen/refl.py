spec='''import Verif.Spec.Det
/-!
# Vocabulary for C109: rejection and reflection

What a client writes with the API: `v - n * v.dot(n)` and `v - n * (v.dot(n) + v.dot(n))`.
-/

namespace VecMath
open Scalar IEEE
variable {S : Type} [Scalar S]

/-- The part of `v` perpendicular to `n`: `v - n * v.dot(n)`. -/
def Vector2.reject (v n : Vector2 S) : Vector2 S := v - n * (Api.dot v n : S)
/-- The mirror image of `v`, the mirror being perpendicular to `n`: `v - n * (v.dot(n) + v.dot(n))`. -/
def Vector2.reflect (v n : Vector2 S) : Vector2 S := v - n * (Api.dot v n + Api.dot v n : S)
/-- The part of `v` perpendicular to `n`: `v - n * v.dot(n)`. -/
def Vector3.reject (v n : Vector3 S) : Vector3 S := v - n * (Api.dot v n : S)
/-- The mirror image of `v`, the mirror being perpendicular to `n`: `v - n * (v.dot(n) + v.dot(n))`. -/
def Vector3.reflect (v n : Vector3 S) : Vector3 S := v - n * (Api.dot v n + Api.dot v n : S)

/-- The exact value of component `i` of `v - n * (c v.n)`. -/
noncomputable def mirrored {k : ℕ} (c : ℝ) (v n : Fin k → ℝ) (i : Fin k) : ℝ := v i - c * (∑ j, v j * n j) * n i
/-- The sum of the magnitudes of its terms. -/
noncomputable def mirroredAbs {k : ℕ} (c : ℝ) (v n : Fin k → ℝ) (i : Fin k) : ℝ := |v i| + c * (∑ j, |v j| * |n j|) * |n i|

variable (S) [IEEE S] [Binary S] in
/-- Error bound for one component of a computed reflection in `k` dimensions: `k + 3` roundings of each term, and the
underflows of the `k + 1` multiplications. -/
noncomputable def reflectErr {k : ℕ} (v n : Fin k → ℝ) (i : Fin k) : ℝ :=
  gam S (k + 3) * mirroredAbs 2 v n i + (2 * k * (1 + uro S) ^ (k + 2) * |n i| + (1 + uro S)) * tiny S
variable (S) [IEEE S] [Binary S] in
/-- The same for a computed rejection. -/
noncomputable def rejectErr {k : ℕ} (v n : Fin k → ℝ) (i : Fin k) : ℝ :=
  gam S (k + 2) * mirroredAbs 1 v n i + (k * (1 + uro S) ^ (k + 1) * |n i| + (1 + uro S)) * tiny S
end VecMath
'''
open('/verif/lean/Verif/Spec/Reflect.lean','w').write(spec)
real='''import Verif.Spec.Reflect
import Verif.Lemmas.Real
import Verif.Props.RealVector
import Mathlib.LinearAlgebra.Matrix.DotProduct
/-!
# Rejection and reflection in exact real arithmetic (layer R): C109

(Generated by tools/gen.)
-/

namespace VecMath
open Scalar IEEE

section
variable {k : ℕ} (v u n : Fin k → ℝ)
theorem mirror_dot (h : n ⬝ᵥ n = 1) : (v - (v ⬝ᵥ n + v ⬝ᵥ n) • n) ⬝ᵥ n = -(v ⬝ᵥ n) := by
  rw [sub_dotProduct, smul_dotProduct, h, smul_eq_mul]; ring
theorem mirror_iso (h : n ⬝ᵥ n = 1) : (v - (v ⬝ᵥ n + v ⬝ᵥ n) • n) ⬝ᵥ (u - (u ⬝ᵥ n + u ⬝ᵥ n) • n) = v ⬝ᵥ u := by
  rw [sub_dotProduct, dotProduct_sub, dotProduct_sub, smul_dotProduct, dotProduct_smul, smul_dotProduct, dotProduct_smul, h, dotProduct_comm n u]
  simp only [smul_eq_mul]; ring
theorem reject_dot (h : n ⬝ᵥ n = 1) : (v - (v ⬝ᵥ n) • n) ⬝ᵥ n = 0 := by
  rw [sub_dotProduct, smul_dotProduct, h, smul_eq_mul]; ring
theorem reject_pyth (h : n ⬝ᵥ n = 1) (s : ℝ) : (v - s • n) ⬝ᵥ (v - s • n) = (v - (v ⬝ᵥ n) • n) ⬝ᵥ (v - (v ⬝ᵥ n) • n) + (s - v ⬝ᵥ n) ^ 2 := by
  simp only [sub_dotProduct, dotProduct_sub, smul_dotProduct, dotProduct_smul, h, dotProduct_comm n v, smul_eq_mul]; ring
end
'''
for D,V,P in [(2,'Vector2','Point2'),(3,'Vector3','Point3')]:
    real+=f'''
/-! ## Dimension {D} -/
section
variable {{v u n : {V} Ideal}}
theorem {V}.fin_reflect (hv : AllFinite v) (hn : AllFinite n) : AllFinite (v.reflect n) := by
  unfold {V}.reflect; rv_simp [hv, hn]
theorem {V}.fin_reject (hv : AllFinite v) (hn : AllFinite n) : AllFinite (v.reject n) := by
  unfold {V}.reject; rv_simp [hv, hn]
theorem {V}.toReal_reflect (hv : AllFinite v) (hn : AllFinite n) :
    (v.reflect n).toReal = v.toReal - (v.toReal ⬝ᵥ n.toReal + v.toReal ⬝ᵥ n.toReal) • n.toReal := by
  unfold {V}.reflect; rv_simp [hv, hn]
theorem {V}.toReal_reject (hv : AllFinite v) (hn : AllFinite n) : (v.reject n).toReal = v.toReal - (v.toReal ⬝ᵥ n.toReal) • n.toReal := by
  unfold {V}.reject; rv_simp [hv, hn]
theorem {V}.unit (hn : AllFinite n) (h : (Api.dot n n == (one : Ideal)) = true) : n.toReal ⬝ᵥ n.toReal = 1 := by
  rw [Ideal.beq_real ({V}.fin_dot hn hn) finite_one, {V}.real_dot hn hn, real_one] at h; exact h
end
/-- **C109** ({D}D): every finite nonzero vector can be normalized to such an `n`. -/
theorem C109_unit{D} (m : {V} Ideal) (hm : AllFinite m) (h0 : (m == {V}.zero) = false) :
    AllFinite m.normalize ∧ (Api.dot m.normalize m.normalize == (one : Ideal)) = true := by
  have h : m.toReal ≠ 0 := fun h => by
    have : (m == {V}.zero) = true := by rw [{V}.beq_toReal hm {V}.fin_zero, h, {V}.toReal_zero]
    rw [this] at h0; cases h0
  have f := {V}.fin_normalize hm h
  refine ⟨f, ?_⟩
  rw [Ideal.beq_real ({V}.fin_dot f f) finite_one, {V}.real_dot f f, {V}.toReal_normalize hm h, real_one]
  rw [smul_dotProduct, dotProduct_smul, smul_eq_mul, smul_eq_mul]
  have e : m.toReal ⬝ᵥ m.toReal = ‖m.toE‖ * ‖m.toE‖ := by
    rw [← {V}.real_length hm, {V}.real_length_sq hm]
  have p : ‖m.toE‖ ≠ 0 := by
    rw [← {V}.real_length hm]; exact fun q => h (({V}.real_length_eq_zero hm).1 q)
  rw [e]; field_simp
/-- **C109** ({D}D): reflection at the plane (line) perpendicular to a unit vector. -/
theorem C109_reflect{D} (v u n : {V} Ideal) (hv : AllFinite v) (hu : AllFinite u) (hn : AllFinite n) (h1 : (Api.dot n n == (one : Ideal)) = true) :
    ((v.reflect n).reflect n == v) = true ∧
    (Api.dot (v.reflect n) n == -(Api.dot v n : Ideal)) = true ∧
    (Api.dot (v.reflect n) (u.reflect n) == (Api.dot v u : Ideal)) = true ∧
    (Api.length (v.reflect n) == (Api.length v : Ideal)) = true ∧
    ((Api.dot u n == (zero : Ideal)) = true → (u.reflect n == u) = true ∧ (Api.dot (v.reflect n) u == (Api.dot v u : Ideal)) = true) ∧
    (n.reflect n == -n) = true ∧ (v.reflect (-n) == v.reflect n) = true := by
  have e := {V}.unit hn h1
  have fr := {V}.fin_reflect hv hn
  have fu := {V}.fin_reflect hu hn
  have tr := {V}.toReal_reflect hv hn
  refine ⟨?_, ?_, ?_, ?_, ?_, ?_, ?_⟩
  · rw [{V}.beq_toReal ({V}.fin_reflect fr hn) hv, {V}.toReal_reflect fr hn, tr, mirror_dot _ _ e]
    module
  · rw [Ideal.beq_real ({V}.fin_dot fr hn) (finite_neg.2 ({V}.fin_dot hv hn)), {V}.real_dot fr hn, IEEE.real_neg, {V}.real_dot hv hn, tr]
    exact mirror_dot _ _ e
  · rw [Ideal.beq_real ({V}.fin_dot fr fu) ({V}.fin_dot hv hu), {V}.real_dot fr fu, {V}.real_dot hv hu, tr, {V}.toReal_reflect hu hn]
    exact mirror_iso _ _ _ e
  · rw [Ideal.beq_real ({V}.fin_length fr) ({V}.fin_length hv)]
    have a := {V}.real_length_sq fr
    have b := {V}.real_length_sq hv
    rw [tr, mirror_iso _ _ _ e, ← b] at a
    have p : 0 ≤ real (Api.length (v.reflect n) : Ideal) := by rw [{V}.real_length fr]; exact norm_nonneg _
    have q : 0 ≤ real (Api.length v : Ideal) := by rw [{V}.real_length hv]; exact norm_nonneg _
    nlinarith
  · intro h0
    rw [Ideal.beq_real ({V}.fin_dot hu hn) finite_zero, {V}.real_dot hu hn, real_zero] at h0
    constructor
    · rw [{V}.beq_toReal fu hu, {V}.toReal_reflect hu hn, h0]; simp
    · rw [Ideal.beq_real ({V}.fin_dot fr hu) ({V}.fin_dot hv hu), {V}.real_dot fr hu, {V}.real_dot hv hu, tr, sub_dotProduct, smul_dotProduct,
        dotProduct_comm n.toReal, h0]; simp
  · rw [{V}.beq_toReal ({V}.fin_reflect hn hn) ({V}.fin_neg hn), {V}.toReal_reflect hn hn, {V}.toReal_neg hn, e]
    module
  · have fn := {V}.fin_neg hn
    rw [{V}.beq_toReal ({V}.fin_reflect hv fn) fr, {V}.toReal_reflect hv fn, tr, {V}.toReal_neg hn, dotProduct_neg]
    module
/-- **C109** ({D}D): the rejection is perpendicular to the unit vector, `v` is the sum of it and the projection, rejecting again
changes nothing, and it is the shortest of all `v - n * s`. -/
theorem C109_reject{D} (v n : {V} Ideal) (s : Ideal) (hv : AllFinite v) (hn : AllFinite n) (hs : IsFinite s) (h1 : (Api.dot n n == (one : Ideal)) = true) :
    (Api.dot (v.reject n) n == (zero : Ideal)) = true ∧
    (v.reject n + n * (Api.dot v n : Ideal) == v) = true ∧
    ((v.reject n).reject n == v.reject n) = true ∧
    (Api.dot (v.reject n) (v.reject n) + Api.dot v n * Api.dot v n == (Api.dot v v : Ideal)) = true ∧
    ((Api.length (v.reject n) : Ideal) ≤? Api.length (v - n * s)) = true := by
  have e := {V}.unit hn h1
  have fr := {V}.fin_reject hv hn
  have tr := {V}.toReal_reject hv hn
  have fd := {V}.fin_dot hv hn
  refine ⟨?_, ?_, ?_, ?_, ?_⟩
  · rw [Ideal.beq_real ({V}.fin_dot fr hn) finite_zero, {V}.real_dot fr hn, real_zero, tr]
    exact reject_dot _ _ e
  · rw [{V}.beq_toReal ({V}.fin_add fr ({V}.fin_mul hn fd)) hv, {V}.toReal_add fr ({V}.fin_mul hn fd), {V}.toReal_mul hn fd, {V}.real_dot hv hn, tr]
    exact sub_add_cancel _ _
  · rw [{V}.beq_toReal ({V}.fin_reject fr hn) fr, {V}.toReal_reject fr hn, tr, reject_dot _ _ e]; simp
  · rw [Ideal.beq_real (by rv_simp [fr, hv, hn]) ({V}.fin_dot hv hv)]
    rv_simp [fr, hv, hn]
    rw [tr]
    have := reject_pyth v.toReal n.toReal e 0
    simp only [zero_smul, sub_zero, zero_sub] at this
    rw [this]; ring
  · have fm := {V}.fin_mul hn hs
    have fs := {V}.fin_sub hv fm
    rw [Ideal.le_real ({V}.fin_length fr) ({V}.fin_length fs)]
    have a := {V}.real_length_sq fr
    have b := {V}.real_length_sq fs
    rw [tr] at a
    rw [{V}.toReal_sub hv fm, {V}.toReal_mul hn hs, reject_pyth _ _ e] at b
    have p : 0 ≤ real (Api.length (v.reject n) : Ideal) := by rw [{V}.real_length fr]; exact norm_nonneg _
    have q : 0 ≤ real (Api.length (v - n * s) : Ideal) := by rw [{V}.real_length fs]; exact norm_nonneg _
    nlinarith [sq_nonneg (real s - v.toReal ⬝ᵥ n.toReal)]
'''
real+='''
/-! ## Non-vacuity -/
example := C109_reflect2 ⟨.of 1, .of 2⟩ ⟨.of (-3), .of 5⟩ ⟨.of (3 / 5), .of (4 / 5)⟩ (Vector2.allFinite.2 ⟨trivial, trivial⟩)
  (Vector2.allFinite.2 ⟨trivial, trivial⟩) (Vector2.allFinite.2 ⟨trivial, trivial⟩) (by
    have f : AllFinite (⟨.of (3 / 5), .of (4 / 5)⟩ : Vector2 Ideal) := Vector2.allFinite.2 ⟨trivial, trivial⟩
    rw [Ideal.beq_real (Vector2.fin_dot f f) finite_one, Vector2.real_dot f f, real_one]
    show ∑ i, _ = _
    rw [Fin.sum_univ_two]
    show (3 / 5 : ℝ) * (3 / 5) + 4 / 5 * (4 / 5) = 1
    norm_num)
example (m : Vector3 Ideal) (hm : AllFinite m) (h0 : (m == Vector3.zero) = false) (v u : Vector3 Ideal) (hv : AllFinite v) (hu : AllFinite u) :=
  C109_reflect3 v u m.normalize hv hu (C109_unit3 m hm h0).1 (C109_unit3 m hm h0).2
example (m : Vector2 Ideal) (hm : AllFinite m) (h0 : (m == Vector2.zero) = false) (v : Vector2 Ideal) (hv : AllFinite v) (s : Ideal) (hs : IsFinite s) :=
  C109_reject2 v m.normalize s hv (C109_unit2 m hm h0).1 hs (C109_unit2 m hm h0).2
example (m : Vector3 Ideal) (hm : AllFinite m) (h0 : (m == Vector3.zero) = false) (v : Vector3 Ideal) (hv : AllFinite v) (s : Ideal) (hs : IsFinite s) :=
  C109_reject3 v m.normalize s hv (C109_unit3 m hm h0).1 hs (C109_unit3 m hm h0).2
end VecMath
'''
open('/verif/lean/Verif/Props/RealReflect.lean','w').write(real)
