import Verif.Lemmas.Mat
import Mathlib.Analysis.InnerProductSpace.PiL2
import Mathlib.LinearAlgebra.CrossProduct
/-!
# From exact scalars to real vectors

On finite values of `Ideal` the crate's vector operations are the real vector operations; `==` is equality.
(Generated by tools/genreal.py.)
-/

namespace VecMath
open Scalar IEEE

/-- `simp` set: finiteness and real value of an `Ideal` expression. -/
macro "ideal_simp" "[" hs:Lean.Parser.Tactic.simpLemma,* "]" : tactic =>
  `(tactic| simp (maxDischargeDepth := 20) [Ideal.finite_add, Ideal.real_add, Ideal.finite_sub, Ideal.real_sub, Ideal.finite_mul,
    Ideal.real_mul, finite_neg, IEEE.real_neg, $hs,*])

/-! ## Dimension 2 -/

/-- The vector as an element of Euclidean space. -/
noncomputable def Vector2.toE (v : Vector2 Ideal) : EuclideanSpace ℝ (Fin 2) := WithLp.toLp 2 v.toReal
/-- The point as an element of Euclidean space. -/
noncomputable def Point2.toE (v : Point2 Ideal) : EuclideanSpace ℝ (Fin 2) := WithLp.toLp 2 v.toReal

section
variable {u v : Vector2 Ideal} {p q : Point2 Ideal} {s : Ideal}

theorem Vector2.beq_toReal (hu : AllFinite u) (hv : AllFinite v) :
    (u == v) = true ↔ u.toReal = v.toReal := by
  rw [Vector2.allFinite] at hu hv
  obtain ⟨haX, haY⟩ := hu
  obtain ⟨hbX, hbY⟩ := hv
  rw [Vector2.beq_iff]
  simp [Ideal.beq_real, Vector2.toReal, *]
theorem Point2.beq_toReal (hu : AllFinite p) (hv : AllFinite q) :
    (p == q) = true ↔ p.toReal = q.toReal := by
  rw [Point2.allFinite] at hu hv
  obtain ⟨haX, haY⟩ := hu
  obtain ⟨hbX, hbY⟩ := hv
  rw [Point2.beq_iff]
  simp [Ideal.beq_real, Point2.toReal, *]

theorem Vector2.fin_add {a : Vector2 Ideal} {b : Vector2 Ideal} (ha : AllFinite a) (hb : AllFinite b) :
    AllFinite (a + b) := by
  rw [Vector2.allFinite] at ha
  rw [Vector2.allFinite] at hb
  rw [Vector2.allFinite]
  obtain ⟨haX, haY⟩ := ha
  obtain ⟨hbX, hbY⟩ := hb
  exact ⟨Ideal.finite_add haX hbX, Ideal.finite_add haY hbY⟩
theorem Vector2.toReal_add {a : Vector2 Ideal} {b : Vector2 Ideal} (ha : AllFinite a) (hb : AllFinite b) :
    (a + b).toReal = a.toReal + b.toReal := by
  rw [Vector2.allFinite] at ha
  rw [Vector2.allFinite] at hb
  obtain ⟨haX, haY⟩ := ha
  obtain ⟨hbX, hbY⟩ := hb
  simp only [Vector2.toReal, Vector2.toReal, Vector2.toReal]
  ext i; fin_cases i
  · exact Ideal.real_add haX hbX
  · exact Ideal.real_add haY hbY

theorem Vector2.fin_sub {a : Vector2 Ideal} {b : Vector2 Ideal} (ha : AllFinite a) (hb : AllFinite b) :
    AllFinite (a - b) := by
  rw [Vector2.allFinite] at ha
  rw [Vector2.allFinite] at hb
  rw [Vector2.allFinite]
  obtain ⟨haX, haY⟩ := ha
  obtain ⟨hbX, hbY⟩ := hb
  exact ⟨Ideal.finite_sub haX hbX, Ideal.finite_sub haY hbY⟩
theorem Vector2.toReal_sub {a : Vector2 Ideal} {b : Vector2 Ideal} (ha : AllFinite a) (hb : AllFinite b) :
    (a - b).toReal = a.toReal - b.toReal := by
  rw [Vector2.allFinite] at ha
  rw [Vector2.allFinite] at hb
  obtain ⟨haX, haY⟩ := ha
  obtain ⟨hbX, hbY⟩ := hb
  simp only [Vector2.toReal, Vector2.toReal, Vector2.toReal]
  ext i; fin_cases i
  · exact Ideal.real_sub haX hbX
  · exact Ideal.real_sub haY hbY

theorem Point2.fin_addv {a : Point2 Ideal} {b : Vector2 Ideal} (ha : AllFinite a) (hb : AllFinite b) :
    AllFinite (a + b) := by
  rw [Point2.allFinite] at ha
  rw [Vector2.allFinite] at hb
  rw [Point2.allFinite]
  obtain ⟨haX, haY⟩ := ha
  obtain ⟨hbX, hbY⟩ := hb
  exact ⟨Ideal.finite_add haX hbX, Ideal.finite_add haY hbY⟩
theorem Point2.toReal_addv {a : Point2 Ideal} {b : Vector2 Ideal} (ha : AllFinite a) (hb : AllFinite b) :
    (a + b).toReal = a.toReal + b.toReal := by
  rw [Point2.allFinite] at ha
  rw [Vector2.allFinite] at hb
  obtain ⟨haX, haY⟩ := ha
  obtain ⟨hbX, hbY⟩ := hb
  simp only [Point2.toReal, Vector2.toReal, Point2.toReal]
  ext i; fin_cases i
  · exact Ideal.real_add haX hbX
  · exact Ideal.real_add haY hbY

theorem Point2.fin_subv {a : Point2 Ideal} {b : Vector2 Ideal} (ha : AllFinite a) (hb : AllFinite b) :
    AllFinite (a - b) := by
  rw [Point2.allFinite] at ha
  rw [Vector2.allFinite] at hb
  rw [Point2.allFinite]
  obtain ⟨haX, haY⟩ := ha
  obtain ⟨hbX, hbY⟩ := hb
  exact ⟨Ideal.finite_sub haX hbX, Ideal.finite_sub haY hbY⟩
theorem Point2.toReal_subv {a : Point2 Ideal} {b : Vector2 Ideal} (ha : AllFinite a) (hb : AllFinite b) :
    (a - b).toReal = a.toReal - b.toReal := by
  rw [Point2.allFinite] at ha
  rw [Vector2.allFinite] at hb
  obtain ⟨haX, haY⟩ := ha
  obtain ⟨hbX, hbY⟩ := hb
  simp only [Point2.toReal, Vector2.toReal, Point2.toReal]
  ext i; fin_cases i
  · exact Ideal.real_sub haX hbX
  · exact Ideal.real_sub haY hbY

theorem Vector2.fin_subp {a : Point2 Ideal} {b : Point2 Ideal} (ha : AllFinite a) (hb : AllFinite b) :
    AllFinite (a - b) := by
  rw [Point2.allFinite] at ha
  rw [Point2.allFinite] at hb
  rw [Vector2.allFinite]
  obtain ⟨haX, haY⟩ := ha
  obtain ⟨hbX, hbY⟩ := hb
  exact ⟨Ideal.finite_sub haX hbX, Ideal.finite_sub haY hbY⟩
theorem Vector2.toReal_subp {a : Point2 Ideal} {b : Point2 Ideal} (ha : AllFinite a) (hb : AllFinite b) :
    (a - b).toReal = a.toReal - b.toReal := by
  rw [Point2.allFinite] at ha
  rw [Point2.allFinite] at hb
  obtain ⟨haX, haY⟩ := ha
  obtain ⟨hbX, hbY⟩ := hb
  simp only [Point2.toReal, Point2.toReal, Vector2.toReal]
  ext i; fin_cases i
  · exact Ideal.real_sub haX hbX
  · exact Ideal.real_sub haY hbY

theorem Vector2.fin_neg {a : Vector2 Ideal} (ha : AllFinite a) : AllFinite (-a) := by
  rw [Vector2.allFinite] at ha ⊢
  obtain ⟨haX, haY⟩ := ha
  exact ⟨finite_neg.2 haX, finite_neg.2 haY⟩
theorem Vector2.toReal_neg {a : Vector2 Ideal} (ha : AllFinite a) :
    (-a).toReal = -a.toReal := by
  rw [Vector2.allFinite] at ha
  obtain ⟨haX, haY⟩ := ha
  simp only [Vector2.toReal]
  ext i; fin_cases i
  · exact IEEE.real_neg _
  · exact IEEE.real_neg _

theorem Vector2.fin_mul {a : Vector2 Ideal} (ha : AllFinite a) (hs : IsFinite s) : AllFinite (a * s) := by
  rw [Vector2.allFinite] at ha ⊢
  obtain ⟨haX, haY⟩ := ha
  exact ⟨Ideal.finite_mul haX hs, Ideal.finite_mul haY hs⟩
theorem Vector2.toReal_mul {a : Vector2 Ideal} (ha : AllFinite a) (hs : IsFinite s) :
    (a * s).toReal = real s • a.toReal := by
  rw [Vector2.allFinite] at ha
  obtain ⟨haX, haY⟩ := ha
  simp only [Vector2.toReal]
  ext i; fin_cases i
  · exact (Ideal.real_mul haX hs).trans (mul_comm _ _)
  · exact (Ideal.real_mul haY hs).trans (mul_comm _ _)

theorem Vector2.fin_div {a : Vector2 Ideal} (ha : AllFinite a) (hs : IsFinite s) (h0 : real s ≠ 0) : AllFinite (a / s) := by
  rw [Vector2.allFinite] at ha ⊢
  obtain ⟨haX, haY⟩ := ha
  exact ⟨Ideal.finite_div haX hs h0, Ideal.finite_div haY hs h0⟩
theorem Vector2.toReal_div {a : Vector2 Ideal} (ha : AllFinite a) (hs : IsFinite s) (h0 : real s ≠ 0) :
    (a / s).toReal = (real s)⁻¹ • a.toReal := by
  rw [Vector2.allFinite] at ha
  obtain ⟨haX, haY⟩ := ha
  simp only [Vector2.toReal]
  ext i; fin_cases i
  · exact (Ideal.real_div haX hs h0).trans (div_eq_inv_mul _ _)
  · exact (Ideal.real_div haY hs h0).trans (div_eq_inv_mul _ _)

theorem Point2.fin_neg {a : Point2 Ideal} (ha : AllFinite a) : AllFinite (-a) := by
  rw [Point2.allFinite] at ha ⊢
  obtain ⟨haX, haY⟩ := ha
  exact ⟨finite_neg.2 haX, finite_neg.2 haY⟩
theorem Point2.toReal_neg {a : Point2 Ideal} (ha : AllFinite a) :
    (-a).toReal = -a.toReal := by
  rw [Point2.allFinite] at ha
  obtain ⟨haX, haY⟩ := ha
  simp only [Point2.toReal]
  ext i; fin_cases i
  · exact IEEE.real_neg _
  · exact IEEE.real_neg _

theorem Point2.fin_mul {a : Point2 Ideal} (ha : AllFinite a) (hs : IsFinite s) : AllFinite (a * s) := by
  rw [Point2.allFinite] at ha ⊢
  obtain ⟨haX, haY⟩ := ha
  exact ⟨Ideal.finite_mul haX hs, Ideal.finite_mul haY hs⟩
theorem Point2.toReal_mul {a : Point2 Ideal} (ha : AllFinite a) (hs : IsFinite s) :
    (a * s).toReal = real s • a.toReal := by
  rw [Point2.allFinite] at ha
  obtain ⟨haX, haY⟩ := ha
  simp only [Point2.toReal]
  ext i; fin_cases i
  · exact (Ideal.real_mul haX hs).trans (mul_comm _ _)
  · exact (Ideal.real_mul haY hs).trans (mul_comm _ _)

theorem Point2.fin_div {a : Point2 Ideal} (ha : AllFinite a) (hs : IsFinite s) (h0 : real s ≠ 0) : AllFinite (a / s) := by
  rw [Point2.allFinite] at ha ⊢
  obtain ⟨haX, haY⟩ := ha
  exact ⟨Ideal.finite_div haX hs h0, Ideal.finite_div haY hs h0⟩
theorem Point2.toReal_div {a : Point2 Ideal} (ha : AllFinite a) (hs : IsFinite s) (h0 : real s ≠ 0) :
    (a / s).toReal = (real s)⁻¹ • a.toReal := by
  rw [Point2.allFinite] at ha
  obtain ⟨haX, haY⟩ := ha
  simp only [Point2.toReal]
  ext i; fin_cases i
  · exact (Ideal.real_div haX hs h0).trans (div_eq_inv_mul _ _)
  · exact (Ideal.real_div haY hs h0).trans (div_eq_inv_mul _ _)

theorem Vector2.fin_dot (hu : AllFinite u) (hv : AllFinite v) : IsFinite (Api.dot u v) := by
  rw [Vector2.allFinite] at hu hv
  rw [Vector2.dot_def]
  simp (maxDischargeDepth := 20) only [Ideal.finite_add, Ideal.finite_mul, hu, hv]
theorem Vector2.real_dot (hu : AllFinite u) (hv : AllFinite v) :
    real (Api.dot u v) = u.toReal ⬝ᵥ v.toReal := by
  rw [Vector2.allFinite] at hu hv
  rw [Vector2.dot_def]
  simp (maxDischargeDepth := 20) only [Ideal.real_add, Ideal.finite_add, Ideal.real_mul, Ideal.finite_mul, hu, hv]
  simp [Vector2.toReal, dotProduct, Fin.sum_univ_succ]
theorem Vector2.real_dot_self_nonneg (hu : AllFinite u) : 0 ≤ real (Api.dot u u) := by
  rw [Vector2.real_dot hu hu]
  exact Finset.sum_nonneg fun i _ => mul_self_nonneg _
theorem Vector2.fin_length (hu : AllFinite u) : IsFinite (Api.length u) :=
  Ideal.finite_sqrt (Vector2.fin_dot hu hu) (Vector2.real_dot_self_nonneg hu)
theorem Vector2.real_length (hu : AllFinite u) : real (Api.length u) = ‖u.toE‖ := by
  rw [Vector2.length_def, Ideal.real_sqrt (Vector2.fin_dot hu hu) (Vector2.real_dot_self_nonneg hu),
    Vector2.real_dot hu hu, EuclideanSpace.norm_eq]
  congr 1
  simp [Vector2.toE, dotProduct, sq]
theorem Vector2.real_length_sq (hu : AllFinite u) :
    real (Api.length u) * real (Api.length u) = u.toReal ⬝ᵥ u.toReal := by
  rw [Vector2.length_def, Ideal.real_sqrt (Vector2.fin_dot hu hu) (Vector2.real_dot_self_nonneg hu),
    ← Vector2.real_dot hu hu]
  exact Real.mul_self_sqrt (Vector2.real_dot_self_nonneg hu)
theorem Point2.fin_distance (hp : AllFinite p) (hq : AllFinite q) : IsFinite (Api.distance p q) :=
  Vector2.fin_length (Vector2.fin_subp hq hp)
theorem Point2.real_distance (hp : AllFinite p) (hq : AllFinite q) :
    real (Api.distance p q) = dist p.toE q.toE := by
  rw [Point2.distance_def, Vector2.real_length (Vector2.fin_subp hq hp), dist_comm, dist_eq_norm]
  congr 1
  unfold Vector2.toE Point2.toE
  rw [Vector2.toReal_subp hq hp]; rfl
theorem Vector2.real_length_eq_zero (hu : AllFinite u) : real (Api.length u) = 0 ↔ u.toReal = 0 := by
  rw [Vector2.real_length hu, norm_eq_zero]
  unfold Vector2.toE
  simp
theorem Vector2.fin_normalize (hu : AllFinite u) (h : u.toReal ≠ 0) : AllFinite u.normalize :=
  Vector2.fin_div hu (Vector2.fin_length hu) (mt (Vector2.real_length_eq_zero hu).1 h)
theorem Vector2.toReal_normalize (hu : AllFinite u) (h : u.toReal ≠ 0) :
    u.normalize.toReal = ‖u.toE‖⁻¹ • u.toReal := by
  rw [← Vector2.real_length hu]
  exact Vector2.toReal_div hu (Vector2.fin_length hu) (mt (Vector2.real_length_eq_zero hu).1 h)
theorem Vector2.fin_zero : AllFinite (Vector2.zero : Vector2 Ideal) := by
  rw [Vector2.allFinite]; exact ⟨trivial, trivial⟩
theorem Vector2.toReal_zero : (Vector2.zero : Vector2 Ideal).toReal = 0 := by
  unfold Vector2.toReal; ext i; fin_cases i <;> exact real_zero (S := Ideal)
end

/-! ## Dimension 3 -/

/-- The vector as an element of Euclidean space. -/
noncomputable def Vector3.toE (v : Vector3 Ideal) : EuclideanSpace ℝ (Fin 3) := WithLp.toLp 2 v.toReal
/-- The point as an element of Euclidean space. -/
noncomputable def Point3.toE (v : Point3 Ideal) : EuclideanSpace ℝ (Fin 3) := WithLp.toLp 2 v.toReal

section
variable {u v : Vector3 Ideal} {p q : Point3 Ideal} {s : Ideal}

theorem Vector3.beq_toReal (hu : AllFinite u) (hv : AllFinite v) :
    (u == v) = true ↔ u.toReal = v.toReal := by
  rw [Vector3.allFinite] at hu hv
  obtain ⟨haX, haY, haZ⟩ := hu
  obtain ⟨hbX, hbY, hbZ⟩ := hv
  rw [Vector3.beq_iff]
  simp [Ideal.beq_real, Vector3.toReal, *]
theorem Point3.beq_toReal (hu : AllFinite p) (hv : AllFinite q) :
    (p == q) = true ↔ p.toReal = q.toReal := by
  rw [Point3.allFinite] at hu hv
  obtain ⟨haX, haY, haZ⟩ := hu
  obtain ⟨hbX, hbY, hbZ⟩ := hv
  rw [Point3.beq_iff]
  simp [Ideal.beq_real, Point3.toReal, *]

theorem Vector3.fin_add {a : Vector3 Ideal} {b : Vector3 Ideal} (ha : AllFinite a) (hb : AllFinite b) :
    AllFinite (a + b) := by
  rw [Vector3.allFinite] at ha
  rw [Vector3.allFinite] at hb
  rw [Vector3.allFinite]
  obtain ⟨haX, haY, haZ⟩ := ha
  obtain ⟨hbX, hbY, hbZ⟩ := hb
  exact ⟨Ideal.finite_add haX hbX, Ideal.finite_add haY hbY, Ideal.finite_add haZ hbZ⟩
theorem Vector3.toReal_add {a : Vector3 Ideal} {b : Vector3 Ideal} (ha : AllFinite a) (hb : AllFinite b) :
    (a + b).toReal = a.toReal + b.toReal := by
  rw [Vector3.allFinite] at ha
  rw [Vector3.allFinite] at hb
  obtain ⟨haX, haY, haZ⟩ := ha
  obtain ⟨hbX, hbY, hbZ⟩ := hb
  simp only [Vector3.toReal, Vector3.toReal, Vector3.toReal]
  ext i; fin_cases i
  · exact Ideal.real_add haX hbX
  · exact Ideal.real_add haY hbY
  · exact Ideal.real_add haZ hbZ

theorem Vector3.fin_sub {a : Vector3 Ideal} {b : Vector3 Ideal} (ha : AllFinite a) (hb : AllFinite b) :
    AllFinite (a - b) := by
  rw [Vector3.allFinite] at ha
  rw [Vector3.allFinite] at hb
  rw [Vector3.allFinite]
  obtain ⟨haX, haY, haZ⟩ := ha
  obtain ⟨hbX, hbY, hbZ⟩ := hb
  exact ⟨Ideal.finite_sub haX hbX, Ideal.finite_sub haY hbY, Ideal.finite_sub haZ hbZ⟩
theorem Vector3.toReal_sub {a : Vector3 Ideal} {b : Vector3 Ideal} (ha : AllFinite a) (hb : AllFinite b) :
    (a - b).toReal = a.toReal - b.toReal := by
  rw [Vector3.allFinite] at ha
  rw [Vector3.allFinite] at hb
  obtain ⟨haX, haY, haZ⟩ := ha
  obtain ⟨hbX, hbY, hbZ⟩ := hb
  simp only [Vector3.toReal, Vector3.toReal, Vector3.toReal]
  ext i; fin_cases i
  · exact Ideal.real_sub haX hbX
  · exact Ideal.real_sub haY hbY
  · exact Ideal.real_sub haZ hbZ

theorem Point3.fin_addv {a : Point3 Ideal} {b : Vector3 Ideal} (ha : AllFinite a) (hb : AllFinite b) :
    AllFinite (a + b) := by
  rw [Point3.allFinite] at ha
  rw [Vector3.allFinite] at hb
  rw [Point3.allFinite]
  obtain ⟨haX, haY, haZ⟩ := ha
  obtain ⟨hbX, hbY, hbZ⟩ := hb
  exact ⟨Ideal.finite_add haX hbX, Ideal.finite_add haY hbY, Ideal.finite_add haZ hbZ⟩
theorem Point3.toReal_addv {a : Point3 Ideal} {b : Vector3 Ideal} (ha : AllFinite a) (hb : AllFinite b) :
    (a + b).toReal = a.toReal + b.toReal := by
  rw [Point3.allFinite] at ha
  rw [Vector3.allFinite] at hb
  obtain ⟨haX, haY, haZ⟩ := ha
  obtain ⟨hbX, hbY, hbZ⟩ := hb
  simp only [Point3.toReal, Vector3.toReal, Point3.toReal]
  ext i; fin_cases i
  · exact Ideal.real_add haX hbX
  · exact Ideal.real_add haY hbY
  · exact Ideal.real_add haZ hbZ

theorem Point3.fin_subv {a : Point3 Ideal} {b : Vector3 Ideal} (ha : AllFinite a) (hb : AllFinite b) :
    AllFinite (a - b) := by
  rw [Point3.allFinite] at ha
  rw [Vector3.allFinite] at hb
  rw [Point3.allFinite]
  obtain ⟨haX, haY, haZ⟩ := ha
  obtain ⟨hbX, hbY, hbZ⟩ := hb
  exact ⟨Ideal.finite_sub haX hbX, Ideal.finite_sub haY hbY, Ideal.finite_sub haZ hbZ⟩
theorem Point3.toReal_subv {a : Point3 Ideal} {b : Vector3 Ideal} (ha : AllFinite a) (hb : AllFinite b) :
    (a - b).toReal = a.toReal - b.toReal := by
  rw [Point3.allFinite] at ha
  rw [Vector3.allFinite] at hb
  obtain ⟨haX, haY, haZ⟩ := ha
  obtain ⟨hbX, hbY, hbZ⟩ := hb
  simp only [Point3.toReal, Vector3.toReal, Point3.toReal]
  ext i; fin_cases i
  · exact Ideal.real_sub haX hbX
  · exact Ideal.real_sub haY hbY
  · exact Ideal.real_sub haZ hbZ

theorem Vector3.fin_subp {a : Point3 Ideal} {b : Point3 Ideal} (ha : AllFinite a) (hb : AllFinite b) :
    AllFinite (a - b) := by
  rw [Point3.allFinite] at ha
  rw [Point3.allFinite] at hb
  rw [Vector3.allFinite]
  obtain ⟨haX, haY, haZ⟩ := ha
  obtain ⟨hbX, hbY, hbZ⟩ := hb
  exact ⟨Ideal.finite_sub haX hbX, Ideal.finite_sub haY hbY, Ideal.finite_sub haZ hbZ⟩
theorem Vector3.toReal_subp {a : Point3 Ideal} {b : Point3 Ideal} (ha : AllFinite a) (hb : AllFinite b) :
    (a - b).toReal = a.toReal - b.toReal := by
  rw [Point3.allFinite] at ha
  rw [Point3.allFinite] at hb
  obtain ⟨haX, haY, haZ⟩ := ha
  obtain ⟨hbX, hbY, hbZ⟩ := hb
  simp only [Point3.toReal, Point3.toReal, Vector3.toReal]
  ext i; fin_cases i
  · exact Ideal.real_sub haX hbX
  · exact Ideal.real_sub haY hbY
  · exact Ideal.real_sub haZ hbZ

theorem Vector3.fin_neg {a : Vector3 Ideal} (ha : AllFinite a) : AllFinite (-a) := by
  rw [Vector3.allFinite] at ha ⊢
  obtain ⟨haX, haY, haZ⟩ := ha
  exact ⟨finite_neg.2 haX, finite_neg.2 haY, finite_neg.2 haZ⟩
theorem Vector3.toReal_neg {a : Vector3 Ideal} (ha : AllFinite a) :
    (-a).toReal = -a.toReal := by
  rw [Vector3.allFinite] at ha
  obtain ⟨haX, haY, haZ⟩ := ha
  simp only [Vector3.toReal]
  ext i; fin_cases i
  · exact IEEE.real_neg _
  · exact IEEE.real_neg _
  · exact IEEE.real_neg _

theorem Vector3.fin_mul {a : Vector3 Ideal} (ha : AllFinite a) (hs : IsFinite s) : AllFinite (a * s) := by
  rw [Vector3.allFinite] at ha ⊢
  obtain ⟨haX, haY, haZ⟩ := ha
  exact ⟨Ideal.finite_mul haX hs, Ideal.finite_mul haY hs, Ideal.finite_mul haZ hs⟩
theorem Vector3.toReal_mul {a : Vector3 Ideal} (ha : AllFinite a) (hs : IsFinite s) :
    (a * s).toReal = real s • a.toReal := by
  rw [Vector3.allFinite] at ha
  obtain ⟨haX, haY, haZ⟩ := ha
  simp only [Vector3.toReal]
  ext i; fin_cases i
  · exact (Ideal.real_mul haX hs).trans (mul_comm _ _)
  · exact (Ideal.real_mul haY hs).trans (mul_comm _ _)
  · exact (Ideal.real_mul haZ hs).trans (mul_comm _ _)

theorem Vector3.fin_div {a : Vector3 Ideal} (ha : AllFinite a) (hs : IsFinite s) (h0 : real s ≠ 0) : AllFinite (a / s) := by
  rw [Vector3.allFinite] at ha ⊢
  obtain ⟨haX, haY, haZ⟩ := ha
  exact ⟨Ideal.finite_div haX hs h0, Ideal.finite_div haY hs h0, Ideal.finite_div haZ hs h0⟩
theorem Vector3.toReal_div {a : Vector3 Ideal} (ha : AllFinite a) (hs : IsFinite s) (h0 : real s ≠ 0) :
    (a / s).toReal = (real s)⁻¹ • a.toReal := by
  rw [Vector3.allFinite] at ha
  obtain ⟨haX, haY, haZ⟩ := ha
  simp only [Vector3.toReal]
  ext i; fin_cases i
  · exact (Ideal.real_div haX hs h0).trans (div_eq_inv_mul _ _)
  · exact (Ideal.real_div haY hs h0).trans (div_eq_inv_mul _ _)
  · exact (Ideal.real_div haZ hs h0).trans (div_eq_inv_mul _ _)

theorem Point3.fin_neg {a : Point3 Ideal} (ha : AllFinite a) : AllFinite (-a) := by
  rw [Point3.allFinite] at ha ⊢
  obtain ⟨haX, haY, haZ⟩ := ha
  exact ⟨finite_neg.2 haX, finite_neg.2 haY, finite_neg.2 haZ⟩
theorem Point3.toReal_neg {a : Point3 Ideal} (ha : AllFinite a) :
    (-a).toReal = -a.toReal := by
  rw [Point3.allFinite] at ha
  obtain ⟨haX, haY, haZ⟩ := ha
  simp only [Point3.toReal]
  ext i; fin_cases i
  · exact IEEE.real_neg _
  · exact IEEE.real_neg _
  · exact IEEE.real_neg _

theorem Point3.fin_mul {a : Point3 Ideal} (ha : AllFinite a) (hs : IsFinite s) : AllFinite (a * s) := by
  rw [Point3.allFinite] at ha ⊢
  obtain ⟨haX, haY, haZ⟩ := ha
  exact ⟨Ideal.finite_mul haX hs, Ideal.finite_mul haY hs, Ideal.finite_mul haZ hs⟩
theorem Point3.toReal_mul {a : Point3 Ideal} (ha : AllFinite a) (hs : IsFinite s) :
    (a * s).toReal = real s • a.toReal := by
  rw [Point3.allFinite] at ha
  obtain ⟨haX, haY, haZ⟩ := ha
  simp only [Point3.toReal]
  ext i; fin_cases i
  · exact (Ideal.real_mul haX hs).trans (mul_comm _ _)
  · exact (Ideal.real_mul haY hs).trans (mul_comm _ _)
  · exact (Ideal.real_mul haZ hs).trans (mul_comm _ _)

theorem Point3.fin_div {a : Point3 Ideal} (ha : AllFinite a) (hs : IsFinite s) (h0 : real s ≠ 0) : AllFinite (a / s) := by
  rw [Point3.allFinite] at ha ⊢
  obtain ⟨haX, haY, haZ⟩ := ha
  exact ⟨Ideal.finite_div haX hs h0, Ideal.finite_div haY hs h0, Ideal.finite_div haZ hs h0⟩
theorem Point3.toReal_div {a : Point3 Ideal} (ha : AllFinite a) (hs : IsFinite s) (h0 : real s ≠ 0) :
    (a / s).toReal = (real s)⁻¹ • a.toReal := by
  rw [Point3.allFinite] at ha
  obtain ⟨haX, haY, haZ⟩ := ha
  simp only [Point3.toReal]
  ext i; fin_cases i
  · exact (Ideal.real_div haX hs h0).trans (div_eq_inv_mul _ _)
  · exact (Ideal.real_div haY hs h0).trans (div_eq_inv_mul _ _)
  · exact (Ideal.real_div haZ hs h0).trans (div_eq_inv_mul _ _)

theorem Vector3.fin_dot (hu : AllFinite u) (hv : AllFinite v) : IsFinite (Api.dot u v) := by
  rw [Vector3.allFinite] at hu hv
  rw [Vector3.dot_def]
  simp (maxDischargeDepth := 20) only [Ideal.finite_add, Ideal.finite_mul, hu, hv]
theorem Vector3.real_dot (hu : AllFinite u) (hv : AllFinite v) :
    real (Api.dot u v) = u.toReal ⬝ᵥ v.toReal := by
  rw [Vector3.allFinite] at hu hv
  rw [Vector3.dot_def]
  simp (maxDischargeDepth := 20) only [Ideal.real_add, Ideal.finite_add, Ideal.real_mul, Ideal.finite_mul, hu, hv]
  simp [Vector3.toReal, dotProduct, Fin.sum_univ_succ, add_assoc]
theorem Vector3.real_dot_self_nonneg (hu : AllFinite u) : 0 ≤ real (Api.dot u u) := by
  rw [Vector3.real_dot hu hu]
  exact Finset.sum_nonneg fun i _ => mul_self_nonneg _
theorem Vector3.fin_length (hu : AllFinite u) : IsFinite (Api.length u) :=
  Ideal.finite_sqrt (Vector3.fin_dot hu hu) (Vector3.real_dot_self_nonneg hu)
theorem Vector3.real_length (hu : AllFinite u) : real (Api.length u) = ‖u.toE‖ := by
  rw [Vector3.length_def, Ideal.real_sqrt (Vector3.fin_dot hu hu) (Vector3.real_dot_self_nonneg hu),
    Vector3.real_dot hu hu, EuclideanSpace.norm_eq]
  congr 1
  simp [Vector3.toE, dotProduct, sq]
theorem Vector3.real_length_sq (hu : AllFinite u) :
    real (Api.length u) * real (Api.length u) = u.toReal ⬝ᵥ u.toReal := by
  rw [Vector3.length_def, Ideal.real_sqrt (Vector3.fin_dot hu hu) (Vector3.real_dot_self_nonneg hu),
    ← Vector3.real_dot hu hu]
  exact Real.mul_self_sqrt (Vector3.real_dot_self_nonneg hu)
theorem Point3.fin_distance (hp : AllFinite p) (hq : AllFinite q) : IsFinite (Api.distance p q) :=
  Vector3.fin_length (Vector3.fin_subp hq hp)
theorem Point3.real_distance (hp : AllFinite p) (hq : AllFinite q) :
    real (Api.distance p q) = dist p.toE q.toE := by
  rw [Point3.distance_def, Vector3.real_length (Vector3.fin_subp hq hp), dist_comm, dist_eq_norm]
  congr 1
  unfold Vector3.toE Point3.toE
  rw [Vector3.toReal_subp hq hp]; rfl
theorem Vector3.real_length_eq_zero (hu : AllFinite u) : real (Api.length u) = 0 ↔ u.toReal = 0 := by
  rw [Vector3.real_length hu, norm_eq_zero]
  unfold Vector3.toE
  simp
theorem Vector3.fin_normalize (hu : AllFinite u) (h : u.toReal ≠ 0) : AllFinite u.normalize :=
  Vector3.fin_div hu (Vector3.fin_length hu) (mt (Vector3.real_length_eq_zero hu).1 h)
theorem Vector3.toReal_normalize (hu : AllFinite u) (h : u.toReal ≠ 0) :
    u.normalize.toReal = ‖u.toE‖⁻¹ • u.toReal := by
  rw [← Vector3.real_length hu]
  exact Vector3.toReal_div hu (Vector3.fin_length hu) (mt (Vector3.real_length_eq_zero hu).1 h)
theorem Vector3.fin_zero : AllFinite (Vector3.zero : Vector3 Ideal) := by
  rw [Vector3.allFinite]; exact ⟨trivial, trivial, trivial⟩
theorem Vector3.toReal_zero : (Vector3.zero : Vector3 Ideal).toReal = 0 := by
  unfold Vector3.toReal; ext i; fin_cases i <;> exact real_zero (S := Ideal)
end

section
variable {u v : Vector3 Ideal}
theorem Vector3.fin_cross (hu : AllFinite u) (hv : AllFinite v) : AllFinite (Api.cross u v) := by
  rw [Vector3.allFinite] at hu hv ⊢
  simp only [Vector3.cross_x, Vector3.cross_y, Vector3.cross_z, Ideal.finite_sub, Ideal.finite_mul, hu, hv,
    and_self]
theorem Vector3.toReal_cross (hu : AllFinite u) (hv : AllFinite v) :
    (Api.cross u v).toReal = crossProduct u.toReal v.toReal := by
  rw [Vector3.allFinite] at hu hv
  rw [cross_apply]
  simp only [Vector3.toReal, Vector3.cross_x, Vector3.cross_y, Vector3.cross_z, Ideal.real_sub,
    Ideal.finite_mul, Ideal.real_mul, hu, hv]
  rfl
end

/-- Turn `==` between finite exact vectors and points into equations of real vectors. -/
macro "rv_simp" "[" hs:Lean.Parser.Tactic.simpLemma,* "]" : tactic =>
  `(tactic| set_option linter.unusedSimpArgs false in simp (maxDischargeDepth := 40) only [
    Vector2.beq_toReal, Vector2.fin_add, Vector2.toReal_add, Vector2.fin_sub, Vector2.toReal_sub,
    Vector2.fin_subp, Vector2.toReal_subp, Vector2.fin_neg, Vector2.toReal_neg, Vector2.fin_mul,
    Vector2.toReal_mul, Vector2.fin_div, Vector2.toReal_div, Vector2.fin_dot, Vector2.real_dot,
    Vector2.fin_length, Vector2.real_length_sq, Vector2.fin_zero, Vector2.toReal_zero,
    Point2.beq_toReal, Point2.fin_addv, Point2.toReal_addv, Point2.fin_subv, Point2.toReal_subv,
    Point2.fin_neg, Point2.toReal_neg, Point2.fin_mul, Point2.toReal_mul, Point2.fin_div,
    Point2.toReal_div, Point2.fin_distance, Vector3.beq_toReal, Vector3.fin_add, Vector3.toReal_add,
    Vector3.fin_sub, Vector3.toReal_sub, Vector3.fin_subp, Vector3.toReal_subp, Vector3.fin_neg,
    Vector3.toReal_neg, Vector3.fin_mul, Vector3.toReal_mul, Vector3.fin_div, Vector3.toReal_div,
    Vector3.fin_dot, Vector3.real_dot, Vector3.fin_length, Vector3.real_length_sq, Vector3.fin_zero,
    Vector3.toReal_zero, Point3.beq_toReal, Point3.fin_addv, Point3.toReal_addv, Point3.fin_subv,
    Point3.toReal_subv, Point3.fin_neg, Point3.toReal_neg, Point3.fin_mul, Point3.toReal_mul,
    Point3.fin_div, Point3.toReal_div, Point3.fin_distance, Vector3.fin_cross, Vector3.toReal_cross,
    Ideal.finite_add, Ideal.finite_sub, Ideal.finite_mul, Ideal.real_add, Ideal.real_sub,
    Ideal.real_mul, finite_zero, finite_one, real_zero, real_one, finite_two, real_two, finite_half,
    real_half, finite_neg, IEEE.real_neg,
    $hs,*])

end VecMath
