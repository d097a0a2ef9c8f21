import Verif.Props.FloatShadow
import Verif.Props.RealArea
import Mathlib.Analysis.LocallyConvex.Separation
import Mathlib.Analysis.Convex.Topology
/-! # Separating axes in exact real arithmetic (layer R): C125 -/

namespace VecMath
open Scalar IEEE

section
/-- Two sets of finitely many points whose convex hulls have no common point are told apart by a linear functional. -/
theorem hulls_apart {k : ℕ} {s t : Set (Fin k → ℝ)} (hs : s.Finite) (ht : t.Finite) (h : Disjoint (convexHull ℝ s) (convexHull ℝ t)) :
    ∃ n : Fin k → ℝ, ∀ x ∈ convexHull ℝ s, ∀ y ∈ convexHull ℝ t, n ⬝ᵥ x < n ⬝ᵥ y := by
  obtain ⟨f, u, v, hu, huv, hv⟩ := geometric_hahn_banach_compact_closed (convex_convexHull ℝ s) (hs.isCompact_convexHull ℝ)
    (convex_convexHull ℝ t) (ht.isClosed_convexHull ℝ) h
  have e : ∀ x, f x = (fun i => f fun j => if i = j then 1 else 0) ⬝ᵥ x := by
    intro x
    have := LinearMap.pi_apply_eq_sum_univ (f : (Fin k → ℝ) →ₗ[ℝ] ℝ) x
    rw [dotProduct]
    refine this.trans (Finset.sum_congr rfl fun i _ => ?_)
    rw [smul_eq_mul, mul_comm]
    rfl
  refine ⟨fun i => f fun j => if i = j then 1 else 0, fun x hx y hy => ?_⟩
  rw [← e, ← e]
  exact (hu x hx).trans (huv.trans (hv y hy))
end

/-! ## Dimension 2 -/
section
theorem Point2.hull_finite (ps : List (Point2 Ideal)) : {x | ∃ p ∈ ps, x = p.toReal}.Finite := by
  refine (List.finite_toSet (ps.map Point2.toReal)).subset ?_
  rintro _ ⟨p, hp, rfl⟩
  exact List.mem_map_of_mem hp
/-- **C125**: in exact arithmetic the answer is right about the convex hulls. -/
theorem C125_hulls2 (n : Vector2 Ideal) (ps qs : List (Point2 Ideal)) (hp : ps ≠ []) (hq : qs ≠ []) (hn : AllFinite n)
    (h : ∀ p, p ∈ ps ∨ p ∈ qs → AllFinite p) :
    n.separates ps qs = true ↔ (∀ x ∈ Point2.hull ps, ∀ y ∈ Point2.hull qs, n.toReal ⬝ᵥ x < n.toReal ⬝ᵥ y) ∨
      (∀ x ∈ Point2.hull ps, ∀ y ∈ Point2.hull qs, n.toReal ⬝ᵥ y < n.toReal ⬝ᵥ x) := by
  refine n.separates_hull ps qs hp hq fun p hm => ?_
  have hv : AllFinite (Vector2.fromPoint p) := Vector2.allFinite.2 (Point2.allFinite.1 (h p hm))
  exact ⟨Vector2.fin_dot hn hv, Vector2.real_dot hn hv⟩
/-- **C125**: the convex hulls of two sets of points have no common point if and only if some axis separates the sets. -/
theorem C125_axis2 (ps qs : List (Point2 Ideal)) (hp : ps ≠ []) (hq : qs ≠ []) (h : ∀ p, p ∈ ps ∨ p ∈ qs → AllFinite p) :
    Disjoint (Point2.hull ps) (Point2.hull qs) ↔ ∃ n : Vector2 Ideal, AllFinite n ∧ n.separates ps qs = true := by
  constructor
  · intro k
    obtain ⟨n, hn⟩ := hulls_apart (Point2.hull_finite ps) (Point2.hull_finite qs) k
    have e : (⟨Ideal.of (n 0), Ideal.of (n 1)⟩ : Vector2 Ideal).toReal = n := by
      ext i; fin_cases i <;> exact Ideal.real_of _
    have f : AllFinite (⟨Ideal.of (n 0), Ideal.of (n 1)⟩ : Vector2 Ideal) := Vector2.allFinite.2 ⟨Ideal.finite_of _, Ideal.finite_of _⟩
    refine ⟨_, f, (C125_hulls2 _ ps qs hp hq f h).2 (Or.inl ?_)⟩
    rw [e]
    exact hn
  · rintro ⟨n, hn, k⟩
    rw [Set.disjoint_left]
    intro x hx hy
    rcases (C125_hulls2 n ps qs hp hq hn h).1 k with w | w
    · exact lt_irrefl _ (w x hx x hy)
    · exact lt_irrefl _ (w x hx x hy)
end

/-! ## Dimension 3 -/
section
theorem Point3.hull_finite (ps : List (Point3 Ideal)) : {x | ∃ p ∈ ps, x = p.toReal}.Finite := by
  refine (List.finite_toSet (ps.map Point3.toReal)).subset ?_
  rintro _ ⟨p, hp, rfl⟩
  exact List.mem_map_of_mem hp
/-- **C125**: in exact arithmetic the answer is right about the convex hulls. -/
theorem C125_hulls3 (n : Vector3 Ideal) (ps qs : List (Point3 Ideal)) (hp : ps ≠ []) (hq : qs ≠ []) (hn : AllFinite n)
    (h : ∀ p, p ∈ ps ∨ p ∈ qs → AllFinite p) :
    n.separates ps qs = true ↔ (∀ x ∈ Point3.hull ps, ∀ y ∈ Point3.hull qs, n.toReal ⬝ᵥ x < n.toReal ⬝ᵥ y) ∨
      (∀ x ∈ Point3.hull ps, ∀ y ∈ Point3.hull qs, n.toReal ⬝ᵥ y < n.toReal ⬝ᵥ x) := by
  refine n.separates_hull ps qs hp hq fun p hm => ?_
  have hv : AllFinite (Vector3.fromPoint p) := Vector3.allFinite.2 (Point3.allFinite.1 (h p hm))
  exact ⟨Vector3.fin_dot hn hv, Vector3.real_dot hn hv⟩
/-- **C125**: the convex hulls of two sets of points have no common point if and only if some axis separates the sets. -/
theorem C125_axis3 (ps qs : List (Point3 Ideal)) (hp : ps ≠ []) (hq : qs ≠ []) (h : ∀ p, p ∈ ps ∨ p ∈ qs → AllFinite p) :
    Disjoint (Point3.hull ps) (Point3.hull qs) ↔ ∃ n : Vector3 Ideal, AllFinite n ∧ n.separates ps qs = true := by
  constructor
  · intro k
    obtain ⟨n, hn⟩ := hulls_apart (Point3.hull_finite ps) (Point3.hull_finite qs) k
    have e : (⟨Ideal.of (n 0), Ideal.of (n 1), Ideal.of (n 2)⟩ : Vector3 Ideal).toReal = n := by
      ext i; fin_cases i <;> exact Ideal.real_of _
    have f : AllFinite (⟨Ideal.of (n 0), Ideal.of (n 1), Ideal.of (n 2)⟩ : Vector3 Ideal) := Vector3.allFinite.2 ⟨Ideal.finite_of _, Ideal.finite_of _, Ideal.finite_of _⟩
    refine ⟨_, f, (C125_hulls3 _ ps qs hp hq f h).2 (Or.inl ?_)⟩
    rw [e]
    exact hn
  · rintro ⟨n, hn, k⟩
    rw [Set.disjoint_left]
    intro x hx hy
    rcases (C125_hulls3 n ps qs hp hq hn h).1 k with w | w
    · exact lt_irrefl _ (w x hx x hy)
    · exact lt_irrefl _ (w x hx x hy)
end

end VecMath
