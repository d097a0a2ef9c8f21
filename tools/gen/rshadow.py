out='''import Verif.Props.FloatShadow
import Verif.Props.RealArea
import Mathlib.Analysis.LocallyConvex.Separation
import Mathlib.Analysis.Convex.Topology
/-! # Separating axes in exact real arithmetic (layer R): C125 -/

namespace VecMath
open Scalar IEEE

section
/-- Two sets of finitely many points whose convex hulls have no common point are told apart by a linear functional. -/
theorem hulls_apart {k : ℕ} {s t : Set (Fin k → ℝ)} (hs : s.Finite) (ht : t.Finite) (h : Disjoint (convexHull ℝ s) (convexHull ℝ t)) :
    ∃ n : Fin k → ℝ, ∀ x ∈ convexHull ℝ s, ∀ y ∈ convexHull ℝ t, n ⬝ᵥ x < n ⬝ᵥ y := by
  obtain ⟨f, u, v, hu, huv, hv⟩ := geometric_hahn_banach_compact_closed (convex_convexHull ℝ s) (hs.isCompact_convexHull ℝ)
    (convex_convexHull ℝ t) (ht.isClosed_convexHull ℝ) h
  have e : ∀ x, f x = (fun i => f fun j => if i = j then 1 else 0) ⬝ᵥ x := by
    intro x
    have := LinearMap.pi_apply_eq_sum_univ (f : (Fin k → ℝ) →ₗ[ℝ] ℝ) x
    rw [dotProduct]
    refine this.trans (Finset.sum_congr rfl fun i _ => ?_)
    rw [smul_eq_mul, mul_comm]
    rfl
  refine ⟨fun i => f fun j => if i = j then 1 else 0, fun x hx y hy => ?_⟩
  rw [← e, ← e]
  exact (hu x hx).trans (huv.trans (hv y hy))
end
'''
for d in '23':
    ax='xyz'[:int(d)]
    out+=f'''
/-! ## Dimension {d} -/
section
theorem Point{d}.hull_finite (ps : List (Point{d} Ideal)) : {{x | ∃ p ∈ ps, x = p.toReal}}.Finite := by
  refine (List.finite_toSet (ps.map Point{d}.toReal)).subset ?_
  rintro _ ⟨p, hp, rfl⟩
  exact List.mem_map_of_mem hp
/-- **C125**: in exact arithmetic the answer is right about the convex hulls. -/
theorem C125_hulls{d} (n : Vector{d} Ideal) (ps qs : List (Point{d} Ideal)) (hp : ps ≠ []) (hq : qs ≠ []) (hn : AllFinite n)
    (h : ∀ p, p ∈ ps ∨ p ∈ qs → AllFinite p) :
    n.separates ps qs = true ↔ (∀ x ∈ Point{d}.hull ps, ∀ y ∈ Point{d}.hull qs, n.toReal ⬝ᵥ x < n.toReal ⬝ᵥ y) ∨
      (∀ x ∈ Point{d}.hull ps, ∀ y ∈ Point{d}.hull qs, n.toReal ⬝ᵥ y < n.toReal ⬝ᵥ x) := by
  refine n.separates_hull ps qs hp hq fun p hm => ?_
  have hv : AllFinite (Vector{d}.fromPoint p) := Vector{d}.allFinite.2 (Point{d}.allFinite.1 (h p hm))
  exact ⟨Vector{d}.fin_dot hn hv, Vector{d}.real_dot hn hv⟩
/-- **C125**: the convex hulls of two sets of points have no common point if and only if some axis separates the sets. -/
theorem C125_axis{d} (ps qs : List (Point{d} Ideal)) (hp : ps ≠ []) (hq : qs ≠ []) (h : ∀ p, p ∈ ps ∨ p ∈ qs → AllFinite p) :
    Disjoint (Point{d}.hull ps) (Point{d}.hull qs) ↔ ∃ n : Vector{d} Ideal, AllFinite n ∧ n.separates ps qs = true := by
  constructor
  · intro k
    obtain ⟨n, hn⟩ := hulls_apart (Point{d}.hull_finite ps) (Point{d}.hull_finite qs) k
    have e : (⟨{', '.join(f'Ideal.of (n {i})' for i in range(int(d)))}⟩ : Vector{d} Ideal).toReal = n := by
      ext i; fin_cases i <;> exact Ideal.real_of _
    have f : AllFinite (⟨{', '.join(f'Ideal.of (n {i})' for i in range(int(d)))}⟩ : Vector{d} Ideal) := Vector{d}.allFinite.2 ⟨{', '.join('Ideal.finite_of _' for i in ax)}⟩
    refine ⟨_, f, (C125_hulls{d} _ ps qs hp hq f h).2 (Or.inl ?_)⟩
    rw [e]
    exact hn
  · rintro ⟨n, hn, k⟩
    rw [Set.disjoint_left]
    intro x hx hy
    rcases (C125_hulls{d} n ps qs hp hq hn h).1 k with w | w
    · exact lt_irrefl _ (w x hx x hy)
    · exact lt_irrefl _ (w x hx x hy)
end
'''
out+='\nend VecMath\n'
open('/tmp/d/RealShadow.lean','w').write(out)
