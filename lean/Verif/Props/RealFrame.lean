import Verif.Props.FloatFrame
import Verif.Lemmas.LookAt
/-!
# Frames around a direction in exact real arithmetic (layer R): C114
-/

namespace VecMath
open Scalar IEEE

/-- **C114**, exact arithmetic: for every finite vector other than zero the three vectors are an orthonormal right-handed frame, the first
along the vector. -/
theorem C114_exact (v : Vector3 Ideal) (hv : AllFinite v) (h : v.toReal ≠ 0) :
    (AllFinite v.frame.dir ∧ AllFinite v.frame.side ∧ AllFinite v.frame.up) ∧
    IsFrameUpTo 0 v.frame.dir.toReal v.frame.side.toReal v.frame.up.toReal ∧
    v.toReal = norm2 v.toReal • v.frame.dir.toReal := by
  obtain ⟨fs, es, l, -⟩ := side_norm v hv
  have nv := norm2_pos_of_ne h
  have ns : 0 < norm2 v.sideways.toReal := by
    rcases (norm2_nonneg v.sideways.toReal).eq_or_lt with k | k
    · rw [← k] at l; nlinarith
    · exact k
  have hs : v.sideways.toReal ≠ 0 := by
    intro k; rw [k] at ns; simp [norm2] at ns
  have fd := Vector3.fin_normalize hv h
  have ft := Vector3.fin_normalize fs hs
  have nd := nv.ne'
  have ud : v.normalize.toReal = unit v.toReal := by
    rw [unit_eq, Vector3.toReal_normalize hv h, ← Vector3.real_length hv, Vector3.real_length' hv]
    congr 2; unfold norm2; rw [dotProduct]; simp [pow_two]
  have ut : v.sideways.normalize.toReal = unit v.sideways.toReal := by
    rw [unit_eq, Vector3.toReal_normalize fs hs, ← Vector3.real_length fs, Vector3.real_length' fs]
    congr 2; unfold norm2; rw [dotProduct]; simp [pow_two]
  have fu := Vector3.fin_cross fd ft
  refine ⟨⟨fd, ft, fu⟩, ?_, ?_⟩
  · have eu : v.frame.up.toReal = crossProduct v.frame.dir.toReal v.frame.side.toReal := Vector3.toReal_cross fd ft
    have ab : v.frame.dir.toReal ⬝ᵥ v.frame.side.toReal = 0 := by
      show v.normalize.toReal ⬝ᵥ v.sideways.normalize.toReal = 0
      rw [ud, ut, es]; exact unit_perp _ _
    have na : norm2 v.frame.dir.toReal = 1 := by
      show norm2 v.normalize.toReal = 1
      rw [ud]; exact norm2_unit nv
    have nb : norm2 v.frame.side.toReal = 1 := by
      show norm2 v.sideways.normalize.toReal = 1
      rw [ut]; exact norm2_unit ns
    obtain ⟨aa, bb, cc, ac, bc, -⟩ := exact_frame na nb ab
    rw [eu]
    refine ⟨⟨?_, ?_, ?_⟩, ⟨?_, ?_, ?_⟩, ?_⟩
    · rw [aa]; norm_num
    · rw [bb]; norm_num
    · rw [cc]; norm_num
    · rw [ab, abs_zero]
    · rw [ac, abs_zero]
    · rw [bc, abs_zero]
    · rw [sub_self]; simp [norm2]
  · show v.toReal = _ • v.normalize.toReal
    rw [ud, unit_eq, smul_smul, mul_inv_cancel₀ nd, one_smul]

end VecMath
