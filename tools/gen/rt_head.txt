import Verif.Lemmas.RealInv
/-!
# Transforms over exact arithmetic: linear part, offset, rigidity

(Generated by tools/gen/genrt.py.)
-/

set_option linter.unusedSimpArgs false
set_option linter.unusedVariables false

namespace VecMath
open Scalar IEEE
open scoped Matrix

theorem Ideal.finite_recip {s : Ideal} (hs : IsFinite s) (h : real s ≠ 0) : IsFinite (recip s) :=
  Ideal.finite_div finite_one hs h
theorem Ideal.real_recip {s : Ideal} (hs : IsFinite s) (h : real s ≠ 0) : real (recip s) = (real s)⁻¹ := by
  unfold recip; rw [Ideal.real_div finite_one hs h, real_one, one_div]

