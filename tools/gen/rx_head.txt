import Verif.Lemmas.RealInv
import Mathlib.LinearAlgebra.Matrix.ToLinearEquiv
/-!
# Matrices in exact real arithmetic (layer R): C41-C45, C57

All statements are about `Ideal`: the crate's code run on exact reals. `toReal` is the real matrix.
(Generated by tools/gen/genrx.py.)
-/

set_option linter.unusedSimpArgs false
set_option linter.unusedVariables false

namespace VecMath
open Scalar IEEE

theorem not_finite_div_zero {a b : Ideal} (hb : IsFinite b) (h : real b = 0) : ¬ IsFinite (a / b) := by
  unfold IsFinite at *
  unfold real at h
  rw [den_div]
  generalize den a = x at *
  generalize den b = y at *
  revert h
  refine Val.IsFin.cases (P := fun y => y.real = 0 → ¬ ((IEEE.A Ideal).div x y).IsFin) hb ?_ ?_
  · intro _
    rcases x with _ | s | _ | z <;> simp [Rounding.div, Val.IsFin]
    split_ifs <;> simp
  · intro y hy
    have hy : y = 0 := hy
    subst hy
    rcases x with _ | s | _ | z <;> simp [Rounding.div, Val.IsFin]
    split_ifs <;> simp

