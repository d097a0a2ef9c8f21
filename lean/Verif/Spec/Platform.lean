import Verif.Spec.Param
import Verif.IEEE.Class
/-!
# Vocabulary for C115 and C116: two implementations of one floating-point format

`S` and `T` are two conforming implementations of the scalar type: the same format and rounding, but free to differ where IEEE-754
leaves a choice (the payload of a NaN, which zero `min(+0, -0)` returns).
-/

namespace VecMath
open Scalar IEEE

section
variable {S T : Type} [Scalar S] [IEEE S] [Scalar T] [IEEE T]

/-- The same datum: the same number with the same sign, or both NaN. -/
def SameDatum (a : S) (b : T) : Prop := den a = den b
/-- The same number, zeros of either sign counting as equal, or both NaN. -/
def SameNumber (a : S) (b : T) : Prop := (IsNaN a ∧ IsNaN b) ∨ (¬ IsNaN a ∧ ¬ IsNaN b ∧ val a = val b)
end
/-- The same format and rounding. -/
def SameFormat (S T : Type) [Scalar S] [IEEE S] [Scalar T] [IEEE T] : Prop := IEEE.A S = IEEE.A T

end VecMath
