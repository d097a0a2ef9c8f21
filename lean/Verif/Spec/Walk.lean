import Verif.Spec.Round
/-!
# Vocabulary for histories of additions and subtractions

A value (a point, a vector) is changed step by step with `+=` and `-=`, any number of times.
-/

namespace VecMath

/-- One update: add a vector, or subtract one. -/
inductive Step (V : Type) where
  | plus (v : V)
  | minus (v : V)

namespace Step
variable {V W P : Type}
/-- the vector added or subtracted -/
def vec : Step V → V
  | plus v => v
  | minus v => v
/-- the same step seen in one coordinate -/
def map (f : V → W) : Step V → Step W
  | plus v => plus (f v)
  | minus v => minus (f v)
/-- the exact change of a coordinate -/
def signed (f : V → ℝ) : Step V → ℝ
  | plus v => f v
  | minus v => - f v
/-- executing a step -/
def take [HAdd P V P] [HSub P V P] (p : P) : Step V → P
  | plus v => p + v
  | minus v => p - v
end Step

section
variable {V P : Type}
/-- executing a history -/
def walk [HAdd P V P] [HSub P V P] (p : P) (l : List (Step V)) : P := l.foldl Step.take p
/-- the exact total change of a coordinate -/
def moved (f : V → ℝ) (l : List (Step V)) : ℝ := (l.map (Step.signed f)).sum
/-- the exact total way of a coordinate -/
def travelled (f : V → ℝ) (l : List (Step V)) : ℝ := (l.map fun s => |s.signed f|).sum
end

end VecMath
