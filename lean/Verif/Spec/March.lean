import Verif.Spec.Shadow
import Verif.Spec.Ball
/-!
# Vocabulary for C127: sphere tracing

What a client of the library writes to find the first of some balls on a ray without solving an equation: it goes ahead by the distance to the nearest ball,
again and again.
-/

namespace VecMath
open Scalar

section
variable {S : Type} [Scalar S]
/-- `balls.map(|b| b.center.distance(p) - b.radius).fold(S::infinity(), S::min)`: how far the nearest disc is. -/
def Ball2.clearance (balls : List (Ball2 S)) (p : Point2 S) : S := lowest (balls.map fun b => Api.distance b.center p - b.radius)
/-- `balls.map(|b| b.center.distance(p) - b.radius).fold(S::infinity(), S::min)`: how far the nearest ball is. -/
def Ball3.clearance (balls : List (Ball3 S)) (p : Point3 S) : S := lowest (balls.map fun b => Api.distance b.center p - b.radius)
/-- `t += clearance(ray.at(t))`, `n` times, from zero. -/
def Ray2.march (r : Ray2 S) (balls : List (Ball2 S)) : ℕ → S
  | 0 => zero
  | n + 1 => r.march balls n + Ball2.clearance balls (r.at (r.march balls n))
/-- `t += clearance(ray.at(t))`, `n` times, from zero. -/
def Ray3.march (r : Ray3 S) (balls : List (Ball3 S)) : ℕ → S
  | 0 => zero
  | n + 1 => r.march balls n + Ball3.clearance balls (r.at (r.march balls n))
end

end VecMath
