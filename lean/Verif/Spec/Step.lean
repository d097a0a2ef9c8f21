import Verif.Model
import Verif.Spec.Basic
/-!
# Vocabulary for limited speeds and steps

What a client of the library writes to limit the length of a vector, and to move a point towards another one.
-/

namespace VecMath
open Scalar

section
variable {S : Type} [Scalar S]
/-- `if m < v.length() { v.normalize() * m } else { v }` -/
def Vector2.limit (v : Vector2 S) (m : S) : Vector2 S := if m <? Api.length v then v.normalize * m else v
/-- `if m < v.length() { v.normalize() * m } else { v }` -/
def Vector3.limit (v : Vector3 S) (m : S) : Vector3 S := if m <? Api.length v then v.normalize * m else v
/-- `if p.distance(t) <= s { t } else { p + (t - p).normalize() * s }` -/
def Point2.towards (t : Point2 S) (s : S) (p : Point2 S) : Point2 S :=
  if Api.distance p t ≤? s then t else p + ((t - p : Vector2 S).normalize * s : Vector2 S)
/-- `if p.distance(t) <= s { t } else { p + (t - p).normalize() * s }` -/
def Point3.towards (t : Point3 S) (s : S) (p : Point3 S) : Point3 S :=
  if Api.distance p t ≤? s then t else p + ((t - p : Vector3 S).normalize * s : Vector3 S)
end

/-- `for _ in 0..n { x = f(x) }` -/
def repeated {A : Type} (f : A → A) : ℕ → A → A
  | 0, x => x
  | n + 1, x => repeated f n (f x)

end VecMath
