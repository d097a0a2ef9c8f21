import Verif.Spec.Hit
import Verif.Spec.RayImage
/-!
# Vocabulary for instancing

A box placed in the world with a transform `t` is intersected with the ray transformed by the inverse of `t`. All of this
is about one coordinate `i` (a row of the stored inverse matrix).
-/

namespace VecMath
open Scalar IEEE

section
variable {S : Type} [Scalar S] [IEEE S] [Binary S]

/-- Coordinate `i` of the exact point of the ray with parameter `s`, taken back exactly by the stored inverse matrix. -/
noncomputable def Transform2.backAt (t : Transform2 S) (ray : Ray2 S) (s : S) (i : Fin 2) : ℝ :=
  imageAt (fun j => t.inverse.toReal i.castSucc j.castSucc) (t.inverse.toReal i.castSucc 2) ray.origin.toReal ray.direction.toReal (real s)
/-- The rounding error of transforming the ray (origin and direction) and computing the point: C85. -/
noncomputable def Transform2.backErr (t : Transform2 S) (ray : Ray2 S) (s : S) (i : Fin 2) : ℝ :=
  ((1 + uro S) ^ 4 - 1) * imageSize (fun j => t.inverse.toReal i.castSucc j.castSucc) (t.inverse.toReal i.castSucc 2)
    ray.origin.toReal ray.direction.toReal (real s) + flushRay S 2 (real s)
/-- Coordinate `i` of the exact point of the ray with parameter `s`, taken back exactly by the stored inverse matrix. -/
noncomputable def Transform3.backAt (t : Transform3 S) (ray : Ray3 S) (s : S) (i : Fin 3) : ℝ :=
  imageAt (fun j => t.inverse.toReal i.castSucc j.castSucc) (t.inverse.toReal i.castSucc 3) ray.origin.toReal ray.direction.toReal (real s)
/-- The rounding error of transforming the ray (origin and direction) and computing the point: C85. -/
noncomputable def Transform3.backErr (t : Transform3 S) (ray : Ray3 S) (s : S) (i : Fin 3) : ℝ :=
  ((1 + uro S) ^ 5 - 1) * imageSize (fun j => t.inverse.toReal i.castSucc j.castSucc) (t.inverse.toReal i.castSucc 3)
    ray.origin.toReal ray.direction.toReal (real s) + flushRay S 3 (real s)
end
end VecMath
