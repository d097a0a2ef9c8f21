import Verif.Lemmas.Mat
import Verif.Props.MatrixStore
import Verif.Props.FloatVector
/-!
# Matrices and transforms in floating point (layer F): C40, C41, C43, C46, C48, C49, C54

`S` is any scalar type satisfying `IEEE S` (Rust's `f32`/`f64`, every rounding included).
-/

namespace VecMath
set_option linter.unusedSimpArgs false
open Scalar IEEE
variable {S : Type} [Scalar S] [IEEE S]

