import Verif.Model
/-!
# Vocabulary for uniform grids (spatial hashing)

What a client writes with the library to sort points into the cells of a grid of cell size `s`: `(p / s).floor()`.
-/

namespace VecMath
variable {S : Type} [Scalar S]

/-- `(p / s).floor()` -/
def Point2.cell (p : Point2 S) (s : S) : Point2 S := (p / s).floor
/-- `(p / s).floor()` -/
def Point3.cell (p : Point3 S) (s : S) : Point3 S := (p / s).floor
end VecMath
