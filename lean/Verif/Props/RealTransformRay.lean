import Verif.Props.RealTransform
/-! # C51: `inverse()` of an affine transform undoes it on rays -/

namespace VecMath
open Scalar IEEE

/-- **C51**, 2D: for an affine transform whose forward and inverse matrices are mutually inverse, transforming a ray and
then by `inverse()` gives the ray back. -/
theorem C51_real_ray2 (t : Transform2 Ideal) (ht : AllFinite t) (h : t.Paired) (haf : t.forward.Affine) (r : Ray2 Ideal)
    (hr : AllFinite r) : (Transform.transform t.inv (Transform.transform t r : Ray2 Ideal) == r) = true := by
  rw [Ray2.allFinite] at hr
  have := C51_real2 t ht h r.origin hr.1 r.direction hr.2
  exact Ray2.beq_iff.2 ⟨this.1 (by rw [haf.weight]; norm_num), this.2 haf⟩

/-- **C51**, 3D: for an affine transform whose forward and inverse matrices are mutually inverse, transforming a ray and
then by `inverse()` gives the ray back. -/
theorem C51_real_ray3 (t : Transform3 Ideal) (ht : AllFinite t) (h : t.Paired) (haf : t.forward.Affine) (r : Ray3 Ideal)
    (hr : AllFinite r) : (Transform.transform t.inv (Transform.transform t r : Ray3 Ideal) == r) = true := by
  rw [Ray3.allFinite] at hr
  have := C51_real3 t ht h r.origin hr.1 r.direction hr.2
  exact Ray3.beq_iff.2 ⟨this.1 (by rw [haf.weight]; norm_num), this.2 haf⟩

end VecMath
