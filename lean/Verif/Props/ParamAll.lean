import Verif.Props.Param2
import Verif.Props.Param3
/-!
# C115: every function of the crate keeps every relation that the scalar operations keep

One theorem per type and set of scalar operations used. Each conjunct is one function of the crate: related arguments give related
results. Nothing is assumed about the scalars.
-/

namespace VecMath
open Scalar Relator
set_option linter.unusedSectionVars false
variable {S T : Type} [Scalar S] [Scalar T] {ρ : S → T → Prop}

/-- The functions on scalars. -/
theorem C115_scalar [Kept ρ]  :
    (ρ ⇒ ρ) (Api.length (T := S)) (Api.length (T := T)) ∧
    (ρ ⇒ ρ ⇒ Eq) (RelativeLength.isShorterThan (T := S)) (RelativeLength.isShorterThan (T := T)) ∧
    (ρ ⇒ ρ ⇒ Eq) (RelativeLength.isLongerThan (T := S)) (RelativeLength.isLongerThan (T := T)) ∧
    (ρ ⇒ ρ ⇒ ρ) (Api.shortest (T := S)) (Api.shortest (T := T)) ∧
    (ρ ⇒ ρ ⇒ ρ) (Api.longest (T := S)) (Api.longest (T := T)) ∧
    (ρ ⇒ ρ ⇒ ρ) (Api.distance (T := S)) (Api.distance (T := T)) ∧
    (ρ ⇒ ρ ⇒ ρ ⇒ Eq) (RelativeDistance.isCloserTo (T := S)) (RelativeDistance.isCloserTo (T := T)) ∧
    (ρ ⇒ ρ ⇒ ρ ⇒ Eq) (RelativeDistance.isFartherFrom (T := S)) (RelativeDistance.isFartherFrom (T := T)) ∧
    (ρ ⇒ ρ ⇒ ρ ⇒ ρ) (Api.closest (T := S)) (Api.closest (T := T)) ∧
    (ρ ⇒ ρ ⇒ ρ ⇒ ρ) (Api.farthest (T := S)) (Api.farthest (T := T)) :=
  ⟨Scalar.rel_length, Scalar.rel_isShorterThan, Scalar.rel_isLongerThan, Scalar.rel_shortest, Scalar.rel_longest, Scalar.rel_distance, Scalar.rel_isCloserTo, Scalar.rel_isFartherFrom, Scalar.rel_closest, Scalar.rel_farthest⟩
/-- The functions on scalars, using `min` and `max`. -/
theorem C115_scalar_min [Kept ρ] [KeptMin ρ] :
    (ρ ⇒ ρ ⇒ ρ) (Api.min (T := S)) (Api.min (T := T)) ∧
    (ρ ⇒ ρ ⇒ ρ) (Api.max (T := S)) (Api.max (T := T)) :=
  ⟨Scalar.rel_min, Scalar.rel_max⟩
/-- The functions on vectors (2D). -/
theorem C115_vector2 [Kept ρ]  :
    (ρ ⇒ ρ ⇒ V2 ρ) Vector2.new Vector2.new ∧
    (ρ ⇒ ρ ⇒ V2 ρ) vector2 vector2 ∧
    V2 ρ Vector2.zero Vector2.zero ∧
    V2 ρ Vector2.xAxis Vector2.xAxis ∧
    V2 ρ Vector2.yAxis Vector2.yAxis ∧
    (Eq ⇒ V2 ρ) Vector2.axis Vector2.axis ∧
    (V2 ρ ⇒ V2 ρ) Vector2.floor Vector2.floor ∧
    (V2 ρ ⇒ V2 ρ) Vector2.ceil Vector2.ceil ∧
    (V2 ρ ⇒ V2 ρ) Vector2.round Vector2.round ∧
    (V2 ρ ⇒ V2 ρ) Vector2.trunc Vector2.trunc ∧
    (V2 ρ ⇒ V2 ρ) Vector2.fract Vector2.fract ∧
    (V2 ρ ⇒ V2 ρ) Vector2.abs Vector2.abs ∧
    (V2 ρ ⇒ Eq) Vector2.minDimension Vector2.minDimension ∧
    (V2 ρ ⇒ Eq) Vector2.maxDimension Vector2.maxDimension ∧
    (V2 ρ ⇒ Eq ⇒ ρ) Vector2.index Vector2.index ∧
    (V2 ρ ⇒ Eq ⇒ Eq ⇒ V2 ρ) Vector2.permute Vector2.permute ∧
    (V2 ρ ⇒ Eq ⇒ (ρ ⇒ ρ) ⇒ V2 ρ) Vector2.indexMut Vector2.indexMut ∧
    (V2 ρ ⇒ V2 ρ ⇒ Eq) (fun (a : Vector2 S) (b : Vector2 S) => a == b) (fun (a : Vector2 T) (b : Vector2 T) => a == b) ∧
    (V2 ρ ⇒ V2 ρ) (fun (a : Vector2 S) => -a) (fun (a : Vector2 T) => -a) ∧
    (V2 ρ ⇒ ρ ⇒ V2 ρ) (fun (a : Vector2 S) (s : S) => a * s) (fun (a : Vector2 T) (s : T) => a * s) ∧
    (ρ ⇒ V2 ρ ⇒ V2 ρ) (fun (s : S) (a : Vector2 S) => s * a) (fun (s : T) (a : Vector2 T) => s * a) ∧
    (V2 ρ ⇒ ρ ⇒ V2 ρ) Vector2.mulAssign Vector2.mulAssign ∧
    (V2 ρ ⇒ V2 ρ ⇒ V2 ρ) (fun (a : Vector2 S) (v : Vector2 S) => a + v) (fun (a : Vector2 T) (v : Vector2 T) => a + v) ∧
    (V2 ρ ⇒ V2 ρ ⇒ V2 ρ) (fun (a : Vector2 S) (v : Vector2 S) => a - v) (fun (a : Vector2 T) (v : Vector2 T) => a - v) ∧
    (V2 ρ ⇒ V2 ρ ⇒ V2 ρ) Vector2.addAssign Vector2.addAssign ∧
    (V2 ρ ⇒ V2 ρ ⇒ V2 ρ) Vector2.subAssign Vector2.subAssign ∧
    (V2 ρ ⇒ V2 ρ ⇒ ρ) Api.dot Api.dot ∧
    (V2 ρ ⇒ ρ) Api.length Api.length ∧
    (V2 ρ ⇒ V2 ρ ⇒ Eq) RelativeLength.isShorterThan RelativeLength.isShorterThan ∧
    (V2 ρ ⇒ V2 ρ ⇒ Eq) RelativeLength.isLongerThan RelativeLength.isLongerThan ∧
    (V2 ρ ⇒ V2 ρ ⇒ V2 ρ) Api.shortest Api.shortest ∧
    (V2 ρ ⇒ V2 ρ ⇒ V2 ρ) Api.longest Api.longest ∧
    (P2 ρ ⇒ V2 ρ) Vector2.fromPoint Vector2.fromPoint :=
  ⟨Vector2.rel_new, Vector2.rel_fn, Vector2.rel_zero, Vector2.rel_xAxis, Vector2.rel_yAxis, Vector2.rel_axis, Vector2.rel_floor, Vector2.rel_ceil, Vector2.rel_round, Vector2.rel_trunc, Vector2.rel_fract, Vector2.rel_abs, Vector2.rel_minDimension, Vector2.rel_maxDimension, Vector2.rel_index, Vector2.rel_permute, Vector2.rel_indexMut, Vector2.rel_beq, Vector2.rel_neg, Vector2.rel_mul, Vector2.rel_smul, Vector2.rel_mulAssign, Vector2.rel_add, Vector2.rel_sub, Vector2.rel_addAssign, Vector2.rel_subAssign, Vector2.rel_dot, Vector2.rel_length, Vector2.rel_isShorterThan, Vector2.rel_isLongerThan, Vector2.rel_shortest, Vector2.rel_longest, Vector2.rel_fromPoint⟩
/-- The functions on vectors, using division (2D). -/
theorem C115_vector2_div [Kept ρ] [KeptDiv ρ] :
    (V2 ρ ⇒ ρ ⇒ V2 ρ) (fun (a : Vector2 S) (s : S) => a / s) (fun (a : Vector2 T) (s : T) => a / s) ∧
    (V2 ρ ⇒ ρ ⇒ V2 ρ) Vector2.divAssign Vector2.divAssign ∧
    (V2 ρ ⇒ V2 ρ) Vector2.normalize Vector2.normalize :=
  ⟨Vector2.rel_div, Vector2.rel_divAssign, Vector2.rel_normalize⟩
/-- The functions on vectors, using `min` and `max` (2D). -/
theorem C115_vector2_min [Kept ρ] [KeptMin ρ] :
    (V2 ρ ⇒ V2 ρ ⇒ V2 ρ) Api.min Api.min ∧
    (V2 ρ ⇒ V2 ρ ⇒ V2 ρ) Api.max Api.max :=
  ⟨Vector2.rel_min, Vector2.rel_max⟩
/-- The functions on points (2D). -/
theorem C115_point2 [Kept ρ]  :
    (ρ ⇒ ρ ⇒ P2 ρ) Point2.new Point2.new ∧
    (ρ ⇒ ρ ⇒ P2 ρ) point2 point2 ∧
    P2 ρ Point2.origin Point2.origin ∧
    (P2 ρ ⇒ P2 ρ) Point2.floor Point2.floor ∧
    (P2 ρ ⇒ P2 ρ) Point2.ceil Point2.ceil ∧
    (P2 ρ ⇒ P2 ρ) Point2.round Point2.round ∧
    (P2 ρ ⇒ P2 ρ) Point2.trunc Point2.trunc ∧
    (P2 ρ ⇒ P2 ρ) Point2.fract Point2.fract ∧
    (P2 ρ ⇒ P2 ρ) Point2.abs Point2.abs ∧
    (P2 ρ ⇒ Eq) Point2.minDimension Point2.minDimension ∧
    (P2 ρ ⇒ Eq) Point2.maxDimension Point2.maxDimension ∧
    (P2 ρ ⇒ Eq ⇒ ρ) Point2.index Point2.index ∧
    (P2 ρ ⇒ Eq ⇒ Eq ⇒ P2 ρ) Point2.permute Point2.permute ∧
    (P2 ρ ⇒ Eq ⇒ (ρ ⇒ ρ) ⇒ P2 ρ) Point2.indexMut Point2.indexMut ∧
    (P2 ρ ⇒ P2 ρ ⇒ Eq) (fun (a : Point2 S) (b : Point2 S) => a == b) (fun (a : Point2 T) (b : Point2 T) => a == b) ∧
    (P2 ρ ⇒ P2 ρ) (fun (a : Point2 S) => -a) (fun (a : Point2 T) => -a) ∧
    (P2 ρ ⇒ ρ ⇒ P2 ρ) (fun (a : Point2 S) (s : S) => a * s) (fun (a : Point2 T) (s : T) => a * s) ∧
    (ρ ⇒ P2 ρ ⇒ P2 ρ) (fun (s : S) (a : Point2 S) => s * a) (fun (s : T) (a : Point2 T) => s * a) ∧
    (P2 ρ ⇒ ρ ⇒ P2 ρ) Point2.mulAssign Point2.mulAssign ∧
    (P2 ρ ⇒ V2 ρ ⇒ P2 ρ) (fun (a : Point2 S) (v : Vector2 S) => a + v) (fun (a : Point2 T) (v : Vector2 T) => a + v) ∧
    (P2 ρ ⇒ V2 ρ ⇒ P2 ρ) (fun (a : Point2 S) (v : Vector2 S) => a - v) (fun (a : Point2 T) (v : Vector2 T) => a - v) ∧
    (P2 ρ ⇒ V2 ρ ⇒ P2 ρ) Point2.addAssign Point2.addAssign ∧
    (P2 ρ ⇒ V2 ρ ⇒ P2 ρ) Point2.subAssign Point2.subAssign ∧
    (P2 ρ ⇒ P2 ρ ⇒ V2 ρ) (fun (a : Point2 S) (b : Point2 S) => a - b) (fun (a : Point2 T) (b : Point2 T) => a - b) ∧
    (V2 ρ ⇒ P2 ρ) Point2.fromVector Point2.fromVector ∧
    (P2 ρ ⇒ P2 ρ ⇒ ρ) Api.distance Api.distance ∧
    (P2 ρ ⇒ P2 ρ ⇒ P2 ρ ⇒ Eq) RelativeDistance.isCloserTo RelativeDistance.isCloserTo ∧
    (P2 ρ ⇒ P2 ρ ⇒ P2 ρ ⇒ Eq) RelativeDistance.isFartherFrom RelativeDistance.isFartherFrom ∧
    (P2 ρ ⇒ P2 ρ ⇒ P2 ρ ⇒ P2 ρ) Api.closest Api.closest ∧
    (P2 ρ ⇒ P2 ρ ⇒ P2 ρ ⇒ P2 ρ) Api.farthest Api.farthest :=
  ⟨Point2.rel_new, Point2.rel_fn, Point2.rel_origin, Point2.rel_floor, Point2.rel_ceil, Point2.rel_round, Point2.rel_trunc, Point2.rel_fract, Point2.rel_abs, Point2.rel_minDimension, Point2.rel_maxDimension, Point2.rel_index, Point2.rel_permute, Point2.rel_indexMut, Point2.rel_beq, Point2.rel_neg, Point2.rel_mul, Point2.rel_smul, Point2.rel_mulAssign, Point2.rel_add, Point2.rel_sub, Point2.rel_addAssign, Point2.rel_subAssign, Point2.rel_diff, Point2.rel_fromVector, Point2.rel_distance, Point2.rel_isCloserTo, Point2.rel_isFartherFrom, Point2.rel_closest, Point2.rel_farthest⟩
/-- The functions on points, using division (2D). -/
theorem C115_point2_div [Kept ρ] [KeptDiv ρ] :
    (P2 ρ ⇒ ρ ⇒ P2 ρ) (fun (a : Point2 S) (s : S) => a / s) (fun (a : Point2 T) (s : T) => a / s) ∧
    (P2 ρ ⇒ ρ ⇒ P2 ρ) Point2.divAssign Point2.divAssign :=
  ⟨Point2.rel_div, Point2.rel_divAssign⟩
/-- The functions on points, using `min` and `max` (2D). -/
theorem C115_point2_min [Kept ρ] [KeptMin ρ] :
    (P2 ρ ⇒ P2 ρ ⇒ P2 ρ) Api.min Api.min ∧
    (P2 ρ ⇒ P2 ρ ⇒ P2 ρ) Api.max Api.max :=
  ⟨Point2.rel_min, Point2.rel_max⟩
/-- The functions on rays (2D). -/
theorem C115_ray2 [Kept ρ]  :
    (P2 ρ ⇒ V2 ρ ⇒ R2 ρ) Ray2.new Ray2.new ∧
    (P2 ρ ⇒ V2 ρ ⇒ R2 ρ) ray2 ray2 ∧
    (R2 ρ ⇒ ρ ⇒ P2 ρ) Ray2.at Ray2.at ∧
    (R2 ρ ⇒ R2 ρ ⇒ Eq) (fun (a : Ray2 S) (b : Ray2 S) => a == b) (fun (a : Ray2 T) (b : Ray2 T) => a == b) :=
  ⟨Ray2.rel_new, Ray2.rel_fn, Ray2.rel_at, Ray2.rel_beq⟩
/-- The functions on boxes (2D). -/
theorem C115_boundingBox2 [Kept ρ]  :
    B2 ρ BoundingBox2.empty BoundingBox2.empty ∧
    B2 ρ BoundingBox2.infinite BoundingBox2.infinite ∧
    (B2 ρ ⇒ ρ) BoundingBox2.width BoundingBox2.width ∧
    (B2 ρ ⇒ ρ) BoundingBox2.height BoundingBox2.height ∧
    (B2 ρ ⇒ ρ) BoundingBox2.area BoundingBox2.area ∧
    (B2 ρ ⇒ Both ρ ρ) BoundingBox2.size BoundingBox2.size ∧
    (B2 ρ ⇒ Eq ⇒ ρ) BoundingBox2.extent BoundingBox2.extent ∧
    (B2 ρ ⇒ V2 ρ) BoundingBox2.diagonal BoundingBox2.diagonal ∧
    (B2 ρ ⇒ Eq) BoundingBox2.minDimension BoundingBox2.minDimension ∧
    (B2 ρ ⇒ Eq) BoundingBox2.maxDimension BoundingBox2.maxDimension ∧
    (B2 ρ ⇒ P2 ρ) BoundingBox2.center BoundingBox2.center ∧
    (B2 ρ ⇒ B2 ρ ⇒ Eq) BoundingBox2.overlaps BoundingBox2.overlaps ∧
    (B2 ρ ⇒ P2 ρ ⇒ Eq) BoundingBox2.isInside BoundingBox2.isInside ∧
    (B2 ρ ⇒ Eq ⇒ Eq ⇒ Outcome (P2 ρ)) BoundingBox2.corner BoundingBox2.corner ∧
    (B2 ρ ⇒ B2 ρ ⇒ Eq) (fun (a : BoundingBox2 S) (b : BoundingBox2 S) => a == b) (fun (a : BoundingBox2 T) (b : BoundingBox2 T) => a == b) :=
  ⟨BoundingBox2.rel_empty, BoundingBox2.rel_infinite, BoundingBox2.rel_width, BoundingBox2.rel_height, BoundingBox2.rel_area, BoundingBox2.rel_size, BoundingBox2.rel_extent, BoundingBox2.rel_diagonal, BoundingBox2.rel_minDimension, BoundingBox2.rel_maxDimension, BoundingBox2.rel_center, BoundingBox2.rel_overlaps, BoundingBox2.rel_isInside, BoundingBox2.rel_corner, BoundingBox2.rel_beq⟩
/-- The functions on boxes, using `min` and `max` (2D). -/
theorem C115_boundingBox2_min [Kept ρ] [KeptMin ρ] :
    (P2 ρ ⇒ P2 ρ ⇒ B2 ρ) BoundingBox2.new BoundingBox2.new ∧
    (B2 ρ ⇒ B2 ρ ⇒ B2 ρ) (fun (a : BoundingBox2 S) (b : BoundingBox2 S) => Api.union a b) (fun (a : BoundingBox2 T) (b : BoundingBox2 T) => Api.union a b) ∧
    (B2 ρ ⇒ P2 ρ ⇒ B2 ρ) (fun (a : BoundingBox2 S) (p : Point2 S) => Api.union a p) (fun (a : BoundingBox2 T) (p : Point2 T) => Api.union a p) ∧
    (B2 ρ ⇒ B2 ρ ⇒ Option.Rel (B2 ρ)) (fun (a : BoundingBox2 S) (b : BoundingBox2 S) => Api.intersect a b) (fun (a : BoundingBox2 T) (b : BoundingBox2 T) => Api.intersect a b) :=
  ⟨BoundingBox2.rel_new, BoundingBox2.rel_union, BoundingBox2.rel_unionPoint, BoundingBox2.rel_intersect⟩
/-- The functions on boxes, using division, `min` and `max` (2D). -/
theorem C115_boundingBox2_divmin [Kept ρ] [KeptMin ρ] [KeptDiv ρ] :
    (B2 ρ ⇒ R2 ρ ⇒ Option.Rel (Rg ρ)) (fun (a : BoundingBox2 S) (r : Ray2 S) => Api.intersect a r) (fun (a : BoundingBox2 T) (r : Ray2 T) => Api.intersect a r) :=
  BoundingBox2.rel_intersectRay
/-- The functions on 3×3 matrices. -/
theorem C115_matrix3x3 [Kept ρ]  :
    M3 ρ Matrix3x3.identity Matrix3x3.identity ∧
    (V2 ρ ⇒ M3 ρ) Matrix3x3.translate Matrix3x3.translate ∧
    (ρ ⇒ ρ ⇒ M3 ρ) Matrix3x3.scale Matrix3x3.scale ∧
    (ρ ⇒ M3 ρ) Matrix3x3.scaleUniform Matrix3x3.scaleUniform ∧
    (M3 ρ ⇒ Eq ⇒ Eq ⇒ Eq ⇒ Outcome ρ) Matrix3x3.get Matrix3x3.get ∧
    (M3 ρ ⇒ Eq ⇒ Eq ⇒ Eq ⇒ ρ ⇒ Outcome (M3 ρ)) Matrix3x3.set Matrix3x3.set ∧
    (M3 ρ ⇒ Eq ⇒ Eq ⇒ Eq ⇒ (ρ ⇒ ρ) ⇒ Outcome (M3 ρ)) Matrix3x3.getMut Matrix3x3.getMut ∧
    (M3 ρ ⇒ M3 ρ) Matrix3x3.transpose Matrix3x3.transpose ∧
    (M3 ρ ⇒ ρ ⇒ M3 ρ) (fun (a : Matrix3x3 S) (s : S) => a * s) (fun (a : Matrix3x3 T) (s : T) => a * s) ∧
    (ρ ⇒ M3 ρ ⇒ M3 ρ) (fun (s : S) (a : Matrix3x3 S) => s * a) (fun (s : T) (a : Matrix3x3 T) => s * a) ∧
    (M3 ρ ⇒ ρ ⇒ M3 ρ) Matrix3x3.mulAssign Matrix3x3.mulAssign ∧
    (M3 ρ ⇒ V2 ρ ⇒ V2 ρ) (fun (a : Matrix3x3 S) (v : Vector2 S) => a * v) (fun (a : Matrix3x3 T) (v : Vector2 T) => a * v) ∧
    (V2 ρ ⇒ M3 ρ ⇒ V2 ρ) (fun (v : Vector2 S) (a : Matrix3x3 S) => v * a) (fun (v : Vector2 T) (a : Matrix3x3 T) => v * a) ∧
    (M3 ρ ⇒ M3 ρ ⇒ M3 ρ) (fun (a : Matrix3x3 S) (b : Matrix3x3 S) => a * b) (fun (a : Matrix3x3 T) (b : Matrix3x3 T) => a * b) ∧
    (M3 ρ ⇒ M3 ρ ⇒ Eq) (fun (a : Matrix3x3 S) (b : Matrix3x3 S) => a == b) (fun (a : Matrix3x3 T) (b : Matrix3x3 T) => a == b) :=
  ⟨Matrix3x3.rel_identity, Matrix3x3.rel_translate, Matrix3x3.rel_scale, Matrix3x3.rel_scaleUniform, Matrix3x3.rel_get, Matrix3x3.rel_set, Matrix3x3.rel_getMut, Matrix3x3.rel_transpose, Matrix3x3.rel_mul_scalar, Matrix3x3.rel_scalar_mul, Matrix3x3.rel_mulAssign, Matrix3x3.rel_mul_vector, Matrix3x3.rel_vector_mul, Matrix3x3.rel_mul, Matrix3x3.rel_beq⟩
/-- The functions on 3×3 matrices, using division. -/
theorem C115_matrix3x3_div [Kept ρ] [KeptDiv ρ] :
    (M3 ρ ⇒ ρ ⇒ M3 ρ) (fun (a : Matrix3x3 S) (s : S) => a / s) (fun (a : Matrix3x3 T) (s : T) => a / s) ∧
    (M3 ρ ⇒ ρ ⇒ M3 ρ) Matrix3x3.divAssign Matrix3x3.divAssign ∧
    (M3 ρ ⇒ P2 ρ ⇒ P2 ρ) (fun (a : Matrix3x3 S) (p : Point2 S) => a * p) (fun (a : Matrix3x3 T) (p : Point2 T) => a * p) ∧
    (P2 ρ ⇒ M3 ρ ⇒ P2 ρ) (fun (p : Point2 S) (a : Matrix3x3 S) => p * a) (fun (p : Point2 T) (a : Matrix3x3 T) => p * a) ∧
    (M3 ρ ⇒ Outcome (M3 ρ)) Matrix3x3.inverse Matrix3x3.inverse :=
  ⟨Matrix3x3.rel_div_scalar, Matrix3x3.rel_divAssign, Matrix3x3.rel_mul_point, Matrix3x3.rel_point_mul, Matrix3x3.rel_inverse⟩
/-- The functions on 3×3 matrices, using `sin` and `cos`. -/
theorem C115_matrix3x3_trig [Kept ρ] [KeptTrig ρ] :
    (ρ ⇒ M3 ρ) Matrix3x3.rotate Matrix3x3.rotate :=
  Matrix3x3.rel_rotate
/-- The functions on transforms (2D). -/
theorem C115_transform2 [Kept ρ]  :
    (M3 ρ ⇒ M3 ρ ⇒ T2 ρ) Transform2.new Transform2.new ∧
    T2 ρ Transform2.identity Transform2.identity ∧
    (V2 ρ ⇒ T2 ρ) Transform2.translate Transform2.translate ∧
    (T2 ρ ⇒ T2 ρ ⇒ T2 ρ) Transform2.andThen Transform2.andThen ∧
    (T2 ρ ⇒ T2 ρ) Transform2.inv Transform2.inv ∧
    (T2 ρ ⇒ T2 ρ ⇒ Eq) (fun (a : Transform2 S) (b : Transform2 S) => a == b) (fun (a : Transform2 T) (b : Transform2 T) => a == b) ∧
    (T2 ρ ⇒ V2 ρ ⇒ V2 ρ) (fun (t : Transform2 S) (a : Vector2 S) => Transform.transform t a) (fun (t : Transform2 T) (a : Vector2 T) => Transform.transform t a) :=
  ⟨Transform2.rel_new, Transform2.rel_identity, Transform2.rel_translate, Transform2.rel_andThen, Transform2.rel_inv, Transform2.rel_beq, Transform2.rel_transform_vector⟩
/-- The functions on transforms, using division (2D). -/
theorem C115_transform2_div [Kept ρ] [KeptDiv ρ] :
    (ρ ⇒ ρ ⇒ T2 ρ) Transform2.scale Transform2.scale ∧
    (ρ ⇒ T2 ρ) Transform2.scaleUniform Transform2.scaleUniform ∧
    (M3 ρ ⇒ Outcome (T2 ρ)) Transform2.tryFrom Transform2.tryFrom ∧
    (T2 ρ ⇒ P2 ρ ⇒ P2 ρ) (fun (t : Transform2 S) (a : Point2 S) => Transform.transform t a) (fun (t : Transform2 T) (a : Point2 T) => Transform.transform t a) ∧
    (T2 ρ ⇒ R2 ρ ⇒ R2 ρ) (fun (t : Transform2 S) (a : Ray2 S) => Transform.transform t a) (fun (t : Transform2 T) (a : Ray2 T) => Transform.transform t a) :=
  ⟨Transform2.rel_scale, Transform2.rel_scaleUniform, Transform2.rel_tryFrom, Transform2.rel_transform_point, Transform2.rel_transform_ray⟩
/-- The functions on transforms, using `sin` and `cos` (2D). -/
theorem C115_transform2_trig [Kept ρ] [KeptTrig ρ] :
    (ρ ⇒ T2 ρ) Transform2.rotate Transform2.rotate :=
  Transform2.rel_rotate
/-- The functions on transforms, using division, `min` and `max` (2D). -/
theorem C115_transform2_divmin [Kept ρ] [KeptMin ρ] [KeptDiv ρ] :
    (T2 ρ ⇒ B2 ρ ⇒ B2 ρ) (fun (t : Transform2 S) (a : BoundingBox2 S) => Transform.transform t a) (fun (t : Transform2 T) (a : BoundingBox2 T) => Transform.transform t a) :=
  Transform2.rel_transform_box
/-- The functions on vectors (3D). -/
theorem C115_vector3 [Kept ρ]  :
    (ρ ⇒ ρ ⇒ ρ ⇒ V3 ρ) Vector3.new Vector3.new ∧
    (ρ ⇒ ρ ⇒ ρ ⇒ V3 ρ) vector3 vector3 ∧
    V3 ρ Vector3.zero Vector3.zero ∧
    V3 ρ Vector3.xAxis Vector3.xAxis ∧
    V3 ρ Vector3.yAxis Vector3.yAxis ∧
    V3 ρ Vector3.zAxis Vector3.zAxis ∧
    (Eq ⇒ V3 ρ) Vector3.axis Vector3.axis ∧
    (V3 ρ ⇒ V3 ρ) Vector3.floor Vector3.floor ∧
    (V3 ρ ⇒ V3 ρ) Vector3.ceil Vector3.ceil ∧
    (V3 ρ ⇒ V3 ρ) Vector3.round Vector3.round ∧
    (V3 ρ ⇒ V3 ρ) Vector3.trunc Vector3.trunc ∧
    (V3 ρ ⇒ V3 ρ) Vector3.fract Vector3.fract ∧
    (V3 ρ ⇒ V3 ρ) Vector3.abs Vector3.abs ∧
    (V3 ρ ⇒ Eq) Vector3.minDimension Vector3.minDimension ∧
    (V3 ρ ⇒ Eq) Vector3.maxDimension Vector3.maxDimension ∧
    (V3 ρ ⇒ Eq ⇒ ρ) Vector3.index Vector3.index ∧
    (V3 ρ ⇒ Eq ⇒ Eq ⇒ Eq ⇒ V3 ρ) Vector3.permute Vector3.permute ∧
    (V3 ρ ⇒ Eq ⇒ (ρ ⇒ ρ) ⇒ V3 ρ) Vector3.indexMut Vector3.indexMut ∧
    (V3 ρ ⇒ V3 ρ ⇒ Eq) (fun (a : Vector3 S) (b : Vector3 S) => a == b) (fun (a : Vector3 T) (b : Vector3 T) => a == b) ∧
    (V3 ρ ⇒ V3 ρ) (fun (a : Vector3 S) => -a) (fun (a : Vector3 T) => -a) ∧
    (V3 ρ ⇒ ρ ⇒ V3 ρ) (fun (a : Vector3 S) (s : S) => a * s) (fun (a : Vector3 T) (s : T) => a * s) ∧
    (ρ ⇒ V3 ρ ⇒ V3 ρ) (fun (s : S) (a : Vector3 S) => s * a) (fun (s : T) (a : Vector3 T) => s * a) ∧
    (V3 ρ ⇒ ρ ⇒ V3 ρ) Vector3.mulAssign Vector3.mulAssign ∧
    (V3 ρ ⇒ V3 ρ ⇒ V3 ρ) (fun (a : Vector3 S) (v : Vector3 S) => a + v) (fun (a : Vector3 T) (v : Vector3 T) => a + v) ∧
    (V3 ρ ⇒ V3 ρ ⇒ V3 ρ) (fun (a : Vector3 S) (v : Vector3 S) => a - v) (fun (a : Vector3 T) (v : Vector3 T) => a - v) ∧
    (V3 ρ ⇒ V3 ρ ⇒ V3 ρ) Vector3.addAssign Vector3.addAssign ∧
    (V3 ρ ⇒ V3 ρ ⇒ V3 ρ) Vector3.subAssign Vector3.subAssign ∧
    (V3 ρ ⇒ V3 ρ ⇒ ρ) Api.dot Api.dot ∧
    (V3 ρ ⇒ ρ) Api.length Api.length ∧
    (V3 ρ ⇒ V3 ρ ⇒ V3 ρ) Api.cross Api.cross ∧
    (V3 ρ ⇒ V3 ρ ⇒ Eq) RelativeLength.isShorterThan RelativeLength.isShorterThan ∧
    (V3 ρ ⇒ V3 ρ ⇒ Eq) RelativeLength.isLongerThan RelativeLength.isLongerThan ∧
    (V3 ρ ⇒ V3 ρ ⇒ V3 ρ) Api.shortest Api.shortest ∧
    (V3 ρ ⇒ V3 ρ ⇒ V3 ρ) Api.longest Api.longest ∧
    (P3 ρ ⇒ V3 ρ) Vector3.fromPoint Vector3.fromPoint :=
  ⟨Vector3.rel_new, Vector3.rel_fn, Vector3.rel_zero, Vector3.rel_xAxis, Vector3.rel_yAxis, Vector3.rel_zAxis, Vector3.rel_axis, Vector3.rel_floor, Vector3.rel_ceil, Vector3.rel_round, Vector3.rel_trunc, Vector3.rel_fract, Vector3.rel_abs, Vector3.rel_minDimension, Vector3.rel_maxDimension, Vector3.rel_index, Vector3.rel_permute, Vector3.rel_indexMut, Vector3.rel_beq, Vector3.rel_neg, Vector3.rel_mul, Vector3.rel_smul, Vector3.rel_mulAssign, Vector3.rel_add, Vector3.rel_sub, Vector3.rel_addAssign, Vector3.rel_subAssign, Vector3.rel_dot, Vector3.rel_length, Vector3.rel_cross, Vector3.rel_isShorterThan, Vector3.rel_isLongerThan, Vector3.rel_shortest, Vector3.rel_longest, Vector3.rel_fromPoint⟩
/-- The functions on vectors, using division (3D). -/
theorem C115_vector3_div [Kept ρ] [KeptDiv ρ] :
    (V3 ρ ⇒ ρ ⇒ V3 ρ) (fun (a : Vector3 S) (s : S) => a / s) (fun (a : Vector3 T) (s : T) => a / s) ∧
    (V3 ρ ⇒ ρ ⇒ V3 ρ) Vector3.divAssign Vector3.divAssign ∧
    (V3 ρ ⇒ V3 ρ) Vector3.normalize Vector3.normalize :=
  ⟨Vector3.rel_div, Vector3.rel_divAssign, Vector3.rel_normalize⟩
/-- The functions on vectors, using `min` and `max` (3D). -/
theorem C115_vector3_min [Kept ρ] [KeptMin ρ] :
    (V3 ρ ⇒ V3 ρ ⇒ V3 ρ) Api.min Api.min ∧
    (V3 ρ ⇒ V3 ρ ⇒ V3 ρ) Api.max Api.max :=
  ⟨Vector3.rel_min, Vector3.rel_max⟩
/-- The functions on points (3D). -/
theorem C115_point3 [Kept ρ]  :
    (ρ ⇒ ρ ⇒ ρ ⇒ P3 ρ) Point3.new Point3.new ∧
    (ρ ⇒ ρ ⇒ ρ ⇒ P3 ρ) point3 point3 ∧
    P3 ρ Point3.origin Point3.origin ∧
    (P3 ρ ⇒ P3 ρ) Point3.floor Point3.floor ∧
    (P3 ρ ⇒ P3 ρ) Point3.ceil Point3.ceil ∧
    (P3 ρ ⇒ P3 ρ) Point3.round Point3.round ∧
    (P3 ρ ⇒ P3 ρ) Point3.trunc Point3.trunc ∧
    (P3 ρ ⇒ P3 ρ) Point3.fract Point3.fract ∧
    (P3 ρ ⇒ P3 ρ) Point3.abs Point3.abs ∧
    (P3 ρ ⇒ Eq) Point3.minDimension Point3.minDimension ∧
    (P3 ρ ⇒ Eq) Point3.maxDimension Point3.maxDimension ∧
    (P3 ρ ⇒ Eq ⇒ ρ) Point3.index Point3.index ∧
    (P3 ρ ⇒ Eq ⇒ Eq ⇒ Eq ⇒ P3 ρ) Point3.permute Point3.permute ∧
    (P3 ρ ⇒ Eq ⇒ (ρ ⇒ ρ) ⇒ P3 ρ) Point3.indexMut Point3.indexMut ∧
    (P3 ρ ⇒ P3 ρ ⇒ Eq) (fun (a : Point3 S) (b : Point3 S) => a == b) (fun (a : Point3 T) (b : Point3 T) => a == b) ∧
    (P3 ρ ⇒ P3 ρ) (fun (a : Point3 S) => -a) (fun (a : Point3 T) => -a) ∧
    (P3 ρ ⇒ ρ ⇒ P3 ρ) (fun (a : Point3 S) (s : S) => a * s) (fun (a : Point3 T) (s : T) => a * s) ∧
    (ρ ⇒ P3 ρ ⇒ P3 ρ) (fun (s : S) (a : Point3 S) => s * a) (fun (s : T) (a : Point3 T) => s * a) ∧
    (P3 ρ ⇒ ρ ⇒ P3 ρ) Point3.mulAssign Point3.mulAssign ∧
    (P3 ρ ⇒ V3 ρ ⇒ P3 ρ) (fun (a : Point3 S) (v : Vector3 S) => a + v) (fun (a : Point3 T) (v : Vector3 T) => a + v) ∧
    (P3 ρ ⇒ V3 ρ ⇒ P3 ρ) (fun (a : Point3 S) (v : Vector3 S) => a - v) (fun (a : Point3 T) (v : Vector3 T) => a - v) ∧
    (P3 ρ ⇒ V3 ρ ⇒ P3 ρ) Point3.addAssign Point3.addAssign ∧
    (P3 ρ ⇒ V3 ρ ⇒ P3 ρ) Point3.subAssign Point3.subAssign ∧
    (P3 ρ ⇒ P3 ρ ⇒ V3 ρ) (fun (a : Point3 S) (b : Point3 S) => a - b) (fun (a : Point3 T) (b : Point3 T) => a - b) ∧
    (V3 ρ ⇒ P3 ρ) Point3.fromVector Point3.fromVector ∧
    (P3 ρ ⇒ P3 ρ ⇒ ρ) Api.distance Api.distance ∧
    (P3 ρ ⇒ P3 ρ ⇒ P3 ρ ⇒ Eq) RelativeDistance.isCloserTo RelativeDistance.isCloserTo ∧
    (P3 ρ ⇒ P3 ρ ⇒ P3 ρ ⇒ Eq) RelativeDistance.isFartherFrom RelativeDistance.isFartherFrom ∧
    (P3 ρ ⇒ P3 ρ ⇒ P3 ρ ⇒ P3 ρ) Api.closest Api.closest ∧
    (P3 ρ ⇒ P3 ρ ⇒ P3 ρ ⇒ P3 ρ) Api.farthest Api.farthest :=
  ⟨Point3.rel_new, Point3.rel_fn, Point3.rel_origin, Point3.rel_floor, Point3.rel_ceil, Point3.rel_round, Point3.rel_trunc, Point3.rel_fract, Point3.rel_abs, Point3.rel_minDimension, Point3.rel_maxDimension, Point3.rel_index, Point3.rel_permute, Point3.rel_indexMut, Point3.rel_beq, Point3.rel_neg, Point3.rel_mul, Point3.rel_smul, Point3.rel_mulAssign, Point3.rel_add, Point3.rel_sub, Point3.rel_addAssign, Point3.rel_subAssign, Point3.rel_diff, Point3.rel_fromVector, Point3.rel_distance, Point3.rel_isCloserTo, Point3.rel_isFartherFrom, Point3.rel_closest, Point3.rel_farthest⟩
/-- The functions on points, using division (3D). -/
theorem C115_point3_div [Kept ρ] [KeptDiv ρ] :
    (P3 ρ ⇒ ρ ⇒ P3 ρ) (fun (a : Point3 S) (s : S) => a / s) (fun (a : Point3 T) (s : T) => a / s) ∧
    (P3 ρ ⇒ ρ ⇒ P3 ρ) Point3.divAssign Point3.divAssign :=
  ⟨Point3.rel_div, Point3.rel_divAssign⟩
/-- The functions on points, using `min` and `max` (3D). -/
theorem C115_point3_min [Kept ρ] [KeptMin ρ] :
    (P3 ρ ⇒ P3 ρ ⇒ P3 ρ) Api.min Api.min ∧
    (P3 ρ ⇒ P3 ρ ⇒ P3 ρ) Api.max Api.max :=
  ⟨Point3.rel_min, Point3.rel_max⟩
/-- The functions on rays (3D). -/
theorem C115_ray3 [Kept ρ]  :
    (P3 ρ ⇒ V3 ρ ⇒ R3 ρ) Ray3.new Ray3.new ∧
    (P3 ρ ⇒ V3 ρ ⇒ R3 ρ) ray3 ray3 ∧
    (R3 ρ ⇒ ρ ⇒ P3 ρ) Ray3.at Ray3.at ∧
    (R3 ρ ⇒ R3 ρ ⇒ Eq) (fun (a : Ray3 S) (b : Ray3 S) => a == b) (fun (a : Ray3 T) (b : Ray3 T) => a == b) :=
  ⟨Ray3.rel_new, Ray3.rel_fn, Ray3.rel_at, Ray3.rel_beq⟩
/-- The functions on boxes (3D). -/
theorem C115_boundingBox3 [Kept ρ]  :
    B3 ρ BoundingBox3.empty BoundingBox3.empty ∧
    B3 ρ BoundingBox3.infinite BoundingBox3.infinite ∧
    (B3 ρ ⇒ ρ) BoundingBox3.width BoundingBox3.width ∧
    (B3 ρ ⇒ ρ) BoundingBox3.height BoundingBox3.height ∧
    (B3 ρ ⇒ ρ) BoundingBox3.depth BoundingBox3.depth ∧
    (B3 ρ ⇒ ρ) BoundingBox3.surfaceArea BoundingBox3.surfaceArea ∧
    (B3 ρ ⇒ ρ) BoundingBox3.volume BoundingBox3.volume ∧
    (B3 ρ ⇒ Both ρ (Both ρ ρ)) BoundingBox3.size BoundingBox3.size ∧
    (B3 ρ ⇒ Eq ⇒ ρ) BoundingBox3.extent BoundingBox3.extent ∧
    (B3 ρ ⇒ V3 ρ) BoundingBox3.diagonal BoundingBox3.diagonal ∧
    (B3 ρ ⇒ Eq) BoundingBox3.minDimension BoundingBox3.minDimension ∧
    (B3 ρ ⇒ Eq) BoundingBox3.maxDimension BoundingBox3.maxDimension ∧
    (B3 ρ ⇒ P3 ρ) BoundingBox3.center BoundingBox3.center ∧
    (B3 ρ ⇒ B3 ρ ⇒ Eq) BoundingBox3.overlaps BoundingBox3.overlaps ∧
    (B3 ρ ⇒ P3 ρ ⇒ Eq) BoundingBox3.isInside BoundingBox3.isInside ∧
    (B3 ρ ⇒ Eq ⇒ Eq ⇒ Outcome (P3 ρ)) BoundingBox3.corner BoundingBox3.corner ∧
    (B3 ρ ⇒ B3 ρ ⇒ Eq) (fun (a : BoundingBox3 S) (b : BoundingBox3 S) => a == b) (fun (a : BoundingBox3 T) (b : BoundingBox3 T) => a == b) :=
  ⟨BoundingBox3.rel_empty, BoundingBox3.rel_infinite, BoundingBox3.rel_width, BoundingBox3.rel_height, BoundingBox3.rel_depth, BoundingBox3.rel_surfaceArea, BoundingBox3.rel_volume, BoundingBox3.rel_size, BoundingBox3.rel_extent, BoundingBox3.rel_diagonal, BoundingBox3.rel_minDimension, BoundingBox3.rel_maxDimension, BoundingBox3.rel_center, BoundingBox3.rel_overlaps, BoundingBox3.rel_isInside, BoundingBox3.rel_corner, BoundingBox3.rel_beq⟩
/-- The functions on boxes, using `min` and `max` (3D). -/
theorem C115_boundingBox3_min [Kept ρ] [KeptMin ρ] :
    (P3 ρ ⇒ P3 ρ ⇒ B3 ρ) BoundingBox3.new BoundingBox3.new ∧
    (B3 ρ ⇒ B3 ρ ⇒ B3 ρ) (fun (a : BoundingBox3 S) (b : BoundingBox3 S) => Api.union a b) (fun (a : BoundingBox3 T) (b : BoundingBox3 T) => Api.union a b) ∧
    (B3 ρ ⇒ P3 ρ ⇒ B3 ρ) (fun (a : BoundingBox3 S) (p : Point3 S) => Api.union a p) (fun (a : BoundingBox3 T) (p : Point3 T) => Api.union a p) ∧
    (B3 ρ ⇒ B3 ρ ⇒ Option.Rel (B3 ρ)) (fun (a : BoundingBox3 S) (b : BoundingBox3 S) => Api.intersect a b) (fun (a : BoundingBox3 T) (b : BoundingBox3 T) => Api.intersect a b) :=
  ⟨BoundingBox3.rel_new, BoundingBox3.rel_union, BoundingBox3.rel_unionPoint, BoundingBox3.rel_intersect⟩
/-- The functions on boxes, using division, `min` and `max` (3D). -/
theorem C115_boundingBox3_divmin [Kept ρ] [KeptMin ρ] [KeptDiv ρ] :
    (B3 ρ ⇒ R3 ρ ⇒ Option.Rel (Rg ρ)) (fun (a : BoundingBox3 S) (r : Ray3 S) => Api.intersect a r) (fun (a : BoundingBox3 T) (r : Ray3 T) => Api.intersect a r) :=
  BoundingBox3.rel_intersectRay
/-- The functions on 4×4 matrices. -/
theorem C115_matrix4x4 [Kept ρ]  :
    M4 ρ Matrix4x4.identity Matrix4x4.identity ∧
    (V3 ρ ⇒ M4 ρ) Matrix4x4.translate Matrix4x4.translate ∧
    (ρ ⇒ ρ ⇒ ρ ⇒ M4 ρ) Matrix4x4.scale Matrix4x4.scale ∧
    (ρ ⇒ M4 ρ) Matrix4x4.scaleUniform Matrix4x4.scaleUniform ∧
    (M4 ρ ⇒ Eq ⇒ Eq ⇒ Eq ⇒ Outcome ρ) Matrix4x4.get Matrix4x4.get ∧
    (M4 ρ ⇒ Eq ⇒ Eq ⇒ Eq ⇒ ρ ⇒ Outcome (M4 ρ)) Matrix4x4.set Matrix4x4.set ∧
    (M4 ρ ⇒ Eq ⇒ Eq ⇒ Eq ⇒ (ρ ⇒ ρ) ⇒ Outcome (M4 ρ)) Matrix4x4.getMut Matrix4x4.getMut ∧
    (M4 ρ ⇒ M4 ρ) Matrix4x4.transpose Matrix4x4.transpose ∧
    (M4 ρ ⇒ ρ ⇒ M4 ρ) (fun (a : Matrix4x4 S) (s : S) => a * s) (fun (a : Matrix4x4 T) (s : T) => a * s) ∧
    (ρ ⇒ M4 ρ ⇒ M4 ρ) (fun (s : S) (a : Matrix4x4 S) => s * a) (fun (s : T) (a : Matrix4x4 T) => s * a) ∧
    (M4 ρ ⇒ ρ ⇒ M4 ρ) Matrix4x4.mulAssign Matrix4x4.mulAssign ∧
    (M4 ρ ⇒ V3 ρ ⇒ V3 ρ) (fun (a : Matrix4x4 S) (v : Vector3 S) => a * v) (fun (a : Matrix4x4 T) (v : Vector3 T) => a * v) ∧
    (V3 ρ ⇒ M4 ρ ⇒ V3 ρ) (fun (v : Vector3 S) (a : Matrix4x4 S) => v * a) (fun (v : Vector3 T) (a : Matrix4x4 T) => v * a) ∧
    (M4 ρ ⇒ M4 ρ ⇒ M4 ρ) (fun (a : Matrix4x4 S) (b : Matrix4x4 S) => a * b) (fun (a : Matrix4x4 T) (b : Matrix4x4 T) => a * b) ∧
    (M4 ρ ⇒ M4 ρ ⇒ Eq) (fun (a : Matrix4x4 S) (b : Matrix4x4 S) => a == b) (fun (a : Matrix4x4 T) (b : Matrix4x4 T) => a == b) :=
  ⟨Matrix4x4.rel_identity, Matrix4x4.rel_translate, Matrix4x4.rel_scale, Matrix4x4.rel_scaleUniform, Matrix4x4.rel_get, Matrix4x4.rel_set, Matrix4x4.rel_getMut, Matrix4x4.rel_transpose, Matrix4x4.rel_mul_scalar, Matrix4x4.rel_scalar_mul, Matrix4x4.rel_mulAssign, Matrix4x4.rel_mul_vector, Matrix4x4.rel_vector_mul, Matrix4x4.rel_mul, Matrix4x4.rel_beq⟩
/-- The functions on 4×4 matrices, using division. -/
theorem C115_matrix4x4_div [Kept ρ] [KeptDiv ρ] :
    (P3 ρ ⇒ P3 ρ ⇒ V3 ρ ⇒ M4 ρ) Matrix4x4.inverseLookAt Matrix4x4.inverseLookAt ∧
    (M4 ρ ⇒ ρ ⇒ M4 ρ) (fun (a : Matrix4x4 S) (s : S) => a / s) (fun (a : Matrix4x4 T) (s : T) => a / s) ∧
    (M4 ρ ⇒ ρ ⇒ M4 ρ) Matrix4x4.divAssign Matrix4x4.divAssign ∧
    (M4 ρ ⇒ P3 ρ ⇒ P3 ρ) (fun (a : Matrix4x4 S) (p : Point3 S) => a * p) (fun (a : Matrix4x4 T) (p : Point3 T) => a * p) ∧
    (P3 ρ ⇒ M4 ρ ⇒ P3 ρ) (fun (p : Point3 S) (a : Matrix4x4 S) => p * a) (fun (p : Point3 T) (a : Matrix4x4 T) => p * a) ∧
    (M4 ρ ⇒ Outcome (M4 ρ)) Matrix4x4.inverse Matrix4x4.inverse :=
  ⟨Matrix4x4.rel_inverseLookAt, Matrix4x4.rel_div_scalar, Matrix4x4.rel_divAssign, Matrix4x4.rel_mul_point, Matrix4x4.rel_point_mul, Matrix4x4.rel_inverse⟩
/-- The functions on 4×4 matrices, using `sin` and `cos`. -/
theorem C115_matrix4x4_trig [Kept ρ] [KeptTrig ρ] :
    (ρ ⇒ M4 ρ) Matrix4x4.rotateX Matrix4x4.rotateX ∧
    (ρ ⇒ M4 ρ) Matrix4x4.rotateY Matrix4x4.rotateY ∧
    (ρ ⇒ M4 ρ) Matrix4x4.rotateZ Matrix4x4.rotateZ :=
  ⟨Matrix4x4.rel_rotateX, Matrix4x4.rel_rotateY, Matrix4x4.rel_rotateZ⟩
/-- The functions on 4×4 matrices, using division, `sin` and `cos`. -/
theorem C115_matrix4x4_axis [Kept ρ] [KeptDiv ρ] [KeptTrig ρ] :
    (V3 ρ ⇒ ρ ⇒ M4 ρ) Matrix4x4.rotateAxis Matrix4x4.rotateAxis :=
  Matrix4x4.rel_rotateAxis
/-- The functions on transforms (3D). -/
theorem C115_transform3 [Kept ρ]  :
    (M4 ρ ⇒ M4 ρ ⇒ T3 ρ) Transform3.new Transform3.new ∧
    T3 ρ Transform3.identity Transform3.identity ∧
    (V3 ρ ⇒ T3 ρ) Transform3.translate Transform3.translate ∧
    (T3 ρ ⇒ T3 ρ ⇒ T3 ρ) Transform3.andThen Transform3.andThen ∧
    (T3 ρ ⇒ T3 ρ) Transform3.inv Transform3.inv ∧
    (T3 ρ ⇒ T3 ρ ⇒ Eq) (fun (a : Transform3 S) (b : Transform3 S) => a == b) (fun (a : Transform3 T) (b : Transform3 T) => a == b) ∧
    (T3 ρ ⇒ V3 ρ ⇒ V3 ρ) (fun (t : Transform3 S) (a : Vector3 S) => Transform.transform t a) (fun (t : Transform3 T) (a : Vector3 T) => Transform.transform t a) :=
  ⟨Transform3.rel_new, Transform3.rel_identity, Transform3.rel_translate, Transform3.rel_andThen, Transform3.rel_inv, Transform3.rel_beq, Transform3.rel_transform_vector⟩
/-- The functions on transforms, using division (3D). -/
theorem C115_transform3_div [Kept ρ] [KeptDiv ρ] :
    (ρ ⇒ ρ ⇒ ρ ⇒ T3 ρ) Transform3.scale Transform3.scale ∧
    (ρ ⇒ T3 ρ) Transform3.scaleUniform Transform3.scaleUniform ∧
    (P3 ρ ⇒ P3 ρ ⇒ V3 ρ ⇒ Outcome (T3 ρ)) Transform3.lookAt Transform3.lookAt ∧
    (M4 ρ ⇒ Outcome (T3 ρ)) Transform3.tryFrom Transform3.tryFrom ∧
    (T3 ρ ⇒ P3 ρ ⇒ P3 ρ) (fun (t : Transform3 S) (a : Point3 S) => Transform.transform t a) (fun (t : Transform3 T) (a : Point3 T) => Transform.transform t a) ∧
    (T3 ρ ⇒ R3 ρ ⇒ R3 ρ) (fun (t : Transform3 S) (a : Ray3 S) => Transform.transform t a) (fun (t : Transform3 T) (a : Ray3 T) => Transform.transform t a) :=
  ⟨Transform3.rel_scale, Transform3.rel_scaleUniform, Transform3.rel_lookAt, Transform3.rel_tryFrom, Transform3.rel_transform_point, Transform3.rel_transform_ray⟩
/-- The functions on transforms, using `sin` and `cos` (3D). -/
theorem C115_transform3_trig [Kept ρ] [KeptTrig ρ] :
    (ρ ⇒ T3 ρ) Transform3.rotateX Transform3.rotateX ∧
    (ρ ⇒ T3 ρ) Transform3.rotateY Transform3.rotateY ∧
    (ρ ⇒ T3 ρ) Transform3.rotateZ Transform3.rotateZ :=
  ⟨Transform3.rel_rotateX, Transform3.rel_rotateY, Transform3.rel_rotateZ⟩
/-- The functions on transforms, using division, `min` and `max` (3D). -/
theorem C115_transform3_divmin [Kept ρ] [KeptMin ρ] [KeptDiv ρ] :
    (T3 ρ ⇒ B3 ρ ⇒ B3 ρ) (fun (t : Transform3 S) (a : BoundingBox3 S) => Transform.transform t a) (fun (t : Transform3 T) (a : BoundingBox3 T) => Transform.transform t a) :=
  Transform3.rel_transform_box
/-- The functions on transforms, using division, `sin` and `cos` (3D). -/
theorem C115_transform3_axis [Kept ρ] [KeptDiv ρ] [KeptTrig ρ] :
    (V3 ρ ⇒ ρ ⇒ T3 ρ) Transform3.rotateAxis Transform3.rotateAxis :=
  Transform3.rel_rotateAxis

end VecMath
