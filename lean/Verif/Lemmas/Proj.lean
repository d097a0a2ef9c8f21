import Verif.Spec.Basic
/-! # Component lemmas (all by `rfl`): what each operation of the model does to each field. -/

set_option linter.unusedSectionVars false

namespace VecMath
open Scalar
variable {S : Type} [Scalar S]

@[simp] theorem Vector2.add_x (a : Vector2 S) (b : Vector2 S) : (a + b).x = a.x + b.x := rfl
@[simp] theorem Vector2.sub_x (a : Vector2 S) (b : Vector2 S) : (a - b).x = a.x - b.x := rfl
@[simp] theorem Point2.add_x (a : Point2 S) (b : Vector2 S) : (a + b).x = a.x + b.x := rfl
@[simp] theorem Point2.sub_x (a : Point2 S) (b : Vector2 S) : (a - b).x = a.x - b.x := rfl
@[simp] theorem Point2.psub_x (a b : Point2 S) : (a - b).x = a.x - b.x := rfl
@[simp] theorem Vector2.neg_x (a : Vector2 S) : (-a).x = -a.x := rfl
@[simp] theorem Vector2.mul_x (a : Vector2 S) (s : S) : (a * s).x = a.x * s := rfl
@[simp] theorem Vector2.smul_x (s : S) (a : Vector2 S) : (s * a).x = a.x * s := rfl
@[simp] theorem Vector2.div_x (a : Vector2 S) (s : S) : (a / s).x = a.x / s := rfl
@[simp] theorem Vector2.min_x (a b : Vector2 S) : (Api.min a b).x = fmin a.x b.x := rfl
@[simp] theorem Vector2.max_x (a b : Vector2 S) : (Api.max a b).x = fmax a.x b.x := rfl
@[simp] theorem Vector2.new_x (x y : S) : (Vector2.new x y).x = x := rfl
@[simp] theorem Vector2.abs_x (a : Vector2 S) : a.abs.x = Scalar.abs a.x := rfl
@[simp] theorem Vector2.floor_x (a : Vector2 S) : a.floor.x = Scalar.floor a.x := rfl
@[simp] theorem Vector2.ceil_x (a : Vector2 S) : a.ceil.x = Scalar.ceil a.x := rfl
@[simp] theorem Vector2.round_x (a : Vector2 S) : a.round.x = Scalar.round a.x := rfl
@[simp] theorem Vector2.trunc_x (a : Vector2 S) : a.trunc.x = Scalar.trunc a.x := rfl
@[simp] theorem Vector2.fract_x (a : Vector2 S) : a.fract.x = Scalar.fract a.x := rfl
@[simp] theorem Point2.neg_x (a : Point2 S) : (-a).x = -a.x := rfl
@[simp] theorem Point2.mul_x (a : Point2 S) (s : S) : (a * s).x = a.x * s := rfl
@[simp] theorem Point2.smul_x (s : S) (a : Point2 S) : (s * a).x = a.x * s := rfl
@[simp] theorem Point2.div_x (a : Point2 S) (s : S) : (a / s).x = a.x / s := rfl
@[simp] theorem Point2.min_x (a b : Point2 S) : (Api.min a b).x = fmin a.x b.x := rfl
@[simp] theorem Point2.max_x (a b : Point2 S) : (Api.max a b).x = fmax a.x b.x := rfl
@[simp] theorem Point2.new_x (x y : S) : (Point2.new x y).x = x := rfl
@[simp] theorem Point2.abs_x (a : Point2 S) : a.abs.x = Scalar.abs a.x := rfl
@[simp] theorem Point2.floor_x (a : Point2 S) : a.floor.x = Scalar.floor a.x := rfl
@[simp] theorem Point2.ceil_x (a : Point2 S) : a.ceil.x = Scalar.ceil a.x := rfl
@[simp] theorem Point2.round_x (a : Point2 S) : a.round.x = Scalar.round a.x := rfl
@[simp] theorem Point2.trunc_x (a : Point2 S) : a.trunc.x = Scalar.trunc a.x := rfl
@[simp] theorem Point2.fract_x (a : Point2 S) : a.fract.x = Scalar.fract a.x := rfl
@[simp] theorem Vector2.zero_x : (Vector2.zero : Vector2 S).x = Scalar.zero := rfl
@[simp] theorem Point2.origin_x : (Point2.origin : Point2 S).x = Scalar.zero := rfl
@[simp] theorem Vector2.fromPoint_x (p : Point2 S) : (Vector2.fromPoint p).x = p.x := rfl
@[simp] theorem Point2.fromVector_x (p : Vector2 S) : (Point2.fromVector p).x = p.x := rfl
@[simp] theorem Vector2.normalize_x (v : Vector2 S) : v.normalize.x = v.x / Api.length v := rfl
@[simp] theorem Ray2.at_x (r : Ray2 S) (t : S) : (r.at t).x = r.origin.x + r.direction.x * t := rfl
@[simp] theorem Vector2.xAxis_x : (Vector2.xAxis : Vector2 S).x = Scalar.one := rfl
@[simp] theorem Vector2.yAxis_x : (Vector2.yAxis : Vector2 S).x = Scalar.zero := rfl
@[simp] theorem BoundingBox2.diagonal_x (b : BoundingBox2 S) : b.diagonal.x = b.max.x - b.min.x := rfl
@[simp] theorem Vector2.add_y (a : Vector2 S) (b : Vector2 S) : (a + b).y = a.y + b.y := rfl
@[simp] theorem Vector2.sub_y (a : Vector2 S) (b : Vector2 S) : (a - b).y = a.y - b.y := rfl
@[simp] theorem Point2.add_y (a : Point2 S) (b : Vector2 S) : (a + b).y = a.y + b.y := rfl
@[simp] theorem Point2.sub_y (a : Point2 S) (b : Vector2 S) : (a - b).y = a.y - b.y := rfl
@[simp] theorem Point2.psub_y (a b : Point2 S) : (a - b).y = a.y - b.y := rfl
@[simp] theorem Vector2.neg_y (a : Vector2 S) : (-a).y = -a.y := rfl
@[simp] theorem Vector2.mul_y (a : Vector2 S) (s : S) : (a * s).y = a.y * s := rfl
@[simp] theorem Vector2.smul_y (s : S) (a : Vector2 S) : (s * a).y = a.y * s := rfl
@[simp] theorem Vector2.div_y (a : Vector2 S) (s : S) : (a / s).y = a.y / s := rfl
@[simp] theorem Vector2.min_y (a b : Vector2 S) : (Api.min a b).y = fmin a.y b.y := rfl
@[simp] theorem Vector2.max_y (a b : Vector2 S) : (Api.max a b).y = fmax a.y b.y := rfl
@[simp] theorem Vector2.new_y (x y : S) : (Vector2.new x y).y = y := rfl
@[simp] theorem Vector2.abs_y (a : Vector2 S) : a.abs.y = Scalar.abs a.y := rfl
@[simp] theorem Vector2.floor_y (a : Vector2 S) : a.floor.y = Scalar.floor a.y := rfl
@[simp] theorem Vector2.ceil_y (a : Vector2 S) : a.ceil.y = Scalar.ceil a.y := rfl
@[simp] theorem Vector2.round_y (a : Vector2 S) : a.round.y = Scalar.round a.y := rfl
@[simp] theorem Vector2.trunc_y (a : Vector2 S) : a.trunc.y = Scalar.trunc a.y := rfl
@[simp] theorem Vector2.fract_y (a : Vector2 S) : a.fract.y = Scalar.fract a.y := rfl
@[simp] theorem Point2.neg_y (a : Point2 S) : (-a).y = -a.y := rfl
@[simp] theorem Point2.mul_y (a : Point2 S) (s : S) : (a * s).y = a.y * s := rfl
@[simp] theorem Point2.smul_y (s : S) (a : Point2 S) : (s * a).y = a.y * s := rfl
@[simp] theorem Point2.div_y (a : Point2 S) (s : S) : (a / s).y = a.y / s := rfl
@[simp] theorem Point2.min_y (a b : Point2 S) : (Api.min a b).y = fmin a.y b.y := rfl
@[simp] theorem Point2.max_y (a b : Point2 S) : (Api.max a b).y = fmax a.y b.y := rfl
@[simp] theorem Point2.new_y (x y : S) : (Point2.new x y).y = y := rfl
@[simp] theorem Point2.abs_y (a : Point2 S) : a.abs.y = Scalar.abs a.y := rfl
@[simp] theorem Point2.floor_y (a : Point2 S) : a.floor.y = Scalar.floor a.y := rfl
@[simp] theorem Point2.ceil_y (a : Point2 S) : a.ceil.y = Scalar.ceil a.y := rfl
@[simp] theorem Point2.round_y (a : Point2 S) : a.round.y = Scalar.round a.y := rfl
@[simp] theorem Point2.trunc_y (a : Point2 S) : a.trunc.y = Scalar.trunc a.y := rfl
@[simp] theorem Point2.fract_y (a : Point2 S) : a.fract.y = Scalar.fract a.y := rfl
@[simp] theorem Vector2.zero_y : (Vector2.zero : Vector2 S).y = Scalar.zero := rfl
@[simp] theorem Point2.origin_y : (Point2.origin : Point2 S).y = Scalar.zero := rfl
@[simp] theorem Vector2.fromPoint_y (p : Point2 S) : (Vector2.fromPoint p).y = p.y := rfl
@[simp] theorem Point2.fromVector_y (p : Vector2 S) : (Point2.fromVector p).y = p.y := rfl
@[simp] theorem Vector2.normalize_y (v : Vector2 S) : v.normalize.y = v.y / Api.length v := rfl
@[simp] theorem Ray2.at_y (r : Ray2 S) (t : S) : (r.at t).y = r.origin.y + r.direction.y * t := rfl
@[simp] theorem Vector2.xAxis_y : (Vector2.xAxis : Vector2 S).y = Scalar.zero := rfl
@[simp] theorem Vector2.yAxis_y : (Vector2.yAxis : Vector2 S).y = Scalar.one := rfl
@[simp] theorem BoundingBox2.diagonal_y (b : BoundingBox2 S) : b.diagonal.y = b.max.y - b.min.y := rfl
@[simp] theorem BoundingBox2.new_min (p q : Point2 S) : (BoundingBox2.new p q).min = Api.min p q := rfl
@[simp] theorem BoundingBox2.new_max (p q : Point2 S) : (BoundingBox2.new p q).max = Api.max p q := rfl
theorem Vector2.dot_def (u v : Vector2 S) : Api.dot u v = u.x * v.x + u.y * v.y := rfl
theorem Vector2.length_def (u : Vector2 S) : Api.length u = sqrt (Api.dot u u) := rfl
theorem Point2.distance_def (p q : Point2 S) : Api.distance p q = Api.length (q - p) := rfl
@[simp] theorem Vector3.add_x (a : Vector3 S) (b : Vector3 S) : (a + b).x = a.x + b.x := rfl
@[simp] theorem Vector3.sub_x (a : Vector3 S) (b : Vector3 S) : (a - b).x = a.x - b.x := rfl
@[simp] theorem Point3.add_x (a : Point3 S) (b : Vector3 S) : (a + b).x = a.x + b.x := rfl
@[simp] theorem Point3.sub_x (a : Point3 S) (b : Vector3 S) : (a - b).x = a.x - b.x := rfl
@[simp] theorem Point3.psub_x (a b : Point3 S) : (a - b).x = a.x - b.x := rfl
@[simp] theorem Vector3.neg_x (a : Vector3 S) : (-a).x = -a.x := rfl
@[simp] theorem Vector3.mul_x (a : Vector3 S) (s : S) : (a * s).x = a.x * s := rfl
@[simp] theorem Vector3.smul_x (s : S) (a : Vector3 S) : (s * a).x = a.x * s := rfl
@[simp] theorem Vector3.div_x (a : Vector3 S) (s : S) : (a / s).x = a.x / s := rfl
@[simp] theorem Vector3.min_x (a b : Vector3 S) : (Api.min a b).x = fmin a.x b.x := rfl
@[simp] theorem Vector3.max_x (a b : Vector3 S) : (Api.max a b).x = fmax a.x b.x := rfl
@[simp] theorem Vector3.new_x (x y z : S) : (Vector3.new x y z).x = x := rfl
@[simp] theorem Vector3.abs_x (a : Vector3 S) : a.abs.x = Scalar.abs a.x := rfl
@[simp] theorem Vector3.floor_x (a : Vector3 S) : a.floor.x = Scalar.floor a.x := rfl
@[simp] theorem Vector3.ceil_x (a : Vector3 S) : a.ceil.x = Scalar.ceil a.x := rfl
@[simp] theorem Vector3.round_x (a : Vector3 S) : a.round.x = Scalar.round a.x := rfl
@[simp] theorem Vector3.trunc_x (a : Vector3 S) : a.trunc.x = Scalar.trunc a.x := rfl
@[simp] theorem Vector3.fract_x (a : Vector3 S) : a.fract.x = Scalar.fract a.x := rfl
@[simp] theorem Point3.neg_x (a : Point3 S) : (-a).x = -a.x := rfl
@[simp] theorem Point3.mul_x (a : Point3 S) (s : S) : (a * s).x = a.x * s := rfl
@[simp] theorem Point3.smul_x (s : S) (a : Point3 S) : (s * a).x = a.x * s := rfl
@[simp] theorem Point3.div_x (a : Point3 S) (s : S) : (a / s).x = a.x / s := rfl
@[simp] theorem Point3.min_x (a b : Point3 S) : (Api.min a b).x = fmin a.x b.x := rfl
@[simp] theorem Point3.max_x (a b : Point3 S) : (Api.max a b).x = fmax a.x b.x := rfl
@[simp] theorem Point3.new_x (x y z : S) : (Point3.new x y z).x = x := rfl
@[simp] theorem Point3.abs_x (a : Point3 S) : a.abs.x = Scalar.abs a.x := rfl
@[simp] theorem Point3.floor_x (a : Point3 S) : a.floor.x = Scalar.floor a.x := rfl
@[simp] theorem Point3.ceil_x (a : Point3 S) : a.ceil.x = Scalar.ceil a.x := rfl
@[simp] theorem Point3.round_x (a : Point3 S) : a.round.x = Scalar.round a.x := rfl
@[simp] theorem Point3.trunc_x (a : Point3 S) : a.trunc.x = Scalar.trunc a.x := rfl
@[simp] theorem Point3.fract_x (a : Point3 S) : a.fract.x = Scalar.fract a.x := rfl
@[simp] theorem Vector3.zero_x : (Vector3.zero : Vector3 S).x = Scalar.zero := rfl
@[simp] theorem Point3.origin_x : (Point3.origin : Point3 S).x = Scalar.zero := rfl
@[simp] theorem Vector3.fromPoint_x (p : Point3 S) : (Vector3.fromPoint p).x = p.x := rfl
@[simp] theorem Point3.fromVector_x (p : Vector3 S) : (Point3.fromVector p).x = p.x := rfl
@[simp] theorem Vector3.normalize_x (v : Vector3 S) : v.normalize.x = v.x / Api.length v := rfl
@[simp] theorem Ray3.at_x (r : Ray3 S) (t : S) : (r.at t).x = r.origin.x + r.direction.x * t := rfl
@[simp] theorem Vector3.xAxis_x : (Vector3.xAxis : Vector3 S).x = Scalar.one := rfl
@[simp] theorem Vector3.yAxis_x : (Vector3.yAxis : Vector3 S).x = Scalar.zero := rfl
@[simp] theorem Vector3.zAxis_x : (Vector3.zAxis : Vector3 S).x = Scalar.zero := rfl
@[simp] theorem BoundingBox3.diagonal_x (b : BoundingBox3 S) : b.diagonal.x = b.max.x - b.min.x := rfl
@[simp] theorem Vector3.add_y (a : Vector3 S) (b : Vector3 S) : (a + b).y = a.y + b.y := rfl
@[simp] theorem Vector3.sub_y (a : Vector3 S) (b : Vector3 S) : (a - b).y = a.y - b.y := rfl
@[simp] theorem Point3.add_y (a : Point3 S) (b : Vector3 S) : (a + b).y = a.y + b.y := rfl
@[simp] theorem Point3.sub_y (a : Point3 S) (b : Vector3 S) : (a - b).y = a.y - b.y := rfl
@[simp] theorem Point3.psub_y (a b : Point3 S) : (a - b).y = a.y - b.y := rfl
@[simp] theorem Vector3.neg_y (a : Vector3 S) : (-a).y = -a.y := rfl
@[simp] theorem Vector3.mul_y (a : Vector3 S) (s : S) : (a * s).y = a.y * s := rfl
@[simp] theorem Vector3.smul_y (s : S) (a : Vector3 S) : (s * a).y = a.y * s := rfl
@[simp] theorem Vector3.div_y (a : Vector3 S) (s : S) : (a / s).y = a.y / s := rfl
@[simp] theorem Vector3.min_y (a b : Vector3 S) : (Api.min a b).y = fmin a.y b.y := rfl
@[simp] theorem Vector3.max_y (a b : Vector3 S) : (Api.max a b).y = fmax a.y b.y := rfl
@[simp] theorem Vector3.new_y (x y z : S) : (Vector3.new x y z).y = y := rfl
@[simp] theorem Vector3.abs_y (a : Vector3 S) : a.abs.y = Scalar.abs a.y := rfl
@[simp] theorem Vector3.floor_y (a : Vector3 S) : a.floor.y = Scalar.floor a.y := rfl
@[simp] theorem Vector3.ceil_y (a : Vector3 S) : a.ceil.y = Scalar.ceil a.y := rfl
@[simp] theorem Vector3.round_y (a : Vector3 S) : a.round.y = Scalar.round a.y := rfl
@[simp] theorem Vector3.trunc_y (a : Vector3 S) : a.trunc.y = Scalar.trunc a.y := rfl
@[simp] theorem Vector3.fract_y (a : Vector3 S) : a.fract.y = Scalar.fract a.y := rfl
@[simp] theorem Point3.neg_y (a : Point3 S) : (-a).y = -a.y := rfl
@[simp] theorem Point3.mul_y (a : Point3 S) (s : S) : (a * s).y = a.y * s := rfl
@[simp] theorem Point3.smul_y (s : S) (a : Point3 S) : (s * a).y = a.y * s := rfl
@[simp] theorem Point3.div_y (a : Point3 S) (s : S) : (a / s).y = a.y / s := rfl
@[simp] theorem Point3.min_y (a b : Point3 S) : (Api.min a b).y = fmin a.y b.y := rfl
@[simp] theorem Point3.max_y (a b : Point3 S) : (Api.max a b).y = fmax a.y b.y := rfl
@[simp] theorem Point3.new_y (x y z : S) : (Point3.new x y z).y = y := rfl
@[simp] theorem Point3.abs_y (a : Point3 S) : a.abs.y = Scalar.abs a.y := rfl
@[simp] theorem Point3.floor_y (a : Point3 S) : a.floor.y = Scalar.floor a.y := rfl
@[simp] theorem Point3.ceil_y (a : Point3 S) : a.ceil.y = Scalar.ceil a.y := rfl
@[simp] theorem Point3.round_y (a : Point3 S) : a.round.y = Scalar.round a.y := rfl
@[simp] theorem Point3.trunc_y (a : Point3 S) : a.trunc.y = Scalar.trunc a.y := rfl
@[simp] theorem Point3.fract_y (a : Point3 S) : a.fract.y = Scalar.fract a.y := rfl
@[simp] theorem Vector3.zero_y : (Vector3.zero : Vector3 S).y = Scalar.zero := rfl
@[simp] theorem Point3.origin_y : (Point3.origin : Point3 S).y = Scalar.zero := rfl
@[simp] theorem Vector3.fromPoint_y (p : Point3 S) : (Vector3.fromPoint p).y = p.y := rfl
@[simp] theorem Point3.fromVector_y (p : Vector3 S) : (Point3.fromVector p).y = p.y := rfl
@[simp] theorem Vector3.normalize_y (v : Vector3 S) : v.normalize.y = v.y / Api.length v := rfl
@[simp] theorem Ray3.at_y (r : Ray3 S) (t : S) : (r.at t).y = r.origin.y + r.direction.y * t := rfl
@[simp] theorem Vector3.xAxis_y : (Vector3.xAxis : Vector3 S).y = Scalar.zero := rfl
@[simp] theorem Vector3.yAxis_y : (Vector3.yAxis : Vector3 S).y = Scalar.one := rfl
@[simp] theorem Vector3.zAxis_y : (Vector3.zAxis : Vector3 S).y = Scalar.zero := rfl
@[simp] theorem BoundingBox3.diagonal_y (b : BoundingBox3 S) : b.diagonal.y = b.max.y - b.min.y := rfl
@[simp] theorem Vector3.add_z (a : Vector3 S) (b : Vector3 S) : (a + b).z = a.z + b.z := rfl
@[simp] theorem Vector3.sub_z (a : Vector3 S) (b : Vector3 S) : (a - b).z = a.z - b.z := rfl
@[simp] theorem Point3.add_z (a : Point3 S) (b : Vector3 S) : (a + b).z = a.z + b.z := rfl
@[simp] theorem Point3.sub_z (a : Point3 S) (b : Vector3 S) : (a - b).z = a.z - b.z := rfl
@[simp] theorem Point3.psub_z (a b : Point3 S) : (a - b).z = a.z - b.z := rfl
@[simp] theorem Vector3.neg_z (a : Vector3 S) : (-a).z = -a.z := rfl
@[simp] theorem Vector3.mul_z (a : Vector3 S) (s : S) : (a * s).z = a.z * s := rfl
@[simp] theorem Vector3.smul_z (s : S) (a : Vector3 S) : (s * a).z = a.z * s := rfl
@[simp] theorem Vector3.div_z (a : Vector3 S) (s : S) : (a / s).z = a.z / s := rfl
@[simp] theorem Vector3.min_z (a b : Vector3 S) : (Api.min a b).z = fmin a.z b.z := rfl
@[simp] theorem Vector3.max_z (a b : Vector3 S) : (Api.max a b).z = fmax a.z b.z := rfl
@[simp] theorem Vector3.new_z (x y z : S) : (Vector3.new x y z).z = z := rfl
@[simp] theorem Vector3.abs_z (a : Vector3 S) : a.abs.z = Scalar.abs a.z := rfl
@[simp] theorem Vector3.floor_z (a : Vector3 S) : a.floor.z = Scalar.floor a.z := rfl
@[simp] theorem Vector3.ceil_z (a : Vector3 S) : a.ceil.z = Scalar.ceil a.z := rfl
@[simp] theorem Vector3.round_z (a : Vector3 S) : a.round.z = Scalar.round a.z := rfl
@[simp] theorem Vector3.trunc_z (a : Vector3 S) : a.trunc.z = Scalar.trunc a.z := rfl
@[simp] theorem Vector3.fract_z (a : Vector3 S) : a.fract.z = Scalar.fract a.z := rfl
@[simp] theorem Point3.neg_z (a : Point3 S) : (-a).z = -a.z := rfl
@[simp] theorem Point3.mul_z (a : Point3 S) (s : S) : (a * s).z = a.z * s := rfl
@[simp] theorem Point3.smul_z (s : S) (a : Point3 S) : (s * a).z = a.z * s := rfl
@[simp] theorem Point3.div_z (a : Point3 S) (s : S) : (a / s).z = a.z / s := rfl
@[simp] theorem Point3.min_z (a b : Point3 S) : (Api.min a b).z = fmin a.z b.z := rfl
@[simp] theorem Point3.max_z (a b : Point3 S) : (Api.max a b).z = fmax a.z b.z := rfl
@[simp] theorem Point3.new_z (x y z : S) : (Point3.new x y z).z = z := rfl
@[simp] theorem Point3.abs_z (a : Point3 S) : a.abs.z = Scalar.abs a.z := rfl
@[simp] theorem Point3.floor_z (a : Point3 S) : a.floor.z = Scalar.floor a.z := rfl
@[simp] theorem Point3.ceil_z (a : Point3 S) : a.ceil.z = Scalar.ceil a.z := rfl
@[simp] theorem Point3.round_z (a : Point3 S) : a.round.z = Scalar.round a.z := rfl
@[simp] theorem Point3.trunc_z (a : Point3 S) : a.trunc.z = Scalar.trunc a.z := rfl
@[simp] theorem Point3.fract_z (a : Point3 S) : a.fract.z = Scalar.fract a.z := rfl
@[simp] theorem Vector3.zero_z : (Vector3.zero : Vector3 S).z = Scalar.zero := rfl
@[simp] theorem Point3.origin_z : (Point3.origin : Point3 S).z = Scalar.zero := rfl
@[simp] theorem Vector3.fromPoint_z (p : Point3 S) : (Vector3.fromPoint p).z = p.z := rfl
@[simp] theorem Point3.fromVector_z (p : Vector3 S) : (Point3.fromVector p).z = p.z := rfl
@[simp] theorem Vector3.normalize_z (v : Vector3 S) : v.normalize.z = v.z / Api.length v := rfl
@[simp] theorem Ray3.at_z (r : Ray3 S) (t : S) : (r.at t).z = r.origin.z + r.direction.z * t := rfl
@[simp] theorem Vector3.xAxis_z : (Vector3.xAxis : Vector3 S).z = Scalar.zero := rfl
@[simp] theorem Vector3.yAxis_z : (Vector3.yAxis : Vector3 S).z = Scalar.zero := rfl
@[simp] theorem Vector3.zAxis_z : (Vector3.zAxis : Vector3 S).z = Scalar.one := rfl
@[simp] theorem BoundingBox3.diagonal_z (b : BoundingBox3 S) : b.diagonal.z = b.max.z - b.min.z := rfl
@[simp] theorem BoundingBox3.new_min (p q : Point3 S) : (BoundingBox3.new p q).min = Api.min p q := rfl
@[simp] theorem BoundingBox3.new_max (p q : Point3 S) : (BoundingBox3.new p q).max = Api.max p q := rfl
theorem Vector3.dot_def (u v : Vector3 S) : Api.dot u v = u.x * v.x + u.y * v.y + u.z * v.z := rfl
theorem Vector3.length_def (u : Vector3 S) : Api.length u = sqrt (Api.dot u u) := rfl
theorem Point3.distance_def (p q : Point3 S) : Api.distance p q = Api.length (q - p) := rfl
@[simp] theorem Vector3.cross_x (u v : Vector3 S) : (Api.cross u v).x = u.y * v.z - u.z * v.y := rfl
@[simp] theorem Vector3.cross_y (u v : Vector3 S) : (Api.cross u v).y = u.z * v.x - u.x * v.z := rfl
@[simp] theorem Vector3.cross_z (u v : Vector3 S) : (Api.cross u v).z = u.x * v.y - u.y * v.x := rfl

end VecMath
