import Verif.Rust.Access
/-! # The source text computes what the model says: two dimensions

Generated by `tools/gen/refine.py`. `Src.method S p b name self args` is the outcome of evaluating the call
`self.name(args)` on the syntax tree of the source text (`Rust/Source.lean`), with `p` the primitive type and `b` the
build profile; `rep` is the representation of a value of the model. An outcome `.ok v s` means that the call returns
`v` and leaves its receiver as `s`: it neither panics nor runs forever. -/

namespace VecMath.Rust
open VecMath Scalar
variable {S : Type} [Scalar S]

theorem C81_Vector2_new (p : Prim) (b : Build) (x y : S) :
    Src.assoc S p b (i!"Vector2") (i!"new") [.sc x, .sc y] =
      .ok (rep (Vector2.new x y)) (.unit) := by
  cases p <;> kernel_rfl

theorem C81_vector2 (p : Prim) (b : Build) (x y : S) :
    Src.free S p b (i!"vector2") [.sc x, .sc y] =
      .ok (rep (vector2 x y)) (.unit) := by
  cases p <;> kernel_rfl

theorem C81_vector2f (b : Build) (x y : S) :
    Src.free S .f32 b (i!"vector2f") [.sc x, .sc y] =
      .ok (rep (vector2 x y)) (.unit) := by
  kernel_rfl

theorem C81_vector2d (b : Build) (x y : S) :
    Src.free S .f64 b (i!"vector2d") [.sc x, .sc y] =
      .ok (rep (vector2 x y)) (.unit) := by
  kernel_rfl

theorem C81_Vector2_zero (p : Prim) (b : Build)  :
    Src.assoc S p b (i!"Vector2") (i!"zero") [] =
      .ok (rep (Vector2.zero : Vector2 S)) .unit := by
  cases p <;> kernel_rfl

theorem C81_Vector2_x_axis (p : Prim) (b : Build)  :
    Src.assoc S p b (i!"Vector2") (i!"x_axis") [] =
      .ok (rep (Vector2.xAxis : Vector2 S)) .unit := by
  cases p <;> kernel_rfl

theorem C81_Vector2_y_axis (p : Prim) (b : Build)  :
    Src.assoc S p b (i!"Vector2") (i!"y_axis") [] =
      .ok (rep (Vector2.yAxis : Vector2 S)) .unit := by
  cases p <;> kernel_rfl

theorem C81_Vector2_axis (p : Prim) (b : Build) (dim : Dimension2) :
    Src.assoc S p b (i!"Vector2") (i!"axis") [rep dim] =
      .ok (rep (Vector2.axis dim : Vector2 S)) .unit := by
  cases p <;> cases dim <;> kernel_rfl

theorem C81_Vector2_normalize (p : Prim) (b : Build) (self : Vector2 S) :
    Src.method S p b (i!"normalize") (rep self) [] =
      .ok (rep self.normalize) (rep self) := by
  cases p <;> kernel_rfl

theorem C81_Vector2_floor (p : Prim) (b : Build) (self : Vector2 S) :
    Src.method S p b (i!"floor") (rep self) [] =
      .ok (rep self.floor) (rep self) := by
  cases p <;> kernel_rfl

theorem C81_Vector2_ceil (p : Prim) (b : Build) (self : Vector2 S) :
    Src.method S p b (i!"ceil") (rep self) [] =
      .ok (rep self.ceil) (rep self) := by
  cases p <;> kernel_rfl

theorem C81_Vector2_round (p : Prim) (b : Build) (self : Vector2 S) :
    Src.method S p b (i!"round") (rep self) [] =
      .ok (rep self.round) (rep self) := by
  cases p <;> kernel_rfl

theorem C81_Vector2_trunc (p : Prim) (b : Build) (self : Vector2 S) :
    Src.method S p b (i!"trunc") (rep self) [] =
      .ok (rep self.trunc) (rep self) := by
  cases p <;> kernel_rfl

theorem C81_Vector2_fract (p : Prim) (b : Build) (self : Vector2 S) :
    Src.method S p b (i!"fract") (rep self) [] =
      .ok (rep self.fract) (rep self) := by
  cases p <;> kernel_rfl

theorem C81_Vector2_abs (p : Prim) (b : Build) (self : Vector2 S) :
    Src.method S p b (i!"abs") (rep self) [] =
      .ok (rep self.abs) (rep self) := by
  cases p <;> kernel_rfl

theorem C81_Vector2_min_dimension (p : Prim) (b : Build) (self : Vector2 S) :
    Src.method S p b (i!"min_dimension") (rep self) [] =
      .ok (rep self.minDimension) (rep self) := by
  have h : Src.method S p b (i!"min_dimension") (rep self) [] =
      (bif (self.abs.x ≤? self.abs.y) then (.ok (rep (Dimension2.X)) (rep self)) else (.ok (rep (Dimension2.Y)) (rep self)) : Out S) := by
    cases p <;> kernel_rfl
  have k : ∀ c0 : Bool, (bif c0 then (.ok (rep (Dimension2.X)) (rep self)) else (.ok (rep (Dimension2.Y)) (rep self)) : Out S) =
      (.ok (rep (if c0 then Dimension2.X else .Y)) (rep self) : Out S) := by
    intro c0
    cases c0 <;> rfl
  exact h.trans (k (self.abs.x ≤? self.abs.y))

theorem C81_Vector2_max_dimension (p : Prim) (b : Build) (self : Vector2 S) :
    Src.method S p b (i!"max_dimension") (rep self) [] =
      .ok (rep self.maxDimension) (rep self) := by
  have h : Src.method S p b (i!"max_dimension") (rep self) [] =
      (bif (self.abs.x >? self.abs.y) then (.ok (rep (Dimension2.X)) (rep self)) else (.ok (rep (Dimension2.Y)) (rep self)) : Out S) := by
    cases p <;> kernel_rfl
  have k : ∀ c0 : Bool, (bif c0 then (.ok (rep (Dimension2.X)) (rep self)) else (.ok (rep (Dimension2.Y)) (rep self)) : Out S) =
      (.ok (rep (if c0 then Dimension2.X else .Y)) (rep self) : Out S) := by
    intro c0
    cases c0 <;> rfl
  exact h.trans (k (self.abs.x >? self.abs.y))

theorem C81_Vector2_permute (p : Prim) (b : Build) (self : Vector2 S) (dimX dimY : Dimension2) :
    Src.method S p b (i!"permute") (rep self) [rep dimX, rep dimY] =
      .ok (rep (self.permute dimX dimY)) (rep self) := by
  cases p <;> cases dimX <;> cases dimY <;> kernel_rfl

theorem C81_Vector2_index (p : Prim) (b : Build) (self : Vector2 S) (dim : Dimension2) :
    Src.method S p b (i!"index") (rep self) [rep dim] =
      .ok (.sc (self.index dim)) (rep self) := by
  cases p <;> cases dim <;> kernel_rfl

/-- The place returned by `index_mut` is such that updating it with any `f` is `indexMut`. -/
theorem C81_Vector2_index_mut (p : Prim) (b : Build) (self : Vector2 S) (dim : Dimension2) :
    ∃ place, Src.method S p b (i!"index_mut") (rep self) [rep dim] =
      .ok (.place (i!"self") place) (rep self) ∧
    ∀ f : S → S, (rep self : Val S).modify (scalarUpdate f) place = some (rep (self.indexMut dim f)) := by
  refine ⟨[.field (match dim with | .X => i!"x" | .Y => i!"y")], ?_, ?_⟩
  · cases p <;> cases dim <;> kernel_rfl
  · intro f; cases dim <;> rfl

theorem C81_Vector2_min (p : Prim) (b : Build) (self v : Vector2 S) :
    Src.method S p b (i!"min") (rep self) [rep v] =
      .ok (rep (MinMax.min self v)) (rep self) := by
  cases p <;> kernel_rfl

theorem C81_min_Vector2 (p : Prim) (b : Build) (value other : Vector2 S) :
    Src.free S p b (i!"min") [rep value, rep other] =
      .ok (rep (Api.min value other)) (.unit) := by
  cases p <;> kernel_rfl

theorem C81_Vector2_max (p : Prim) (b : Build) (self v : Vector2 S) :
    Src.method S p b (i!"max") (rep self) [rep v] =
      .ok (rep (MinMax.max self v)) (rep self) := by
  cases p <;> kernel_rfl

theorem C81_max_Vector2 (p : Prim) (b : Build) (value other : Vector2 S) :
    Src.free S p b (i!"max") [rep value, rep other] =
      .ok (rep (Api.max value other)) (.unit) := by
  cases p <;> kernel_rfl

theorem C81_Vector2_length (p : Prim) (b : Build) (self : Vector2 S) :
    Src.method S p b (i!"length") (rep self) [] =
      .ok (.sc (Length.length self)) (rep self) := by
  cases p <;> kernel_rfl

theorem C81_length_Vector2 (p : Prim) (b : Build) (value : Vector2 S) :
    Src.free S p b (i!"length") [rep value] =
      .ok (.sc (Api.length value)) (.unit) := by
  cases p <;> kernel_rfl

theorem C81_Vector2_dot (p : Prim) (b : Build) (self v : Vector2 S) :
    Src.method S p b (i!"dot") (rep self) [rep v] =
      .ok (.sc (DotProduct.dot self v)) (rep self) := by
  cases p <;> kernel_rfl

theorem C81_dot_Vector2 (p : Prim) (b : Build) (value other : Vector2 S) :
    Src.free S p b (i!"dot") [rep value, rep other] =
      .ok (.sc (Api.dot value other)) (.unit) := by
  cases p <;> kernel_rfl

theorem C81_Vector2_is_shorter_than (p : Prim) (b : Build) (self v : Vector2 S) :
    Src.method S p b (i!"is_shorter_than") (rep self) [rep v] =
      .ok (.bool (RelativeLength.isShorterThan self v)) (rep self) := by
  cases p <;> kernel_rfl

theorem C81_Vector2_is_longer_than (p : Prim) (b : Build) (self v : Vector2 S) :
    Src.method S p b (i!"is_longer_than") (rep self) [rep v] =
      .ok (.bool (RelativeLength.isLongerThan self v)) (rep self) := by
  cases p <;> kernel_rfl

theorem C81_Vector2_shortest (p : Prim) (b : Build) (self v : Vector2 S) :
    Src.method S p b (i!"shortest") (rep self) [rep v] =
      .ok (rep (RelativeLength.shortest self v)) (rep self) := by
  have h : Src.method S p b (i!"shortest") (rep self) [rep v] =
      (bif (Api.dot self self <? Api.dot v v) then (.ok (rep self) (rep self)) else (.ok (rep v) (rep self)) : Out S) := by
    cases p <;> kernel_rfl
  have k : ∀ c0 : Bool, (bif c0 then (.ok (rep self) (rep self)) else (.ok (rep v) (rep self)) : Out S) =
      (.ok (rep (if c0 then self else v)) (rep self) : Out S) := by
    intro c0
    cases c0 <;> rfl
  exact h.trans (k (Api.dot self self <? Api.dot v v))

theorem C81_shortest_Vector2 (p : Prim) (b : Build) (value other : Vector2 S) :
    Src.free S p b (i!"shortest") [rep value, rep other] =
      .ok (rep (Api.shortest value other)) (.unit) := by
  have h : Src.free S p b (i!"shortest") [rep value, rep other] =
      (bif (Api.dot value value <? Api.dot other other) then (.ok (rep value) (.unit)) else (.ok (rep other) (.unit)) : Out S) := by
    cases p <;> kernel_rfl
  have k : ∀ c0 : Bool, (bif c0 then (.ok (rep value) (.unit)) else (.ok (rep other) (.unit)) : Out S) =
      (.ok (rep (if c0 then value else other)) (.unit) : Out S) := by
    intro c0
    cases c0 <;> rfl
  exact h.trans (k (Api.dot value value <? Api.dot other other))

theorem C81_Vector2_longest (p : Prim) (b : Build) (self v : Vector2 S) :
    Src.method S p b (i!"longest") (rep self) [rep v] =
      .ok (rep (RelativeLength.longest self v)) (rep self) := by
  have h : Src.method S p b (i!"longest") (rep self) [rep v] =
      (bif (Api.dot self self >? Api.dot v v) then (.ok (rep self) (rep self)) else (.ok (rep v) (rep self)) : Out S) := by
    cases p <;> kernel_rfl
  have k : ∀ c0 : Bool, (bif c0 then (.ok (rep self) (rep self)) else (.ok (rep v) (rep self)) : Out S) =
      (.ok (rep (if c0 then self else v)) (rep self) : Out S) := by
    intro c0
    cases c0 <;> rfl
  exact h.trans (k (Api.dot self self >? Api.dot v v))

theorem C81_longest_Vector2 (p : Prim) (b : Build) (value other : Vector2 S) :
    Src.free S p b (i!"longest") [rep value, rep other] =
      .ok (rep (Api.longest value other)) (.unit) := by
  have h : Src.free S p b (i!"longest") [rep value, rep other] =
      (bif (Api.dot value value >? Api.dot other other) then (.ok (rep value) (.unit)) else (.ok (rep other) (.unit)) : Out S) := by
    cases p <;> kernel_rfl
  have k : ∀ c0 : Bool, (bif c0 then (.ok (rep value) (.unit)) else (.ok (rep other) (.unit)) : Out S) =
      (.ok (rep (if c0 then value else other)) (.unit) : Out S) := by
    intro c0
    cases c0 <;> rfl
  exact h.trans (k (Api.dot value value >? Api.dot other other))

theorem C81_Vector2_add (p : Prim) (b : Build) (self : Vector2 S) (v : Vector2 S) :
    Src.method S p b (i!"add") (rep self) [rep v] =
      .ok (rep (self + v)) (rep self) := by
  cases p <;> kernel_rfl

theorem C81_Vector2_add_assign (p : Prim) (b : Build) (self : Vector2 S) (v : Vector2 S) :
    Src.method S p b (i!"add_assign") (rep self) [rep v] =
      .ok (.unit) (rep (self.addAssign v)) := by
  cases p <;> kernel_rfl

theorem C81_Vector2_sub (p : Prim) (b : Build) (self : Vector2 S) (v : Vector2 S) :
    Src.method S p b (i!"sub") (rep self) [rep v] =
      .ok (rep (self - v)) (rep self) := by
  cases p <;> kernel_rfl

theorem C81_Vector2_sub_assign (p : Prim) (b : Build) (self : Vector2 S) (v : Vector2 S) :
    Src.method S p b (i!"sub_assign") (rep self) [rep v] =
      .ok (.unit) (rep (self.subAssign v)) := by
  cases p <;> kernel_rfl

theorem C81_Vector2_neg (p : Prim) (b : Build) (self : Vector2 S) :
    Src.method S p b (i!"neg") (rep self) [] =
      .ok (rep (-self)) (rep self) := by
  cases p <;> kernel_rfl

theorem C81_Vector2_mul (p : Prim) (b : Build) (self : Vector2 S) (s : S) :
    Src.method S p b (i!"mul") (rep self) [.sc s] =
      .ok (rep (self * s)) (rep self) := by
  cases p <;> kernel_rfl

theorem C81_Vector2_mul_assign (p : Prim) (b : Build) (self : Vector2 S) (s : S) :
    Src.method S p b (i!"mul_assign") (rep self) [.sc s] =
      .ok (.unit) (rep (self.mulAssign s)) := by
  cases p <;> kernel_rfl

theorem C81_Vector2_div (p : Prim) (b : Build) (self : Vector2 S) (s : S) :
    Src.method S p b (i!"div") (rep self) [.sc s] =
      .ok (rep (self / s)) (rep self) := by
  cases p <;> kernel_rfl

theorem C81_Vector2_div_assign (p : Prim) (b : Build) (self : Vector2 S) (s : S) :
    Src.method S p b (i!"div_assign") (rep self) [.sc s] =
      .ok (.unit) (rep (self.divAssign s)) := by
  cases p <;> kernel_rfl

theorem C81_scalar_mul_Vector2 (p : Prim) (b : Build) (self : S) (v : Vector2 S) :
    Src.method S p b (i!"mul") (.sc self) [rep v] =
      .ok (rep (self * v)) (.sc self) := by
  cases p <;> kernel_rfl

theorem C81_Vector2_from (p : Prim) (b : Build) (q : Point2 S) :
    Src.assoc S p b (i!"Vector2") (i!"from") [rep q] =
      .ok (rep (Vector2.fromPoint q)) (.unit) := by
  cases p <;> kernel_rfl

theorem C81_Point2_new (p : Prim) (b : Build) (x y : S) :
    Src.assoc S p b (i!"Point2") (i!"new") [.sc x, .sc y] =
      .ok (rep (Point2.new x y)) (.unit) := by
  cases p <;> kernel_rfl

theorem C81_point2 (p : Prim) (b : Build) (x y : S) :
    Src.free S p b (i!"point2") [.sc x, .sc y] =
      .ok (rep (point2 x y)) (.unit) := by
  cases p <;> kernel_rfl

theorem C81_point2f (b : Build) (x y : S) :
    Src.free S .f32 b (i!"point2f") [.sc x, .sc y] =
      .ok (rep (point2 x y)) (.unit) := by
  kernel_rfl

theorem C81_point2d (b : Build) (x y : S) :
    Src.free S .f64 b (i!"point2d") [.sc x, .sc y] =
      .ok (rep (point2 x y)) (.unit) := by
  kernel_rfl

theorem C81_Point2_origin (p : Prim) (b : Build)  :
    Src.assoc S p b (i!"Point2") (i!"origin") [] =
      .ok (rep (Point2.origin : Point2 S)) .unit := by
  cases p <;> kernel_rfl

theorem C81_Point2_floor (p : Prim) (b : Build) (self : Point2 S) :
    Src.method S p b (i!"floor") (rep self) [] =
      .ok (rep self.floor) (rep self) := by
  cases p <;> kernel_rfl

theorem C81_Point2_ceil (p : Prim) (b : Build) (self : Point2 S) :
    Src.method S p b (i!"ceil") (rep self) [] =
      .ok (rep self.ceil) (rep self) := by
  cases p <;> kernel_rfl

theorem C81_Point2_round (p : Prim) (b : Build) (self : Point2 S) :
    Src.method S p b (i!"round") (rep self) [] =
      .ok (rep self.round) (rep self) := by
  cases p <;> kernel_rfl

theorem C81_Point2_trunc (p : Prim) (b : Build) (self : Point2 S) :
    Src.method S p b (i!"trunc") (rep self) [] =
      .ok (rep self.trunc) (rep self) := by
  cases p <;> kernel_rfl

theorem C81_Point2_fract (p : Prim) (b : Build) (self : Point2 S) :
    Src.method S p b (i!"fract") (rep self) [] =
      .ok (rep self.fract) (rep self) := by
  cases p <;> kernel_rfl

theorem C81_Point2_abs (p : Prim) (b : Build) (self : Point2 S) :
    Src.method S p b (i!"abs") (rep self) [] =
      .ok (rep self.abs) (rep self) := by
  cases p <;> kernel_rfl

theorem C81_Point2_min_dimension (p : Prim) (b : Build) (self : Point2 S) :
    Src.method S p b (i!"min_dimension") (rep self) [] =
      .ok (rep self.minDimension) (rep self) := by
  have h : Src.method S p b (i!"min_dimension") (rep self) [] =
      (bif (self.abs.x ≤? self.abs.y) then (.ok (rep (Dimension2.X)) (rep self)) else (.ok (rep (Dimension2.Y)) (rep self)) : Out S) := by
    cases p <;> kernel_rfl
  have k : ∀ c0 : Bool, (bif c0 then (.ok (rep (Dimension2.X)) (rep self)) else (.ok (rep (Dimension2.Y)) (rep self)) : Out S) =
      (.ok (rep (if c0 then Dimension2.X else .Y)) (rep self) : Out S) := by
    intro c0
    cases c0 <;> rfl
  exact h.trans (k (self.abs.x ≤? self.abs.y))

theorem C81_Point2_max_dimension (p : Prim) (b : Build) (self : Point2 S) :
    Src.method S p b (i!"max_dimension") (rep self) [] =
      .ok (rep self.maxDimension) (rep self) := by
  have h : Src.method S p b (i!"max_dimension") (rep self) [] =
      (bif (self.abs.x >? self.abs.y) then (.ok (rep (Dimension2.X)) (rep self)) else (.ok (rep (Dimension2.Y)) (rep self)) : Out S) := by
    cases p <;> kernel_rfl
  have k : ∀ c0 : Bool, (bif c0 then (.ok (rep (Dimension2.X)) (rep self)) else (.ok (rep (Dimension2.Y)) (rep self)) : Out S) =
      (.ok (rep (if c0 then Dimension2.X else .Y)) (rep self) : Out S) := by
    intro c0
    cases c0 <;> rfl
  exact h.trans (k (self.abs.x >? self.abs.y))

theorem C81_Point2_permute (p : Prim) (b : Build) (self : Point2 S) (dimX dimY : Dimension2) :
    Src.method S p b (i!"permute") (rep self) [rep dimX, rep dimY] =
      .ok (rep (self.permute dimX dimY)) (rep self) := by
  cases p <;> cases dimX <;> cases dimY <;> kernel_rfl

theorem C81_Point2_index (p : Prim) (b : Build) (self : Point2 S) (dim : Dimension2) :
    Src.method S p b (i!"index") (rep self) [rep dim] =
      .ok (.sc (self.index dim)) (rep self) := by
  cases p <;> cases dim <;> kernel_rfl

/-- The place returned by `index_mut` is such that updating it with any `f` is `indexMut`. -/
theorem C81_Point2_index_mut (p : Prim) (b : Build) (self : Point2 S) (dim : Dimension2) :
    ∃ place, Src.method S p b (i!"index_mut") (rep self) [rep dim] =
      .ok (.place (i!"self") place) (rep self) ∧
    ∀ f : S → S, (rep self : Val S).modify (scalarUpdate f) place = some (rep (self.indexMut dim f)) := by
  refine ⟨[.field (match dim with | .X => i!"x" | .Y => i!"y")], ?_, ?_⟩
  · cases p <;> cases dim <;> kernel_rfl
  · intro f; cases dim <;> rfl

theorem C81_Point2_min (p : Prim) (b : Build) (self v : Point2 S) :
    Src.method S p b (i!"min") (rep self) [rep v] =
      .ok (rep (MinMax.min self v)) (rep self) := by
  cases p <;> kernel_rfl

theorem C81_min_Point2 (p : Prim) (b : Build) (value other : Point2 S) :
    Src.free S p b (i!"min") [rep value, rep other] =
      .ok (rep (Api.min value other)) (.unit) := by
  cases p <;> kernel_rfl

theorem C81_Point2_max (p : Prim) (b : Build) (self v : Point2 S) :
    Src.method S p b (i!"max") (rep self) [rep v] =
      .ok (rep (MinMax.max self v)) (rep self) := by
  cases p <;> kernel_rfl

theorem C81_max_Point2 (p : Prim) (b : Build) (value other : Point2 S) :
    Src.free S p b (i!"max") [rep value, rep other] =
      .ok (rep (Api.max value other)) (.unit) := by
  cases p <;> kernel_rfl

theorem C81_Point2_distance (p : Prim) (b : Build) (self q : Point2 S) :
    Src.method S p b (i!"distance") (rep self) [rep q] =
      .ok (.sc (Distance.distance self q)) (rep self) := by
  cases p <;> kernel_rfl

theorem C81_distance_Point2 (p : Prim) (b : Build) (value other : Point2 S) :
    Src.free S p b (i!"distance") [rep value, rep other] =
      .ok (.sc (Api.distance value other)) (.unit) := by
  cases p <;> kernel_rfl

theorem C81_Point2_is_closer_to (p : Prim) (b : Build) (self p1 p2 : Point2 S) :
    Src.method S p b (i!"is_closer_to") (rep self) [rep p1, rep p2] =
      .ok (.bool (RelativeDistance.isCloserTo self p1 p2)) (rep self) := by
  cases p <;> kernel_rfl

theorem C81_Point2_is_farther_from (p : Prim) (b : Build) (self p1 p2 : Point2 S) :
    Src.method S p b (i!"is_farther_from") (rep self) [rep p1, rep p2] =
      .ok (.bool (RelativeDistance.isFartherFrom self p1 p2)) (rep self) := by
  cases p <;> kernel_rfl

theorem C81_Point2_closest (p : Prim) (b : Build) (self p1 p2 : Point2 S) :
    Src.method S p b (i!"closest") (rep self) [rep p1, rep p2] =
      .ok (rep (RelativeDistance.closest self p1 p2)) (rep self) := by
  have h : Src.method S p b (i!"closest") (rep self) [rep p1, rep p2] =
      (bif (self.isCloserTo p1 p2) then (.ok (rep p1) (rep self)) else (.ok (rep p2) (rep self)) : Out S) := by
    cases p <;> kernel_rfl
  have k : ∀ c0 : Bool, (bif c0 then (.ok (rep p1) (rep self)) else (.ok (rep p2) (rep self)) : Out S) =
      (.ok (rep (if c0 then p1 else p2)) (rep self) : Out S) := by
    intro c0
    cases c0 <;> rfl
  exact h.trans (k (self.isCloserTo p1 p2))

theorem C81_closest_Point2 (p : Prim) (b : Build) (value p1 p2 : Point2 S) :
    Src.free S p b (i!"closest") [rep value, rep p1, rep p2] =
      .ok (rep (Api.closest value p1 p2)) (.unit) := by
  have h : Src.free S p b (i!"closest") [rep value, rep p1, rep p2] =
      (bif (value.isCloserTo p1 p2) then (.ok (rep p1) (.unit)) else (.ok (rep p2) (.unit)) : Out S) := by
    cases p <;> kernel_rfl
  have k : ∀ c0 : Bool, (bif c0 then (.ok (rep p1) (.unit)) else (.ok (rep p2) (.unit)) : Out S) =
      (.ok (rep (if c0 then p1 else p2)) (.unit) : Out S) := by
    intro c0
    cases c0 <;> rfl
  exact h.trans (k (value.isCloserTo p1 p2))

theorem C81_Point2_farthest (p : Prim) (b : Build) (self p1 p2 : Point2 S) :
    Src.method S p b (i!"farthest") (rep self) [rep p1, rep p2] =
      .ok (rep (RelativeDistance.farthest self p1 p2)) (rep self) := by
  have h : Src.method S p b (i!"farthest") (rep self) [rep p1, rep p2] =
      (bif (self.isFartherFrom p1 p2) then (.ok (rep p1) (rep self)) else (.ok (rep p2) (rep self)) : Out S) := by
    cases p <;> kernel_rfl
  have k : ∀ c0 : Bool, (bif c0 then (.ok (rep p1) (rep self)) else (.ok (rep p2) (rep self)) : Out S) =
      (.ok (rep (if c0 then p1 else p2)) (rep self) : Out S) := by
    intro c0
    cases c0 <;> rfl
  exact h.trans (k (self.isFartherFrom p1 p2))

theorem C81_farthest_Point2 (p : Prim) (b : Build) (value p1 p2 : Point2 S) :
    Src.free S p b (i!"farthest") [rep value, rep p1, rep p2] =
      .ok (rep (Api.farthest value p1 p2)) (.unit) := by
  have h : Src.free S p b (i!"farthest") [rep value, rep p1, rep p2] =
      (bif (value.isFartherFrom p1 p2) then (.ok (rep p1) (.unit)) else (.ok (rep p2) (.unit)) : Out S) := by
    cases p <;> kernel_rfl
  have k : ∀ c0 : Bool, (bif c0 then (.ok (rep p1) (.unit)) else (.ok (rep p2) (.unit)) : Out S) =
      (.ok (rep (if c0 then p1 else p2)) (.unit) : Out S) := by
    intro c0
    cases c0 <;> rfl
  exact h.trans (k (value.isFartherFrom p1 p2))

theorem C81_Point2_add (p : Prim) (b : Build) (self : Point2 S) (v : Vector2 S) :
    Src.method S p b (i!"add") (rep self) [rep v] =
      .ok (rep (self + v)) (rep self) := by
  cases p <;> kernel_rfl

theorem C81_Point2_add_assign (p : Prim) (b : Build) (self : Point2 S) (v : Vector2 S) :
    Src.method S p b (i!"add_assign") (rep self) [rep v] =
      .ok (.unit) (rep (self.addAssign v)) := by
  cases p <;> kernel_rfl

theorem C81_Point2_sub (p : Prim) (b : Build) (self : Point2 S) (v : Vector2 S) :
    Src.method S p b (i!"sub") (rep self) [rep v] =
      .ok (rep (self - v)) (rep self) := by
  cases p <;> kernel_rfl

theorem C81_Point2_sub_assign (p : Prim) (b : Build) (self : Point2 S) (v : Vector2 S) :
    Src.method S p b (i!"sub_assign") (rep self) [rep v] =
      .ok (.unit) (rep (self.subAssign v)) := by
  cases p <;> kernel_rfl

theorem C81_Point2_sub_point (p : Prim) (b : Build) (self : Point2 S) (v : Point2 S) :
    Src.method S p b (i!"sub") (rep self) [rep v] =
      .ok (rep (self - v)) (rep self) := by
  cases p <;> kernel_rfl

theorem C81_Point2_neg (p : Prim) (b : Build) (self : Point2 S) :
    Src.method S p b (i!"neg") (rep self) [] =
      .ok (rep (-self)) (rep self) := by
  cases p <;> kernel_rfl

theorem C81_Point2_mul (p : Prim) (b : Build) (self : Point2 S) (s : S) :
    Src.method S p b (i!"mul") (rep self) [.sc s] =
      .ok (rep (self * s)) (rep self) := by
  cases p <;> kernel_rfl

theorem C81_Point2_mul_assign (p : Prim) (b : Build) (self : Point2 S) (s : S) :
    Src.method S p b (i!"mul_assign") (rep self) [.sc s] =
      .ok (.unit) (rep (self.mulAssign s)) := by
  cases p <;> kernel_rfl

theorem C81_Point2_div (p : Prim) (b : Build) (self : Point2 S) (s : S) :
    Src.method S p b (i!"div") (rep self) [.sc s] =
      .ok (rep (self / s)) (rep self) := by
  cases p <;> kernel_rfl

theorem C81_Point2_div_assign (p : Prim) (b : Build) (self : Point2 S) (s : S) :
    Src.method S p b (i!"div_assign") (rep self) [.sc s] =
      .ok (.unit) (rep (self.divAssign s)) := by
  cases p <;> kernel_rfl

theorem C81_scalar_mul_Point2 (p : Prim) (b : Build) (self : S) (v : Point2 S) :
    Src.method S p b (i!"mul") (.sc self) [rep v] =
      .ok (rep (self * v)) (.sc self) := by
  cases p <;> kernel_rfl

theorem C81_Point2_from (p : Prim) (b : Build) (v : Vector2 S) :
    Src.assoc S p b (i!"Point2") (i!"from") [rep v] =
      .ok (rep (Point2.fromVector v)) (.unit) := by
  cases p <;> kernel_rfl

theorem C81_Ray2_new (p : Prim) (b : Build) (origin : Point2 S) (direction : Vector2 S) :
    Src.assoc S p b (i!"Ray2") (i!"new") [rep origin, rep direction] =
      .ok (rep (Ray2.new origin direction)) (.unit) := by
  cases p <;> kernel_rfl

theorem C81_ray2 (p : Prim) (b : Build) (origin : Point2 S) (direction : Vector2 S) :
    Src.free S p b (i!"ray2") [rep origin, rep direction] =
      .ok (rep (ray2 origin direction)) (.unit) := by
  cases p <;> kernel_rfl

theorem C81_ray2f (b : Build) (origin : Point2 S) (direction : Vector2 S) :
    Src.free S .f32 b (i!"ray2f") [rep origin, rep direction] =
      .ok (rep (ray2 origin direction)) (.unit) := by
  kernel_rfl

theorem C81_ray2d (b : Build) (origin : Point2 S) (direction : Vector2 S) :
    Src.free S .f64 b (i!"ray2d") [rep origin, rep direction] =
      .ok (rep (ray2 origin direction)) (.unit) := by
  kernel_rfl

theorem C81_Ray2_at (p : Prim) (b : Build) (self : Ray2 S) (distance : S) :
    Src.method S p b (i!"at") (rep self) [.sc distance] =
      .ok (rep (self.at distance)) (rep self) := by
  cases p <;> kernel_rfl

theorem C81_BoundingBox2_new (p : Prim) (b : Build) (p1 p2 : Point2 S) :
    Src.assoc S p b (i!"BoundingBox2") (i!"new") [rep p1, rep p2] =
      .ok (rep (BoundingBox2.new p1 p2)) (.unit) := by
  cases p <;> kernel_rfl

theorem C81_BoundingBox2_empty (p : Prim) (b : Build)  :
    Src.assoc S p b (i!"BoundingBox2") (i!"empty") [] =
      .ok (rep (BoundingBox2.empty : BoundingBox2 S)) .unit := by
  cases p <;> kernel_rfl

theorem C81_BoundingBox2_infinite (p : Prim) (b : Build)  :
    Src.assoc S p b (i!"BoundingBox2") (i!"infinite") [] =
      .ok (rep (BoundingBox2.infinite : BoundingBox2 S)) .unit := by
  cases p <;> kernel_rfl

theorem C81_BoundingBox2_width (p : Prim) (b : Build) (self : BoundingBox2 S) :
    Src.method S p b (i!"width") (rep self) [] =
      .ok (.sc self.width) (rep self) := by
  cases p <;> kernel_rfl

theorem C81_BoundingBox2_height (p : Prim) (b : Build) (self : BoundingBox2 S) :
    Src.method S p b (i!"height") (rep self) [] =
      .ok (.sc self.height) (rep self) := by
  cases p <;> kernel_rfl

theorem C81_BoundingBox2_area (p : Prim) (b : Build) (self : BoundingBox2 S) :
    Src.method S p b (i!"area") (rep self) [] =
      .ok (.sc self.area) (rep self) := by
  cases p <;> kernel_rfl

theorem C81_BoundingBox2_size (p : Prim) (b : Build) (self : BoundingBox2 S) :
    Src.method S p b (i!"size") (rep self) [] =
      .ok (.tup [.sc self.size.1, .sc self.size.2]) (rep self) := by
  cases p <;> kernel_rfl

theorem C81_BoundingBox2_extent (p : Prim) (b : Build) (self : BoundingBox2 S) (dim : Dimension2) :
    Src.method S p b (i!"extent") (rep self) [rep dim] =
      .ok (.sc (self.extent dim)) (rep self) := by
  cases p <;> cases dim <;> kernel_rfl

theorem C81_BoundingBox2_center (p : Prim) (b : Build) (self : BoundingBox2 S) :
    Src.method S p b (i!"center") (rep self) [] =
      .ok (rep self.center) (rep self) := by
  cases p <;> kernel_rfl

theorem C81_BoundingBox2_diagonal (p : Prim) (b : Build) (self : BoundingBox2 S) :
    Src.method S p b (i!"diagonal") (rep self) [] =
      .ok (rep self.diagonal) (rep self) := by
  cases p <;> kernel_rfl

theorem C81_BoundingBox2_min_dimension (p : Prim) (b : Build) (self : BoundingBox2 S) :
    Src.method S p b (i!"min_dimension") (rep self) [] =
      .ok (rep self.minDimension) (rep self) := by
  have h : Src.method S p b (i!"min_dimension") (rep self) [] =
      (bif (self.diagonal.x ≤? self.diagonal.y) then (.ok (rep (Dimension2.X)) (rep self)) else (.ok (rep (Dimension2.Y)) (rep self)) : Out S) := by
    cases p <;> kernel_rfl
  have k : ∀ c0 : Bool, (bif c0 then (.ok (rep (Dimension2.X)) (rep self)) else (.ok (rep (Dimension2.Y)) (rep self)) : Out S) =
      (.ok (rep (if c0 then Dimension2.X else .Y)) (rep self) : Out S) := by
    intro c0
    cases c0 <;> rfl
  exact h.trans (k (self.diagonal.x ≤? self.diagonal.y))

theorem C81_BoundingBox2_max_dimension (p : Prim) (b : Build) (self : BoundingBox2 S) :
    Src.method S p b (i!"max_dimension") (rep self) [] =
      .ok (rep self.maxDimension) (rep self) := by
  have h : Src.method S p b (i!"max_dimension") (rep self) [] =
      (bif (self.diagonal.x >? self.diagonal.y) then (.ok (rep (Dimension2.X)) (rep self)) else (.ok (rep (Dimension2.Y)) (rep self)) : Out S) := by
    cases p <;> kernel_rfl
  have k : ∀ c0 : Bool, (bif c0 then (.ok (rep (Dimension2.X)) (rep self)) else (.ok (rep (Dimension2.Y)) (rep self)) : Out S) =
      (.ok (rep (if c0 then Dimension2.X else .Y)) (rep self) : Out S) := by
    intro c0
    cases c0 <;> rfl
  exact h.trans (k (self.diagonal.x >? self.diagonal.y))

theorem C81_BoundingBox2_overlaps (p : Prim) (b : Build) (self : BoundingBox2 S) (bb : BoundingBox2 S) :
    Src.method S p b (i!"overlaps") (rep self) [rep bb] =
      .ok (.bool (self.overlaps bb)) (rep self) := by
  have h : Src.method S p b (i!"overlaps") (rep self) [rep bb] =
      ((bif (self.max.x ≥? bb.min.x) then (bif (self.min.x ≤? bb.max.x) then (bif (self.max.y ≥? bb.min.y) then (.ok (.bool (self.min.y ≤? bb.max.y)) (rep self)) else (.ok (.bool false) (rep self))) else (.ok (.bool false) (rep self))) else (.ok (.bool false) (rep self))) : Out S) := by
    cases p <;> kernel_rfl
  have k : ∀ c0 c1 c2 c3 : Bool, ((bif c0 then (bif c1 then (bif c2 then (.ok (.bool c3) (rep self)) else (.ok (.bool false) (rep self))) else (.ok (.bool false) (rep self))) else (.ok (.bool false) (rep self))) : Out S) =
      (.ok (.bool (c0 && c1 && c2 && c3)) (rep self) : Out S) := by
    intro c0 c1 c2 c3
    cases c0 <;> cases c1 <;> cases c2 <;> cases c3 <;> rfl
  exact h.trans (k (self.max.x ≥? bb.min.x) (self.min.x ≤? bb.max.x) (self.max.y ≥? bb.min.y) (self.min.y ≤? bb.max.y))

theorem C81_BoundingBox2_is_inside (p : Prim) (b : Build) (self : BoundingBox2 S) (q : Point2 S) :
    Src.method S p b (i!"is_inside") (rep self) [rep q] =
      .ok (.bool (self.isInside q)) (rep self) := by
  have h : Src.method S p b (i!"is_inside") (rep self) [rep q] =
      ((bif (q.x ≥? self.min.x) then (bif (q.x ≤? self.max.x) then (bif (q.y ≥? self.min.y) then (.ok (.bool (q.y ≤? self.max.y)) (rep self)) else (.ok (.bool false) (rep self))) else (.ok (.bool false) (rep self))) else (.ok (.bool false) (rep self))) : Out S) := by
    cases p <;> kernel_rfl
  have k : ∀ c0 c1 c2 c3 : Bool, ((bif c0 then (bif c1 then (bif c2 then (.ok (.bool c3) (rep self)) else (.ok (.bool false) (rep self))) else (.ok (.bool false) (rep self))) else (.ok (.bool false) (rep self))) : Out S) =
      (.ok (.bool (c0 && c1 && c2 && c3)) (rep self) : Out S) := by
    intro c0 c1 c2 c3
    cases c0 <;> cases c1 <;> cases c2 <;> cases c3 <;> rfl
  exact h.trans (k (q.x ≥? self.min.x) (q.x ≤? self.max.x) (q.y ≥? self.min.y) (q.y ≤? self.max.y))

theorem C81_BoundingBox2_union (p : Prim) (b : Build) (self bb : BoundingBox2 S) :
    Src.method S p b (i!"union") (rep self) [rep bb] =
      .ok (rep (BoxUnion.union self bb)) (rep self) := by
  cases p <;> kernel_rfl

theorem C81_union_BoundingBox2 (p : Prim) (b : Build) (value other : BoundingBox2 S) :
    Src.free S p b (i!"union") [rep value, rep other] =
      .ok (rep (Api.union value other)) (.unit) := by
  cases p <;> kernel_rfl

theorem C81_BoundingBox2_union_point (p : Prim) (b : Build) (self : BoundingBox2 S) (q : Point2 S) :
    Src.method S p b (i!"union") (rep self) [rep q] =
      .ok (rep (BoxUnion.union self q)) (rep self) := by
  cases p <;> kernel_rfl

theorem C81_union_BoundingBox2_point (p : Prim) (b : Build) (value : BoundingBox2 S) (q : Point2 S) :
    Src.free S p b (i!"union") [rep value, rep q] =
      .ok (rep (Api.union value q)) (.unit) := by
  cases p <;> kernel_rfl

theorem C81_BoundingBox2_intersect (p : Prim) (b : Build) (self bb : BoundingBox2 S) :
    Src.method S p b (i!"intersect") (rep self) [rep bb] =
      .ok (rep (BoxIntersection.intersect self bb : Option (BoundingBox2 S))) (rep self) := by
  have h : Src.method S p b (i!"intersect") (rep self) [rep bb] =
      ((bif (self.max.x ≥? bb.min.x) then (bif (self.min.x ≤? bb.max.x) then (bif (self.max.y ≥? bb.min.y) then (bif (self.min.y ≤? bb.max.y) then (.ok (rep (some (BoundingBox2.new (Api.max self.min bb.min) (Api.min self.max bb.max)))) (rep self)) else (.ok (rep (none : Option (BoundingBox2 S))) (rep self))) else (.ok (rep (none : Option (BoundingBox2 S))) (rep self))) else (.ok (rep (none : Option (BoundingBox2 S))) (rep self))) else (.ok (rep (none : Option (BoundingBox2 S))) (rep self))) : Out S) := by
    cases p <;> kernel_rfl
  have k : ∀ c0 c1 c2 c3 : Bool, ((bif c0 then (bif c1 then (bif c2 then (bif c3 then (.ok (rep (some (BoundingBox2.new (Api.max self.min bb.min) (Api.min self.max bb.max)))) (rep self)) else (.ok (rep (none : Option (BoundingBox2 S))) (rep self))) else (.ok (rep (none : Option (BoundingBox2 S))) (rep self))) else (.ok (rep (none : Option (BoundingBox2 S))) (rep self))) else (.ok (rep (none : Option (BoundingBox2 S))) (rep self))) : Out S) =
      (.ok (rep (if c0 && c1 && c2 && c3 then some (BoundingBox2.new (Api.max self.min bb.min) (Api.min self.max bb.max)) else none)) (rep self) : Out S) := by
    intro c0 c1 c2 c3
    cases c0 <;> cases c1 <;> cases c2 <;> cases c3 <;> rfl
  exact h.trans (k (self.max.x ≥? bb.min.x) (self.min.x ≤? bb.max.x) (self.max.y ≥? bb.min.y) (self.min.y ≤? bb.max.y))

theorem C81_intersect_BoundingBox2 (p : Prim) (b : Build) (value other : BoundingBox2 S) :
    Src.free S p b (i!"intersect") [rep value, rep other] =
      .ok (rep (Api.intersect value other : Option (BoundingBox2 S))) (.unit) := by
  have h : Src.free S p b (i!"intersect") [rep value, rep other] =
      ((bif (value.max.x ≥? other.min.x) then (bif (value.min.x ≤? other.max.x) then (bif (value.max.y ≥? other.min.y) then (bif (value.min.y ≤? other.max.y) then (.ok (rep (some (BoundingBox2.new (Api.max value.min other.min) (Api.min value.max other.max)))) (.unit)) else (.ok (rep (none : Option (BoundingBox2 S))) (.unit))) else (.ok (rep (none : Option (BoundingBox2 S))) (.unit))) else (.ok (rep (none : Option (BoundingBox2 S))) (.unit))) else (.ok (rep (none : Option (BoundingBox2 S))) (.unit))) : Out S) := by
    cases p <;> kernel_rfl
  have k : ∀ c0 c1 c2 c3 : Bool, ((bif c0 then (bif c1 then (bif c2 then (bif c3 then (.ok (rep (some (BoundingBox2.new (Api.max value.min other.min) (Api.min value.max other.max)))) (.unit)) else (.ok (rep (none : Option (BoundingBox2 S))) (.unit))) else (.ok (rep (none : Option (BoundingBox2 S))) (.unit))) else (.ok (rep (none : Option (BoundingBox2 S))) (.unit))) else (.ok (rep (none : Option (BoundingBox2 S))) (.unit))) : Out S) =
      (.ok (rep (if c0 && c1 && c2 && c3 then some (BoundingBox2.new (Api.max value.min other.min) (Api.min value.max other.max)) else none)) (.unit) : Out S) := by
    intro c0 c1 c2 c3
    cases c0 <;> cases c1 <;> cases c2 <;> cases c3 <;> rfl
  exact h.trans (k (value.max.x ≥? other.min.x) (value.min.x ≤? other.max.x) (value.max.y ≥? other.min.y) (value.min.y ≤? other.max.y))

theorem C81_BoundingBox2_intersect_ray (p : Prim) (b : Build) (self : BoundingBox2 S) (ray : Ray2 S) :
    Src.method S p b (i!"intersect") (rep self) [rep ray] =
      .ok (rep (BoxIntersection.intersect self ray : Option (Range S))) (rep self) := by
  have h : Src.method S p b (i!"intersect") (rep self) [rep ray] =
      ((bif ((Api.max Scalar.zero (Api.min ((self.min.x - ray.origin.x) / ray.direction.x) ((self.max.x - ray.origin.x) / ray.direction.x))) >? (Api.min Scalar.infinity (Api.max ((self.min.x - ray.origin.x) / ray.direction.x) ((self.max.x - ray.origin.x) / ray.direction.x)))) then (.ok (rep (none : Option (Range S))) (rep self)) else (bif ((Api.max (Api.max Scalar.zero (Api.min ((self.min.x - ray.origin.x) / ray.direction.x) ((self.max.x - ray.origin.x) / ray.direction.x))) (Api.min ((self.min.y - ray.origin.y) / ray.direction.y) ((self.max.y - ray.origin.y) / ray.direction.y))) ≤? (Api.min (Api.min Scalar.infinity (Api.max ((self.min.x - ray.origin.x) / ray.direction.x) ((self.max.x - ray.origin.x) / ray.direction.x))) (Api.max ((self.min.y - ray.origin.y) / ray.direction.y) ((self.max.y - ray.origin.y) / ray.direction.y)))) then (.ok (rep (some (⟨(Api.max (Api.max Scalar.zero (Api.min ((self.min.x - ray.origin.x) / ray.direction.x) ((self.max.x - ray.origin.x) / ray.direction.x))) (Api.min ((self.min.y - ray.origin.y) / ray.direction.y) ((self.max.y - ray.origin.y) / ray.direction.y))), (Api.min (Api.min Scalar.infinity (Api.max ((self.min.x - ray.origin.x) / ray.direction.x) ((self.max.x - ray.origin.x) / ray.direction.x))) (Api.max ((self.min.y - ray.origin.y) / ray.direction.y) ((self.max.y - ray.origin.y) / ray.direction.y)))⟩ : Range S))) (rep self)) else (.ok (rep (none : Option (Range S))) (rep self)))) : Out S) := by
    cases p <;> kernel_rfl
  have k : ∀ c0 c1 : Bool, ((bif c0 then (.ok (rep (none : Option (Range S))) (rep self)) else (bif c1 then (.ok (rep (some (⟨(Api.max (Api.max Scalar.zero (Api.min ((self.min.x - ray.origin.x) / ray.direction.x) ((self.max.x - ray.origin.x) / ray.direction.x))) (Api.min ((self.min.y - ray.origin.y) / ray.direction.y) ((self.max.y - ray.origin.y) / ray.direction.y))), (Api.min (Api.min Scalar.infinity (Api.max ((self.min.x - ray.origin.x) / ray.direction.x) ((self.max.x - ray.origin.x) / ray.direction.x))) (Api.max ((self.min.y - ray.origin.y) / ray.direction.y) ((self.max.y - ray.origin.y) / ray.direction.y)))⟩ : Range S))) (rep self)) else (.ok (rep (none : Option (Range S))) (rep self)))) : Out S) =
      (.ok (rep (if c0 then none else (if c1 then some (⟨(Api.max (Api.max Scalar.zero (Api.min ((self.min.x - ray.origin.x) / ray.direction.x) ((self.max.x - ray.origin.x) / ray.direction.x))) (Api.min ((self.min.y - ray.origin.y) / ray.direction.y) ((self.max.y - ray.origin.y) / ray.direction.y))), (Api.min (Api.min Scalar.infinity (Api.max ((self.min.x - ray.origin.x) / ray.direction.x) ((self.max.x - ray.origin.x) / ray.direction.x))) (Api.max ((self.min.y - ray.origin.y) / ray.direction.y) ((self.max.y - ray.origin.y) / ray.direction.y)))⟩ : Range S) else none))) (rep self) : Out S) := by
    intro c0 c1
    cases c0 <;> cases c1 <;> rfl
  exact h.trans (k ((Api.max Scalar.zero (Api.min ((self.min.x - ray.origin.x) / ray.direction.x) ((self.max.x - ray.origin.x) / ray.direction.x))) >? (Api.min Scalar.infinity (Api.max ((self.min.x - ray.origin.x) / ray.direction.x) ((self.max.x - ray.origin.x) / ray.direction.x)))) ((Api.max (Api.max Scalar.zero (Api.min ((self.min.x - ray.origin.x) / ray.direction.x) ((self.max.x - ray.origin.x) / ray.direction.x))) (Api.min ((self.min.y - ray.origin.y) / ray.direction.y) ((self.max.y - ray.origin.y) / ray.direction.y))) ≤? (Api.min (Api.min Scalar.infinity (Api.max ((self.min.x - ray.origin.x) / ray.direction.x) ((self.max.x - ray.origin.x) / ray.direction.x))) (Api.max ((self.min.y - ray.origin.y) / ray.direction.y) ((self.max.y - ray.origin.y) / ray.direction.y)))))

theorem C81_intersect_ray_BoundingBox2 (p : Prim) (b : Build) (value : BoundingBox2 S) (ray : Ray2 S) :
    Src.free S p b (i!"intersect") [rep value, rep ray] =
      .ok (rep (Api.intersect value ray : Option (Range S))) (.unit) := by
  have h : Src.free S p b (i!"intersect") [rep value, rep ray] =
      ((bif ((Api.max Scalar.zero (Api.min ((value.min.x - ray.origin.x) / ray.direction.x) ((value.max.x - ray.origin.x) / ray.direction.x))) >? (Api.min Scalar.infinity (Api.max ((value.min.x - ray.origin.x) / ray.direction.x) ((value.max.x - ray.origin.x) / ray.direction.x)))) then (.ok (rep (none : Option (Range S))) (.unit)) else (bif ((Api.max (Api.max Scalar.zero (Api.min ((value.min.x - ray.origin.x) / ray.direction.x) ((value.max.x - ray.origin.x) / ray.direction.x))) (Api.min ((value.min.y - ray.origin.y) / ray.direction.y) ((value.max.y - ray.origin.y) / ray.direction.y))) ≤? (Api.min (Api.min Scalar.infinity (Api.max ((value.min.x - ray.origin.x) / ray.direction.x) ((value.max.x - ray.origin.x) / ray.direction.x))) (Api.max ((value.min.y - ray.origin.y) / ray.direction.y) ((value.max.y - ray.origin.y) / ray.direction.y)))) then (.ok (rep (some (⟨(Api.max (Api.max Scalar.zero (Api.min ((value.min.x - ray.origin.x) / ray.direction.x) ((value.max.x - ray.origin.x) / ray.direction.x))) (Api.min ((value.min.y - ray.origin.y) / ray.direction.y) ((value.max.y - ray.origin.y) / ray.direction.y))), (Api.min (Api.min Scalar.infinity (Api.max ((value.min.x - ray.origin.x) / ray.direction.x) ((value.max.x - ray.origin.x) / ray.direction.x))) (Api.max ((value.min.y - ray.origin.y) / ray.direction.y) ((value.max.y - ray.origin.y) / ray.direction.y)))⟩ : Range S))) (.unit)) else (.ok (rep (none : Option (Range S))) (.unit)))) : Out S) := by
    cases p <;> kernel_rfl
  have k : ∀ c0 c1 : Bool, ((bif c0 then (.ok (rep (none : Option (Range S))) (.unit)) else (bif c1 then (.ok (rep (some (⟨(Api.max (Api.max Scalar.zero (Api.min ((value.min.x - ray.origin.x) / ray.direction.x) ((value.max.x - ray.origin.x) / ray.direction.x))) (Api.min ((value.min.y - ray.origin.y) / ray.direction.y) ((value.max.y - ray.origin.y) / ray.direction.y))), (Api.min (Api.min Scalar.infinity (Api.max ((value.min.x - ray.origin.x) / ray.direction.x) ((value.max.x - ray.origin.x) / ray.direction.x))) (Api.max ((value.min.y - ray.origin.y) / ray.direction.y) ((value.max.y - ray.origin.y) / ray.direction.y)))⟩ : Range S))) (.unit)) else (.ok (rep (none : Option (Range S))) (.unit)))) : Out S) =
      (.ok (rep (if c0 then none else (if c1 then some (⟨(Api.max (Api.max Scalar.zero (Api.min ((value.min.x - ray.origin.x) / ray.direction.x) ((value.max.x - ray.origin.x) / ray.direction.x))) (Api.min ((value.min.y - ray.origin.y) / ray.direction.y) ((value.max.y - ray.origin.y) / ray.direction.y))), (Api.min (Api.min Scalar.infinity (Api.max ((value.min.x - ray.origin.x) / ray.direction.x) ((value.max.x - ray.origin.x) / ray.direction.x))) (Api.max ((value.min.y - ray.origin.y) / ray.direction.y) ((value.max.y - ray.origin.y) / ray.direction.y)))⟩ : Range S) else none))) (.unit) : Out S) := by
    intro c0 c1
    cases c0 <;> cases c1 <;> rfl
  exact h.trans (k ((Api.max Scalar.zero (Api.min ((value.min.x - ray.origin.x) / ray.direction.x) ((value.max.x - ray.origin.x) / ray.direction.x))) >? (Api.min Scalar.infinity (Api.max ((value.min.x - ray.origin.x) / ray.direction.x) ((value.max.x - ray.origin.x) / ray.direction.x)))) ((Api.max (Api.max Scalar.zero (Api.min ((value.min.x - ray.origin.x) / ray.direction.x) ((value.max.x - ray.origin.x) / ray.direction.x))) (Api.min ((value.min.y - ray.origin.y) / ray.direction.y) ((value.max.y - ray.origin.y) / ray.direction.y))) ≤? (Api.min (Api.min Scalar.infinity (Api.max ((value.min.x - ray.origin.x) / ray.direction.x) ((value.max.x - ray.origin.x) / ray.direction.x))) (Api.max ((value.min.y - ray.origin.y) / ray.direction.y) ((value.max.y - ray.origin.y) / ray.direction.y)))))

/-- `corner`, in debug builds with its `debug_assert!`. -/
theorem C81_BoundingBox2_corner (p : Prim) (b : Build) (self : BoundingBox2 S) (index : UInt32) :
    Src.method S p b (i!"corner") (rep self) [rep index] =
      outOf (self.corner b index) rep (fun _ => rep self) := by
  have h : Src.method S p b (i!"corner") (rep self) [rep index] =
      (match b with
      | .debug => bif index.toNat.blt 4 then (bif ((index.toNat &&& 1) == 0) then (bif ((index.toNat &&& 2) == 0) then (.ok (rep (Point2.new self.min.x self.min.y)) (rep self)) else (.ok (rep (Point2.new self.min.x self.max.y)) (rep self))) else (bif ((index.toNat &&& 2) == 0) then (.ok (rep (Point2.new self.max.x self.min.y)) (rep self)) else (.ok (rep (Point2.new self.max.x self.max.y)) (rep self)))) else .panic .debugAssert
      | .release => (bif ((index.toNat &&& 1) == 0) then (bif ((index.toNat &&& 2) == 0) then (.ok (rep (Point2.new self.min.x self.min.y)) (rep self)) else (.ok (rep (Point2.new self.min.x self.max.y)) (rep self))) else (bif ((index.toNat &&& 2) == 0) then (.ok (rep (Point2.new self.max.x self.min.y)) (rep self)) else (.ok (rep (Point2.new self.max.x self.max.y)) (rep self))))) := by
    cases p <;> cases b <;> kernel_rfl
  rw [h]
  have e : index.toNat.blt 4 = decide (index < 4) := by
    rw [Bool.eq_iff_iff]; simp [Nat.blt, UInt32.lt_iff_toNat_lt]; omega
  have e0 : (index &&& 1 == 0) = ((index.toNat &&& 1) == 0) := and_eq_zero index 1
  have e1 : (index &&& 2 == 0) = ((index.toNat &&& 2) == 0) := and_eq_zero index 2
  unfold BoundingBox2.corner outOf
  simp only [e0, e1, e]
  cases b <;> cases hd : decide (index < 4) <;>
  cases ((index.toNat &&& 1) == 0) <;>
  cases ((index.toNat &&& 2) == 0) <;>
  simp_all

end VecMath.Rust
