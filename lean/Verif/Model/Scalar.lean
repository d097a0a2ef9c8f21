/-!
# Scalars and the crate's traits

Models `src/scalar.rs`, `src/minmax.rs`, `src/dot.rs`, `src/cross.rs`, `src/length.rs`,
`src/distance.rs`, `src/union.rs`, `src/intersection.rs`, `src/transform.rs`,
`src/dimension2.rs`, `src/dimension3.rs`.

Nothing in this directory assumes any law about scalars: everything is parametric in `Scalar S`.
-/

namespace VecMath

/-- `trait Scalar: Float + NumAssign + ScalarConst` (src/scalar.rs:20 and 23-29).
Only the operations of `num_traits::Float` that the crate calls are listed; each field is the
operation of that name on the implementing type (`f32`, `f64`). `lt a b` is Rust's `a < b` (and
`b > a`), `le a b` is `a <= b` (and `b >= a`), `BEq` is Rust's `==`.
`fmin`/`fmax` are `Float::min`/`Float::max`. -/
class Scalar (S : Type) extends Add S, Sub S, Mul S, Div S, Neg S, BEq S where
  /-- `S::zero()` -/
  zero : S
  /-- `S::one()` -/
  one : S
  /-- `S::half()` (src/scalar.rs:25, 39-41, 51-53) -/
  half : S
  /-- `S::two()` (src/scalar.rs:28, 44-46, 56-58) -/
  two : S
  /-- `S::infinity()` -/
  infinity : S
  /-- `S::neg_infinity()` -/
  negInfinity : S
  abs : S → S
  sqrt : S → S
  floor : S → S
  ceil : S → S
  round : S → S
  trunc : S → S
  sin : S → S
  cos : S → S
  fmin : S → S → S
  fmax : S → S → S
  lt : S → S → Bool
  le : S → S → Bool

namespace Scalar

/-- Rust `a < b` on floats. -/
scoped infix:50 " <? " => Scalar.lt
/-- Rust `a <= b` on floats. -/
scoped infix:50 " ≤? " => Scalar.le
/-- Rust `a > b` on floats. -/
scoped notation:50 a:51 " >? " b:51 => Scalar.lt b a
/-- Rust `a >= b` on floats. -/
scoped notation:50 a:51 " ≥? " b:51 => Scalar.le b a

variable {S : Type} [Scalar S]

/-- `Float::fract`: the std implementation is `self - self.trunc()`. -/
def fract (x : S) : S := x - trunc x

/-- `Float::recip`: the std implementation is `1.0 / self`. -/
def recip (x : S) : S := one / x

/-- `Float::sin_cos`: the std implementation is `(self.sin(), self.cos())`. -/
def sinCos (x : S) : S × S := (sin x, cos x)

end Scalar

/-- `enum Dimension2` (src/dimension2.rs:17). -/
inductive Dimension2 | X | Y
  deriving DecidableEq, Repr

/-- `enum Dimension3` (src/dimension3.rs:17). -/
inductive Dimension3 | X | Y | Z
  deriving DecidableEq, Repr

/-- `trait MinMax` (src/minmax.rs:16-22). -/
class MinMax (T : Type) where
  min : T → T → T
  max : T → T → T

/-- `trait DotProduct<U>` (src/dot.rs:16-22). -/
class DotProduct (T U : Type) (Out : outParam Type) where
  dot : T → U → Out

/-- `trait CrossProduct<U>` (src/cross.rs:16-22). -/
class CrossProduct (T U : Type) (Out : outParam Type) where
  cross : T → U → Out

/-- `trait Length` (src/length.rs:16-22). -/
class Length (T : Type) (Out : outParam Type) where
  length : T → Out

/-- `trait RelativeLength` (src/length.rs:31-43). -/
class RelativeLength (T : Type) where
  isShorterThan : T → T → Bool
  isLongerThan : T → T → Bool
  shortest : T → T → T
  longest : T → T → T

/-- `trait Distance` (src/distance.rs:16-22). -/
class Distance (T : Type) (Out : outParam Type) where
  distance : T → T → Out

/-- `trait RelativeDistance` (src/distance.rs:31-43). The first argument is `self`. -/
class RelativeDistance (T : Type) where
  isCloserTo : T → T → T → Bool
  isFartherFrom : T → T → T → Bool
  closest : T → T → T → T
  farthest : T → T → T → T

/-- `trait Union<U>` (src/union.rs:16-22). -/
class BoxUnion (T U : Type) (Out : outParam Type) where
  union : T → U → Out

/-- `trait Intersection<U>` (src/intersection.rs:16-24). -/
class BoxIntersection (T U : Type) (Out : outParam Type) where
  intersect : T → U → Option Out

/-- `trait Transform<T>` (src/transform.rs:16-22). First argument is `&self`. -/
class Transform (Tr T : Type) (Out : outParam Type) where
  transform : Tr → T → Out

/-- `struct NonInvertibleMatrixError` (src/transform.rs:26). -/
inductive NonInvertibleMatrixError | mk
  deriving DecidableEq, Repr

/-! The crate's free functions. -/
namespace Api

/-- `fn min` (src/minmax.rs:26-28). -/
def min {T : Type} [MinMax T] (value other : T) : T := MinMax.min value other
/-- `fn max` (src/minmax.rs:32-34). -/
def max {T : Type} [MinMax T] (value other : T) : T := MinMax.max value other
/-- `fn dot` (src/dot.rs:26-28). -/
def dot {T U O : Type} [DotProduct T U O] (value : T) (other : U) : O := DotProduct.dot value other
/-- `fn cross` (src/cross.rs:26-28). -/
def cross {T U O : Type} [CrossProduct T U O] (value : T) (other : U) : O :=
  CrossProduct.cross value other
/-- `fn length` (src/length.rs:26-28). -/
def length {T O : Type} [Length T O] (value : T) : O := Length.length value
/-- `fn shortest` (src/length.rs:47-49). -/
def shortest {T : Type} [RelativeLength T] (value other : T) : T :=
  RelativeLength.shortest value other
/-- `fn longest` (src/length.rs:53-55). -/
def longest {T : Type} [RelativeLength T] (value other : T) : T :=
  RelativeLength.longest value other
/-- `fn distance` (src/distance.rs:26-28). -/
def distance {T O : Type} [Distance T O] (value other : T) : O := Distance.distance value other
/-- `fn closest` (src/distance.rs:47-49). -/
def closest {T : Type} [RelativeDistance T] (value a b : T) : T :=
  RelativeDistance.closest value a b
/-- `fn farthest` (src/distance.rs:53-55). -/
def farthest {T : Type} [RelativeDistance T] (value a b : T) : T :=
  RelativeDistance.farthest value a b
/-- `fn union` (src/union.rs:26-28). -/
def union {T U O : Type} [BoxUnion T U O] (value : T) (other : U) : O := BoxUnion.union value other
/-- `fn intersect` (src/intersection.rs:30-32). -/
def intersect {T U O : Type} [BoxIntersection T U O] (value : T) (other : U) : Option O :=
  BoxIntersection.intersect value other

end Api

open Scalar

variable {S : Type} [Scalar S]

/-- `impl<S: Scalar> MinMax for S` (src/scalar.rs:61-71). `S::min` there is `Float::min`. -/
instance : MinMax S where
  min self s := fmin self s
  max self s := fmax self s

/-- `impl<S: Scalar> Length for S` (src/scalar.rs:73-80). -/
instance : Length S S where
  length self := abs self

/-- `impl<S: Scalar> RelativeLength for S` (src/scalar.rs:82-102). -/
instance : RelativeLength S where
  isShorterThan self s := Length.length self <? Length.length s
  isLongerThan self s := Length.length self >? Length.length s
  shortest self s := if Length.length self <? Length.length s then self else s
  longest self s := if Length.length self >? Length.length s then self else s

/-- `impl<S: Scalar> Distance for S` (src/scalar.rs:104-111). -/
instance : Distance S S where
  distance self s := Length.length (s - self)

/-- `impl<S: Scalar> RelativeDistance for S` (src/scalar.rs:113-133). -/
instance : RelativeDistance S where
  isCloserTo self s1 s2 := Distance.distance self s1 <? Distance.distance self s2
  isFartherFrom self s1 s2 := Distance.distance self s1 >? Distance.distance self s2
  closest self s1 s2 := if Distance.distance self s1 <? Distance.distance self s2 then s1 else s2
  farthest self s1 s2 := if Distance.distance self s1 >? Distance.distance self s2 then s1 else s2

end VecMath
