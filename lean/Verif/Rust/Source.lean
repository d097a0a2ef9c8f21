import Verif.Rust.Quote
/-! # The source text of the crate

Byte-identical copies of `/repo/src/*.rs` (made by `tools/gen/source.py`).
`name.text` is the text and `name` the syntax tree; `Props/SourceText.lean` proves that the tree is what the parser makes
of the text.

The crate is Copyright 2024 Jesper de Jong, licensed under the Apache License, Version 2.0. -/

namespace VecMath.Rust.Src

rust_source lib := r##"// Copyright 2024 Jesper de Jong
//
// Licensed under the Apache License, Version 2.0 (the "License");
// you may not use this file except in compliance with the License.
// You may obtain a copy of the License at
//
//     http://www.apache.org/licenses/LICENSE-2.0
//
// Unless required by applicable law or agreed to in writing, software
// distributed under the License is distributed on an "AS IS" BASIS,
// WITHOUT WARRANTIES OR CONDITIONS OF ANY KIND, either express or implied.
// See the License for the specific language governing permissions and
// limitations under the License.

pub use boundingbox2::*;
pub use boundingbox3::*;
pub use cross::*;
pub use dimension2::*;
pub use dimension3::*;
pub use distance::*;
pub use dot::*;
pub use intersection::*;
pub use length::*;
pub use minmax::*;
pub use point2::*;
pub use point3::*;
pub use ray2::*;
pub use ray3::*;
pub use scalar::*;
pub use transform::*;
pub use transform2::*;
pub use transform3::*;
pub use union::*;
pub use vector2::*;
pub use vector3::*;

mod boundingbox2;
mod boundingbox3;
mod cross;
mod dimension2;
mod dimension3;
mod distance;
mod dot;
mod intersection;
mod length;
mod minmax;
mod point2;
mod point3;
mod ray2;
mod ray3;
mod scalar;
mod transform;
mod transform2;
mod transform3;
mod union;
mod vector2;
mod vector3;
"##

rust_source scalar := r##"// Copyright 2024 Jesper de Jong
//
// Licensed under the Apache License, Version 2.0 (the "License");
// you may not use this file except in compliance with the License.
// You may obtain a copy of the License at
//
//     http://www.apache.org/licenses/LICENSE-2.0
//
// Unless required by applicable law or agreed to in writing, software
// distributed under the License is distributed on an "AS IS" BASIS,
// WITHOUT WARRANTIES OR CONDITIONS OF ANY KIND, either express or implied.
// See the License for the specific language governing permissions and
// limitations under the License.

use num_traits::{Float, NumAssign};

use crate::{Distance, Length, MinMax, RelativeDistance, RelativeLength};

/// Scalar value.
pub trait Scalar: Float + NumAssign + ScalarConst {}

/// Extra constants that are not defined in `num_traits::float::FloatConst`.
pub trait ScalarConst {
    /// Returns the representation of `0.5` of the implementing type.
    fn half() -> Self;

    /// Returns the representation of `2.0` of the implementing type.
    fn two() -> Self;
}

// ===== Scalar ================================================================================================================================================

impl Scalar for f32 {}

impl Scalar for f64 {}

impl ScalarConst for f32 {
    #[inline(always)]
    fn half() -> f32 {
        0.5f32
    }

    #[inline(always)]
    fn two() -> f32 {
        2.0f32
    }
}

impl ScalarConst for f64 {
    #[inline(always)]
    fn half() -> f64 {
        0.5f64
    }

    #[inline(always)]
    fn two() -> f64 {
        2.0f64
    }
}

impl<S: Scalar> MinMax for S {
    #[inline]
    fn min(self, s: S) -> S {
        S::min(self, s)
    }

    #[inline]
    fn max(self, s: S) -> S {
        S::max(self, s)
    }
}

impl<S: Scalar> Length for S {
    type Output = S;

    #[inline]
    fn length(self) -> S {
        self.abs()
    }
}

impl<S: Scalar> RelativeLength for S {
    #[inline]
    fn is_shorter_than(self, s: S) -> bool {
        self.length() < s.length()
    }

    #[inline]
    fn is_longer_than(self, s: S) -> bool {
        self.length() > s.length()
    }

    #[inline]
    fn shortest(self, s: S) -> Self {
        if self.is_shorter_than(s) { self } else { s }
    }

    #[inline]
    fn longest(self, s: S) -> Self {
        if self.is_longer_than(s) { self } else { s }
    }
}

impl<S: Scalar> Distance for S {
    type Output = S;

    #[inline]
    fn distance(self, s: S) -> S {
        (s - self).length()
    }
}

impl<S: Scalar> RelativeDistance for S {
    #[inline]
    fn is_closer_to(self, s1: S, s2: S) -> bool {
        self.distance(s1) < self.distance(s2)
    }

    #[inline]
    fn is_farther_from(self, s1: S, s2: S) -> bool {
        self.distance(s1) > self.distance(s2)
    }

    #[inline]
    fn closest(self, s1: S, s2: S) -> S {
        if self.is_closer_to(s1, s2) { s1 } else { s2 }
    }

    #[inline]
    fn farthest(self, s1: S, s2: S) -> S {
        if self.is_farther_from(s1, s2) { s1 } else { s2 }
    }
}
"##

rust_source minmax := r##"// Copyright 2024 Jesper de Jong
//
// Licensed under the Apache License, Version 2.0 (the "License");
// you may not use this file except in compliance with the License.
// You may obtain a copy of the License at
//
//     http://www.apache.org/licenses/LICENSE-2.0
//
// Unless required by applicable law or agreed to in writing, software
// distributed under the License is distributed on an "AS IS" BASIS,
// WITHOUT WARRANTIES OR CONDITIONS OF ANY KIND, either express or implied.
// See the License for the specific language governing permissions and
// limitations under the License.

/// Trait for types that have `min()` and `max()` methods.
pub trait MinMax: Copy {
    /// Compares and returns the minimum of two values.
    fn min(self, other: Self) -> Self;

    /// Compares and returns the maximum of two values.
    fn max(self, other: Self) -> Self;
}

/// Compares and returns the minimum of two values.
#[inline]
pub fn min<T: MinMax>(value: T, other: T) -> T {
    value.min(other)
}

/// Compares and returns the maximum of two values.
#[inline]
pub fn max<T: MinMax>(value: T, other: T) -> T {
    value.max(other)
}
"##

rust_source dot := r##"// Copyright 2024 Jesper de Jong
//
// Licensed under the Apache License, Version 2.0 (the "License");
// you may not use this file except in compliance with the License.
// You may obtain a copy of the License at
//
//     http://www.apache.org/licenses/LICENSE-2.0
//
// Unless required by applicable law or agreed to in writing, software
// distributed under the License is distributed on an "AS IS" BASIS,
// WITHOUT WARRANTIES OR CONDITIONS OF ANY KIND, either express or implied.
// See the License for the specific language governing permissions and
// limitations under the License.

/// Trait for types for which a dot product between values can be computed.
pub trait DotProduct<U: Copy>: Copy {
    /// The output type which expresses the dot product between values.
    type Output;

    /// Computes and returns the dot product between two values.
    fn dot(self, other: U) -> Self::Output;
}

/// Computes and returns the dot product between two values.
#[inline]
pub fn dot<T: DotProduct<U>, U: Copy>(value: T, other: U) -> T::Output {
    value.dot(other)
}
"##

rust_source cross := r##"// Copyright 2024 Jesper de Jong
//
// Licensed under the Apache License, Version 2.0 (the "License");
// you may not use this file except in compliance with the License.
// You may obtain a copy of the License at
//
//     http://www.apache.org/licenses/LICENSE-2.0
//
// Unless required by applicable law or agreed to in writing, software
// distributed under the License is distributed on an "AS IS" BASIS,
// WITHOUT WARRANTIES OR CONDITIONS OF ANY KIND, either express or implied.
// See the License for the specific language governing permissions and
// limitations under the License.

/// Trait for types for which a cross product between values can be computed.
pub trait CrossProduct<U: Copy>: Copy {
    /// The output type which expresses the cross product between values.
    type Output;

    /// Computes and returns the cross product between two values.
    fn cross(self, other: U) -> Self::Output;
}

/// Computes and returns the cross product between two values.
#[inline]
pub fn cross<T: CrossProduct<U>, U: Copy>(value: T, other: U) -> T::Output {
    value.cross(other)
}
"##

rust_source length := r##"// Copyright 2024 Jesper de Jong
//
// Licensed under the Apache License, Version 2.0 (the "License");
// you may not use this file except in compliance with the License.
// You may obtain a copy of the License at
//
//     http://www.apache.org/licenses/LICENSE-2.0
//
// Unless required by applicable law or agreed to in writing, software
// distributed under the License is distributed on an "AS IS" BASIS,
// WITHOUT WARRANTIES OR CONDITIONS OF ANY KIND, either express or implied.
// See the License for the specific language governing permissions and
// limitations under the License.

/// Trait for types for which a length can be computed.
pub trait Length: Copy {
    /// The output type which expresses the length of a value.
    type Output;

    /// Computes and returns the length of a value.
    fn length(self) -> Self::Output;
}

/// Computes and returns the length of a value.
#[inline]
pub fn length<T: Length>(value: T) -> T::Output {
    value.length()
}

/// Trait for types for which lengths can be compared.
pub trait RelativeLength: Copy {
    /// Returns `true` if this value is shorter than the other value.
    fn is_shorter_than(self, other: Self) -> bool;

    /// Returns `true` if this value is longer than the other value.
    fn is_longer_than(self, other: Self) -> bool;

    /// Returns the shortest of two values.
    fn shortest(self, other: Self) -> Self;

    /// Returns the longest of two values.
    fn longest(self, other: Self) -> Self;
}

/// Returns the shortest of two values.
#[inline]
pub fn shortest<T: RelativeLength>(value: T, other: T) -> T {
    value.shortest(other)
}

/// Returns the longest of two values.
#[inline]
pub fn longest<T: RelativeLength>(value: T, other: T) -> T {
    value.longest(other)
}
"##

rust_source distance := r##"// Copyright 2024 Jesper de Jong
//
// Licensed under the Apache License, Version 2.0 (the "License");
// you may not use this file except in compliance with the License.
// You may obtain a copy of the License at
//
//     http://www.apache.org/licenses/LICENSE-2.0
//
// Unless required by applicable law or agreed to in writing, software
// distributed under the License is distributed on an "AS IS" BASIS,
// WITHOUT WARRANTIES OR CONDITIONS OF ANY KIND, either express or implied.
// See the License for the specific language governing permissions and
// limitations under the License.

/// Trait for types for which a distance between values can be computed.
pub trait Distance: Copy {
    /// The output type which expresses the distance between values.
    type Output;

    /// Computes and returns the distance between two values.
    fn distance(self, other: Self) -> Self::Output;
}

/// Computes and returns the distance between two values.
#[inline]
pub fn distance<T: Distance>(value: T, other: T) -> T::Output {
    value.distance(other)
}

/// Trait for types for which distances between values can be compared.
pub trait RelativeDistance: Copy {
    /// Returns `true` if `a` is closer to this value than `b`.
    fn is_closer_to(self, a: Self, b: Self) -> bool;

    /// Returns `true` if `a` is farther from this value than `b`.
    fn is_farther_from(self, a: Self, b: Self) -> bool;

    /// Checks which of the values `a` and `b` is closer to this value and returns the closest one.
    fn closest(self, a: Self, b: Self) -> Self;

    /// Checks which of the values `a` and `b` is farther from this value and returns the farthest one.
    fn farthest(self, a: Self, b: Self) -> Self;
}

/// Checks which of the values `a` and `b` is closer to `value` and returns the closest one.
#[inline]
pub fn closest<T: RelativeDistance>(value: T, a: T, b: T) -> T {
    value.closest(a, b)
}

/// Checks which of the values `a` and `b` is farther from `value` and returns the farthest one.
#[inline]
pub fn farthest<T: RelativeDistance>(value: T, a: T, b: T) -> T {
    value.farthest(a, b)
}
"##

rust_source union := r##"// Copyright 2024 Jesper de Jong
//
// Licensed under the Apache License, Version 2.0 (the "License");
// you may not use this file except in compliance with the License.
// You may obtain a copy of the License at
//
//     http://www.apache.org/licenses/LICENSE-2.0
//
// Unless required by applicable law or agreed to in writing, software
// distributed under the License is distributed on an "AS IS" BASIS,
// WITHOUT WARRANTIES OR CONDITIONS OF ANY KIND, either express or implied.
// See the License for the specific language governing permissions and
// limitations under the License.

/// Trait for types for which a union with a value can be computed.
pub trait Union<U: Copy>: Copy {
    /// The output type which represents the union between values.
    type Output;

    /// Computes and returns the union between two values.
    fn union(self, other: U) -> Self::Output;
}

/// Computes and returns the union between two values.
#[inline]
pub fn union<T: Union<U>, U: Copy>(value: T, other: U) -> T::Output {
    value.union(other)
}
"##

rust_source intersection := r##"// Copyright 2024 Jesper de Jong
//
// Licensed under the Apache License, Version 2.0 (the "License");
// you may not use this file except in compliance with the License.
// You may obtain a copy of the License at
//
//     http://www.apache.org/licenses/LICENSE-2.0
//
// Unless required by applicable law or agreed to in writing, software
// distributed under the License is distributed on an "AS IS" BASIS,
// WITHOUT WARRANTIES OR CONDITIONS OF ANY KIND, either express or implied.
// See the License for the specific language governing permissions and
// limitations under the License.

/// Trait for types for which an intersection with a value can be computed.
pub trait Intersection<U: Copy>: Copy {
    /// The output type which represents the intersection between values.
    type Output;

    /// Computes and returns the intersection between two values.
    ///
    /// Returns `Some` when the intersection between the values is not empty; `None` if the intersection is empty.
    fn intersect(self, other: U) -> Option<Self::Output>;
}

/// Computes and returns the intersection between two values.
///
/// Returns `Some` when the intersection between the values is not empty; `None` if the intersection is empty.
#[inline]
pub fn intersect<T: Intersection<U>, U: Copy>(value: T, other: U) -> Option<T::Output> {
    value.intersect(other)
}
"##

rust_source transform := r##"// Copyright 2024 Jesper de Jong
//
// Licensed under the Apache License, Version 2.0 (the "License");
// you may not use this file except in compliance with the License.
// You may obtain a copy of the License at
//
//     http://www.apache.org/licenses/LICENSE-2.0
//
// Unless required by applicable law or agreed to in writing, software
// distributed under the License is distributed on an "AS IS" BASIS,
// WITHOUT WARRANTIES OR CONDITIONS OF ANY KIND, either express or implied.
// See the License for the specific language governing permissions and
// limitations under the License.

/// Trait to be implemented for types that can transform a value of type `T`.
pub trait Transform<T> {
    /// The output type that results from transforming a value of type `T`.
    type Output;

    /// Transforms a value of type `T`.
    fn transform(&self, value: T) -> Self::Output;
}

/// Error returned when computing the inverse of a singular matrix is attempted.
#[derive(Copy, Clone, Eq, PartialEq, Debug)]
pub struct NonInvertibleMatrixError;
"##

rust_source dimension2 := r##"// Copyright 2024 Jesper de Jong
//
// Licensed under the Apache License, Version 2.0 (the "License");
// you may not use this file except in compliance with the License.
// You may obtain a copy of the License at
//
//     http://www.apache.org/licenses/LICENSE-2.0
//
// Unless required by applicable law or agreed to in writing, software
// distributed under the License is distributed on an "AS IS" BASIS,
// WITHOUT WARRANTIES OR CONDITIONS OF ANY KIND, either express or implied.
// See the License for the specific language governing permissions and
// limitations under the License.

/// Dimension in 2D space.
#[derive(Copy, Clone, Eq, PartialEq, Debug)]
pub enum Dimension2 { X, Y }
"##

rust_source dimension3 := r##"// Copyright 2024 Jesper de Jong
//
// Licensed under the Apache License, Version 2.0 (the "License");
// you may not use this file except in compliance with the License.
// You may obtain a copy of the License at
//
//     http://www.apache.org/licenses/LICENSE-2.0
//
// Unless required by applicable law or agreed to in writing, software
// distributed under the License is distributed on an "AS IS" BASIS,
// WITHOUT WARRANTIES OR CONDITIONS OF ANY KIND, either express or implied.
// See the License for the specific language governing permissions and
// limitations under the License.

/// Dimension in 3D space.
#[derive(Copy, Clone, Eq, PartialEq, Debug)]
pub enum Dimension3 { X, Y, Z }
"##

rust_source vector2 := r##"// Copyright 2024 Jesper de Jong
//
// Licensed under the Apache License, Version 2.0 (the "License");
// you may not use this file except in compliance with the License.
// You may obtain a copy of the License at
//
//     http://www.apache.org/licenses/LICENSE-2.0
//
// Unless required by applicable law or agreed to in writing, software
// distributed under the License is distributed on an "AS IS" BASIS,
// WITHOUT WARRANTIES OR CONDITIONS OF ANY KIND, either express or implied.
// See the License for the specific language governing permissions and
// limitations under the License.

use std::ops::{Add, AddAssign, Div, DivAssign, Index, IndexMut, Mul, MulAssign, Neg, Sub, SubAssign};

use crate::{Dimension2, dot, DotProduct, Length, max, min, MinMax, Point2, RelativeLength, Scalar};

/// Vector in 2D space.
#[derive(Copy, Clone, PartialEq, Debug)]
pub struct Vector2<S: Scalar> {
    pub x: S,
    pub y: S,
}

/// Alias for `Vector2<f32>`.
pub type Vector2f = Vector2<f32>;

/// Alias for `Vector2<f64>`.
pub type Vector2d = Vector2<f64>;

#[inline]
pub fn vector2<S: Scalar>(x: S, y: S) -> Vector2<S> {
    Vector2::new(x, y)
}

#[inline]
pub fn vector2f(x: f32, y: f32) -> Vector2f {
    Vector2f::new(x, y)
}

#[inline]
pub fn vector2d(x: f64, y: f64) -> Vector2d {
    Vector2d::new(x, y)
}

// ===== Vector2 ===============================================================================================================================================

impl<S: Scalar> Vector2<S> {
    /// Creates and returns a new `Vector2` with x and y coordinates.
    #[inline]
    pub fn new(x: S, y: S) -> Vector2<S> {
        Vector2 { x, y }
    }

    /// Returns a `Vector2` which represents the zero vector (x = 0 and y = 0).
    #[inline]
    pub fn zero() -> Vector2<S> {
        Vector2::new(S::zero(), S::zero())
    }

    /// Returns a `Vector2` of length 1 which represents the X axis (x = 1 and y = 0).
    #[inline]
    pub fn x_axis() -> Vector2<S> {
        Vector2::new(S::one(), S::zero())
    }

    /// Returns a `Vector2` of length 1 which represents the Y axis (x = 0 and y = 1).
    #[inline]
    pub fn y_axis() -> Vector2<S> {
        Vector2::new(S::zero(), S::one())
    }

    /// Returns a `Vector2` of length 1 which represents the axis specified by a dimension.
    #[inline]
    pub fn axis(dim: Dimension2) -> Vector2<S> {
        match dim {
            Dimension2::X => Vector2::x_axis(),
            Dimension2::Y => Vector2::y_axis(),
        }
    }

    /// Creates and returns a new `Vector2` which points in the same direction as this vector, but with length 1.
    #[inline]
    pub fn normalize(self) -> Vector2<S> {
        self / self.length()
    }

    /// Returns the dimension with the smallest extent of this vector.
    #[inline]
    pub fn min_dimension(self) -> Dimension2 {
        let Vector2 { x, y } = self.abs();
        if x <= y { Dimension2::X } else { Dimension2::Y }
    }

    /// Returns the dimension with the largest extent of this vector.
    #[inline]
    pub fn max_dimension(self) -> Dimension2 {
        let Vector2 { x, y } = self.abs();
        if x > y { Dimension2::X } else { Dimension2::Y }
    }

    /// Returns the element-wise floor of this vector.
    #[inline]
    pub fn floor(self) -> Vector2<S> {
        Vector2::new(self.x.floor(), self.y.floor())
    }

    /// Returns the element-wise ceiling of this vector.
    #[inline]
    pub fn ceil(self) -> Vector2<S> {
        Vector2::new(self.x.ceil(), self.y.ceil())
    }

    /// Returns the element-wise rounded value of this vector.
    #[inline]
    pub fn round(self) -> Vector2<S> {
        Vector2::new(self.x.round(), self.y.round())
    }

    /// Returns the element-wise truncated value of this vector.
    #[inline]
    pub fn trunc(self) -> Vector2<S> {
        Vector2::new(self.x.trunc(), self.y.trunc())
    }

    /// Returns the element-wise fractional value of this vector.
    #[inline]
    pub fn fract(self) -> Vector2<S> {
        Vector2::new(self.x.fract(), self.y.fract())
    }

    /// Returns the element-wise absolute value of this vector.
    #[inline]
    pub fn abs(self) -> Vector2<S> {
        Vector2::new(self.x.abs(), self.y.abs())
    }

    /// Returns a point with a permutation of the elements of this vector.
    #[inline]
    pub fn permute(self, dim_x: Dimension2, dim_y: Dimension2) -> Vector2<S> {
        Vector2::new(self[dim_x], self[dim_y])
    }
}

impl<S: Scalar> Index<Dimension2> for Vector2<S> {
    type Output = S;

    #[inline]
    fn index(&self, dim: Dimension2) -> &S {
        match dim {
            Dimension2::X => &self.x,
            Dimension2::Y => &self.y,
        }
    }
}

impl<S: Scalar> IndexMut<Dimension2> for Vector2<S> {
    #[inline]
    fn index_mut(&mut self, dim: Dimension2) -> &mut S {
        match dim {
            Dimension2::X => &mut self.x,
            Dimension2::Y => &mut self.y,
        }
    }
}

impl<S: Scalar> MinMax for Vector2<S> {
    /// Returns the element-wise minimum of two vectors.
    #[inline]
    fn min(self, v: Vector2<S>) -> Vector2<S> {
        Vector2::new(min(self.x, v.x), min(self.y, v.y))
    }

    /// Returns the element-wise maximum of two vectors.
    #[inline]
    fn max(self, v: Vector2<S>) -> Vector2<S> {
        Vector2::new(max(self.x, v.x), max(self.y, v.y))
    }
}

impl<S: Scalar> Length for Vector2<S> {
    type Output = S;

    /// Computes and returns the length of this vector.
    #[inline]
    fn length(self) -> S {
        S::sqrt(dot(self, self))
    }
}

impl<S: Scalar> RelativeLength for Vector2<S> {
    /// Returns `true` if this vector is shorter than the other vector.
    ///
    /// This is more computationally efficient than computing the lengths of the vectors and comparing them,
    /// because square root operations that are needed for computing the lengths are avoided.
    #[inline]
    fn is_shorter_than(self, v: Vector2<S>) -> bool {
        dot(self, self) < dot(v, v)
    }

    /// Returns `true` if this vector is longer than the other vector.
    ///
    /// This is more computationally efficient than computing the lengths of the vectors and comparing them,
    /// because square root operations that are needed for computing the lengths are avoided.
    #[inline]
    fn is_longer_than(self, v: Vector2<S>) -> bool {
        dot(self, self) > dot(v, v)
    }

    /// Returns the shortest of two vectors.
    ///
    /// This is more computationally efficient than computing the lengths of the vectors and comparing them,
    /// because square root operations that are needed for computing the lengths are avoided.
    #[inline]
    fn shortest(self, v: Vector2<S>) -> Vector2<S> {
        if self.is_shorter_than(v) { self } else { v }
    }

    /// Returns the longest of two vectors.
    ///
    /// This is more computationally efficient than computing the lengths of the vectors and comparing them,
    /// because square root operations that are needed for computing the lengths are avoided.
    #[inline]
    fn longest(self, v: Vector2<S>) -> Vector2<S> {
        if self.is_longer_than(v) { self } else { v }
    }
}

impl<S: Scalar> DotProduct<Vector2<S>> for Vector2<S> {
    type Output = S;

    /// Computes and returns the dot product between two vectors.
    #[inline]
    fn dot(self, v: Vector2<S>) -> S {
        self.x * v.x + self.y * v.y
    }
}

impl<S: Scalar> Add<Vector2<S>> for Vector2<S> {
    type Output = Vector2<S>;

    #[inline]
    fn add(self, v: Vector2<S>) -> Vector2<S> {
        Vector2::new(self.x + v.x, self.y + v.y)
    }
}

impl<S: Scalar> AddAssign<Vector2<S>> for Vector2<S> {
    #[inline]
    fn add_assign(&mut self, v: Vector2<S>) {
        self.x += v.x;
        self.y += v.y;
    }
}

impl<S: Scalar> Sub<Vector2<S>> for Vector2<S> {
    type Output = Vector2<S>;

    #[inline]
    fn sub(self, v: Vector2<S>) -> Vector2<S> {
        Vector2::new(self.x - v.x, self.y - v.y)
    }
}

impl<S: Scalar> SubAssign<Vector2<S>> for Vector2<S> {
    #[inline]
    fn sub_assign(&mut self, v: Vector2<S>) {
        self.x -= v.x;
        self.y -= v.y;
    }
}

impl<S: Scalar> Neg for Vector2<S> {
    type Output = Vector2<S>;

    #[inline]
    fn neg(self) -> Vector2<S> {
        Vector2::new(-self.x, -self.y)
    }
}

impl<S: Scalar> Mul<S> for Vector2<S> {
    type Output = Vector2<S>;

    #[inline]
    fn mul(self, s: S) -> Vector2<S> {
        Vector2::new(self.x * s, self.y * s)
    }
}

impl<S: Scalar> MulAssign<S> for Vector2<S> {
    #[inline]
    fn mul_assign(&mut self, s: S) {
        self.x *= s;
        self.y *= s;
    }
}

impl Mul<Vector2f> for f32 {
    type Output = Vector2f;

    #[inline]
    fn mul(self, v: Vector2f) -> Vector2f {
        v * self
    }
}

impl Mul<Vector2d> for f64 {
    type Output = Vector2d;

    #[inline]
    fn mul(self, v: Vector2d) -> Vector2d {
        v * self
    }
}

impl<S: Scalar> Div<S> for Vector2<S> {
    type Output = Vector2<S>;

    #[inline]
    fn div(self, s: S) -> Vector2<S> {
        Vector2::new(self.x / s, self.y / s)
    }
}

impl<S: Scalar> DivAssign<S> for Vector2<S> {
    #[inline]
    fn div_assign(&mut self, s: S) {
        self.x /= s;
        self.y /= s;
    }
}

impl<S: Scalar> From<Point2<S>> for Vector2<S> {
    #[inline]
    fn from(p: Point2<S>) -> Vector2<S> {
        Vector2::new(p.x, p.y)
    }
}
"##

rust_source vector3 := r##"// Copyright 2024 Jesper de Jong
//
// Licensed under the Apache License, Version 2.0 (the "License");
// you may not use this file except in compliance with the License.
// You may obtain a copy of the License at
//
//     http://www.apache.org/licenses/LICENSE-2.0
//
// Unless required by applicable law or agreed to in writing, software
// distributed under the License is distributed on an "AS IS" BASIS,
// WITHOUT WARRANTIES OR CONDITIONS OF ANY KIND, either express or implied.
// See the License for the specific language governing permissions and
// limitations under the License.

use std::ops::{Add, AddAssign, Div, DivAssign, Index, IndexMut, Mul, MulAssign, Neg, Sub, SubAssign};

use crate::{CrossProduct, Dimension3, dot, DotProduct, Length, max, min, MinMax, Point3, RelativeLength, Scalar};

/// Vector in 3D space.
#[derive(Copy, Clone, PartialEq, Debug)]
pub struct Vector3<S: Scalar> {
    pub x: S,
    pub y: S,
    pub z: S,
}

/// Alias for `Vector3<f32>`.
pub type Vector3f = Vector3<f32>;

/// Alias for `Vector3<f64>`.
pub type Vector3d = Vector3<f64>;

#[inline]
pub fn vector3<S: Scalar>(x: S, y: S, z: S) -> Vector3<S> {
    Vector3::new(x, y, z)
}

#[inline]
pub fn vector3f(x: f32, y: f32, z: f32) -> Vector3f {
    Vector3f::new(x, y, z)
}

#[inline]
pub fn vector3d(x: f64, y: f64, z: f64) -> Vector3d {
    Vector3d::new(x, y, z)
}

// ===== Vector3 ===============================================================================================================================================

impl<S: Scalar> Vector3<S> {
    /// Creates and returns a new `Vector3` with x, y and z coordinates.
    #[inline]
    pub fn new(x: S, y: S, z: S) -> Vector3<S> {
        Vector3 { x, y, z }
    }

    /// Returns a `Vector3` which represents the zero vector (x = 0, y = 0 and z = 0).
    #[inline]
    pub fn zero() -> Vector3<S> {
        Vector3::new(S::zero(), S::zero(), S::zero())
    }

    /// Returns a `Vector3` of length 1 which represents the X axis (x = 1, y = 0 and z = 0).
    #[inline]
    pub fn x_axis() -> Vector3<S> {
        Vector3::new(S::one(), S::zero(), S::zero())
    }

    /// Returns a `Vector3` of length 1 which represents the Y axis (x = 0, y = 1 and z = 0).
    #[inline]
    pub fn y_axis() -> Vector3<S> {
        Vector3::new(S::zero(), S::one(), S::zero())
    }

    /// Returns a `Vector3` of length 1 which represents the Z axis (x = 0, y = 0 and z = 1).
    #[inline]
    pub fn z_axis() -> Vector3<S> {
        Vector3::new(S::zero(), S::zero(), S::one())
    }

    /// Returns a `Vector3` of length 1 which represents the axis specified by a dimension.
    #[inline]
    pub fn axis(dim: Dimension3) -> Vector3<S> {
        match dim {
            Dimension3::X => Vector3::x_axis(),
            Dimension3::Y => Vector3::y_axis(),
            Dimension3::Z => Vector3::z_axis(),
        }
    }

    /// Creates and returns a new `Vector3` which points in the same direction as this vector, but with length 1.
    #[inline]
    pub fn normalize(self) -> Vector3<S> {
        self / self.length()
    }

    /// Returns the dimension with the smallest extent of this vector.
    #[inline]
    pub fn min_dimension(self) -> Dimension3 {
        let Vector3 { x, y, z } = self.abs();
        if x <= y && x <= z { Dimension3::X } else if y <= z { Dimension3::Y } else { Dimension3::Z }
    }

    /// Returns the dimension with the largest extent of this vector.
    #[inline]
    pub fn max_dimension(self) -> Dimension3 {
        let Vector3 { x, y, z } = self.abs();
        if x > y && x > z { Dimension3::X } else if y > z { Dimension3::Y } else { Dimension3::Z }
    }

    /// Returns the element-wise floor of this vector.
    #[inline]
    pub fn floor(self) -> Vector3<S> {
        Vector3::new(self.x.floor(), self.y.floor(), self.z.floor())
    }

    /// Returns the element-wise ceiling of this vector.
    #[inline]
    pub fn ceil(self) -> Vector3<S> {
        Vector3::new(self.x.ceil(), self.y.ceil(), self.z.ceil())
    }

    /// Returns the element-wise rounded value of this vector.
    #[inline]
    pub fn round(self) -> Vector3<S> {
        Vector3::new(self.x.round(), self.y.round(), self.z.round())
    }

    /// Returns the element-wise truncated value of this vector.
    #[inline]
    pub fn trunc(self) -> Vector3<S> {
        Vector3::new(self.x.trunc(), self.y.trunc(), self.z.trunc())
    }

    /// Returns the element-wise fractional value of this vector.
    #[inline]
    pub fn fract(self) -> Vector3<S> {
        Vector3::new(self.x.fract(), self.y.fract(), self.z.fract())
    }

    /// Returns the element-wise absolute value of this vector.
    #[inline]
    pub fn abs(self) -> Vector3<S> {
        Vector3::new(self.x.abs(), self.y.abs(), self.z.abs())
    }

    /// Returns a point with a permutation of the elements of this vector.
    #[inline]
    pub fn permute(self, dim_x: Dimension3, dim_y: Dimension3, dim_z: Dimension3) -> Vector3<S> {
        Vector3::new(self[dim_x], self[dim_y], self[dim_z])
    }
}

impl<S: Scalar> Index<Dimension3> for Vector3<S> {
    type Output = S;

    #[inline]
    fn index(&self, dim: Dimension3) -> &S {
        match dim {
            Dimension3::X => &self.x,
            Dimension3::Y => &self.y,
            Dimension3::Z => &self.z,
        }
    }
}

impl<S: Scalar> IndexMut<Dimension3> for Vector3<S> {
    #[inline]
    fn index_mut(&mut self, dim: Dimension3) -> &mut S {
        match dim {
            Dimension3::X => &mut self.x,
            Dimension3::Y => &mut self.y,
            Dimension3::Z => &mut self.z,
        }
    }
}

impl<S: Scalar> MinMax for Vector3<S> {
    /// Returns the element-wise minimum of two vectors.
    #[inline]
    fn min(self, v: Vector3<S>) -> Vector3<S> {
        Vector3::new(min(self.x, v.x), min(self.y, v.y), min(self.z, v.z))
    }

    /// Returns the element-wise maximum of two vectors.
    #[inline]
    fn max(self, v: Vector3<S>) -> Vector3<S> {
        Vector3::new(max(self.x, v.x), max(self.y, v.y), max(self.z, v.z))
    }
}

impl<S: Scalar> Length for Vector3<S> {
    type Output = S;

    /// Computes and returns the length of a vector.
    #[inline]
    fn length(self) -> S {
        S::sqrt(dot(self, self))
    }
}

impl<S: Scalar> RelativeLength for Vector3<S> {
    /// Returns `true` if this vector is shorter than the other vector.
    ///
    /// This is more computationally efficient than computing the lengths of the vectors and comparing them,
    /// because square root operations that are needed for computing the lengths are avoided.
    #[inline]
    fn is_shorter_than(self, v: Vector3<S>) -> bool {
        dot(self, self) < dot(v, v)
    }

    /// Returns `true` if this vector is longer than the other vector.
    ///
    /// This is more computationally efficient than computing the lengths of the vectors and comparing them,
    /// because square root operations that are needed for computing the lengths are avoided.
    #[inline]
    fn is_longer_than(self, v: Vector3<S>) -> bool {
        dot(self, self) > dot(v, v)
    }

    /// Returns the shortest of two vectors.
    ///
    /// This is more computationally efficient than computing the lengths of the vectors and comparing them,
    /// because square root operations that are needed for computing the lengths are avoided.
    #[inline]
    fn shortest(self, v: Vector3<S>) -> Vector3<S> {
        if self.is_shorter_than(v) { self } else { v }
    }

    /// Returns the longest of two vectors.
    ///
    /// This is more computationally efficient than computing the lengths of the vectors and comparing them,
    /// because square root operations that are needed for computing the lengths are avoided.
    #[inline]
    fn longest(self, v: Vector3<S>) -> Vector3<S> {
        if self.is_longer_than(v) { self } else { v }
    }
}

impl<S: Scalar> DotProduct<Vector3<S>> for Vector3<S> {
    type Output = S;

    /// Computes and returns the dot product between two vectors.
    #[inline]
    fn dot(self, v: Vector3<S>) -> S {
        self.x * v.x + self.y * v.y + self.z * v.z
    }
}

impl<S: Scalar> CrossProduct<Vector3<S>> for Vector3<S> {
    type Output = Vector3<S>;

    /// Computes and returns the cross product between two vectors.
    #[inline]
    fn cross(self, v: Vector3<S>) -> Vector3<S> {
        Vector3::new(self.y * v.z - self.z * v.y, self.z * v.x - self.x * v.z, self.x * v.y - self.y * v.x)
    }
}

impl<S: Scalar> Add<Vector3<S>> for Vector3<S> {
    type Output = Vector3<S>;

    #[inline]
    fn add(self, v: Vector3<S>) -> Vector3<S> {
        Vector3::new(self.x + v.x, self.y + v.y, self.z + v.z)
    }
}

impl<S: Scalar> AddAssign<Vector3<S>> for Vector3<S> {
    #[inline]
    fn add_assign(&mut self, v: Vector3<S>) {
        self.x += v.x;
        self.y += v.y;
        self.z += v.z;
    }
}

impl<S: Scalar> Sub<Vector3<S>> for Vector3<S> {
    type Output = Vector3<S>;

    #[inline]
    fn sub(self, v: Vector3<S>) -> Vector3<S> {
        Vector3::new(self.x - v.x, self.y - v.y, self.z - v.z)
    }
}

impl<S: Scalar> SubAssign<Vector3<S>> for Vector3<S> {
    #[inline]
    fn sub_assign(&mut self, v: Vector3<S>) {
        self.x -= v.x;
        self.y -= v.y;
        self.z -= v.z;
    }
}

impl<S: Scalar> Neg for Vector3<S> {
    type Output = Vector3<S>;

    #[inline]
    fn neg(self) -> Vector3<S> {
        Vector3::new(-self.x, -self.y, -self.z)
    }
}

impl<S: Scalar> Mul<S> for Vector3<S> {
    type Output = Vector3<S>;

    #[inline]
    fn mul(self, s: S) -> Vector3<S> {
        Vector3::new(self.x * s, self.y * s, self.z * s)
    }
}

impl<S: Scalar> MulAssign<S> for Vector3<S> {
    #[inline]
    fn mul_assign(&mut self, s: S) {
        self.x *= s;
        self.y *= s;
        self.z *= s;
    }
}

impl Mul<Vector3f> for f32 {
    type Output = Vector3f;

    #[inline]
    fn mul(self, v: Vector3f) -> Vector3f {
        v * self
    }
}

impl Mul<Vector3d> for f64 {
    type Output = Vector3d;

    #[inline]
    fn mul(self, v: Vector3d) -> Vector3d {
        v * self
    }
}

impl<S: Scalar> Div<S> for Vector3<S> {
    type Output = Vector3<S>;

    #[inline]
    fn div(self, s: S) -> Vector3<S> {
        Vector3::new(self.x / s, self.y / s, self.z / s)
    }
}

impl<S: Scalar> DivAssign<S> for Vector3<S> {
    #[inline]
    fn div_assign(&mut self, s: S) {
        self.x /= s;
        self.y /= s;
        self.z /= s;
    }
}

impl<S: Scalar> From<Point3<S>> for Vector3<S> {
    #[inline]
    fn from(p: Point3<S>) -> Vector3<S> {
        Vector3::new(p.x, p.y, p.z)
    }
}
"##

rust_source point2 := r##"// Copyright 2024 Jesper de Jong
//
// Licensed under the Apache License, Version 2.0 (the "License");
// you may not use this file except in compliance with the License.
// You may obtain a copy of the License at
//
//     http://www.apache.org/licenses/LICENSE-2.0
//
// Unless required by applicable law or agreed to in writing, software
// distributed under the License is distributed on an "AS IS" BASIS,
// WITHOUT WARRANTIES OR CONDITIONS OF ANY KIND, either express or implied.
// See the License for the specific language governing permissions and
// limitations under the License.

use std::ops::{Add, AddAssign, Div, DivAssign, Index, IndexMut, Mul, MulAssign, Neg, Sub, SubAssign};

use crate::{Dimension2, Distance, dot, Length, max, min, MinMax, RelativeDistance, Scalar, Vector2};

/// Point in 2D space.
#[derive(Copy, Clone, PartialEq, Debug)]
pub struct Point2<S: Scalar> {
    pub x: S,
    pub y: S,
}

/// Alias for `Point2<f32>`.
pub type Point2f = Point2<f32>;

/// Alias for `Point2<f64>`.
pub type Point2d = Point2<f64>;

#[inline]
pub fn point2<S: Scalar>(x: S, y: S) -> Point2<S> {
    Point2::new(x, y)
}

#[inline]
pub fn point2f(x: f32, y: f32) -> Point2f {
    Point2f::new(x, y)
}

#[inline]
pub fn point2d(x: f64, y: f64) -> Point2d {
    Point2d::new(x, y)
}

// ===== Point2 ================================================================================================================================================

impl<S: Scalar> Point2<S> {
    /// Creates and returns a new `Point2` with x and y coordinates.
    #[inline]
    pub fn new(x: S, y: S) -> Point2<S> {
        Point2 { x, y }
    }

    /// Returns a `Point2` which represents the origin (x = 0 and y = 0).
    #[inline]
    pub fn origin() -> Point2<S> {
        Point2::new(S::zero(), S::zero())
    }

    /// Returns the dimension with the smallest extent of this point.
    #[inline]
    pub fn min_dimension(self) -> Dimension2 {
        let Point2 { x, y } = self.abs();
        if x <= y { Dimension2::X } else { Dimension2::Y }
    }

    /// Returns the dimension with the largest extent of this point.
    #[inline]
    pub fn max_dimension(self) -> Dimension2 {
        let Point2 { x, y } = self.abs();
        if x > y { Dimension2::X } else { Dimension2::Y }
    }

    /// Returns the element-wise floor of this point.
    #[inline]
    pub fn floor(self) -> Point2<S> {
        Point2::new(self.x.floor(), self.y.floor())
    }

    /// Returns the element-wise ceiling of this point.
    #[inline]
    pub fn ceil(self) -> Point2<S> {
        Point2::new(self.x.ceil(), self.y.ceil())
    }

    /// Returns the element-wise rounded value of this point.
    #[inline]
    pub fn round(self) -> Point2<S> {
        Point2::new(self.x.round(), self.y.round())
    }

    /// Returns the element-wise truncated value of this point.
    #[inline]
    pub fn trunc(self) -> Point2<S> {
        Point2::new(self.x.trunc(), self.y.trunc())
    }

    /// Returns the element-wise fractional value of this point.
    #[inline]
    pub fn fract(self) -> Point2<S> {
        Point2::new(self.x.fract(), self.y.fract())
    }

    /// Returns the element-wise absolute value of this point.
    #[inline]
    pub fn abs(self) -> Point2<S> {
        Point2::new(self.x.abs(), self.y.abs())
    }

    /// Returns a point with a permutation of the elements of this point.
    #[inline]
    pub fn permute(self, dim_x: Dimension2, dim_y: Dimension2) -> Point2<S> {
        Point2::new(self[dim_x], self[dim_y])
    }
}

impl<S: Scalar> Index<Dimension2> for Point2<S> {
    type Output = S;

    #[inline]
    fn index(&self, dim: Dimension2) -> &S {
        match dim {
            Dimension2::X => &self.x,
            Dimension2::Y => &self.y,
        }
    }
}

impl<S: Scalar> IndexMut<Dimension2> for Point2<S> {
    #[inline]
    fn index_mut(&mut self, dim: Dimension2) -> &mut S {
        match dim {
            Dimension2::X => &mut self.x,
            Dimension2::Y => &mut self.y,
        }
    }
}

impl<S: Scalar> MinMax for Point2<S> {
    /// Returns the element-wise minimum of two points.
    #[inline]
    fn min(self, p: Point2<S>) -> Point2<S> {
        Point2::new(min(self.x, p.x), min(self.y, p.y))
    }

    /// Returns the element-wise maximum of two points.
    #[inline]
    fn max(self, p: Point2<S>) -> Point2<S> {
        Point2::new(max(self.x, p.x), max(self.y, p.y))
    }
}

impl<S: Scalar> Distance for Point2<S> {
    type Output = S;

    /// Computes and returns the distance between this and another point.
    #[inline]
    fn distance(self, p: Point2<S>) -> S {
        (p - self).length()
    }
}

impl<S: Scalar> RelativeDistance for Point2<S> {
    /// Returns `true` if `p1` is closer to this point than `p2`.
    ///
    /// This is more computationally efficient than computing the distance between this point and the points `p1` and `p2` and comparing the distances,
    /// because square root operations that are needed for computing the distances are avoided.
    #[inline]
    fn is_closer_to(self, p1: Point2<S>, p2: Point2<S>) -> bool {
        let (v1, v2) = (p1 - self, p2 - self);
        dot(v1, v1) < dot(v2, v2)
    }

    /// Returns `true` if `p1` is farther from this point than `p2`.
    ///
    /// This is more computationally efficient than computing the distance between this point and the points `p1` and `p2` and comparing the distances,
    /// because square root operations that are needed for computing the distances are avoided.
    #[inline]
    fn is_farther_from(self, p1: Point2<S>, p2: Point2<S>) -> bool {
        let (v1, v2) = (p1 - self, p2 - self);
        dot(v1, v1) > dot(v2, v2)
    }

    /// Checks which of the points `p1` and `p2` is closer to this point and returns the closest one.
    ///
    /// This is more computationally efficient than computing the distance between this point and the points `p1` and `p2` and comparing the distances,
    /// because square root operations that are needed for computing the distances are avoided.
    #[inline]
    fn closest(self, p1: Point2<S>, p2: Point2<S>) -> Point2<S> {
        if self.is_closer_to(p1, p2) { p1 } else { p2 }
    }

    /// Checks which of the points `p1` and `p2` is farther from this point and returns the closest one.
    ///
    /// This is more computationally efficient than computing the distance between this point and the points `p1` and `p2` and comparing the distances,
    /// because square root operations that are needed for computing the distances are avoided.
    #[inline]
    fn farthest(self, p1: Point2<S>, p2: Point2<S>) -> Point2<S> {
        if self.is_farther_from(p1, p2) { p1 } else { p2 }
    }
}

impl<S: Scalar> Add<Vector2<S>> for Point2<S> {
    type Output = Point2<S>;

    #[inline]
    fn add(self, v: Vector2<S>) -> Point2<S> {
        Point2::new(self.x + v.x, self.y + v.y)
    }
}

impl<S: Scalar> AddAssign<Vector2<S>> for Point2<S> {
    #[inline]
    fn add_assign(&mut self, v: Vector2<S>) {
        self.x += v.x;
        self.y += v.y;
    }
}

impl<S: Scalar> Sub<Vector2<S>> for Point2<S> {
    type Output = Point2<S>;

    #[inline]
    fn sub(self, v: Vector2<S>) -> Point2<S> {
        Point2::new(self.x - v.x, self.y - v.y)
    }
}

impl<S: Scalar> SubAssign<Vector2<S>> for Point2<S> {
    #[inline]
    fn sub_assign(&mut self, v: Vector2<S>) {
        self.x -= v.x;
        self.y -= v.y;
    }
}

impl<S: Scalar> Sub<Point2<S>> for Point2<S> {
    type Output = Vector2<S>;

    #[inline]
    fn sub(self, p: Point2<S>) -> Vector2<S> {
        Vector2::new(self.x - p.x, self.y - p.y)
    }
}

impl<S: Scalar> Neg for Point2<S> {
    type Output = Point2<S>;

    #[inline]
    fn neg(self) -> Point2<S> {
        Point2::new(-self.x, -self.y)
    }
}

impl<S: Scalar> Mul<S> for Point2<S> {
    type Output = Point2<S>;

    #[inline]
    fn mul(self, s: S) -> Point2<S> {
        Point2::new(self.x * s, self.y * s)
    }
}

impl<S: Scalar> MulAssign<S> for Point2<S> {
    #[inline]
    fn mul_assign(&mut self, s: S) {
        self.x *= s;
        self.y *= s;
    }
}

impl Mul<Point2f> for f32 {
    type Output = Point2f;

    #[inline]
    fn mul(self, p: Point2f) -> Point2f {
        p * self
    }
}

impl Mul<Point2d> for f64 {
    type Output = Point2d;

    #[inline]
    fn mul(self, p: Point2d) -> Point2d {
        p * self
    }
}

impl<S: Scalar> Div<S> for Point2<S> {
    type Output = Point2<S>;

    #[inline]
    fn div(self, s: S) -> Point2<S> {
        Point2::new(self.x / s, self.y / s)
    }
}

impl<S: Scalar> DivAssign<S> for Point2<S> {
    #[inline]
    fn div_assign(&mut self, s: S) {
        self.x /= s;
        self.y /= s;
    }
}

impl<S: Scalar> From<Vector2<S>> for Point2<S> {
    #[inline]
    fn from(v: Vector2<S>) -> Self {
        Point2::new(v.x, v.y)
    }
}
"##

rust_source point3 := r##"// Copyright 2024 Jesper de Jong
//
// Licensed under the Apache License, Version 2.0 (the "License");
// you may not use this file except in compliance with the License.
// You may obtain a copy of the License at
//
//     http://www.apache.org/licenses/LICENSE-2.0
//
// Unless required by applicable law or agreed to in writing, software
// distributed under the License is distributed on an "AS IS" BASIS,
// WITHOUT WARRANTIES OR CONDITIONS OF ANY KIND, either express or implied.
// See the License for the specific language governing permissions and
// limitations under the License.

use std::ops::{Add, AddAssign, Div, DivAssign, Index, IndexMut, Mul, MulAssign, Neg, Sub, SubAssign};

use crate::{Dimension3, Distance, dot, Length, max, min, MinMax, RelativeDistance, Scalar, Vector3};

/// Point in 3D space.
#[derive(Copy, Clone, PartialEq, Debug)]
pub struct Point3<S: Scalar> {
    pub x: S,
    pub y: S,
    pub z: S,
}

/// Alias for `Point3<f32>`.
pub type Point3f = Point3<f32>;

/// Alias for `Point3<f64>`.
pub type Point3d = Point3<f64>;

#[inline]
pub fn point3<S: Scalar>(x: S, y: S, z: S) -> Point3<S> {
    Point3::new(x, y, z)
}

#[inline]
pub fn point3f(x: f32, y: f32, z: f32) -> Point3f {
    Point3f::new(x, y, z)
}

#[inline]
pub fn point3d(x: f64, y: f64, z: f64) -> Point3d {
    Point3d::new(x, y, z)
}

// ===== Point3 ================================================================================================================================================

impl<S: Scalar> Point3<S> {
    /// Creates and returns a new `Point3` with x, y and z coordinates.
    #[inline]
    pub fn new(x: S, y: S, z: S) -> Point3<S> {
        Point3 { x, y, z }
    }

    /// Returns a `Point3` which represents the origin (x = 0, y = 0 and z = 0).
    #[inline]
    pub fn origin() -> Point3<S> {
        Point3::new(S::zero(), S::zero(), S::zero())
    }

    /// Returns the dimension with the smallest extent of this point.
    #[inline]
    pub fn min_dimension(self) -> Dimension3 {
        let Point3 { x, y, z } = self.abs();
        if x <= y && x <= z { Dimension3::X } else if y <= z { Dimension3::Y } else { Dimension3::Z }
    }

    /// Returns the dimension with the largest extent of this point.
    #[inline]
    pub fn max_dimension(self) -> Dimension3 {
        let Point3 { x, y, z } = self.abs();
        if x > y && x > z { Dimension3::X } else if y > z { Dimension3::Y } else { Dimension3::Z }
    }

    /// Returns the element-wise floor of this point.
    #[inline]
    pub fn floor(self) -> Point3<S> {
        Point3::new(self.x.floor(), self.y.floor(), self.z.floor())
    }

    /// Returns the element-wise ceiling of this point.
    #[inline]
    pub fn ceil(self) -> Point3<S> {
        Point3::new(self.x.ceil(), self.y.ceil(), self.z.ceil())
    }

    /// Returns the element-wise rounded value of this point.
    #[inline]
    pub fn round(self) -> Point3<S> {
        Point3::new(self.x.round(), self.y.round(), self.z.round())
    }

    /// Returns the element-wise truncated value of this point.
    #[inline]
    pub fn trunc(self) -> Point3<S> {
        Point3::new(self.x.trunc(), self.y.trunc(), self.z.trunc())
    }

    /// Returns the element-wise fractional value of this point.
    #[inline]
    pub fn fract(self) -> Point3<S> {
        Point3::new(self.x.fract(), self.y.fract(), self.z.fract())
    }

    /// Returns the element-wise absolute value of this point.
    #[inline]
    pub fn abs(self) -> Point3<S> {
        Point3::new(self.x.abs(), self.y.abs(), self.z.abs())
    }

    /// Returns a point with a permutation of the elements of this point.
    #[inline]
    pub fn permute(self, dim_x: Dimension3, dim_y: Dimension3, dim_z: Dimension3) -> Point3<S> {
        Point3::new(self[dim_x], self[dim_y], self[dim_z])
    }
}

impl<S: Scalar> Index<Dimension3> for Point3<S> {
    type Output = S;

    #[inline]
    fn index(&self, dim: Dimension3) -> &S {
        match dim {
            Dimension3::X => &self.x,
            Dimension3::Y => &self.y,
            Dimension3::Z => &self.z,
        }
    }
}

impl<S: Scalar> IndexMut<Dimension3> for Point3<S> {
    #[inline]
    fn index_mut(&mut self, dim: Dimension3) -> &mut S {
        match dim {
            Dimension3::X => &mut self.x,
            Dimension3::Y => &mut self.y,
            Dimension3::Z => &mut self.z,
        }
    }
}

impl<S: Scalar> MinMax for Point3<S> {
    /// Returns the element-wise minimum of two points.
    #[inline]
    fn min(self, p: Point3<S>) -> Point3<S> {
        Point3::new(min(self.x, p.x), min(self.y, p.y), min(self.z, p.z))
    }

    /// Returns the element-wise maximum of two points.
    #[inline]
    fn max(self, p: Point3<S>) -> Point3<S> {
        Point3::new(max(self.x, p.x), max(self.y, p.y), max(self.z, p.z))
    }
}

impl<S: Scalar> Distance for Point3<S> {
    type Output = S;

    /// Computes and returns the distance between this and another point.
    #[inline]
    fn distance(self, p: Point3<S>) -> S {
        (p - self).length()
    }
}

impl<S: Scalar> RelativeDistance for Point3<S> {
    /// Returns `true` if `p1` is closer to this point than `p2`.
    ///
    /// This is more computationally efficient than computing the distance between this point and the points `p1` and `p2` and comparing the distances,
    /// because square root operations that are needed for computing the distances are avoided.
    #[inline]
    fn is_closer_to(self, p1: Point3<S>, p2: Point3<S>) -> bool {
        let (v1, v2) = (p1 - self, p2 - self);
        dot(v1, v1) < dot(v2, v2)
    }

    /// Returns `true` if `p1` is farther from this point than `p2`.
    ///
    /// This is more computationally efficient than computing the distance between this point and the points `p1` and `p2` and comparing the distances,
    /// because square root operations that are needed for computing the distances are avoided.
    #[inline]
    fn is_farther_from(self, p1: Point3<S>, p2: Point3<S>) -> bool {
        let (v1, v2) = (p1 - self, p2 - self);
        dot(v1, v1) > dot(v2, v2)
    }

    /// Checks which of the points `p1` and `p2` is closest to this point and returns the closest one.
    ///
    /// This is more computationally efficient than computing the distance between this point and the points `p1` and `p2` and comparing the distances,
    /// because square root operations that are needed for computing the distances are avoided.
    #[inline]
    fn closest(self, p1: Point3<S>, p2: Point3<S>) -> Point3<S> {
        if self.is_closer_to(p1, p2) { p1 } else { p2 }
    }

    /// Checks which of the points `p1` and `p2` is farthest from this point and returns the farthest one.
    ///
    /// This is more computationally efficient than computing the distance between this point and the points `p1` and `p2` and comparing the distances,
    /// because square root operations that are needed for computing the distances are avoided.
    #[inline]
    fn farthest(self, p1: Point3<S>, p2: Point3<S>) -> Point3<S> {
        if self.is_farther_from(p1, p2) { p1 } else { p2 }
    }
}

impl<S: Scalar> Add<Vector3<S>> for Point3<S> {
    type Output = Point3<S>;

    #[inline]
    fn add(self, v: Vector3<S>) -> Point3<S> {
        Point3::new(self.x + v.x, self.y + v.y, self.z + v.z)
    }
}

impl<S: Scalar> AddAssign<Vector3<S>> for Point3<S> {
    #[inline]
    fn add_assign(&mut self, v: Vector3<S>) {
        self.x += v.x;
        self.y += v.y;
        self.z += v.z;
    }
}

impl<S: Scalar> Sub<Vector3<S>> for Point3<S> {
    type Output = Point3<S>;

    #[inline]
    fn sub(self, v: Vector3<S>) -> Point3<S> {
        Point3::new(self.x - v.x, self.y - v.y, self.z - v.z)
    }
}

impl<S: Scalar> SubAssign<Vector3<S>> for Point3<S> {
    #[inline]
    fn sub_assign(&mut self, v: Vector3<S>) {
        self.x -= v.x;
        self.y -= v.y;
        self.z -= v.z;
    }
}

impl<S: Scalar> Sub<Point3<S>> for Point3<S> {
    type Output = Vector3<S>;

    #[inline]
    fn sub(self, p: Point3<S>) -> Vector3<S> {
        Vector3::new(self.x - p.x, self.y - p.y, self.z - p.z)
    }
}

impl<S: Scalar> Neg for Point3<S> {
    type Output = Point3<S>;

    #[inline]
    fn neg(self) -> Point3<S> {
        Point3::new(-self.x, -self.y, -self.z)
    }
}

impl<S: Scalar> Mul<S> for Point3<S> {
    type Output = Point3<S>;

    #[inline]
    fn mul(self, s: S) -> Point3<S> {
        Point3::new(self.x * s, self.y * s, self.z * s)
    }
}

impl<S: Scalar> MulAssign<S> for Point3<S> {
    #[inline]
    fn mul_assign(&mut self, s: S) {
        self.x *= s;
        self.y *= s;
        self.z *= s;
    }
}

impl Mul<Point3f> for f32 {
    type Output = Point3f;

    #[inline]
    fn mul(self, p: Point3f) -> Point3f {
        p * self
    }
}

impl Mul<Point3d> for f64 {
    type Output = Point3d;

    #[inline]
    fn mul(self, p: Point3d) -> Point3d {
        p * self
    }
}

impl<S: Scalar> Div<S> for Point3<S> {
    type Output = Point3<S>;

    #[inline]
    fn div(self, s: S) -> Point3<S> {
        Point3::new(self.x / s, self.y / s, self.z / s)
    }
}

impl<S: Scalar> DivAssign<S> for Point3<S> {
    #[inline]
    fn div_assign(&mut self, s: S) {
        self.x /= s;
        self.y /= s;
        self.z /= s;
    }
}

impl<S: Scalar> From<Vector3<S>> for Point3<S> {
    #[inline]
    fn from(v: Vector3<S>) -> Point3<S> {
        Point3::new(v.x, v.y, v.z)
    }
}
"##

rust_source ray2 := r##"// Copyright 2024 Jesper de Jong
//
// Licensed under the Apache License, Version 2.0 (the "License");
// you may not use this file except in compliance with the License.
// You may obtain a copy of the License at
//
//     http://www.apache.org/licenses/LICENSE-2.0
//
// Unless required by applicable law or agreed to in writing, software
// distributed under the License is distributed on an "AS IS" BASIS,
// WITHOUT WARRANTIES OR CONDITIONS OF ANY KIND, either express or implied.
// See the License for the specific language governing permissions and
// limitations under the License.

use crate::{Point2, Point2d, Point2f, Scalar, Vector2, Vector2d, Vector2f};

/// Ray in 2D space.
#[derive(Clone, PartialEq, Debug)]
pub struct Ray2<S: Scalar> {
    pub origin: Point2<S>,
    pub direction: Vector2<S>,
}

/// Alias for `Ray2<f32>`.
pub type Ray2f = Ray2<f32>;

/// Alias for `Ray2<f64>`.
pub type Ray2d = Ray2<f64>;

#[inline]
pub fn ray2<S: Scalar>(origin: Point2<S>, direction: Vector2<S>) -> Ray2<S> {
    Ray2::new(origin, direction)
}

#[inline]
pub fn ray2f(origin: Point2f, direction: Vector2f) -> Ray2f {
    Ray2f::new(origin, direction)
}

#[inline]
pub fn ray2d(origin: Point2d, direction: Vector2d) -> Ray2d {
    Ray2d::new(origin, direction)
}

// ===== Ray2 ==================================================================================================================================================

impl<S: Scalar> Ray2<S> {
    /// Creates and returns a new `Ray2` with an origin point and direction vector.
    #[inline]
    pub fn new(origin: Point2<S>, direction: Vector2<S>) -> Ray2<S> {
        Ray2 { origin, direction }
    }

    /// Computes and returns a point at a distance along this ray.
    #[inline]
    pub fn at(&self, distance: S) -> Point2<S> {
        self.origin + self.direction * distance
    }
}
"##

rust_source ray3 := r##"// Copyright 2024 Jesper de Jong
//
// Licensed under the Apache License, Version 2.0 (the "License");
// you may not use this file except in compliance with the License.
// You may obtain a copy of the License at
//
//     http://www.apache.org/licenses/LICENSE-2.0
//
// Unless required by applicable law or agreed to in writing, software
// distributed under the License is distributed on an "AS IS" BASIS,
// WITHOUT WARRANTIES OR CONDITIONS OF ANY KIND, either express or implied.
// See the License for the specific language governing permissions and
// limitations under the License.

use crate::{Point3, Point3d, Point3f, Scalar, Vector3, Vector3d, Vector3f};

/// Ray in 3D space.
#[derive(Clone, PartialEq, Debug)]
pub struct Ray3<S: Scalar> {
    pub origin: Point3<S>,
    pub direction: Vector3<S>,
}

/// Alias for `Ray3<f32>`.
pub type Ray3f = Ray3<f32>;

/// Alias for `Ray3<f64>`.
pub type Ray3d = Ray3<f64>;

#[inline]
pub fn ray3<S: Scalar>(origin: Point3<S>, direction: Vector3<S>) -> Ray3<S> {
    Ray3::new(origin, direction)
}

#[inline]
pub fn ray3f(origin: Point3f, direction: Vector3f) -> Ray3f {
    Ray3f::new(origin, direction)
}

#[inline]
pub fn ray3d(origin: Point3d, direction: Vector3d) -> Ray3d {
    Ray3d::new(origin, direction)
}

// ===== Ray3 ==================================================================================================================================================

impl<S: Scalar> Ray3<S> {
    /// Creates and returns a new `Ray3` with an origin point and direction vector.
    #[inline]
    pub fn new(origin: Point3<S>, direction: Vector3<S>) -> Ray3<S> {
        Ray3 { origin, direction }
    }

    /// Computes and returns a point at a distance along this ray.
    #[inline]
    pub fn at(&self, distance: S) -> Point3<S> {
        self.origin + self.direction * distance
    }
}
"##

rust_source boundingbox2 := r##"// Copyright 2024 Jesper de Jong
//
// Licensed under the Apache License, Version 2.0 (the "License");
// you may not use this file except in compliance with the License.
// You may obtain a copy of the License at
//
//     http://www.apache.org/licenses/LICENSE-2.0
//
// Unless required by applicable law or agreed to in writing, software
// distributed under the License is distributed on an "AS IS" BASIS,
// WITHOUT WARRANTIES OR CONDITIONS OF ANY KIND, either express or implied.
// See the License for the specific language governing permissions and
// limitations under the License.

use std::ops::Range;

use crate::{Dimension2, Intersection, max, min, Point2, Ray2, Scalar, Union, Vector2};

/// Axis-aligned bounding box in 2D space.
#[derive(Clone, PartialEq, Debug)]
pub struct BoundingBox2<S: Scalar> {
    pub min: Point2<S>,
    pub max: Point2<S>,
}

/// Alias for `BoundingBox2<f32>`.
pub type BoundingBox2f = BoundingBox2<f32>;

/// Alias for `BoundingBox2<f64>`.
pub type BoundingBox2d = BoundingBox2<f64>;

// ===== BoundingBox2 ==========================================================================================================================================

impl<S: Scalar> BoundingBox2<S> {
    /// Creates and returns a new `BoundingBox2` with minimum and maximum corner points.
    #[inline]
    pub fn new(p1: Point2<S>, p2: Point2<S>) -> BoundingBox2<S> {
        let min = min(p1, p2);
        let max = max(p1, p2);

        BoundingBox2 { min, max }
    }

    /// Returns an empty `BoundingBox2`.
    #[inline]
    pub fn empty() -> BoundingBox2<S> {
        BoundingBox2 {
            min: Point2::new(S::infinity(), S::infinity()),
            max: Point2::new(S::neg_infinity(), S::neg_infinity()),
        }
    }

    /// Returns an infinite `BoundingBox2` which contains all of 2D space.
    #[inline]
    pub fn infinite() -> BoundingBox2<S> {
        BoundingBox2 {
            min: Point2::new(S::neg_infinity(), S::neg_infinity()),
            max: Point2::new(S::infinity(), S::infinity()),
        }
    }

    /// Returns the width (extent in the X dimension) of this bounding box.
    #[inline]
    pub fn width(&self) -> S {
        self.max.x - self.min.x
    }

    /// Returns the height (extent in the Y dimension) of this bounding box.
    #[inline]
    pub fn height(&self) -> S {
        self.max.y - self.min.y
    }

    /// Returns the size (extent in X and Y dimensions) of this bounding box.
    #[inline]
    pub fn size(&self) -> (S, S) {
        (self.width(), self.height())
    }

    /// Returns the extent of this bounding box in a dimension.
    #[inline]
    pub fn extent(&self, dim: Dimension2) -> S {
        match dim {
            Dimension2::X => self.width(),
            Dimension2::Y => self.height(),
        }
    }

    /// Returns the dimension with the smallest extent of this bounding box.
    #[inline]
    pub fn min_dimension(&self) -> Dimension2 {
        let d = self.diagonal();
        if d.x <= d.y { Dimension2::X } else { Dimension2::Y }
    }

    /// Returns the dimension with the largest extent of this bounding box.
    #[inline]
    pub fn max_dimension(&self) -> Dimension2 {
        let d = self.diagonal();
        if d.x > d.y { Dimension2::X } else { Dimension2::Y }
    }

    /// Returns the area (width times height) of this bounding box.
    #[inline]
    pub fn area(&self) -> S {
        let (width, height) = self.size();
        width * height
    }

    /// Returns the center point of this bounding box.
    #[inline]
    pub fn center(&self) -> Point2<S> {
        self.min + self.diagonal() * S::half()
    }

    /// Returns a corner point of this bounding box, indicated by an index (which must be in the range `0..=3`).
    #[inline]
    pub fn corner(&self, index: u32) -> Point2<S> {
        debug_assert!(index < 4, "Invalid corner index: {}", index);
        let x = if index & 0b01 == 0 { self.min.x } else { self.max.x };
        let y = if index & 0b10 == 0 { self.min.y } else { self.max.y };
        Point2::new(x, y)
    }

    /// Returns the diagonal of this bounding box as a vector.
    #[inline]
    pub fn diagonal(&self) -> Vector2<S> {
        self.max - self.min
    }

    /// Checks if two bounding boxes overlap.
    #[inline]
    pub fn overlaps(&self, bb: &BoundingBox2<S>) -> bool {
        //@formatter:off
        self.max.x >= bb.min.x && self.min.x <= bb.max.x &&
        self.max.y >= bb.min.y && self.min.y <= bb.max.y
        //@formatter:on
    }

    /// Checks if a point is inside this bounding box.
    #[inline]
    pub fn is_inside(&self, p: Point2<S>) -> bool {
        //@formatter:off
        p.x >= self.min.x && p.x <= self.max.x &&
        p.y >= self.min.y && p.y <= self.max.y
        //@formatter:on
    }
}

impl<S: Scalar> Union<&BoundingBox2<S>> for &BoundingBox2<S> {
    type Output = BoundingBox2<S>;

    /// Computes and returns the union between two bounding boxes.
    ///
    /// The union is the smallest bounding box that contains both bounding boxes.
    #[inline]
    fn union(self, bb: &BoundingBox2<S>) -> BoundingBox2<S> {
        BoundingBox2::new(min(self.min, bb.min), max(self.max, bb.max))
    }
}

impl<S: Scalar> Union<Point2<S>> for &BoundingBox2<S> {
    type Output = BoundingBox2<S>;

    /// Computes and returns the union between this bounding box and a point.
    ///
    /// The union is the smallest bounding box that contains both the bounding box and the point.
    #[inline]
    fn union(self, p: Point2<S>) -> BoundingBox2<S> {
        BoundingBox2::new(min(self.min, p), max(self.max, p))
    }
}

impl<S: Scalar> Intersection<&BoundingBox2<S>> for &BoundingBox2<S> {
    type Output = BoundingBox2<S>;

    /// Computes and returns the intersection between two bounding boxes.
    ///
    /// The intersection is the largest bounding box that contains the region where the two bounding boxes overlap.
    ///
    /// Returns `Some` when the bounding boxes overlap; `None` if the bounding boxes do not overlap.
    #[inline]
    fn intersect(self, bb: &BoundingBox2<S>) -> Option<BoundingBox2<S>> {
        if self.overlaps(bb) {
            Some(BoundingBox2::new(max(self.min, bb.min), min(self.max, bb.max)))
        } else {
            None
        }
    }
}

impl<S: Scalar> Intersection<&Ray2<S>> for &BoundingBox2<S> {
    type Output = Range<S>;

    /// Computes the intersections of this bounding box with a ray.
    ///
    /// Returns a `Some` containing the range in which the ray intersects the bounding box, or `None` if the ray does not intersect the bounding box.
    fn intersect(self, ray: &Ray2<S>) -> Option<Range<S>> {
        let (start, end) = (S::zero(), S::infinity());

        let d1 = (self.min.x - ray.origin.x) / ray.direction.x;
        let d2 = (self.max.x - ray.origin.x) / ray.direction.x;

        let start = max(start, min(d1, d2));
        let end = min(end, max(d1, d2));

        if start > end {
            return None;
        }

        let d1 = (self.min.y - ray.origin.y) / ray.direction.y;
        let d2 = (self.max.y - ray.origin.y) / ray.direction.y;

        let start = max(start, min(d1, d2));
        let end = min(end, max(d1, d2));

        if start <= end {
            Some(start..end)
        } else {
            None
        }
    }
}
"##

rust_source boundingbox3 := r##"// Copyright 2024 Jesper de Jong
//
// Licensed under the Apache License, Version 2.0 (the "License");
// you may not use this file except in compliance with the License.
// You may obtain a copy of the License at
//
//     http://www.apache.org/licenses/LICENSE-2.0
//
// Unless required by applicable law or agreed to in writing, software
// distributed under the License is distributed on an "AS IS" BASIS,
// WITHOUT WARRANTIES OR CONDITIONS OF ANY KIND, either express or implied.
// See the License for the specific language governing permissions and
// limitations under the License.

use std::ops::Range;

use crate::{Dimension3, Intersection, max, min, Point3, Ray3, Scalar, Union, Vector3};

/// Axis-aligned bounding box in 3D space.
#[derive(Clone, PartialEq, Debug)]
pub struct BoundingBox3<S: Scalar> {
    pub min: Point3<S>,
    pub max: Point3<S>,
}

/// Alias for `BoundingBox3<f32>`.
pub type BoundingBox3f = BoundingBox3<f32>;

/// Alias for `BoundingBox2<f64>`.
pub type BoundingBox3d = BoundingBox3<f64>;

// ===== BoundingBox3 ==========================================================================================================================================

impl<S: Scalar> BoundingBox3<S> {
    /// Creates and returns a new `BoundingBox3` with minimum and maximum corner points.
    #[inline]
    pub fn new(p1: Point3<S>, p2: Point3<S>) -> BoundingBox3<S> {
        let min = min(p1, p2);
        let max = max(p1, p2);

        BoundingBox3 { min, max }
    }

    /// Returns an empty `BoundingBox3`.
    #[inline]
    pub fn empty() -> BoundingBox3<S> {
        BoundingBox3 {
            min: Point3::new(S::infinity(), S::infinity(), S::infinity()),
            max: Point3::new(S::neg_infinity(), S::neg_infinity(), S::neg_infinity()),
        }
    }

    /// Returns an infinite `BoundingBox3` which contains all of 3D space.
    #[inline]
    pub fn infinite() -> BoundingBox3<S> {
        BoundingBox3 {
            min: Point3::new(S::neg_infinity(), S::neg_infinity(), S::neg_infinity()),
            max: Point3::new(S::infinity(), S::infinity(), S::infinity()),
        }
    }

    /// Returns the width (extent in the X dimension) of this bounding box.
    #[inline]
    pub fn width(&self) -> S {
        self.max.x - self.min.x
    }

    /// Returns the height (extent in the Y dimension) of this bounding box.
    #[inline]
    pub fn height(&self) -> S {
        self.max.y - self.min.y
    }

    /// Returns the depth (extent in the Z dimension) of this bounding box.
    #[inline]
    pub fn depth(&self) -> S {
        self.max.z - self.min.z
    }

    /// Returns the size (extent in X, Y and Z dimensions) of this bounding box.
    #[inline]
    pub fn size(&self) -> (S, S, S) {
        (self.width(), self.height(), self.depth())
    }

    /// Returns the extent of this bounding box in a dimension.
    #[inline]
    pub fn extent(&self, dim: Dimension3) -> S {
        match dim {
            Dimension3::X => self.width(),
            Dimension3::Y => self.height(),
            Dimension3::Z => self.depth(),
        }
    }

    /// Returns the dimension with the smallest extent of this bounding box.
    #[inline]
    pub fn min_dimension(&self) -> Dimension3 {
        let d = self.diagonal();
        if d.x <= d.y && d.x <= d.z { Dimension3::X } else if d.y <= d.z { Dimension3::Y } else { Dimension3::Z }
    }

    /// Returns the dimension with the largest extent of this bounding box.
    #[inline]
    pub fn max_dimension(&self) -> Dimension3 {
        let d = self.diagonal();
        if d.x > d.y && d.x > d.z { Dimension3::X } else if d.y > d.z { Dimension3::Y } else { Dimension3::Z }
    }

    /// Returns the surface area of this bounding box.
    #[inline]
    pub fn surface_area(&self) -> S {
        let d = self.diagonal();
        S::two() * (d.x * d.y + d.x * d.z + d.y * d.z)
    }

    /// Returns the volume (width times height times depth) of this bounding box.
    #[inline]
    pub fn volume(&self) -> S {
        let (width, height, depth) = self.size();
        width * height * depth
    }

    /// Returns the center point of this bounding box.
    #[inline]
    pub fn center(&self) -> Point3<S> {
        self.min + self.diagonal() * S::half()
    }

    /// Returns a corner point of this bounding box, indicated by an index (which must be in the range `0..=7`).
    #[inline]
    pub fn corner(&self, index: u32) -> Point3<S> {
        debug_assert!(index < 8, "Invalid corner index: {}", index);
        let x = if index & 0b001 == 0 { self.min.x } else { self.max.x };
        let y = if index & 0b010 == 0 { self.min.y } else { self.max.y };
        let z = if index & 0b100 == 0 { self.min.z } else { self.max.z };
        Point3::new(x, y, z)
    }

    /// Returns the diagonal of this bounding box as a vector.
    #[inline]
    pub fn diagonal(&self) -> Vector3<S> {
        self.max - self.min
    }

    /// Checks if two bounding boxes overlap.
    #[inline]
    pub fn overlaps(&self, bb: &BoundingBox3<S>) -> bool {
        //@formatter:off
        self.max.x >= bb.min.x && self.min.x <= bb.max.x &&
        self.max.y >= bb.min.y && self.min.y <= bb.max.y &&
        self.max.z >= bb.min.z && self.min.z <= bb.max.z
        //@formatter:on
    }

    /// Checks if a point is inside this bounding box.
    #[inline]
    pub fn is_inside(&self, p: Point3<S>) -> bool {
        //@formatter:off
        p.x >= self.min.x && p.x <= self.max.x &&
        p.y >= self.min.y && p.y <= self.max.y &&
        p.z >= self.min.z && p.z <= self.max.z
        //@formatter:on
    }
}

impl<S: Scalar> Union<&BoundingBox3<S>> for &BoundingBox3<S> {
    type Output = BoundingBox3<S>;

    /// Computes and returns the union between two bounding boxes.
    ///
    /// The union is the smallest bounding box that contains both bounding boxes.
    #[inline]
    fn union(self, bb: &BoundingBox3<S>) -> BoundingBox3<S> {
        BoundingBox3::new(min(self.min, bb.min), max(self.max, bb.max))
    }
}

impl<S: Scalar> Union<Point3<S>> for &BoundingBox3<S> {
    type Output = BoundingBox3<S>;

    /// Computes and returns the union between this bounding box and a point.
    ///
    /// The union is the smallest bounding box that contains both the bounding box and the point.
    #[inline]
    fn union(self, p: Point3<S>) -> BoundingBox3<S> {
        BoundingBox3::new(min(self.min, p), max(self.max, p))
    }
}

impl<S: Scalar> Intersection<&BoundingBox3<S>> for &BoundingBox3<S> {
    type Output = BoundingBox3<S>;

    /// Computes and returns the intersection between two bounding boxes.
    ///
    /// The intersection is the largest bounding box that contains the region where the two bounding boxes overlap.
    ///
    /// Returns `Some` when the bounding boxes overlap; `None` if the bounding boxes do not overlap.
    #[inline]
    fn intersect(self, bb: &BoundingBox3<S>) -> Option<BoundingBox3<S>> {
        if self.overlaps(bb) {
            Some(BoundingBox3::new(max(self.min, bb.min), min(self.max, bb.max)))
        } else {
            None
        }
    }
}

impl<S: Scalar> Intersection<&Ray3<S>> for &BoundingBox3<S> {
    type Output = Range<S>;

    /// Computes the intersections of this bounding box with a ray.
    ///
    /// Returns a `Some` containing the range in which the ray intersects the bounding box, or `None` if the ray does not intersect the bounding box.
    fn intersect(self, ray: &Ray3<S>) -> Option<Range<S>> {
        let (start, end) = (S::zero(), S::infinity());

        let d1 = (self.min.x - ray.origin.x) / ray.direction.x;
        let d2 = (self.max.x - ray.origin.x) / ray.direction.x;

        let start = max(start, min(d1, d2));
        let end = min(end, max(d1, d2));

        if start > end {
            return None;
        }

        let d1 = (self.min.y - ray.origin.y) / ray.direction.y;
        let d2 = (self.max.y - ray.origin.y) / ray.direction.y;

        let start = max(start, min(d1, d2));
        let end = min(end, max(d1, d2));

        if start > end {
            return None;
        }

        let d1 = (self.min.z - ray.origin.z) / ray.direction.z;
        let d2 = (self.max.z - ray.origin.z) / ray.direction.z;

        let start = max(start, min(d1, d2));
        let end = min(end, max(d1, d2));

        if start <= end {
            Some(start..end)
        } else {
            None
        }
    }
}
"##

rust_source transform2 := r##"// Copyright 2024 Jesper de Jong
//
// Licensed under the Apache License, Version 2.0 (the "License");
// you may not use this file except in compliance with the License.
// You may obtain a copy of the License at
//
//     http://www.apache.org/licenses/LICENSE-2.0
//
// Unless required by applicable law or agreed to in writing, software
// distributed under the License is distributed on an "AS IS" BASIS,
// WITHOUT WARRANTIES OR CONDITIONS OF ANY KIND, either express or implied.
// See the License for the specific language governing permissions and
// limitations under the License.

use std::array;
use std::ops::{Div, DivAssign, Mul, MulAssign};

use crate::{BoundingBox2, max, min, NonInvertibleMatrixError, Point2, Ray2, Scalar, Transform, Vector2};

/// Matrix with 3 rows and 3 columns for transformations in 2D space.
#[derive(Clone, PartialEq, Debug)]
pub struct Matrix3x3<S: Scalar> {
    m: [S; 9],
}

/// Alias for `Matrix3x3<f32>`.
pub type Matrix3x3f = Matrix3x3<f32>;

/// Alias for `Matrix3x3<f64>`.
pub type Matrix3x3d = Matrix3x3<f64>;

/// Transform for transformations in 2D space.
#[derive(Clone, PartialEq, Debug)]
pub struct Transform2<S: Scalar> {
    pub forward: Matrix3x3<S>,
    pub inverse: Matrix3x3<S>,
}

/// Alias for `Transform2<f32>`.
pub type Transform2f = Transform2<f32>;

/// Alias for `Transform2<f64>`.
pub type Transform2d = Transform2<f64>;

// ===== Matrix3x3 =============================================================================================================================================

impl<S: Scalar> Matrix3x3<S> {
    /// Creates and returns a new `Matrix3x3` with the specified elements.
    #[inline]
    pub fn new(m: [S; 9]) -> Matrix3x3<S> {
        Matrix3x3 { m }
    }

    /// Returns a `Matrix3x3` which represents the identity matrix.
    #[inline]
    pub fn identity() -> Matrix3x3<S> {
        let (o, i) = (S::zero(), S::one());

        Matrix3x3::new([
            i, o, o,
            o, i, o,
            o, o, i,
        ])
    }

    /// Returns a translation matrix which translates over a vector.
    #[inline]
    pub fn translate(v: Vector2<S>) -> Matrix3x3<S> {
        let (o, i) = (S::zero(), S::one());

        Matrix3x3::new([
            i, o, v.x,
            o, i, v.y,
            o, o, i,
        ])
    }

    /// Returns a rotation matrix which rotates around the origin.
    #[inline]
    pub fn rotate(angle: S) -> Matrix3x3<S> {
        let (o, i) = (S::zero(), S::one());
        let (sin, cos) = angle.sin_cos();

        Matrix3x3::new([
            cos, -sin, o,
            sin, cos, o,
            o, o, i,
        ])
    }

    /// Returns a matrix which scales by factors in the X and Y dimensions.
    #[inline]
    pub fn scale(sx: S, sy: S) -> Matrix3x3<S> {
        let (o, i) = (S::zero(), S::one());

        Matrix3x3::new([
            sx, o, o,
            o, sy, o,
            o, o, i,
        ])
    }

    /// Returns a matrix which scales uniformly in all dimensions by a factor.
    #[inline]
    pub fn scale_uniform(s: S) -> Matrix3x3<S> {
        let (o, i) = (S::zero(), S::one());

        Matrix3x3::new([
            s, o, o,
            o, s, o,
            o, o, i,
        ])
    }

    /// Returns an element at a row and column of the matrix.
    #[inline]
    pub fn get(&self, row: u32, col: u32) -> S {
        self.m[Self::linear_index(row, col)]
    }

    /// Returns a mutable reference to an element at a row and column of the matrix.
    #[inline]
    pub fn get_mut(&mut self, row: u32, col: u32) -> &mut S {
        &mut self.m[Self::linear_index(row, col)]
    }

    /// Sets the value of an element at a row and column of the matrix.
    #[inline]
    pub fn set(&mut self, row: u32, col: u32, value: S) {
        self.m[Self::linear_index(row, col)] = value;
    }

    #[inline]
    fn linear_index(row: u32, col: u32) -> usize {
        debug_assert!(row < 3, "Invalid row index: {}", row);
        debug_assert!(col < 3, "Invalid column index: {}", col);
        (row * 3 + col) as usize
    }

    /// Returns the transpose of this matrix.
    #[inline]
    pub fn transpose(&self) -> Matrix3x3<S> {
        Matrix3x3::new([
            self.m[0], self.m[3], self.m[6],
            self.m[1], self.m[4], self.m[7],
            self.m[2], self.m[5], self.m[8],
        ])
    }

    /// Computes and returns the inverse of this matrix.
    ///
    /// If this matrix is singular, a `NonInvertibleMatrixError` is returned.
    pub fn inverse(&self) -> Result<Matrix3x3<S>, NonInvertibleMatrixError> {
        let det = self.m[0] * self.m[4] * self.m[8] + self.m[1] * self.m[5] * self.m[6] + self.m[2] * self.m[3] * self.m[7]
            - self.m[2] * self.m[4] * self.m[6] - self.m[1] * self.m[3] * self.m[8] - self.m[0] * self.m[5] * self.m[7];

        if det != S::zero() {
            Ok(Matrix3x3::new([
                (self.m[4] * self.m[8] - self.m[5] * self.m[7]) / det,
                (self.m[2] * self.m[7] - self.m[1] * self.m[8]) / det,
                (self.m[1] * self.m[5] - self.m[2] * self.m[4]) / det,
                (self.m[5] * self.m[6] - self.m[3] * self.m[8]) / det,
                (self.m[0] * self.m[8] - self.m[2] * self.m[6]) / det,
                (self.m[2] * self.m[3] - self.m[0] * self.m[5]) / det,
                (self.m[3] * self.m[7] - self.m[4] * self.m[6]) / det,
                (self.m[1] * self.m[6] - self.m[0] * self.m[7]) / det,
                (self.m[0] * self.m[4] - self.m[1] * self.m[3]) / det,
            ]))
        } else {
            Err(NonInvertibleMatrixError)
        }
    }
}

impl<S: Scalar> Mul<S> for &Matrix3x3<S> {
    type Output = Matrix3x3<S>;

    #[inline]
    fn mul(self, s: S) -> Matrix3x3<S> {
        Matrix3x3::new(array::from_fn(|i| self.m[i] * s))
    }
}

impl<S: Scalar> MulAssign<S> for &mut Matrix3x3<S> {
    #[inline]
    fn mul_assign(&mut self, s: S) {
        for m in &mut self.m { *m *= s; }
    }
}

impl Mul<&Matrix3x3f> for f32 {
    type Output = Matrix3x3f;

    #[inline]
    fn mul(self, m: &Matrix3x3f) -> Matrix3x3f {
        m * self
    }
}

impl Mul<&Matrix3x3d> for f64 {
    type Output = Matrix3x3d;

    #[inline]
    fn mul(self, m: &Matrix3x3d) -> Matrix3x3d {
        m * self
    }
}

impl<S: Scalar> Div<S> for &Matrix3x3<S> {
    type Output = Matrix3x3<S>;

    #[inline]
    fn div(self, s: S) -> Matrix3x3<S> {
        Matrix3x3::new(array::from_fn(|i| self.m[i] / s))
    }
}

impl<S: Scalar> DivAssign<S> for &mut Matrix3x3<S> {
    #[inline]
    fn div_assign(&mut self, s: S) {
        for m in &mut self.m { *m /= s; }
    }
}

impl<S: Scalar> Mul<Point2<S>> for &Matrix3x3<S> {
    type Output = Point2<S>;

    #[inline]
    fn mul(self, p: Point2<S>) -> Point2<S> {
        let x = self.m[0] * p.x + self.m[1] * p.y + self.m[2];
        let y = self.m[3] * p.x + self.m[4] * p.y + self.m[5];
        let w = self.m[6] * p.x + self.m[7] * p.y + self.m[8];
        Point2::new(x / w, y / w)
    }
}

impl<S: Scalar> Mul<&Matrix3x3<S>> for Point2<S> {
    type Output = Point2<S>;

    #[inline]
    fn mul(self, m: &Matrix3x3<S>) -> Point2<S> {
        let x = self.x * m.m[0] + self.y * m.m[3] + m.m[6];
        let y = self.x * m.m[1] + self.y * m.m[4] + m.m[7];
        let w = self.x * m.m[2] + self.y * m.m[5] + m.m[8];
        Point2::new(x / w, y / w)
    }
}

impl<S: Scalar> Mul<Vector2<S>> for &Matrix3x3<S> {
    type Output = Vector2<S>;

    #[inline]
    fn mul(self, v: Vector2<S>) -> Vector2<S> {
        let x = self.m[0] * v.x + self.m[1] * v.y;
        let y = self.m[3] * v.x + self.m[4] * v.y;
        Vector2::new(x, y)
    }
}

impl<S: Scalar> Mul<&Matrix3x3<S>> for Vector2<S> {
    type Output = Vector2<S>;

    #[inline]
    fn mul(self, m: &Matrix3x3<S>) -> Vector2<S> {
        let x = self.x * m.m[0] + self.y * m.m[3];
        let y = self.x * m.m[1] + self.y * m.m[4];
        Vector2::new(x, y)
    }
}

impl<S: Scalar> Mul<&Matrix3x3<S>> for &Matrix3x3<S> {
    type Output = Matrix3x3<S>;

    fn mul(self, rhs: &Matrix3x3<S>) -> Matrix3x3<S> {
        Matrix3x3::new([
            self.m[0] * rhs.m[0] + self.m[1] * rhs.m[3] + self.m[2] * rhs.m[6],
            self.m[0] * rhs.m[1] + self.m[1] * rhs.m[4] + self.m[2] * rhs.m[7],
            self.m[0] * rhs.m[2] + self.m[1] * rhs.m[5] + self.m[2] * rhs.m[8],
            self.m[3] * rhs.m[0] + self.m[4] * rhs.m[3] + self.m[5] * rhs.m[6],
            self.m[3] * rhs.m[1] + self.m[4] * rhs.m[4] + self.m[5] * rhs.m[7],
            self.m[3] * rhs.m[2] + self.m[4] * rhs.m[5] + self.m[5] * rhs.m[8],
            self.m[6] * rhs.m[0] + self.m[7] * rhs.m[3] + self.m[8] * rhs.m[6],
            self.m[6] * rhs.m[1] + self.m[7] * rhs.m[4] + self.m[8] * rhs.m[7],
            self.m[6] * rhs.m[2] + self.m[7] * rhs.m[5] + self.m[8] * rhs.m[8],
        ])
    }
}

// ===== Transform2 ============================================================================================================================================

impl<S: Scalar> Transform2<S> {
    /// Creates and returns a new `Transform2` with a transformation matrix and its inverse.
    #[inline]
    pub fn new(forward: Matrix3x3<S>, inverse: Matrix3x3<S>) -> Transform2<S> {
        Transform2 { forward, inverse }
    }

    /// Returns a `Transform2` which represents the identity transform.
    #[inline]
    pub fn identity() -> Transform2<S> {
        let forward = Matrix3x3::identity();
        let inverse = forward.clone();
        Transform2::new(forward, inverse)
    }

    /// Returns a translation transform over a vector.
    #[inline]
    pub fn translate(v: Vector2<S>) -> Transform2<S> {
        let forward = Matrix3x3::translate(v);
        let inverse = Matrix3x3::translate(-v);
        Transform2::new(forward, inverse)
    }

    /// Returns a rotation transform which rotates around the origin.
    #[inline]
    pub fn rotate(angle: S) -> Transform2<S> {
        let forward = Matrix3x3::rotate(angle);
        let inverse = forward.transpose();
        Transform2::new(forward, inverse)
    }

    /// Returns a transform which scales by factors in the X and Y dimensions.
    #[inline]
    pub fn scale(sx: S, sy: S) -> Transform2<S> {
        let forward = Matrix3x3::scale(sx, sy);
        let inverse = Matrix3x3::scale(sx.recip(), sy.recip());
        Transform2::new(forward, inverse)
    }

    /// Returns a transform which scales uniformly in all dimensions by a factor.
    #[inline]
    pub fn scale_uniform(s: S) -> Transform2<S> {
        let forward = Matrix3x3::scale_uniform(s);
        let inverse = Matrix3x3::scale_uniform(s.recip());
        Transform2::new(forward, inverse)
    }

    /// Computes and returns a composite transform, which first applies this and then the other transform.
    #[inline]
    pub fn and_then(&self, next: &Transform2<S>) -> Transform2<S> {
        let forward = &next.forward * &self.forward;
        let inverse = &self.inverse * &next.inverse;
        Transform2::new(forward, inverse)
    }

    /// Returns the inverse of this transform.
    #[inline]
    pub fn inverse(&self) -> Transform2<S> {
        let forward = self.inverse.clone();
        let inverse = self.forward.clone();
        Transform2::new(forward, inverse)
    }
}

impl<S: Scalar> Transform<Point2<S>> for Transform2<S> {
    type Output = Point2<S>;

    /// Transforms a point.
    #[inline]
    fn transform(&self, p: Point2<S>) -> Point2<S> {
        &self.forward * p
    }
}

impl<S: Scalar> Transform<Vector2<S>> for Transform2<S> {
    type Output = Vector2<S>;

    /// Transforms a vector.
    #[inline]
    fn transform(&self, v: Vector2<S>) -> Vector2<S> {
        &self.forward * v
    }
}

impl<S: Scalar> Transform<&Ray2<S>> for Transform2<S> {
    type Output = Ray2<S>;

    /// Transforms a ray.
    #[inline]
    fn transform(&self, ray: &Ray2<S>) -> Ray2<S> {
        Ray2::new(self.transform(ray.origin), self.transform(ray.direction))
    }
}

impl<S: Scalar> Transform<&BoundingBox2<S>> for Transform2<S> {
    type Output = BoundingBox2<S>;

    /// Transforms a bounding box.
    fn transform(&self, bb: &BoundingBox2<S>) -> BoundingBox2<S> {
        let o = self.transform(bb.min);
        let d = self.transform(bb.diagonal());

        let (mut min_corner, mut max_corner) = (o, o);
        for i in 1..=3 {
            let mut corner = o;
            if i & 0b01 != 0 { corner.x += d.x; }
            if i & 0b10 != 0 { corner.y += d.y; }

            min_corner = min(min_corner, corner);
            max_corner = max(max_corner, corner);
        }

        BoundingBox2::new(min_corner, max_corner)
    }
}

impl<S: Scalar> TryFrom<Matrix3x3<S>> for Transform2<S> {
    type Error = NonInvertibleMatrixError;

    #[inline]
    fn try_from(forward: Matrix3x3<S>) -> Result<Transform2<S>, NonInvertibleMatrixError> {
        let inverse = forward.inverse()?;
        Ok(Transform2::new(forward, inverse))
    }
}
"##

rust_source transform3 := r##"// Copyright 2024 Jesper de Jong
//
// Licensed under the Apache License, Version 2.0 (the "License");
// you may not use this file except in compliance with the License.
// You may obtain a copy of the License at
//
//     http://www.apache.org/licenses/LICENSE-2.0
//
// Unless required by applicable law or agreed to in writing, software
// distributed under the License is distributed on an "AS IS" BASIS,
// WITHOUT WARRANTIES OR CONDITIONS OF ANY KIND, either express or implied.
// See the License for the specific language governing permissions and
// limitations under the License.

use std::array;
use std::ops::{Div, DivAssign, Mul, MulAssign};

use crate::{BoundingBox3, CrossProduct, max, min, NonInvertibleMatrixError, Point3, Ray3, Scalar, Transform, Vector3};

/// Matrix with 4 rows and 4 columns for transformations in 3D space.
#[derive(Clone, PartialEq, Debug)]
pub struct Matrix4x4<S: Scalar> {
    m: [S; 16],
}

/// Alias for `Matrix4x4<f32>`.
pub type Matrix4x4f = Matrix4x4<f32>;

/// Alias for `Matrix4x4<f64>`.
pub type Matrix4x4d = Matrix4x4<f64>;

/// Transform for transformations in 3D space.
#[derive(Clone, PartialEq, Debug)]
pub struct Transform3<S: Scalar> {
    pub forward: Matrix4x4<S>,
    pub inverse: Matrix4x4<S>,
}

/// Alias for `Transform3<f32>`.
pub type Transform3f = Transform3<f32>;

/// Alias for `Transform3<f64>`.
pub type Transform3d = Transform3<f64>;

// ===== Matrix4x4 =============================================================================================================================================

impl<S: Scalar> Matrix4x4<S> {
    /// Creates and returns a new `Matrix4x4` with the specified elements.
    #[inline]
    pub fn new(m: [S; 16]) -> Matrix4x4<S> {
        Matrix4x4 { m }
    }

    /// Returns a `Matrix4x4` which represents the identity matrix.
    #[inline]
    pub fn identity() -> Matrix4x4<S> {
        let (o, i) = (S::zero(), S::one());

        Matrix4x4::new([
            i, o, o, o,
            o, i, o, o,
            o, o, i, o,
            o, o, o, i,
        ])
    }

    /// Returns a translation matrix which translates over a vector.
    #[inline]
    pub fn translate(v: Vector3<S>) -> Matrix4x4<S> {
        let (o, i) = (S::zero(), S::one());

        Matrix4x4::new([
            i, o, o, v.x,
            o, i, o, v.y,
            o, o, i, v.z,
            o, o, o, i,
        ])
    }

    /// Returns a rotation matrix which rotates around the X axis.
    #[inline]
    pub fn rotate_x(angle: S) -> Matrix4x4<S> {
        let (o, i) = (S::zero(), S::one());
        let (sin, cos) = angle.sin_cos();

        Matrix4x4::new([
            i, o, o, o,
            o, cos, -sin, o,
            o, sin, cos, o,
            o, o, o, i,
        ])
    }

    /// Returns a rotation matrix which rotates around the Y axis.
    #[inline]
    pub fn rotate_y(angle: S) -> Matrix4x4<S> {
        let (o, i) = (S::zero(), S::one());
        let (sin, cos) = angle.sin_cos();

        Matrix4x4::new([
            cos, o, sin, o,
            o, i, o, o,
            -sin, o, cos, o,
            o, o, o, i,
        ])
    }

    /// Returns a rotation matrix which rotates around the Z axis.
    #[inline]
    pub fn rotate_z(angle: S) -> Matrix4x4<S> {
        let (o, i) = (S::zero(), S::one());
        let (sin, cos) = angle.sin_cos();

        Matrix4x4::new([
            cos, -sin, o, o,
            sin, cos, o, o,
            o, o, i, o,
            o, o, o, i,
        ])
    }

    /// Returns a rotation matrix which rotates around an axis.
    #[inline]
    pub fn rotate_axis(axis: Vector3<S>, angle: S) -> Matrix4x4<S> {
        let a = axis.normalize();

        let (o, i) = (S::zero(), S::one());
        let (s, c) = angle.sin_cos();
        let cc = S::one() - c;

        let (t1, t2, t3) = (a.x * a.y * cc, a.x * a.z * cc, a.y * a.z * cc);
        let (u1, u2, u3) = (a.x * s, a.y * s, a.z * s);

        Matrix4x4::new([
            a.x * a.x * cc + c, t1 - u3, t2 + u2, o,
            t1 + u3, a.y * a.y * cc + c, t3 - u1, o,
            t2 - u2, t3 + u1, a.z * a.z * cc + c, o,
            o, o, o, i,
        ])
    }

    /// Returns a matrix which scales by factors in the X, Y and Z dimensions.
    #[inline]
    pub fn scale(sx: S, sy: S, sz: S) -> Matrix4x4<S> {
        let (o, i) = (S::zero(), S::one());

        Matrix4x4::new([
            sx, o, o, o,
            o, sy, o, o,
            o, o, sz, o,
            o, o, o, i,
        ])
    }

    /// Returns a matrix which scales uniformly in all dimensions by a factor.
    #[inline]
    pub fn scale_uniform(s: S) -> Matrix4x4<S> {
        let (o, i) = (S::zero(), S::one());

        Matrix4x4::new([
            s, o, o, o,
            o, s, o, o,
            o, o, s, o,
            o, o, o, i,
        ])
    }

    /// Returns the inverse of a look-at transformation matrix which looks from a point at a target, with an 'up' direction.
    #[inline]
    pub fn inverse_look_at(from: Point3<S>, target: Point3<S>, up: Vector3<S>) -> Matrix4x4<S> {
        let (o, i) = (S::zero(), S::one());
        let direction = (target - from).normalize();
        let right = up.normalize().cross(direction).normalize();
        let new_up = direction.cross(right);

        Matrix4x4::new([
            right.x, new_up.x, direction.x, from.x,
            right.y, new_up.y, direction.y, from.y,
            right.z, new_up.z, direction.z, from.z,
            o, o, o, i,
        ])
    }

    /// Returns an element at a row and column of the matrix.
    #[inline]
    pub fn get(&self, row: u32, col: u32) -> S {
        self.m[Self::linear_index(row, col)]
    }

    /// Returns a mutable reference to an element at a row and column of the matrix.
    #[inline]
    pub fn get_mut(&mut self, row: u32, col: u32) -> &mut S {
        &mut self.m[Self::linear_index(row, col)]
    }

    /// Sets the value of an element at a row and column of the matrix.
    #[inline]
    pub fn set(&mut self, row: u32, col: u32, value: S) {
        self.m[Self::linear_index(row, col)] = value;
    }

    #[inline]
    fn linear_index(row: u32, col: u32) -> usize {
        debug_assert!(row < 4, "Invalid row index: {}", row);
        debug_assert!(col < 4, "Invalid column index: {}", col);
        (row * 4 + col) as usize
    }

    /// Returns the transpose of this matrix.
    #[inline]
    pub fn transpose(&self) -> Matrix4x4<S> {
        Matrix4x4::new([
            self.m[0], self.m[4], self.m[8], self.m[12],
            self.m[1], self.m[5], self.m[9], self.m[13],
            self.m[2], self.m[6], self.m[10], self.m[14],
            self.m[3], self.m[7], self.m[11], self.m[15],
        ])
    }

    /// Computes and returns the inverse of this matrix.
    ///
    /// If this matrix is singular, a `NonInvertibleMatrixError` is returned.
    pub fn inverse(&self) -> Result<Matrix4x4<S>, NonInvertibleMatrixError> {
        let cofactor = |i, j| {
            let sub = |row, col| self.get(if row < i { row } else { row + 1 }, if col < j { col } else { col + 1 });

            let sign = if (i + j) % 2 == 0 { S::one() } else { -S::one() };

            sign * (sub(0, 0) * sub(1, 1) * sub(2, 2) + sub(0, 1) * sub(1, 2) * sub(2, 0) + sub(0, 2) * sub(1, 0) * sub(2, 1)
                - sub(0, 0) * sub(1, 2) * sub(2, 1) - sub(0, 1) * sub(1, 0) * sub(2, 2) - sub(0, 2) * sub(1, 1) * sub(2, 0))
        };

        let adjugate = Matrix4x4::new([
            cofactor(0, 0), cofactor(1, 0), cofactor(2, 0), cofactor(3, 0),
            cofactor(0, 1), cofactor(1, 1), cofactor(2, 1), cofactor(3, 1),
            cofactor(0, 2), cofactor(1, 2), cofactor(2, 2), cofactor(3, 2),
            cofactor(0, 3), cofactor(1, 3), cofactor(2, 3), cofactor(3, 3),
        ]);

        let det = self.m[0] * adjugate.m[0] + self.m[1] * adjugate.m[4] + self.m[2] * adjugate.m[8] + self.m[3] * adjugate.m[12];

        if det != S::zero() {
            Ok(&adjugate / det)
        } else {
            Err(NonInvertibleMatrixError)
        }
    }
}

impl<S: Scalar> Mul<S> for &Matrix4x4<S> {
    type Output = Matrix4x4<S>;

    #[inline]
    fn mul(self, s: S) -> Matrix4x4<S> {
        Matrix4x4::new(array::from_fn(|i| self.m[i] * s))
    }
}

impl<S: Scalar> MulAssign<S> for &mut Matrix4x4<S> {
    #[inline]
    fn mul_assign(&mut self, s: S) {
        for m in &mut self.m { *m *= s; }
    }
}

impl Mul<&Matrix4x4f> for f32 {
    type Output = Matrix4x4f;

    #[inline]
    fn mul(self, m: &Matrix4x4f) -> Matrix4x4f {
        m * self
    }
}

impl Mul<&Matrix4x4d> for f64 {
    type Output = Matrix4x4d;

    #[inline]
    fn mul(self, m: &Matrix4x4d) -> Matrix4x4d {
        m * self
    }
}

impl<S: Scalar> Div<S> for &Matrix4x4<S> {
    type Output = Matrix4x4<S>;

    #[inline]
    fn div(self, s: S) -> Matrix4x4<S> {
        Matrix4x4::new(array::from_fn(|i| self.m[i] / s))
    }
}

impl<S: Scalar> DivAssign<S> for &mut Matrix4x4<S> {
    #[inline]
    fn div_assign(&mut self, s: S) {
        for m in &mut self.m { *m /= s; }
    }
}

impl<S: Scalar> Mul<Point3<S>> for &Matrix4x4<S> {
    type Output = Point3<S>;

    #[inline]
    fn mul(self, p: Point3<S>) -> Point3<S> {
        let x = self.m[0] * p.x + self.m[1] * p.y + self.m[2] * p.z + self.m[3];
        let y = self.m[4] * p.x + self.m[5] * p.y + self.m[6] * p.z + self.m[7];
        let z = self.m[8] * p.x + self.m[9] * p.y + self.m[10] * p.z + self.m[11];
        let w = self.m[12] * p.x + self.m[13] * p.y + self.m[14] * p.z + self.m[15];
        Point3::new(x / w, y / w, z / w)
    }
}

impl<S: Scalar> Mul<&Matrix4x4<S>> for Point3<S> {
    type Output = Point3<S>;

    #[inline]
    fn mul(self, m: &Matrix4x4<S>) -> Point3<S> {
        let x = self.x * m.m[0] + self.y * m.m[4] + self.z * m.m[8] + m.m[12];
        let y = self.x * m.m[1] + self.y * m.m[5] + self.z * m.m[9] + m.m[13];
        let z = self.x * m.m[2] + self.y * m.m[6] + self.z * m.m[10] + m.m[14];
        let w = self.x * m.m[3] + self.y * m.m[7] + self.z * m.m[11] + m.m[15];
        Point3::new(x / w, y / w, z / w)
    }
}

impl<S: Scalar> Mul<Vector3<S>> for &Matrix4x4<S> {
    type Output = Vector3<S>;

    #[inline]
    fn mul(self, v: Vector3<S>) -> Vector3<S> {
        let x = self.m[0] * v.x + self.m[1] * v.y + self.m[2] * v.z;
        let y = self.m[4] * v.x + self.m[5] * v.y + self.m[6] * v.z;
        let z = self.m[8] * v.x + self.m[9] * v.y + self.m[10] * v.z;
        Vector3::new(x, y, z)
    }
}

impl<S: Scalar> Mul<&Matrix4x4<S>> for Vector3<S> {
    type Output = Vector3<S>;

    #[inline]
    fn mul(self, m: &Matrix4x4<S>) -> Vector3<S> {
        let x = self.x * m.m[0] + self.y * m.m[4] + self.z * m.m[8];
        let y = self.x * m.m[1] + self.y * m.m[5] + self.z * m.m[9];
        let z = self.x * m.m[2] + self.y * m.m[6] + self.z * m.m[10];
        Vector3::new(x, y, z)
    }
}

impl<S: Scalar> Mul<&Matrix4x4<S>> for &Matrix4x4<S> {
    type Output = Matrix4x4<S>;

    #[inline]
    fn mul(self, m: &Matrix4x4<S>) -> Matrix4x4<S> {
        Matrix4x4::new([
            self.m[0] * m.m[0] + self.m[1] * m.m[4] + self.m[2] * m.m[8] + self.m[3] * m.m[12],
            self.m[0] * m.m[1] + self.m[1] * m.m[5] + self.m[2] * m.m[9] + self.m[3] * m.m[13],
            self.m[0] * m.m[2] + self.m[1] * m.m[6] + self.m[2] * m.m[10] + self.m[3] * m.m[14],
            self.m[0] * m.m[3] + self.m[1] * m.m[7] + self.m[2] * m.m[11] + self.m[3] * m.m[15],
            self.m[4] * m.m[0] + self.m[5] * m.m[4] + self.m[6] * m.m[8] + self.m[7] * m.m[12],
            self.m[4] * m.m[1] + self.m[5] * m.m[5] + self.m[6] * m.m[9] + self.m[7] * m.m[13],
            self.m[4] * m.m[2] + self.m[5] * m.m[6] + self.m[6] * m.m[10] + self.m[7] * m.m[14],
            self.m[4] * m.m[3] + self.m[5] * m.m[7] + self.m[6] * m.m[11] + self.m[7] * m.m[15],
            self.m[8] * m.m[0] + self.m[9] * m.m[4] + self.m[10] * m.m[8] + self.m[11] * m.m[12],
            self.m[8] * m.m[1] + self.m[9] * m.m[5] + self.m[10] * m.m[9] + self.m[11] * m.m[13],
            self.m[8] * m.m[2] + self.m[9] * m.m[6] + self.m[10] * m.m[10] + self.m[11] * m.m[14],
            self.m[8] * m.m[3] + self.m[9] * m.m[7] + self.m[10] * m.m[11] + self.m[11] * m.m[15],
            self.m[12] * m.m[0] + self.m[13] * m.m[4] + self.m[14] * m.m[8] + self.m[15] * m.m[12],
            self.m[12] * m.m[1] + self.m[13] * m.m[5] + self.m[14] * m.m[9] + self.m[15] * m.m[13],
            self.m[12] * m.m[2] + self.m[13] * m.m[6] + self.m[14] * m.m[10] + self.m[15] * m.m[14],
            self.m[12] * m.m[3] + self.m[13] * m.m[7] + self.m[14] * m.m[11] + self.m[15] * m.m[15],
        ])
    }
}

// ===== Transform3 ============================================================================================================================================

impl<S: Scalar> Transform3<S> {
    /// Creates and returns a new `Transform3` with a transformation matrix and its inverse.
    #[inline]
    pub fn new(forward: Matrix4x4<S>, inverse: Matrix4x4<S>) -> Transform3<S> {
        Transform3 { forward, inverse }
    }

    /// Returns a `Transform3` which represents the identity transform.
    #[inline]
    pub fn identity() -> Transform3<S> {
        let forward = Matrix4x4::identity();
        let inverse = forward.clone();
        Transform3::new(forward, inverse)
    }

    /// Returns a translation transform over a vector.
    #[inline]
    pub fn translate(v: Vector3<S>) -> Transform3<S> {
        let forward = Matrix4x4::translate(v);
        let inverse = Matrix4x4::translate(-v);
        Transform3::new(forward, inverse)
    }

    /// Returns a rotation transform which rotates around the X axis.
    #[inline]
    pub fn rotate_x(angle: S) -> Transform3<S> {
        let forward = Matrix4x4::rotate_x(angle);
        let inverse = forward.transpose();
        Transform3::new(forward, inverse)
    }

    /// Returns a rotation transform which rotates around the Y axis.
    #[inline]
    pub fn rotate_y(angle: S) -> Transform3<S> {
        let forward = Matrix4x4::rotate_y(angle);
        let inverse = forward.transpose();
        Transform3::new(forward, inverse)
    }

    /// Returns a rotation transform which rotates around the Z axis.
    #[inline]
    pub fn rotate_z(angle: S) -> Transform3<S> {
        let forward = Matrix4x4::rotate_z(angle);
        let inverse = forward.transpose();
        Transform3::new(forward, inverse)
    }

    /// Returns a rotation transform which rotates around an axis.
    #[inline]
    pub fn rotate_axis(axis: Vector3<S>, angle: S) -> Transform3<S> {
        let forward = Matrix4x4::rotate_axis(axis, angle);
        let inverse = forward.transpose();
        Transform3::new(forward, inverse)
    }

    /// Returns a transform which scales by factors in the X, Y and Z dimensions.
    #[inline]
    pub fn scale(sx: S, sy: S, sz: S) -> Transform3<S> {
        let forward = Matrix4x4::scale(sx, sy, sz);
        let inverse = Matrix4x4::scale(sx.recip(), sy.recip(), sz.recip());
        Transform3::new(forward, inverse)
    }

    /// Returns a transform which scales uniformly in all dimensions by a factor.
    #[inline]
    pub fn scale_uniform(s: S) -> Transform3<S> {
        let forward = Matrix4x4::scale_uniform(s);
        let inverse = Matrix4x4::scale_uniform(s.recip());
        Transform3::new(forward, inverse)
    }

    // TODO: factory methods for perspective and orthographic projection matrices and transforms

    /// Returns a look-at transform which looks from a point at a target, with an 'up' direction.
    #[inline]
    pub fn look_at(from: Point3<S>, target: Point3<S>, up: Vector3<S>) -> Result<Transform3<S>, NonInvertibleMatrixError> {
        let inverse = Matrix4x4::inverse_look_at(from, target, up);
        let forward = inverse.inverse()?;
        Ok(Transform3::new(forward, inverse))
    }

    /// Computes and returns a composite transform, which first applies this and then the other transform.
    #[inline]
    pub fn and_then(&self, next: &Transform3<S>) -> Transform3<S> {
        let forward = &next.forward * &self.forward;
        let inverse = &self.inverse * &next.inverse;
        Transform3::new(forward, inverse)
    }

    /// Returns the inverse of this transform.
    #[inline]
    pub fn inverse(&self) -> Transform3<S> {
        let forward = self.inverse.clone();
        let inverse = self.forward.clone();
        Transform3::new(forward, inverse)
    }
}

impl<S: Scalar> Transform<Point3<S>> for Transform3<S> {
    type Output = Point3<S>;

    /// Transforms a point.
    #[inline]
    fn transform(&self, p: Point3<S>) -> Point3<S> {
        &self.forward * p
    }
}

impl<S: Scalar> Transform<Vector3<S>> for Transform3<S> {
    type Output = Vector3<S>;

    /// Transforms a vector.
    #[inline]
    fn transform(&self, v: Vector3<S>) -> Vector3<S> {
        &self.forward * v
    }
}

impl<S: Scalar> Transform<&Ray3<S>> for Transform3<S> {
    type Output = Ray3<S>;

    /// Transforms a ray.
    #[inline]
    fn transform(&self, ray: &Ray3<S>) -> Ray3<S> {
        Ray3::new(self.transform(ray.origin), self.transform(ray.direction))
    }
}

impl<S: Scalar> Transform<&BoundingBox3<S>> for Transform3<S> {
    type Output = BoundingBox3<S>;

    /// Transforms a bounding box.
    fn transform(&self, bb: &BoundingBox3<S>) -> BoundingBox3<S> {
        let o = self.transform(bb.min);
        let d = self.transform(bb.diagonal());

        let (mut min_corner, mut max_corner) = (o, o);
        for i in 1..=7 {
            let mut corner = o;
            if i & 0b001 != 0 { corner.x += d.x; }
            if i & 0b010 != 0 { corner.y += d.y; }
            if i & 0b100 != 0 { corner.z += d.z; }

            min_corner = min(min_corner, corner);
            max_corner = max(max_corner, corner);
        }

        BoundingBox3::new(min_corner, max_corner)
    }
}

impl<S: Scalar> TryFrom<Matrix4x4<S>> for Transform3<S> {
    type Error = NonInvertibleMatrixError;

    #[inline]
    fn try_from(forward: Matrix4x4<S>) -> Result<Transform3<S>, NonInvertibleMatrixError> {
        let inverse = forward.inverse()?;
        Ok(Transform3::new(forward, inverse))
    }
}
"##

rust_crate crate := [lib, scalar, minmax, dot, cross, length, distance, union, intersection, transform, dimension2, dimension3, vector2, vector3, point2, point3, ray2, ray3, boundingbox2, boundingbox3, transform2, transform3]

/-- `crate` is the whole crate. -/
theorem crate_eq : crate = List.foldl Crate.append {} [lib, scalar, minmax, dot, cross, length, distance, union, intersection, transform, dimension2, dimension3, vector2, vector3, point2, point3, ray2, ray3, boundingbox2, boundingbox3, transform2, transform3] := by kernel_rfl

end VecMath.Rust.Src
