{"id": "C01", "title": "Compound assignment agrees with the binary operator", "statement": "For Vector2/3, Point2/3 and Matrix3x3/4x4, `a op= b` leaves in `a` exactly the value `a op b` would return (+=, -=, *=, /=), component for component, and touches nothing else.", "quantifier": "every scalar type, every left and right operand (any bits, NaN included)", "why_tests_cant": "needs every component of every operand; a dropped or crossed component only shows on inputs where it matters", "anchors": ["src/vector3.rs: AddAssign/SubAssign/MulAssign/DivAssign", "src/vector2.rs", "src/point2.rs", "src/point3.rs", "src/transform2.rs: MulAssign/DivAssign for &mut Matrix3x3", "src/transform3.rs: MulAssign/DivAssign for &mut Matrix4x4"]}
{"id": "C02", "title": "Scalar multiplication may be written on either side", "statement": "`s * v` and `v * s` are the same value for vectors, points and matrices.", "quantifier": "every scalar s and every vector, point, matrix", "why_tests_cant": "quantifies over all values", "anchors": ["src/vector3.rs: impl Mul<Vector3f> for f32", "src/point2.rs", "src/transform3.rs: impl Mul<&Matrix4x4f> for f32"]}
{"id": "C03", "title": "Indexing by dimension reads and writes exactly one component", "statement": "`v[d]` is the component named by d; after `v[d] = s`, `v[d]` is s and `v[e]` is unchanged for every e ≠ d; after any sequence of such writes each component holds its latest write.", "quantifier": "every vector or point, every dimension, every finite history of writes", "why_tests_cant": "histories are unbounded", "anchors": ["src/vector2.rs: Index, IndexMut", "src/vector3.rs: Index, IndexMut", "src/point2.rs", "src/point3.rs"]}
{"id": "C04", "title": "permute reorders components as asked", "statement": "`v.permute(a,b,c)` has components v[a], v[b], v[c]; permuting with (X,Y,Z) is the identity and permuting twice composes the index maps; length is preserved by a true permutation (real arithmetic).", "quantifier": "every vector/point and every triple (pair) of dimensions", "why_tests_cant": "all values and all index triples, compositions", "anchors": ["src/vector3.rs: permute", "src/point3.rs: permute", "src/vector2.rs: permute", "src/point2.rs: permute"]}
{"id": "C05", "title": "Point/vector conversion is lossless", "statement": "Converting a point to a vector and back (and the reverse) returns the same value, and conversion equals subtracting / adding the origin up to numeric equality for non-NaN values.", "quantifier": "every point and vector", "why_tests_cant": "all bit patterns", "anchors": ["src/point3.rs: From<Vector3>", "src/vector3.rs: From<Point3>", "src/point2.rs", "src/vector2.rs"]}
{"id": "C06", "title": "Vector addition laws", "statement": "In f32/f64: `u + v` and `v + u` are the same value, `v + zero == v`, `v - v == zero` for finite v, `-(-v)` is v and `u - v == -(v - u)`, `u - v` is `u + (-v)`. In real arithmetic vectors form a commutative group under +.", "quantifier": "all vectors (floats: all non-NaN/finite as stated; reals: all finite)", "why_tests_cant": "all float inputs, including NaN, infinities, signed zeros and subnormals: 2^32 or 2^64 values per component, several components per call", "anchors": ["src/vector2.rs: Add, Sub, Neg", "src/vector3.rs: Add, Sub, Neg"]}
{"id": "C07", "title": "Point/vector affine laws", "statement": "In real arithmetic `p + (q - p) == q`, `(p + v) - p == v`, `(p + v) - v == p`, `(p + u) + v == p + (u + v)`, `(p - q) + (q - r) == p - r`. In floats `p - p == zero` for finite p, `p + zero == p`, `p - q == -(q - p)`.", "quantifier": "all points and vectors", "why_tests_cant": "a law over a continuum of real inputs; examples cannot rule out a wrong term that vanishes on the chosen values", "anchors": ["src/point2.rs: Add<Vector2>, Sub<Vector2>, Sub<Point2>", "src/point3.rs"]}
{"id": "C08", "title": "Scaling laws", "statement": "In real arithmetic scaling distributes over + and over scalar addition, is associative, and `(v * s) / s == v` for s ≠ 0. In floats `v * 1` and `v / 1` are exactly v, `v * -1 == -v`, and `v * 2 == v + v`.", "quantifier": "all vectors, points and scalars", "why_tests_cant": "a law over a continuum of real inputs; examples cannot rule out a wrong term that vanishes on the chosen values", "anchors": ["src/vector3.rs: Mul<S>, Div<S>", "src/point3.rs: Mul<S>, Div<S>", "src/vector2.rs", "src/point2.rs"]}
{"id": "C09", "title": "dot in floating point is symmetric and never negative on the diagonal", "statement": "In f32/f64 `dot(u,v)` and `dot(v,u)` are the same value; `dot(v,v)` is NaN exactly when a component of v is NaN and is otherwise >= 0 (possibly +inf).", "quantifier": "every pair of float vectors", "why_tests_cant": "all float inputs, including NaN, infinities, signed zeros and subnormals: 2^32 or 2^64 values per component, several components per call", "anchors": ["src/vector2.rs: DotProduct", "src/vector3.rs: DotProduct", "src/dot.rs: dot"]}
{"id": "C10", "title": "dot is the Euclidean inner product", "statement": "In real arithmetic dot is the sum of component products: bilinear, positive definite, and satisfies Cauchy-Schwarz.", "quantifier": "all finite vectors, all finite scalars", "why_tests_cant": "a law over a continuum of real inputs; examples cannot rule out a wrong term that vanishes on the chosen values", "anchors": ["src/vector2.rs: DotProduct", "src/vector3.rs: DotProduct"]}
{"id": "C11", "title": "cross is the right-handed vector product", "statement": "In floats `cross(u,v) == -cross(v,u)` whenever it is not NaN. In real arithmetic the result is orthogonal to both arguments, bilinear, |u x v|^2 = |u|^2|v|^2 - (u.v)^2, vanishes exactly on linearly dependent pairs, satisfies u x (v x w) = v(u.w) - w(u.v), and x_axis x y_axis = z_axis cyclically.", "quantifier": "every pair of 3D vectors", "why_tests_cant": "a law over a continuum of real inputs; examples cannot rule out a wrong term that vanishes on the chosen values", "anchors": ["src/vector3.rs: CrossProduct", "src/cross.rs: cross"]}
{"id": "C12", "title": "length is a norm", "statement": "In floats `length(v)` is NaN exactly when a component is NaN, and is otherwise >= 0; it does not change under negation, abs or (for 2D and 3D) componentwise sign changes. In real arithmetic it is the Euclidean norm: zero only for the zero vector, homogeneous, and satisfies the triangle inequality.", "quantifier": "every vector; every scalar factor", "why_tests_cant": "all float inputs, including NaN, infinities, signed zeros and subnormals: 2^32 or 2^64 values per component, several components per call", "anchors": ["src/vector2.rs: Length", "src/vector3.rs: Length", "src/length.rs: length"]}
{"id": "C13", "title": "normalize returns the unit vector in the same direction", "statement": "In real arithmetic, for every nonzero finite v, `v.normalize()` has length 1, is a positive multiple of v (normalize(v) * length(v) == v), and is idempotent. In every arithmetic the zero vector normalizes to all-NaN (there is no panic or error). In f32/f64 the claim fails at the ends of the range: if the squares of the components underflow to zero, every nonzero component becomes an infinity and every zero component NaN; if the squared length overflows, every finite component becomes a zero.", "quantifier": "every nonzero finite vector; the zero vector in every format", "why_tests_cant": "a law over a continuum of real inputs; examples cannot rule out a wrong term that vanishes on the chosen values", "anchors": ["src/vector2.rs: normalize", "src/vector3.rs: normalize"]}
{"id": "C14", "title": "Length comparisons agree with length", "statement": "In real arithmetic `u.is_shorter_than(v)` iff length(u) < length(v), `is_longer_than` iff >. In floats the sqrt-free comparison never contradicts the lengths: length(u) < length(v) implies is_shorter_than, is_shorter_than implies length(u) <= length(v); is_longer_than(u,v) is is_shorter_than(v,u); never both.", "quantifier": "every pair of vectors", "why_tests_cant": "all float inputs, including NaN, infinities, signed zeros and subnormals: 2^32 or 2^64 values per component, several components per call", "anchors": ["src/vector2.rs: RelativeLength", "src/vector3.rs: RelativeLength"]}
{"id": "C15", "title": "distance is a metric", "statement": "In floats `distance(p,q)` and `distance(q,p)` are the same value, never negative, NaN only if some coordinate difference is NaN, and 0 for p == q finite; distance 0 between distinct points occurs exactly by underflow of the squared differences. In real arithmetic it is zero only for equal points and satisfies the triangle inequality, and is invariant under adding the same vector to both points.", "quantifier": "every pair/triple of points", "why_tests_cant": "all float inputs, including NaN, infinities, signed zeros and subnormals: 2^32 or 2^64 values per component, several components per call", "anchors": ["src/point2.rs: Distance", "src/point3.rs: Distance", "src/distance.rs: distance"]}
{"id": "C16", "title": "Distance comparisons agree with distance", "statement": "In real arithmetic `p.is_closer_to(a,b)` iff distance(p,a) < distance(p,b) and is_farther_from iff >. In floats the sqrt-free comparison never contradicts the distances (strictly smaller distance implies is_closer_to; is_closer_to implies distance <=), is_farther_from(a,b) is is_closer_to(b,a), and never both hold.", "quantifier": "every triple of points", "why_tests_cant": "all float inputs, including NaN, infinities, signed zeros and subnormals: 2^32 or 2^64 values per component, several components per call", "anchors": ["src/point2.rs: RelativeDistance", "src/point3.rs: RelativeDistance"]}
{"id": "C17", "title": "closest/farthest/shortest/longest select an argument that is at least as good", "statement": "The result is always one of the two arguments (never a blend); on floats without NaN its distance (length) is <= (closest, shortest) or >= (farthest, longest) that of both arguments, and whenever the strict comparison of squared distances (lengths) does not decide - a tie or any NaN - the second argument is returned.", "quantifier": "every triple of points, pair of vectors, incl. NaN", "why_tests_cant": "all float inputs, including NaN, infinities, signed zeros and subnormals: 2^32 or 2^64 values per component, several components per call", "anchors": ["src/distance.rs: closest, farthest", "src/length.rs: shortest, longest", "src/point3.rs: RelativeDistance", "src/vector3.rs: RelativeLength", "src/scalar.rs"]}
{"id": "C18", "title": "min/max are the componentwise lattice operations and ignore NaN", "statement": "For non-NaN components min is the greatest lower bound and max the least upper bound componentwise; both are commutative, associative, idempotent and absorptive up to ==; if one component is NaN the other operand's component is returned.", "quantifier": "every pair/triple of points, vectors, scalars", "why_tests_cant": "all float inputs, including NaN, infinities, signed zeros and subnormals: 2^32 or 2^64 values per component, several components per call", "anchors": ["src/minmax.rs: min, max", "src/scalar.rs: MinMax", "src/point3.rs: MinMax", "src/vector3.rs: MinMax", "src/point2.rs", "src/vector2.rs"]}
{"id": "C19", "title": "floor/ceil/round/trunc/fract are componentwise and exact", "statement": "For every finite component x: floor(x) is the greatest integer <= x, ceil(x) the least integer >= x, trunc(x) is x rounded toward zero, round(x) the nearest integer with ties away from zero, fract(x) = x - trunc(x) with no rounding error and |fract| < 1, so trunc + fract == x; NaN stays NaN and floor/ceil/round/trunc leave infinities alone, fract of an infinity is NaN.", "quantifier": "every float component", "why_tests_cant": "all float inputs, including NaN, infinities, signed zeros and subnormals: 2^32 or 2^64 values per component, several components per call", "anchors": ["src/vector3.rs: floor, ceil, round, trunc, fract", "src/point3.rs", "src/vector2.rs", "src/point2.rs"]}
{"id": "C20", "title": "abs clears signs only", "statement": "`v.abs()` is componentwise absolute value: >= 0 for non-NaN, idempotent, unchanged by negating v, equal to v or -v per component.", "quantifier": "every vector and point", "why_tests_cant": "all float inputs, including NaN, infinities, signed zeros and subnormals: 2^32 or 2^64 values per component, several components per call", "anchors": ["src/vector3.rs: abs", "src/point3.rs: abs", "src/vector2.rs: abs", "src/point2.rs: abs"]}
{"id": "C21", "title": "min_dimension/max_dimension name an extremal component", "statement": "For NaN-free input, the component named by min_dimension is in absolute value (for a bounding box: the extent, compared without abs) <= every other, and that of max_dimension >= every other; ties: min_dimension prefers the earliest axis, max_dimension the latest. For a box the hypothesis is that its extents are NaN-free.", "quantifier": "every NaN-free vector, point, bounding box", "why_tests_cant": "all float inputs, including NaN, infinities, signed zeros and subnormals: 2^32 or 2^64 values per component, several components per call", "anchors": ["src/vector3.rs: min_dimension, max_dimension", "src/point3.rs", "src/boundingbox3.rs: min_dimension, max_dimension", "src/vector2.rs", "src/point2.rs", "src/boundingbox2.rs"]}
{"id": "C22", "title": "Scalars are one-dimensional vectors/points", "statement": "For f32/f64 values themselves: length is |s|, distance(s,t) == distance(t,s), zero exactly when s == t (finite; gradual underflow), and shortest/longest/closest/farthest agree with the absolute values/distances.", "quantifier": "every pair/triple of scalars", "why_tests_cant": "all float inputs, including NaN, infinities, signed zeros and subnormals: 2^32 or 2^64 values per component, several components per call", "anchors": ["src/scalar.rs: Length, RelativeLength, Distance, RelativeDistance for S"]}
{"id": "C23", "title": "A ray is an affine parameterisation", "statement": "`ray.at(0) == origin` for a finite ray in floats; in real arithmetic at(s + t) == at(s) + direction * t, distance(origin, at(t)) = |t| * length(direction) (so t is a distance exactly when direction is unit length), and at is injective for nonzero direction.", "quantifier": "every ray and parameter", "why_tests_cant": "a law over a continuum of real inputs; examples cannot rule out a wrong term that vanishes on the chosen values", "anchors": ["src/ray2.rs: at", "src/ray3.rs: at"]}
{"id": "C24", "title": "BoundingBox::new normalises its corners", "statement": "For NaN-free points, new(p,q) has min <= max in every dimension, contains p and q, is contained in every box that contains p and q, and does not depend on the order of p and q. A NaN coordinate in one point is replaced by the other's.", "quantifier": "every pair of float points", "why_tests_cant": "all float inputs, including NaN, infinities, signed zeros and subnormals: 2^32 or 2^64 values per component, several components per call", "anchors": ["src/boundingbox2.rs: new", "src/boundingbox3.rs: new"]}
{"id": "C25", "title": "is_inside is closed-box membership; empty contains nothing; infinite contains everything", "statement": "`bb.is_inside(p)` iff min <= p <= max in every dimension; no point is inside empty(); every NaN-free point is inside infinite(); a point with a NaN coordinate is inside no box.", "quantifier": "every box and point of floats", "why_tests_cant": "all float inputs, including NaN, infinities, signed zeros and subnormals: 2^32 or 2^64 values per component, several components per call", "anchors": ["src/boundingbox2.rs: is_inside, empty, infinite", "src/boundingbox3.rs: is_inside, empty, infinite"]}
{"id": "C26", "title": "Union of boxes is the smallest box containing both", "statement": "For boxes with min <= max in every dimension (and no NaN): every point inside either is inside the union, the union is inside every box containing both, and union is commutative, associative and idempotent up to ==.", "quantifier": "every pair/triple of well-formed float boxes", "why_tests_cant": "all float inputs, including NaN, infinities, signed zeros and subnormals: 2^32 or 2^64 values per component, several components per call", "anchors": ["src/boundingbox2.rs: Union", "src/boundingbox3.rs: Union", "src/union.rs: union"]}
{"id": "C27", "title": "Growing a box point by point gives the tight bounds of all points", "statement": "union(bb, p) contains bb and p and nothing smaller does; starting from empty(), after adding any non-empty finite sequence of NaN-free points (in any order) the box contains each point, is contained in every box that contains them all, and its corners do not depend on the order.", "quantifier": "every finite sequence of points, every order", "why_tests_cant": "unbounded histories and all permutations", "anchors": ["src/boundingbox2.rs: Union<Point2>", "src/boundingbox3.rs: Union<Point3>, empty"]}
{"id": "C28", "title": "empty() is neutral for union on well-formed boxes only", "statement": "union(empty(), b) == b and union(b, empty()) == b if and only if b is well-formed (min <= max in every dimension, no NaN). The expected law for every box including b = empty() is FALSE of the code: union(empty(), empty()) is the infinite box.", "quantifier": "every box (the exceptions are characterised exactly)", "why_tests_cant": "the interesting box (empty itself) is one value among all; the law is over all boxes", "anchors": ["src/boundingbox2.rs: empty, Union, new", "src/boundingbox3.rs: empty, Union, new"]}
{"id": "C29", "title": "overlaps means sharing a point", "statement": "overlaps is symmetric; for well-formed boxes it holds iff some point is inside both; empty() overlaps a box if and only if that box is the infinite one. (The expected 'no box overlaps empty()' is FALSE of the code exactly there.)", "quantifier": "every pair of boxes", "why_tests_cant": "all float inputs, including NaN, infinities, signed zeros and subnormals: 2^32 or 2^64 values per component, several components per call", "anchors": ["src/boundingbox2.rs: overlaps", "src/boundingbox3.rs: overlaps"]}
{"id": "C30", "title": "Box intersection is exactly the common region", "statement": "For well-formed boxes intersect returns Some iff they share a point, the returned box is well-formed, and a point is inside it iff it is inside both; intersect is commutative up to ==; intersecting with empty() yields None for every box except the infinite one, where the code returns the infinite box.", "quantifier": "every pair of float boxes and every point", "why_tests_cant": "all float inputs, including NaN, infinities, signed zeros and subnormals: 2^32 or 2^64 values per component, several components per call", "anchors": ["src/boundingbox2.rs: Intersection<&BoundingBox2>", "src/boundingbox3.rs: Intersection<&BoundingBox3>", "src/intersection.rs: intersect"]}
{"id": "C31", "title": "Extents and measures are consistent", "statement": "width/height/depth are max - min per dimension, agree with size(), extent(dim) and diagonal(); for well-formed finite boxes the extents are >= 0 and never NaN in floats; area/volume/surface_area are >= 0 or NaN, and NaN can occur for a finite box (an overflowing extent times a zero extent): 'area is never NaN on finite boxes' is FALSE of the code. In real arithmetic the measures equal the geometric formulas and are monotone under containment.", "quantifier": "every box", "why_tests_cant": "all float inputs, including NaN, infinities, signed zeros and subnormals: 2^32 or 2^64 values per component, several components per call", "anchors": ["src/boundingbox3.rs: width, height, depth, size, extent, diagonal, surface_area, volume", "src/boundingbox2.rs: width, height, size, extent, diagonal, area"]}
{"id": "C32", "title": "center is the midpoint and lies inside", "statement": "In real arithmetic center() is (min+max)/2 and lies inside a well-formed box, at equal distance from all corners. In f32/f64 the center of a finite well-formed box lies inside it if and only if no extent max - min overflows.", "quantifier": "every well-formed finite box", "why_tests_cant": "all float inputs, including NaN, infinities, signed zeros and subnormals: 2^32 or 2^64 values per component, several components per call", "anchors": ["src/boundingbox2.rs: center", "src/boundingbox3.rs: center"]}
{"id": "C33", "title": "corner enumerates exactly the corners", "statement": "For index 0..=3 (2D) / 0..=7 (3D) corner picks min or max per dimension by the index bits, so every min/max combination occurs at exactly one index, all corners of a well-formed box are inside it, and a box contains another well-formed box iff it contains all its corners. A larger index panics in debug builds and uses the low bits in release builds.", "quantifier": "every box and every u32 index", "why_tests_cant": "all 2^32 indices and all boxes", "anchors": ["src/boundingbox2.rs: corner", "src/boundingbox3.rs: corner"]}
{"id": "C34", "title": "A reported ray/box range is well-formed", "statement": "For any box and ray whatsoever (NaN, infinities, zero directions), if intersect returns Some(start..end) then 0 <= start <= end and neither is NaN.", "quantifier": "every float box and ray", "why_tests_cant": "all float inputs, including NaN, infinities, signed zeros and subnormals: 2^32 or 2^64 values per component, several components per call", "anchors": ["src/boundingbox2.rs: Intersection<&Ray2>", "src/boundingbox3.rs: Intersection<&Ray3>"]}
{"id": "C35", "title": "Ray/box intersection returns exactly the parameters inside the box", "statement": "In real arithmetic, for a finite well-formed box and a finite ray with nonzero direction that does not run inside a face plane (no dimension in which the direction is zero and the origin lies on exactly one of the two faces): t >= 0 and is_inside(ray.at(t)) iff intersect returned Some(start..end) with start <= t <= end, start and end finite; None iff the ray misses the box. In f32/f64 a reported hit can be false: with overflowing quotients a ray that is never inside the box yields Some(inf..inf).", "quantifier": "every box, ray and parameter t", "why_tests_cant": "a law over a continuum of real inputs; examples cannot rule out a wrong term that vanishes on the chosen values", "anchors": ["src/boundingbox2.rs: Intersection<&Ray2>", "src/boundingbox3.rs: Intersection<&Ray3>"]}
{"id": "C36", "title": "A ray starting strictly inside a box always hits it, from 0", "statement": "In f32/f64 with all rounding: if the finite origin is strictly inside a box and the direction is NaN-free, intersect returns Some(start..end) with start == 0.", "quantifier": "every float box and ray with origin inside", "why_tests_cant": "all float inputs, including NaN, infinities, signed zeros and subnormals: 2^32 or 2^64 values per component, several components per call", "anchors": ["src/boundingbox2.rs: Intersection<&Ray2>", "src/boundingbox3.rs: Intersection<&Ray3>"]}
{"id": "C37", "title": "A ray running inside a face plane of the box is never reported", "statement": "The expected property - a ray whose origin lies on a face plane, with direction parallel to that plane and passing through the face, is reported as hitting - is FALSE of the code: in real arithmetic, for a nonzero direction, whenever in some dimension the direction is zero and the origin is on exactly one of the two face planes, intersect returns None, although points of the ray may be inside the box; in f32 and f64 such a ray is reported either not at all or with the degenerate range inf..inf, never with a finite one.", "quantifier": "every box, every ray in a face plane", "why_tests_cant": "measure-zero set that random tests never hit", "anchors": ["src/boundingbox2.rs: Intersection<&Ray2>", "src/boundingbox3.rs: Intersection<&Ray3>"]}
{"id": "C38", "title": "A matrix is a mutable map from (row, col) to elements", "statement": "new(array) reads back in row-major order; after any sequence of set / get_mut writes at valid positions, get(r,c) is the latest value written there, or the initial one; other positions are unaffected.", "quantifier": "every matrix, every finite history of writes", "why_tests_cant": "unbounded histories", "anchors": ["src/transform2.rs: Matrix3x3::new, get, get_mut, set, linear_index", "src/transform3.rs: Matrix4x4::new, get, get_mut, set, linear_index"]}
{"id": "C39", "title": "Out-of-range matrix indices", "statement": "In debug builds get/get_mut/set with row or col out of range panics and leaves the matrix unchanged; in release builds the access is to the element at (row*N+col) mod 2^32 if that is < N*N and panics otherwise, so an out-of-range column silently aliases another element, but memory outside the matrix is never touched.", "quantifier": "every u32 row and column, both build profiles", "why_tests_cant": "2^64 index pairs, two profiles", "anchors": ["src/transform2.rs: linear_index", "src/transform3.rs: linear_index"]}
{"id": "C40", "title": "transpose swaps rows and columns", "statement": "transpose().get(r,c) is get(c,r); transpose is an involution; in floats too, (A*B)^T is exactly B^T * A^T and transposing commutes with scalar multiplication and division.", "quantifier": "every matrix (pair)", "why_tests_cant": "all float inputs, including NaN, infinities, signed zeros and subnormals: 2^32 or 2^64 values per component, several components per call", "anchors": ["src/transform2.rs: transpose", "src/transform3.rs: transpose"]}
{"id": "C41", "title": "Matrix product is the mathematical product", "statement": "In real arithmetic `&a * &b` has entries sum_k a[i][k] b[k][j], is associative, commutes with scalar factors, and det(a*b) = det(a) det(b); in floats identity is a two-sided unit for finite matrices up to ==.", "quantifier": "every pair/triple of matrices", "why_tests_cant": "a law over a continuum of real inputs; examples cannot rule out a wrong term that vanishes on the chosen values", "anchors": ["src/transform2.rs: Mul<&Matrix3x3> for &Matrix3x3, identity", "src/transform3.rs: Mul<&Matrix4x4> for &Matrix4x4, identity"]}
{"id": "C42", "title": "Matrix scalar operations act on every element", "statement": "(m * s).get(i,j) is m.get(i,j) * s and (m / s).get(i,j) is m.get(i,j) / s, exactly, for all positions; in real arithmetic (m * s) / s == m for s ≠ 0.", "quantifier": "every matrix, scalar, position", "why_tests_cant": "all float inputs, including NaN, infinities, signed zeros and subnormals: 2^32 or 2^64 values per component, several components per call", "anchors": ["src/transform2.rs: Mul<S>, Div<S>", "src/transform3.rs: Mul<S>, Div<S>"]}
{"id": "C43", "title": "Matrix times point/vector", "statement": "In real arithmetic `m * p` is the projective action (homogeneous coordinate 1, divide by w) and `m * v` the linear part; (a*b)*p == a*(b*p) when the homogeneous weights are nonzero; for affine m, m*(p+v) == m*p + m*v and m*p - m*q == m*(p-q). In floats row-vector products are exactly those of the transpose: p * m is m^T * p, v * m is m^T * v.", "quantifier": "every matrix, point, vector", "why_tests_cant": "a law over a continuum of real inputs; examples cannot rule out a wrong term that vanishes on the chosen values", "anchors": ["src/transform2.rs: Mul<Point2>, Mul<Vector2>, Mul<&Matrix3x3> for Point2/Vector2", "src/transform3.rs: Mul<Point3>, Mul<Vector3>, Mul<&Matrix4x4> for Point3/Vector3"]}
{"id": "C44", "title": "A returned inverse is the inverse", "statement": "In real arithmetic, if inverse() returns Ok(n) for a finite matrix m then m*n and n*m both == identity, and n.inverse() returns Ok(m).", "quantifier": "every finite 3x3 and 4x4 matrix", "why_tests_cant": "a law over a continuum of real inputs; examples cannot rule out a wrong term that vanishes on the chosen values", "anchors": ["src/transform2.rs: inverse", "src/transform3.rs: inverse"]}
{"id": "C45", "title": "inverse fails exactly on singular matrices", "statement": "In real arithmetic inverse() returns Err iff the determinant of the finite matrix is zero. In f32/f64 this fails: some invertible finite matrices are rejected (underflow; how close to singular a rejected matrix must be is C66), for some others (overflow) it returns Ok of a matrix that is not an inverse, and any matrix with a NaN entry is accepted and gives an all-NaN matrix.", "quantifier": "every finite matrix", "why_tests_cant": "a law over a continuum of real inputs; examples cannot rule out a wrong term that vanishes on the chosen values", "anchors": ["src/transform2.rs: inverse", "src/transform3.rs: inverse"]}
{"id": "C46", "title": "Translations and scalings do what they say, exactly", "statement": "In floats: translate(v) maps a finite point p to exactly p + v and leaves finite vectors unchanged; scale(sx,sy,sz) maps p to (sx*p.x, ...) for finite factors, likewise vectors; scale_uniform(s) equals scale(s,s,s); identity leaves finite points and vectors unchanged (all up to ==).", "quantifier": "every finite point, vector, offset and factor", "why_tests_cant": "all float inputs, including NaN, infinities, signed zeros and subnormals: 2^32 or 2^64 values per component, several components per call", "anchors": ["src/transform2.rs: translate, scale, scale_uniform, identity", "src/transform3.rs: translate, scale, scale_uniform, identity"]}
{"id": "C47", "title": "Rotations are rigid and compose by adding angles", "statement": "In real arithmetic rotate / rotate_x / rotate_y / rotate_z preserve dot products (hence lengths, angles, distances) and orientation (det 1), fix their axis, rotate(a) then rotate(b) is rotate(a+b), rotate(0) is identity, and a quarter turn takes x to y, y to z, z to x respectively (counter-clockwise/right-handed).", "quantifier": "every angle, vector, point", "why_tests_cant": "a law over a continuum of real inputs; examples cannot rule out a wrong term that vanishes on the chosen values", "anchors": ["src/transform2.rs: rotate", "src/transform3.rs: rotate_x, rotate_y, rotate_z"]}
{"id": "C48", "title": "Rotation about an arbitrary axis", "statement": "In real arithmetic, for any nonzero axis: rotate_axis preserves dot products and orientation, fixes the axis, depends only on the axis direction, adds angles, rotates by the right-hand rule (Rodrigues' formula), and agrees with rotate_x/y/z on the coordinate axes. A zero axis gives a matrix with NaN entries in every arithmetic.", "quantifier": "every nonzero axis and angle", "why_tests_cant": "a law over a continuum of real inputs; examples cannot rule out a wrong term that vanishes on the chosen values", "anchors": ["src/transform3.rs: rotate_axis"]}
{"id": "C49", "title": "Every constructed transform carries its true inverse", "statement": "identity, translate, rotate*, rotate_axis (nonzero axis), scale/scale_uniform (nonzero factors): forward * inverse == identity == inverse * forward in real arithmetic; for translate of a finite vector this holds exactly in f32/f64 too. With a zero scale factor the stored inverse contains an infinity.", "quantifier": "all constructor arguments", "why_tests_cant": "a law over a continuum of real inputs; examples cannot rule out a wrong term that vanishes on the chosen values", "anchors": ["src/transform2.rs: Transform2 constructors", "src/transform3.rs: Transform3 constructors"]}
{"id": "C50", "title": "and_then applies self first, then next", "statement": "In real arithmetic a.and_then(b).transform(x) == b.transform(a.transform(x)) for points (nonzero weights), for vectors and rays when the transforms are affine; and_then is associative with identity as unit.", "quantifier": "every pair/triple of transforms and every point/vector/ray", "why_tests_cant": "a law over a continuum of real inputs; examples cannot rule out a wrong term that vanishes on the chosen values", "anchors": ["src/transform2.rs: and_then, Transform impls", "src/transform3.rs: and_then, Transform impls"]}
{"id": "C51", "title": "inverse() of a transform undoes it", "statement": "inverse() is an involution and (a.and_then(b)).inverse() is exactly b.inverse().and_then(a.inverse()) in every arithmetic; in real arithmetic t.inverse().transform(t.transform(x)) == x for points (nonzero weights) and, for affine transforms, vectors and rays, when forward and inverse are mutually inverse.", "quantifier": "every transform, point, vector", "why_tests_cant": "a law over a continuum of real inputs; examples cannot rule out a wrong term that vanishes on the chosen values", "anchors": ["src/transform2.rs: Transform2::inverse", "src/transform3.rs: Transform3::inverse"]}
{"id": "C52", "title": "Any history of transform building keeps forward and inverse mutually inverse", "statement": "In real arithmetic, a transform obtained by any finite combination of the constructors (valid arguments), TryFrom, look_at, and_then and inverse has forward * inverse == identity; if built without TryFrom it is also affine (last row 0 0 0 1), so points never meet a zero homogeneous weight and round-trip through transform and inverse-transform.", "quantifier": "every finite expression tree of API calls", "why_tests_cant": "unbounded histories", "anchors": ["src/transform2.rs: Transform2", "src/transform3.rs: Transform3"]}
{"id": "C53", "title": "look_at is the rigid view transform", "statement": "In real arithmetic, for from ≠ target and up not parallel to the view direction: look_at returns Ok, maps from to the origin, target to (0,0,distance), up to the half plane x = 0, y > 0, preserves distances and orientation, and its stored inverse is the true inverse.", "quantifier": "every non-degenerate from/target/up", "why_tests_cant": "a law over a continuum of real inputs; examples cannot rule out a wrong term that vanishes on the chosen values", "anchors": ["src/transform3.rs: inverse_look_at, look_at"]}
{"id": "C54", "title": "look_at never reports degenerate input", "statement": "The documented behaviour - Err(NonInvertibleMatrixError) if from == target or up is parallel to the view direction (or zero) - is FALSE of the code: in real arithmetic look_at never returns Err on finite input, and on every degenerate input returns Ok of a transform whose forward matrix is entirely NaN; in f32/f64 the same holds for from == target and for up == zero.", "quantifier": "every degenerate input", "why_tests_cant": "measure-zero inputs that random tests never hit", "anchors": ["src/transform3.rs: look_at, inverse_look_at, inverse"]}
{"id": "C55", "title": "Transforming a ray commutes with evaluating it", "statement": "In real arithmetic, for an affine transform t: t.transform(ray).at(s) == t.transform(ray.at(s)); composition and inverse act on rays as on points.", "quantifier": "every affine transform, ray, parameter", "why_tests_cant": "a law over a continuum of real inputs; examples cannot rule out a wrong term that vanishes on the chosen values", "anchors": ["src/transform2.rs: Transform<&Ray2>", "src/transform3.rs: Transform<&Ray3>"]}
{"id": "C56", "title": "When a transformed bounding box bounds the transformed contents", "statement": "The expected property - for every affine t and p inside bb, t.transform(p) is inside t.transform(bb) - is FALSE of the code: in real arithmetic it holds for all boxes and points if and only if no row of the linear part of t has entries of opposite sign. So it holds for translations and scalings; for a rotation only if its sine or cosine is zero. In f32/f64 even the identity transform can lose a corner by rounding, while the image of the min corner is always inside.", "quantifier": "every affine transform, box and point", "why_tests_cant": "holds on all axis-aligned examples, so tests with scale/translate pass", "anchors": ["src/transform2.rs: Transform<&BoundingBox2>", "src/transform3.rs: Transform<&BoundingBox3>"]}
{"id": "C57", "title": "TryFrom<Matrix> keeps the matrix and adds its inverse", "statement": "try_from(m) is Ok iff m.inverse() is Ok; the result has forward = m unchanged and inverse = m.inverse(); so in real arithmetic it succeeds iff det m ≠ 0.", "quantifier": "every matrix", "why_tests_cant": "a law over a continuum of real inputs; examples cannot rule out a wrong term that vanishes on the chosen values", "anchors": ["src/transform2.rs: TryFrom<Matrix3x3>", "src/transform3.rs: TryFrom<Matrix4x4>"]}
{"id": "C58", "title": "== is numeric equality of all fields", "statement": "Derived == on vectors, points, rays, boxes, matrices and transforms is symmetric and transitive, reflexive exactly on NaN-free values, identifies +0 and -0, and equal values agree under dot, length and is_inside.", "quantifier": "every value", "why_tests_cant": "all float inputs, including NaN, infinities, signed zeros and subnormals: 2^32 or 2^64 values per component, several components per call", "anchors": ["src/vector3.rs: derive(PartialEq)", "src/point3.rs", "src/boundingbox3.rs", "src/transform3.rs", "src/ray3.rs"]}
{"id": "C59", "title": "Rounding error of dot and length is bounded", "statement": "In f32/f64, if the computed dot(u,v) is finite, |dot(u,v) - exact| <= ((1+e)^n - 1) * sum|u_i v_i| plus a bounded number of subnormal quanta (none if no product underflows), e the unit roundoff; if no square underflows and length(v) is finite, length(v) is within n roundings, (1-e)^n .. (1+e)^n, of the Euclidean length (n = 2, 3).", "quantifier": "every pair of float vectors in range", "why_tests_cant": "all float inputs, including NaN, infinities, signed zeros and subnormals: 2^32 or 2^64 values per component, several components per call", "anchors": ["src/vector2.rs: dot, length", "src/vector3.rs: dot, length"]}
{"id": "C60", "title": "Rounding error of distance and point arithmetic is bounded", "statement": "In f32/f64 each coordinate of u + v, u - v, v * s, v / s, p + v, p - v, p - q is the correctly rounded result (nearest number of the format; finite iff the exact result is below the overflow threshold); distance(p,q) is within 3 (2D) or 4 (3D) roundings of the Euclidean distance if it is finite and no square underflows.", "quantifier": "every pair of finite float points and vectors", "why_tests_cant": "all float inputs, including NaN, infinities, signed zeros and subnormals: 2^32 or 2^64 values per component, several components per call", "anchors": ["src/point3.rs: Add, Sub, Distance", "src/point2.rs"]}
{"id": "C61", "title": "Rounding error of the cross product is bounded", "statement": "In f32/f64, if the computed cross(u,v) is finite, each of its components differs from the exact one by at most ((1+e)^2-1) times the sum of the absolute values of its two products, plus a bounded number of smallest-subnormal quanta (e = unit roundoff).", "quantifier": "every pair of 3D float vectors whose cross product is finite", "why_tests_cant": "all float inputs, including NaN, infinities, signed zeros and subnormals: 2^32 or 2^64 values per component, several components per call", "anchors": ["src/vector3.rs: CrossProduct", "src/cross.rs: cross"]}
{"id": "C62", "title": "normalize is accurate in floating point", "statement": "In f32/f64, absent overflow and underflow, v.normalize() is finite, has the signs of v, squared length within (1-e)^2/(1+e)^k .. (1+e)^2/(1-e)^k of 1 (k = 4 in 2D, 5 in 3D), and each component squared is within the same factor of the exact one.", "quantifier": "every float vector in range", "why_tests_cant": "all float inputs, including NaN, infinities, signed zeros and subnormals: 2^32 or 2^64 values per component, several components per call", "anchors": ["src/vector2.rs: normalize", "src/vector3.rs: normalize"]}
{"id": "C63", "title": "Rounding error of matrix products and transforms is bounded", "statement": "In f32/f64, if the computed result is finite, each entry of a * b, and each component of m * v and of m * p for an affine m, differs from the exact one by at most a factor (1+e)^k - 1 of the sum of absolute values of the exact products, plus a bounded number of subnormal quanta.", "quantifier": "every pair of float matrices, every vector and point", "why_tests_cant": "all float inputs, including NaN, infinities, signed zeros and subnormals: 2^32 or 2^64 values per component, several components per call", "anchors": ["src/transform2.rs: Mul impls", "src/transform3.rs: Mul impls"]}
{"id": "C64", "title": "Rounding error of ray.at is bounded", "statement": "In f32/f64, if the computed ray.at(t) is finite, each coordinate differs from origin + t * direction by at most ((1+e)^2 - 1)|t * direction| + e |origin| plus a bounded number of subnormal quanta.", "quantifier": "every float ray and parameter", "why_tests_cant": "all float inputs, including NaN, infinities, signed zeros and subnormals: 2^32 or 2^64 values per component, several components per call", "anchors": ["src/ray2.rs: at", "src/ray3.rs: at"]}
{"id": "C65", "title": "Ray/box intersection is accurate up to two roundings", "statement": "In f32/f64, for a well-formed box and a ray whose coordinate differences and face parameters do not overflow: (sound) every t that lies in the reported range even after moving it down and up by two roundings and one subnormal quantum is a parameter at which the exact ray is inside the box; (complete) if the exact ray is inside the box at t1 and t2 >= 0, with t1 moved up still below t2 moved down, and does not run in a face plane, then an intersection is reported whose range starts at or before t1 moved up and ends at or after t2 moved down.", "quantifier": "every float box and ray without overflow, every pair of real parameters", "why_tests_cant": "all float inputs, including NaN, infinities, signed zeros and subnormals: 2^32 or 2^64 values per component, several components per call", "anchors": ["src/boundingbox2.rs: intersect_ray", "src/boundingbox3.rs: intersect_ray", "src/ray2.rs: at", "src/ray3.rs: at"]}
{"id": "C66", "title": "The singularity test and inverse() are accurate up to rounding", "statement": "In f32/f64: inverse() (and try_from) reports a matrix as not invertible only if its exact determinant is within the rounding error of its own terms (7 resp. 11 roundings of the sum of the absolute values of the terms, plus underflow) of zero; if it returns a finite nonzero matrix r, every entry of r times the exact determinant equals the exact adjugate entry up to 3 resp. 8 roundings and the error of the determinant, so the exact product m * r differs from the identity by at most the propagated errors; and a finite matrix with entries bounded so that nothing overflows, whose determinant exceeds its error, is accepted with a finite such inverse.", "quantifier": "every float 3x3 and 4x4 matrix", "why_tests_cant": "all float inputs, including NaN, infinities, signed zeros and subnormals: 2^32 or 2^64 values per component, several components per call", "anchors": ["src/transform2.rs: inverse, TryFrom", "src/transform3.rs: inverse, TryFrom"]}
{"id": "C67", "title": "Rounding error of the box measures and of the center is bounded", "statement": "In f32/f64 each extent of a finite box is the correctly rounded difference of its corners; a finite area, volume or surface area is within 3, 5 resp. 5 roundings of the exact one plus underflow; each finite coordinate of center is the exact midpoint up to one rounding of it, two roundings of half the extent and an underflow.", "quantifier": "every float box (well-formed for the surface area)", "why_tests_cant": "all float inputs, including NaN, infinities, signed zeros and subnormals: 2^32 or 2^64 values per component, several components per call", "anchors": ["src/boundingbox2.rs: width, height, size, area, center", "src/boundingbox3.rs: width, height, depth, volume, surface_area, center"]}
{"id": "C68", "title": "Integer and fixed-point data is processed exactly", "statement": "In f32/f64, if the components are integers (or integer multiples of a fixed power of two) small enough for every intermediate result to fit into the significand, then sums, differences, dot and cross products, matrix products, affine transforms of points and vectors, ray evaluation, box area, volume, surface area and center are exact; length, distance and matrix inverse are exact whenever the exact result is such a number itself; and the singularity test of inverse() is then exact: Ok iff the matrix is invertible.", "quantifier": "every grid, every bound and every operand on the grid", "why_tests_cant": "all float inputs, including NaN, infinities, signed zeros and subnormals: 2^32 or 2^64 values per component, several components per call", "anchors": ["src/vector3.rs: DotProduct, CrossProduct, Length", "src/transform3.rs: Mul, inverse", "src/boundingbox3.rs", "src/ray3.rs: at"]}
{"id": "C69", "title": "Order survives rounding in measures, lengths and distances", "statement": "For finite boxes with a inside b (every point a accepts is accepted by b) and a well-formed, each extent, the area, the volume and the surface area of a never exceed those of b, and are finite whenever b's are; in particular joining a box with another never shrinks a measure of either, and the intersection of two boxes measures no more than either of them. A vector whose components are no larger in magnitude is not longer, and of three points in componentwise order the middle one is no farther from either end than the other end is.", "quantifier": "all finite f32/f64 boxes, all vectors, all finite points, whatever is rounded, overflows or underflows", "why_tests_cant": "all float inputs, including NaN, infinities, signed zeros and subnormals: 2^32 or 2^64 values per component, several components per call", "anchors": ["src/boundingbox2.rs: BoundingBox2::{extent,area}, Union", "src/boundingbox3.rs: BoundingBox3::{extent,volume,surface_area}, Union", "src/vector2.rs, src/vector3.rs: Length", "src/point2.rs, src/point3.rs: Distance"]}
{"id": "C70", "title": "Bounding-volume hierarchies lose nothing to rounding", "statement": "If a ray hits a box it hits every finite box around it, over a range of parameters that contains the inner one, in rounded arithmetic and with overflow, except when it runs exactly in the plane of one face of the outer box. Hence, in a tree of boxes of any shape whose inner nodes are bounded with union, a search that skips every subtree whose bounding box the ray misses returns exactly the boxes at the leaves that the ray hits; the same for a search for the boxes containing a point or overlapping a box, without exceptions.", "quantifier": "all pairs of nested f32/f64 boxes, all finite rays, all trees of boxes of any size and shape", "why_tests_cant": "all float inputs, including NaN, infinities, signed zeros and subnormals: 2^32 or 2^64 values per component, several components per call", "anchors": ["src/boundingbox2.rs, src/boundingbox3.rs: Intersection<&Ray>, Union, is_inside, overlaps"]}
{"id": "C71", "title": "Rounding error of a chain of compositions grows at a bounded rate", "statement": "In f32/f64, after t.and_then(t1)...and_then(tn) with a finite result, every entry of the forward matrix is within k*n roundings (k = 3 in 2D, 4 in 3D), relative to the product of the entrywise absolute matrices, of the exact product of all n+1 matrices, plus a bounded amount of underflow; the inverse matrix likewise, for the product in the opposite order. In closed form, with row sums (column sums for the inverse) of absolute values at most R >= 1 the error is at most ((1+e)^(kn) - 1) R^(n+1) plus underflow. If all entries are integers of magnitude at most M and M^(n+1) k^n fits into the significand, the chain is composed without any error.", "quantifier": "all transforms, all finite histories of and_then of any length n, every entry; every rounding of the stated format", "why_tests_cant": "all float inputs, including NaN, infinities, signed zeros and subnormals: 2^32 or 2^64 values per component, several components per call", "anchors": ["src/transform2.rs:Transform2::and_then", "src/transform3.rs:Transform3::and_then", "src/transform2.rs:Matrix3x3", "src/transform3.rs:Matrix4x4"]}
{"id": "C72", "title": "Rotations in rounded arithmetic: accuracy, drift, exact transposition, length preservation", "statement": "If the platform's sin and cos are within d of the true values, rotate, rotate_x/y/z differ from the exact rotation matrix by at most 2d (Frobenius), rotate_axis for an axis whose squares do not underflow by at most 3 E with E = 3((1+u)^12-1) + 2(1+u)^12 d + underflow; the last row is exactly 0..0 1 and the stored inverse is exactly the transpose. Chaining n+1 nearly orthogonal transforms stays within k^n (1+e)^(n+1) - 1 of the exact orthogonal product, does not overflow while this is at most 1, keeps the inverse exactly the transpose and the last row exact; a chain of rotations about one axis is, up to this drift, the rotation by the exact sum of the angles. Transformed vectors keep their length, transformed points their distances, and applying the inverse transform gives back the vector, up to a stated error.", "quantifier": "all angles at which sin/cos are within d, all axes in range, all chains of any length, all vectors and points with finite images; every binary format of at least 5 bits reaching to 64", "why_tests_cant": "all float inputs, including NaN, infinities, signed zeros and subnormals: 2^32 or 2^64 values per component, several components per call", "anchors": ["src/transform2.rs:Transform2::rotate, Transform2::and_then", "src/transform3.rs:Transform3::rotate_x, rotate_y, rotate_z, rotate_axis, and_then"]}
{"id": "C73", "title": "Reflections and axis permutations are exact symmetries", "statement": "In f32/f64, mirroring a whole scene in any set of coordinate axes changes nothing but signs: the ray/box test hits or misses alike with equal parameters, is_inside, overlaps, min_dimension and max_dimension answer alike, union, intersect, extents, area, volume and surface area are mirrored (equal up to the sign of zero), dot, length and distance are bit for bit the same, normalize is mirrored bit for bit and cross up to the sign of zero. Renaming the axes leaves the ray/box test, is_inside and overlaps unchanged, and in 2D (in 3D for exchanging x and y) dot, length, distance and area/volume bit for bit. It ends there: in every format some 3D dot product changes when y and z are exchanged, and the center of some mirrored box is not the mirrored center.", "quantifier": "all boxes, rays, points and vectors, finite or not, all sets of axes, all permutations of axes", "why_tests_cant": "all float inputs, including NaN, infinities, signed zeros and subnormals: 2^32 or 2^64 values per component, several components per call", "anchors": ["src/boundingbox2.rs, src/boundingbox3.rs: Intersection<&Ray>, is_inside, overlaps, Union, center", "src/vector2.rs, src/vector3.rs: dot, cross, length, normalize", "src/point2.rs, src/point3.rs: distance"]}
{"id": "C74", "title": "Results do not depend on the unit of length (powers of two)", "statement": "In f32/f64, scaling a scene by 2^k scales results without changing a digit: if box and ray are both scaled (and the differences corner - origin overflow on both scales or on neither) the ray/box test hits or misses alike with equal parameters, with no condition on underflow; scaling the direction alone by 2^k divides the parameters by 2^k exactly while no quotient leaves the normal range. Sums, differences and extents scale exactly without any condition on underflow, is_inside, overlaps, min_dimension and max_dimension are unchanged, union and intersect scale; dot, cross, length, distance, products with scalars, area, volume and center scale exactly while no intermediate product leaves the normal range, and normalize then returns bit for bit the same vector.", "quantifier": "all exponents k, all boxes, rays, points and vectors related by an exact scaling by 2^k, in every binary format", "why_tests_cant": "all float inputs, including NaN, infinities, signed zeros and subnormals: 2^32 or 2^64 values per component, several components per call", "anchors": ["src/boundingbox2.rs, src/boundingbox3.rs: Intersection<&Ray>, is_inside, overlaps, Union, area, volume, center", "src/vector2.rs, src/vector3.rs: dot, cross, length, normalize, Add, Sub, Mul, Div", "src/point2.rs, src/point3.rs: distance"]}
{"id": "C75", "title": "Where a NaN spreads and where it is swallowed", "statement": "A NaN coordinate makes dot, length (and only that does), distance and all of normalize, of a transformed point or vector NaN; in a matrix product it spreads along its row (left factor) or column (right factor); in a cross product to the two other coordinates. Comparisons involving it are false, so shortest/longest/closest/farthest return their second candidate, even if that is the NaN one. A box with a NaN corner contains nothing, overlaps nothing and has no intersection; growing a box by a NaN coordinate leaves that axis unchanged; transforming a box with a NaN in max yields, silently, the single image of min. In the ray/box test an axis in which the ray is NaN is ignored: the 3D answer is the 2D answer in the other axes, and an all-NaN direction hits every box from 0 to infinity. TryFrom accepts a matrix with a NaN and returns an all-NaN inverse.", "quantifier": "every value with a NaN in any position, everything else arbitrary (including infinities and other NaNs)", "why_tests_cant": "all float inputs, including NaN, infinities, signed zeros and subnormals: 2^32 or 2^64 values per component, several components per call", "anchors": ["src/vector3.rs: Vector3::{dot,cross,length,normalize,shortest,longest}", "src/point3.rs: Point3::{distance,closest,farthest}", "src/transform3.rs: Mul, TryFrom, Transform::transform", "src/boundingbox3.rs: union, intersection, overlaps, is_inside"]}
{"id": "C76", "title": "The view matrix is accurate in floating point", "statement": "In f32 and f64, unless a squared length overflows or is subnormal (for target - position: less than twice the least normal number), every entry of the camera-to-world matrix of look_at is within 106 u / sin(theta) of the exact one (u the unit roundoff, theta the angle between up and the viewing direction, sin(theta) at least 256 u); the viewing direction is within 13 u whatever theta is, the camera position and the last row are exact, and the axes are orthonormal up to 318 u / sin(theta). look_at succeeds (sin(theta) at least 4096 u, position within 1/(8u) of the origin) and its forward matrix is within 900 u / sin(theta) of the exact world-to-camera matrix in the rotation part, 900 u (1 + |position|) / sin(theta) in the offset. normalize alone is within 11 u of the exact unit vector, whatever underflows in single coordinates.", "quantifier": "all camera positions, targets and up vectors with finite lengths that are not subnormal and not (nearly) parallel; all binary formats like f32/f64", "why_tests_cant": "all float inputs, including NaN, infinities, signed zeros and subnormals: 2^32 or 2^64 values per component, several components per call", "anchors": ["src/transform3.rs: Matrix4x4::inverse_look_at, Transform3::look_at", "src/vector3.rs: Vector3::normalize, CrossProduct"]}
{"id": "C77", "title": "Transformed bounding boxes are accurate up to rounding", "statement": "In f32 and f64 (affine matrix, nothing overflows), each corner coordinate of the transform of a well-formed box is within a stated allowance (four roundings in 2D, five in 3D, relative to the size of the terms, plus underflow) of the exact least/greatest coordinate of the images of the two corners. If no row of the matrix mixes signs, the exact image of every real point of the box lies in the returned box up to that allowance and the computed image of every point the box contains lies in it up to twice the allowance; on integer or fixed-point data small enough to be exact it lies in it outright.", "quantifier": "every f32/f64 affine matrix, finite well-formed box and (real or floating-point) point in it", "why_tests_cant": "all float inputs, including NaN, infinities, signed zeros and subnormals: 2^32 or 2^64 values per component, several components per call", "anchors": ["src/transform2.rs: Transform<&BoundingBox2>", "src/transform3.rs: Transform<&BoundingBox3>"]}
{"id": "C78", "title": "Bounding and clipping in parallel give the same box in every schedule", "statement": "Combining well-formed boxes pairwise with union, in a tree of any shape, yields the smallest box containing them all, and two schedules over the same boxes (any order, any repetition) yield equal boxes; combining them pairwise with intersect yields none iff they have no common point and otherwise the box of exactly the common points, in every schedule. Bounding points chunk by chunk (each chunk folded from empty()) and then combining the chunks equals adding all points to empty() one by one, provided two pointless partial results are never combined; if they are anywhere, the final result is the infinite box whatever the other points are (the expected law for empty chunks is FALSE of the code).", "quantifier": "all binary trees of boxes or chunks of points, of any size and shape; all well-formed boxes, NaN-free points", "why_tests_cant": "the laws must hold for every schedule (tree shape, size and order), of which there are infinitely many, and for every float input; tests try a few shapes", "anchors": ["src/boundingbox2.rs: Union, Intersection, BoundingBox2::empty", "src/boundingbox3.rs: Union, Intersection, BoundingBox3::empty"]}
{"id": "C79", "title": "Tournaments by shortest, longest, closest, farthest", "statement": "Selecting the best of many NaN-free vectors (or points with NaN-free distance) by any tournament of pairwise shortest/longest/closest/farthest returns one of the candidates, no candidate beats it, and it is the last best candidate in order; so the result depends only on the order of the candidates, not on how the tournament is organised, and equals the sequential fold; a different order gives a winner of equal length (distance). With a NaN vector among the candidates the result does depend on the organisation.", "quantifier": "all binary trees of candidates, of any size and shape, all floats", "why_tests_cant": "the laws must hold for every schedule (tree shape, size and order), of which there are infinitely many, and for every float input; tests try a few shapes", "anchors": ["src/vector2.rs: RelativeLength", "src/vector3.rs: RelativeLength", "src/point2.rs: RelativeDistance", "src/point3.rs: RelativeDistance"]}
{"id": "C80", "title": "Cutting a box by planes loses no ray", "statement": "In f32 and f64: when a box is cut by a coordinate plane within it, the parameter ranges intersect reports for the two parts tile exactly the range reported for the whole (one part reports exactly that range, or both report ranges that meet in exactly the same number and join to it; whenever both parts report, they join to the range of the whole), and the points inside the parts are together exactly the points inside the whole. So for a kd-tree of any shape every parameter in the range of the whole box lies in the range of some cell, every cell hit implies that the whole is hit, and the cells cover exactly the points of the box. The exception is a ray running in the cutting plane itself: neither part reports a finite range, so the hit is lost.", "quantifier": "every well-formed finite box, every cut within it, every kd-tree shape, every finite ray not lying in a face or cutting plane (and, for the exception, every ray in one), both dimensions, both formats", "why_tests_cant": "the laws must hold for every schedule (tree shape, size and order), of which there are infinitely many, and for every float input; tests try a few shapes", "anchors": ["src/boundingbox2.rs: Intersection<&Ray2>, is_inside", "src/boundingbox3.rs: Intersection<&Ray3>, is_inside"]}
{"id": "C81", "title": "The source text computes the reference definitions", "statement": "Every function of the crate, evaluated from its own source text on any arguments, returns exactly the value given by the reference definitions that all other properties are proved about (and leaves its receiver as they say: unchanged, except for the assigning operators, set and writes through index_mut and get_mut), for f32 and for f64, in debug and in release builds; == of the crate's types is what the derive attributes in the text generate. Matrix get, get_mut, set and the corner functions panic exactly when the reference definitions say so.", "quantifier": "every function of the crate, all arguments, any scalar arithmetic, both primitive types, both build profiles", "why_tests_cant": "the laws must hold for every schedule (tree shape, size and order), of which there are infinitely many, and for every float input; tests try a few shapes", "anchors": ["src/scalar.rs: all functions", "src/minmax.rs: all functions", "src/dot.rs: all functions", "src/cross.rs: all functions", "src/length.rs: all functions", "src/distance.rs: all functions", "src/union.rs: all functions", "src/intersection.rs: all functions", "src/transform.rs: all functions", "src/dimension2.rs: Dimension2", "src/dimension3.rs: Dimension3", "src/vector2.rs: all functions", "src/vector3.rs: all functions", "src/point2.rs: all functions", "src/point3.rs: all functions", "src/ray2.rs: all functions", "src/ray3.rs: all functions", "src/boundingbox2.rs: all functions", "src/boundingbox3.rs: all functions", "src/transform2.rs: all functions", "src/transform3.rs: all functions", "src/lib.rs: module list"]}
{"id": "C82", "title": "No function panics or hangs, except five", "statement": "Every function of the crate, called with any arguments of the types in its signature, returns: it does not run forever, does not overflow an integer and does not panic, for f32 and f64 and in debug and release builds. Only the matrix accessors get, get_mut and set (through the private index computation) and the box function corner may panic. This covers every function in every impl block and every free function at every instantiation of its type parameters that the crate provides.", "quantifier": "every function of the source text (none left out), all well-typed arguments including NaN, infinities and any u32, any scalar arithmetic, both primitive types, both build profiles", "why_tests_cant": "the laws must hold for every schedule (tree shape, size and order), of which there are infinitely many, and for every float input; tests try a few shapes", "anchors": ["src/scalar.rs: all functions", "src/minmax.rs: all functions", "src/dot.rs: all functions", "src/cross.rs: all functions", "src/length.rs: all functions", "src/distance.rs: all functions", "src/union.rs: all functions", "src/intersection.rs: all functions", "src/transform.rs: all functions", "src/dimension2.rs: Dimension2", "src/dimension3.rs: Dimension3", "src/vector2.rs: all functions", "src/vector3.rs: all functions", "src/point2.rs: all functions", "src/point3.rs: all functions", "src/ray2.rs: all functions", "src/ray3.rs: all functions", "src/boundingbox2.rs: all functions", "src/boundingbox3.rs: all functions", "src/transform2.rs: all functions", "src/transform3.rs: all functions", "src/lib.rs: module list"]}
{"id": "C83", "title": "Hit points lie on the box", "statement": "In f32 and f64, if nothing overflows: for every parameter t in the range intersect reports for a box and a ray, the exact point origin + direction*t is inside the box up to two roundings of the distance to the face (plus one underflow); at the reported start, if finite, it is on the face through which the ray enters one of the slabs (or the start is 0: the ray starts inside), and at a finite reported end on the face through which it leaves one, within the same error. The computed points ray.at(t), ray.at(start) and ray.at(end) satisfy the same with the rounding error of at() added.", "quantifier": "for all boxes, rays and parameters of the reported range such that the differences and quotients of the slab test are finite", "why_tests_cant": "all float inputs, including NaN, infinities, signed zeros and subnormals: 2^32 or 2^64 values per component, several components per call", "anchors": ["src/boundingbox2.rs: Intersect<&Ray2<S>> for BoundingBox2", "src/boundingbox3.rs: Intersect<&Ray3<S>> for BoundingBox3", "src/ray2.rs: at", "src/ray3.rs: at"]}
{"id": "C84", "title": "Transforming there and back returns the point up to rounding", "statement": "In f32 and f64, if nothing overflows: for an affine transform t, t.inverse().transform(t.transform(x)) differs from x (a point, a vector, or the origin and direction of a ray) in each coordinate by at most what the stored inverse lacks of being the exact inverse (|B A - 1| |x|) plus the rounding errors of two matrix-vector products. For a translation this is two roundings of a coordinate, whatever the offset, and vectors come back unchanged; for a scaling without underflow the relative error is at most (1+u)^3-1; for a transform made by try_from the lack is bounded by the error of the computed inverse; for a transform whose matrices are within eps of an orthogonal matrix and its transpose, by eps(2+eps)|x|.", "quantifier": "for all affine transforms, points, vectors and rays for which the intermediate and final coordinates are finite", "why_tests_cant": "all float inputs, including NaN, infinities, signed zeros and subnormals: 2^32 or 2^64 values per component, several components per call", "anchors": ["src/transform2.rs: transform, inverse, translate, scale, TryFrom<Matrix3x3<S>> for Transform2<S>", "src/transform3.rs: transform, inverse, translate, scale, TryFrom<Matrix4x4<S>> for Transform3<S>"]}
{"id": "C85", "title": "Transforming a point of a ray and the point of the transformed ray agree up to rounding", "statement": "In f32 and f64, if nothing overflows, for an affine transform t, a ray r and a parameter s: t.transform(r.at(s)) and t.transform(r).at(s) are each within an explicit rounding error of the exact image of the exact point of the ray, hence within the sum of the two errors of each other.", "quantifier": "for all affine transforms, rays and parameters for which the intermediate and final coordinates are finite", "why_tests_cant": "all float inputs, including NaN, infinities, signed zeros and subnormals: 2^32 or 2^64 values per component, several components per call", "anchors": ["src/transform2.rs: transform for Point2 and Ray2", "src/transform3.rs: transform for Point3 and Ray3", "src/ray2.rs: at", "src/ray3.rs: at"]}
{"id": "C86", "title": "Data of moderate size never overflows and loses nothing to underflow", "statement": "In f32 and f64, every bound that the size of the arguments puts on the exact result also holds for the computed result, provided the bound itself is representable: sums, differences, multiples, quotients, dot, cross, length, distance, points of a ray, box measures, center, union and intersection, matrix products and affine transforms of arguments with coordinates up to 2^k are finite and at most the corresponding small multiple of 2^k, 2^2k or 2^3k. In particular, for coordinates that are 0 or between 2^-62 and 2^62 (f32; 2^-510 and 2^510 in f64) dot, length and normalize are finite and accurate to a few roundings with no further condition; distances likewise for coordinates that are 0 or between 2^-39 and 2^39 (2^-458 and 2^458), however close the points; and the ray/box test meets the conditions of C65 and C83 for boxes and origins up to 2^60 and direction coordinates that are 0 or at least 2^-60.", "quantifier": "for all vectors, points, rays, boxes, matrices and transforms with coordinates in the stated ranges", "why_tests_cant": "all float inputs, including NaN, infinities, signed zeros and subnormals: 2^32 or 2^64 values per component, several components per call", "anchors": ["src/vector3.rs: arithmetic, dot, cross, length, normalize", "src/point3.rs: arithmetic, distance", "src/ray3.rs: at", "src/boundingbox3.rs: measures, center, union, intersect", "src/transform3.rs: Matrix4x4 multiplication, transform", "src/vector2.rs, src/point2.rs, src/ray2.rs, src/boundingbox2.rs, src/transform2.rs: the same"]}
{"id": "C87", "title": "The way between nearby points is exact", "statement": "For points (vectors, box corners) of which no coordinate is more than twice the other and of the same sign, q - p is the exact difference; p + (q - p), translating p by it and evaluating the ray from p along it at parameter 1 all give exactly q, q - (q - p) gives p, the extents of a box with such corners are exact, and every point of the segment computed at a parameter from 0 to 1 lies in the box spanned by p and q. For distant points this fails: from 1 to the smallest positive number the walk ends at 0.", "quantifier": "all pairs of nearby finite points, vectors and box corners, in 2D and 3D, all parameters from 0 to 1, every binary format", "why_tests_cant": "all float inputs, including NaN, infinities, signed zeros and subnormals: 2^32 or 2^64 values per component, several components per call", "anchors": ["src/point2.rs: Sub, Add", "src/point3.rs: Sub, Add", "src/ray2.rs: at", "src/ray3.rs: at", "src/boundingbox2.rs: diagonal, width", "src/boundingbox3.rs: diagonal, width"]}
{"id": "C88", "title": "Walking along a ray is monotone in floating point", "statement": "Further along a finite ray every coordinate of ray.at has moved in the direction of the ray or stayed, and is never NaN; hence the parameters at which the computed point is inside a given box have no gaps, the computed point between two parameters lies in the box spanned by the points at those, and the computed distance from the origin never shrinks as a non-negative parameter grows.", "quantifier": "all finite rays, all finite parameters s <= u <= t, all boxes, in 2D and 3D, every scalar format", "why_tests_cant": "all float inputs, including NaN, infinities, signed zeros and subnormals: 2^32 or 2^64 values per component, several components per call", "anchors": ["src/ray2.rs: at", "src/ray3.rs: at", "src/boundingbox2.rs: is_inside, new", "src/boundingbox3.rs: is_inside, new", "src/point2.rs: distance", "src/point3.rs: distance"]}
{"id": "C89", "title": "The laws of geometry hold between computed values up to rounding", "statement": "For vectors and points whose coordinates are zero or of moderate magnitude (between 2^-62 and 2^62 for f32 vectors, 2^-39 and 2^39 for f32 points, 2^-510/2^510 and 2^-458/2^458 for f64): the triangle inequality between computed distances and the length of a computed difference hold up to a fixed number of roundings; |dot(u, v)| is at most length(u) * length(v) up to roundings; the dot product of two normalized vectors is finite and lies in [-1, 1] up to a few roundings, and that of a normalized vector with itself is 1 up to a few roundings; and a finite computed cross product is orthogonal to both factors up to roundings. The exact law can fail: normalizing (3, 3) and taking the dot product with itself gives a number greater than 1 in f32 and in f64, so its arc cosine is undefined.", "quantifier": "all vectors and points of moderate magnitude in 2D and 3D, every binary format with enough room, f32 and f64 in particular", "why_tests_cant": "all float inputs, including NaN, infinities, signed zeros and subnormals: 2^32 or 2^64 values per component, several components per call", "anchors": ["src/vector2.rs: dot, length, normalize, sub", "src/vector3.rs: dot, cross, length, normalize, sub", "src/point2.rs: distance", "src/point3.rs: distance"]}
{"id": "C90", "title": "The selected candidate is best up to rounding", "statement": "Reducing any number of candidate points, in any grouping, with closest (farthest) to a reference point selects one of them, and its exact Euclidean distance is at most (at least) that of every other candidate up to the factor ((1+u)/(1-u))^k with k = 3 in 2D and 4 in 3D; reducing vectors with shortest (longest) likewise with k = 2 and 3. Holds for all coordinates that are zero or of moderate magnitude.", "quantifier": "every tree shape, every number of candidates, all points and vectors of moderate magnitude, f32 and f64 in particular", "why_tests_cant": "all float inputs, including NaN, infinities, signed zeros and subnormals: 2^32 or 2^64 values per component, several components per call", "anchors": ["src/point2.rs: closest, farthest", "src/point3.rs: closest, farthest", "src/vector2.rs: shortest, longest", "src/vector3.rs: shortest, longest"]}
{"id": "C91", "title": "Histories of += and -=, and means", "statement": "In f32 and f64, after any number n of in-place additions and subtractions of vectors to a point or vector (finite result): executing them in place gives the same as the operators; each coordinate is within ((1+u)^n - 1) of the exact result, relative to the start plus the total way, with no loss to underflow; on a grid with room for the total way every history is exact; steps that never decrease (increase) a coordinate never leave it lower (higher); a step too small to move the value never moves it however often it is repeated (witness: steps of 1 at 2^24 resp. 2^53). The mean of n vectors, added up and divided by n, is within ((1+u)^n - 1) of the exact mean relative to the mean magnitude plus one underflow, but can lie outside the bounding box of the vectors: the mean of three equal vectors need not equal them.", "quantifier": "every start, every list of steps (any length), every list of vectors; witnesses for the failures in both formats", "why_tests_cant": "all float inputs, including NaN, infinities, signed zeros and subnormals: 2^32 or 2^64 values per component, several components per call", "anchors": ["src/point2.rs: AddAssign, SubAssign, Add, Sub", "src/point3.rs: AddAssign, SubAssign, Add, Sub", "src/vector2.rs: AddAssign, SubAssign, Add, Div", "src/vector3.rs: AddAssign, SubAssign, Add, Div"]}
{"id": "C92", "title": "Quadtrees and octrees: subdivision by center and corners", "statement": "Let cell k of a box be the box spanned by its center() and corner(k). In f32 and f64, for a finite ordered box whose extents do not overflow: all 4 (8) cells exist in both build profiles, are finite and ordered with non-overflowing extents, contain the center and their corner, lie inside the box, together cover it, and two cells differing in a dimension share only points on the center plane of that dimension. Subdivision makes progress: in every dimension in which some float lies strictly between the bounds the center is strictly between, otherwise it is one of the bounds. After n subdivisions along any path every extent is at most (7/8)^n of the original or no float is left strictly between the bounds; after 1662 (f32) or 12588 (f64) subdivisions no float is left between the bounds of any dimension, and every point in the box is on a face of each dimension. Splitting only along max_dimension() can stall: there is a box whose center is on a face of its longest dimension although the other dimension can still be split.", "quantifier": "every box with finite ordered corners and finite extents, every point, every path of cell numbers of any length, both build profiles", "why_tests_cant": "all float inputs, including NaN, infinities, signed zeros and subnormals: 2^32 or 2^64 values per component, several components per call", "anchors": ["src/boundingbox2.rs: new, center, corner, diagonal, is_inside", "src/boundingbox3.rs: new, center, corner, diagonal, is_inside"]}
{"id": "C93", "title": "Instancing: intersecting a transformed box by transforming the ray", "statement": "A box placed by an affine transform t is intersected with a ray by calling intersect on the box and transform(t.inverse(), ray). In exact arithmetic this reports exactly the parameters at which the ray itself is in the transformed box: s >= 0 is between start and end exactly if some point q in the box has transform(t, q) = ray.at(s), and the result is None exactly if there is no such parameter (for transformed rays not in a face plane, see C37). In f32 and f64, when nothing overflows: at every reported parameter the exact point of the world ray, taken back exactly by the stored inverse, is in the box up to explicit rounding errors (those of C83 for the slab test, of C64 for the point and of C85 for the transformed ray); at the start of the range it is at an entry face (unless the range starts at the origin of the ray), and at the end at an exit face.", "quantifier": "every affine transform whose matrices are inverse to each other (exact arithmetic) or whose stored inverse is finite and affine (floats), every finite ordered box, every ray, every parameter in the range", "why_tests_cant": "all float inputs, including NaN, infinities, signed zeros and subnormals: 2^32 or 2^64 values per component, several components per call", "anchors": ["src/ray2.rs: at, transform", "src/ray3.rs: at, transform", "src/boundingbox2.rs: intersect_ray", "src/boundingbox3.rs: intersect_ray", "src/transform2.rs: inverse", "src/transform3.rs: inverse"]}
{"id": "C94", "title": "Sorting by length or distance", "statement": "For NaN-free vectors (points with NaN-free distance to the reference, scalars that are not NaN) is_shorter_than, is_longer_than, is_closer_to and is_farther_from are strict weak orders: irreflexive, asymmetric, transitive, and being tied is transitive, although they compare rounded values. So one may sort and search by them: if no element comes before its predecessor then no element comes before any earlier one and the lengths (distances) are in order; the elements that come before a given x are a prefix; there is exactly one stable sort of every list, whatever the algorithm; and any two sorted arrangements of the same elements have the same lengths (distances) position by position. One NaN element breaks this: it is tied with everything, so [b, NaN, a] passes the check although a comes before b, and the comparison is no order any more (sort_by may then panic).", "quantifier": "all lists of any length of vectors, points (2D, 3D) and scalars, all reference points, all floats", "why_tests_cant": "all float inputs, including NaN, infinities, signed zeros and subnormals: 2^32 or 2^64 values per component, several components per call", "anchors": ["src/length.rs: RelativeLength", "src/distance.rs: RelativeDistance", "src/vector2.rs: is_shorter_than, is_longer_than", "src/vector3.rs: is_shorter_than, is_longer_than", "src/point2.rs: is_closer_to, is_farther_from", "src/point3.rs: is_closer_to, is_farther_from", "src/scalar.rs: is_shorter_than, is_closer_to"]}
{"id": "C95", "title": "Bounding a transformed box by its corners is exact", "statement": "The box a user builds by transforming the corners of a box one by one (corner(k), transform, union starting from empty()) contains the computed floating-point image of every point of the box exactly - no tolerance, unlike transform of the box itself (C56) - provided the transform is affine, everything is finite and the computed images of the corners are not NaN; it is the smallest box that does; it is finite if the images are, so a scene graph of any depth may do this level by level; with entries up to 2^a and coordinates up to 2^b (no overflow) no condition on computed values is needed. The NaN condition is necessary (a NaN image is in no box) and can fail by overflow. In exact arithmetic the box may be used to cull: whenever the ray transformed by the inverse hits the box, the ray hits the box around the transformed corners, over a range that contains the reported one.", "quantifier": "all boxes, affine transforms, points, rays, chains of transforms of any length, both build profiles, 2D and 3D, f32 and f64", "why_tests_cant": "all float inputs, including NaN, infinities, signed zeros and subnormals: 2^32 or 2^64 values per component, several components per call", "anchors": ["src/boundingbox2.rs: corner, union, empty", "src/boundingbox3.rs: corner, union, empty", "src/transform2.rs: transform (Point2, Ray2)", "src/transform3.rs: transform (Point3, Ray3)"]}
{"id": "C96", "title": "Aiming at a point, and segments", "statement": "In f32 and f64: if a finite box contains q, the ray from p along q - p is reported to hit it over a range containing the parameter 1 of q (start <= 1 <= end), whatever is rounded on the way; if the box contains the origin of a ray (also on its boundary) the reported range starts at exactly 0; for p and q both in the box it starts at 0 and reaches 1; and searching a bounding-volume hierarchy of any shape along that ray finds every box that contains q. In exact arithmetic the segment from p to q meets the box iff intersect of that ray reports a range starting at 1 or before. Exceptions: a ray running in one face plane (C37), and a difference q - p that overflows (then 1 can be missing from the range).", "quantifier": "all finite boxes, all finite p and q (q - p not overflowing), every ray not running in one face plane, all tree shapes, 2D and 3D, every binary format", "why_tests_cant": "all float inputs, including NaN, infinities, signed zeros and subnormals: 2^32 or 2^64 values per component, several components per call", "anchors": ["src/boundingbox2.rs:intersect", "src/boundingbox3.rs:intersect", "src/ray2.rs:Ray2::new", "src/ray3.rs:Ray3::new"]}
{"id": "C97", "title": "Nearest point of a box, balls and boxes, and nearest-neighbour search", "statement": "For a box b with min ≤ max and a point p, the point c = p.max(b.min).min(b.max) is in the box (even if a coordinate of p is NaN), and equals p if p is in the box. For a finite p no point of the box has a smaller computed distance to p, and none is closer by is_closer_to: hence some point of the box is within a distance r of p exactly if c is, a candidate that is closer than c is closer than every point of the box, and a depth-first search of a hierarchy of points (bounded by union) that skips every box whose clamped point is farther than the best candidate returns exactly what closest returns when applied to all points one after another, in the order of the visit: a point than which no other is closer. Clamping brings no two finite points further apart in computed distance (for finite boxes). In exact arithmetic c is the unique nearest point, and |p-c|² + |c-q|² ≤ |p-q|² for every point q of the box.", "quantifier": "all boxes, points, hierarchies of points of every shape and size, visiting orders and first candidates", "why_tests_cant": "all float inputs, including NaN, infinities, signed zeros and subnormals: 2^32 or 2^64 values per component, several components per call", "anchors": ["src/minmax.rs:MinMax", "src/point2.rs:min,max,distance,is_closer_to,closest", "src/point3.rs:min,max,distance,is_closer_to,closest", "src/boundingbox2.rs:is_inside,union", "src/boundingbox3.rs:is_inside,union"]}
{"id": "C98", "title": "Length and components: axis-aligned vectors have an exact length, and no component exceeds the length", "statement": "In rounded arithmetic of every binary format with round-to-nearest-even (f32 and f64 among them): (a) if all components of a vector but one are zero, and the square of that one neither underflows nor overflows, length(v) == |that component| exactly (although the square is rounded, the square root undoes the rounding), and v.normalize() is exactly ±1 there and 0 elsewhere; (b) if the square of at least one component does not underflow, |v[d]| <= length(v) for every dimension d, and no component of v.normalize() exceeds 1 in magnitude, whether or not something overflows; (c) the same for points: distance(p, q) is exactly the computed coordinate difference for points on a line parallel to an axis and never below any computed coordinate difference. Where all the squares underflow, (b) fails: in every format the vector of the smallest positive number and zeros has length 0.", "quantifier": "every binary format with round-to-nearest-even; every finite vector and pair of points; every dimension (2D and 3D)", "why_tests_cant": "all float inputs, including NaN, infinities, signed zeros and subnormals: 2^32 or 2^64 values per component, several components per call", "anchors": ["src/vector2.rs:length,normalize,dot", "src/vector3.rs:length,normalize,dot", "src/point2.rs:distance", "src/point3.rs:distance"]}
{"id": "C99", "title": "Uniform grids: (p / s).floor() as the cell of a point", "statement": "A client sorts points into the cells of a grid of cell size s > 0 with (p / s).floor(). (a) In exact arithmetic the result is the cell: k*s <= x < (k+1)*s in every dimension. In rounded arithmetic of every binary format, for coordinates below 2^(p-1) cells (2^23 for f32): (b) the cell is an integer k with x < (k+1)*s and either k*s <= x or the quotient was rounded up to k, so that the point is at most the rounding error below cell k; (c) if s is a power of two (and x is not negative and tiny), the cell is exact; (d) the cell is monotone in each coordinate, so scanning the cells from that of a box's minimum to that of its maximum corner finds every point is_inside reports; (e) the cells of two points whose coordinates differ by at most s are equal or adjacent in every dimension, in spite of (b), so searching the 3x3 (3x3x3) cells around a point misses no such neighbour; (f) the same if the computed distance(p, q) is below s. Exceptions: in f32 x = 25165826 with s = 8388609 is put into cell 3 although x < 3*s; and a computed distance that equals s does not suffice for (f): (-2^-30, 0) and (1, 0) have the computed distance 1 but are in the cells -1 and 1 of the unit grid.", "quantifier": "every binary format with round-to-nearest-even (order and box query: every IEEE scalar, infinite coordinates included); every finite positive cell size; every pair of points and every box; 2D and 3D", "why_tests_cant": "all float inputs, including NaN, infinities, signed zeros and subnormals: 2^32 or 2^64 values per component, several components per call", "anchors": ["src/point2.rs:floor,distance", "src/point3.rs:floor,distance", "src/boundingbox2.rs:is_inside", "src/boundingbox3.rs:is_inside"]}
{"id": "C100", "title": "Histories of *= and /=: damping, vanishing, exact powers of two, accumulated error", "statement": "For every history of v *= s and v /= s (vectors, points and matrices; finite factors, divisors not zero) in rounded arithmetic of every binary format: (a) factors of at most 1 in magnitude never make a component grow, never produce an infinity or NaN, and never make length(v) grow; (b) with factors (or reciprocals of divisors) above 1/2 and up to 1, a component that is not zero never becomes zero and keeps its sign, however long the history; applying one such factor again and again ends in a value that does not change any more: v *= 0.75 once per frame never stops the motion; (c) with factors of at most 1/2 in magnitude every component is exactly zero after emax - emin + 1 updates (278 for f32, 2099 for f64); (d) factors that are powers of two are exact as long as the exact value stays in the normal range, so a history with the total factor 1 gives back v; (e) otherwise, while nothing underflows or overflows, n updates give the exact product up to a factor between (1+u)^-n and (1-u)^-n.", "quantifier": "every binary format with round-to-nearest-even; every history of every length; every finite vector, point and matrix", "why_tests_cant": "histories of unbounded length over all float inputs", "anchors": ["src/vector2.rs:mul_assign,div_assign,length", "src/vector3.rs:mul_assign,div_assign,length", "src/point2.rs:mul_assign,div_assign", "src/point3.rs:mul_assign,div_assign", "src/transform2.rs:mul_assign,div_assign", "src/transform3.rs:mul_assign,div_assign"]}
{"id": "C101", "title": "The coordinate axes are an exact orthonormal basis", "statement": "The constants are what their names say: the component of `Vector::axis(d)` in dimension e is 1 if e = d and 0 otherwise, and zero()/origin() have only zeros. They behave as an orthonormal basis with no rounding error at all: for every finite vector v, axis(d).dot(v) == v[d] == v.dot(axis(d)); x_axis()*v.x + y_axis()*v.y (+ z_axis()*v.z) == v; axis(d).length() == 1 and axis(d).normalize() == axis(d); axis(d).dot(axis(e)) is 1 or 0; the cross product with an axis is the exact quarter turn, so the axes are right-handed; a ray along axis(d) changes coordinate d only, to p[d] + t. For a finite matrix m, m * axis(d) is exactly column d and axis(d) * m is row d; for an affine one m * origin() is the last column; so two finite affine matrices that agree (==) on the origin and on the axes are ==. Limits: with an infinite component in another dimension axis(d).dot(v) is NaN even if v[d] is a number.", "quantifier": "all finite vectors, points, matrices, dimensions, parameters, build profiles; 2D and 3D; f32 and f64", "why_tests_cant": "an exactness claim for every float and every matrix; a test compares a handful of axis products", "anchors": ["src/vector2.rs: zero, x_axis, y_axis, axis, dot, normalize", "src/vector3.rs: zero, x_axis, y_axis, z_axis, axis, dot, cross, normalize", "src/point2.rs/point3.rs: origin", "src/ray2.rs/ray3.rs: at", "src/transform2.rs/transform3.rs: Mul<Vector>, Mul<Point>, get"]}
{"id": "C102", "title": "Chains of translations and scalings", "statement": "In floats: translate(u).and_then(translate(v)) == translate(u + v), forward and inverse matrix alike, for all finite u and v; a chain of any number of translations is == translate(sum), where sum is what += computes from zero, as long as no partial sum overflows; scale(s).and_then(scale(t)) has the forward matrix scale(t*s) and the inverse matrix scale((1/s)*(1/t)), each entry rounded once; identity() is a two-sided unit of and_then for every finite transform; scale(s).and_then(translate(v)) maps every finite point to s*p + v rounded exactly as if the two were applied one after the other; translate(v).and_then(scale(s)) maps it to s*p + s*v. Limits, each with a witness: composing is not applying one after the other for translate-then-scale and for two translations (the offsets are combined first), and scale(3).and_then(scale(3)) != scale(9) because the inverses differ by one bit.", "quantifier": "all finite offsets, factors, points and transforms, all lists of offsets; 2D and 3D; f32 and f64", "why_tests_cant": "exact equality for every float and every length of chain", "anchors": ["src/transform2.rs: Transform2::translate, scale, identity, and_then, Transform<Point2>", "src/transform3.rs: Transform3::translate, scale, identity, and_then, Transform<Point3>"]}
{"id": "C103", "title": "The first object hit by a ray", "statement": "A depth-first search of a bounding-volume hierarchy for the first object along a ray, which keeps the best hit so far and skips every box that the ray misses or enters (start of the range returned by intersect) not before that hit, gives the same answer as trying all objects one after another, in rounded arithmetic: the result is an object that is hit, at the smallest parameter of all hits, and nothing is returned only if nothing is hit - for any hierarchy, any order of visiting the children, and any objects hit no earlier than intersect says their box is entered; in particular when the objects are the boxes. The search for all boxes hit between two parameters (segments, shadow rays) that skips boxes not hit between them loses nothing either. Exception: the ray runs in the plane of a face. There the search CAN lose a hit: a flat box is hit by a ray in its plane, yet a larger box around it is not.", "quantifier": "all trees of finite boxes of any size and shape, all finite rays, all objects and visiting orders, f32/f64", "why_tests_cant": "all trees of boxes and all float rays; rounding, overflow and infinite crossings included", "anchors": ["src/boundingbox2.rs, src/boundingbox3.rs: Intersection<&Ray>, Union"]}
{"id": "C104", "title": "Which boxes overlap: hierarchies and sweep-and-prune", "statement": "Broad-phase collision detection on top of overlaps and union is exact in f32/f64. Descending two trees of boxes of any shape together, and stopping where the bounding boxes (made with union) of two subtrees do not overlap, returns exactly the overlapping pairs of leaves, in order, each once; descending one tree against itself returns every overlapping pair of leaves at different positions exactly once; sweep-and-prune along any axis over boxes sorted by min, stopping at the first box that begins behind the end of the current one, returns exactly the overlapping pairs of the list. All methods agree with each other, as unordered pairs, for any sorting axis and any tree built from the same boxes.", "quantifier": "all lists and trees of well-formed f32/f64 boxes (infinite ones included), of any size and shape; all axes", "why_tests_cant": "all trees and lists, of any size, of boxes with any float coordinates", "anchors": ["src/boundingbox2.rs, src/boundingbox3.rs: overlaps, Union", "src/point2.rs, src/point3.rs: Index"]}
{"id": "C105", "title": "Boxes of moving objects", "statement": "In f32/f64, with all rounding errors: an object with box b and velocity v, whose box at time t is new(b.min + v*t, b.max + v*t), is at every time u between s and t inside union(box at s, box at t), as is p + v*u for every point p of b; so if the boxes of two moving objects overlap at any time in between, their swept boxes overlap and no contact is missed. An object displaced by v with -m <= v <= m along every axis stays inside its fat box new(b.min - m, b.max + m); objects with disjoint fat boxes cannot touch before one has moved by more than its margin. What does NOT hold: an object moved in several small steps can leave the swept box of the whole way (two steps of v*0.5 from 1 with v = 5*2^-25 in f32).", "quantifier": "all finite f32/f64 boxes, velocities, margins and times", "why_tests_cant": "all float boxes, velocities and times; every rounding of every position", "anchors": ["src/boundingbox2.rs, src/boundingbox3.rs: new, Union, overlaps, is_inside", "src/point2.rs, src/point3.rs: Add<Vector>, Sub<Vector>", "src/vector2.rs, src/vector3.rs: Mul<S>"]}
{"id": "C106", "title": "Normals and planes under transformation", "statement": "Let a plane be a point o of it and a normal n, and let a client transform it with t.transform(o) and the row product n * &t.inverse. In exact real arithmetic, after any history of constructors, try_from on affine matrices, look_at, and_then and inverse(): the dot product of the transformed normal with every transformed vector equals the dot product before, and n * &t.inverse is the only vector with that property; dot(n, p - o), whose sign tells the side p is on, is unchanged when plane and point are transformed; so is the parameter dot(n, o - r.origin) / dot(n, r.direction) at which a non-parallel ray meets the plane, and the ray point at it is in the plane; transforming a normal by a.and_then(&b) is transforming it by a and then by b, and transforming with inverse() restores it; for rigid motions n * &t.inverse equals t.transform(n) and has the same length; and (3D) the cross product of two transformed vectors is the transformed cross product times the determinant of the linear part, which is not zero. Transforming a normal like a vector is wrong: under scale(2, 1) it loses perpendicularity. In f32 and f64: a translation leaves every finite normal unchanged, a scaling multiplies each component by the computed reciprocal, a rotation gives bit for bit the rotated vector, and every finite component of n * m is within (1+u)^n - 1 (n = 2, 3) of the exact one, relative to the magnitudes of the products, plus the underflow of the products.", "quantifier": "every normal, vector, point and ray with finite components; every history of transform-building calls; every matrix with finite products; both dimensions", "why_tests_cant": "ranges over all histories and all vectors", "anchors": ["src/transform2.rs: Mul<&Matrix3x3> for Vector2, Transform2", "src/transform3.rs: Mul<&Matrix4x4> for Vector3, Transform3"]}
{"id": "C107", "title": "Which side: the signs of dot and cross", "statement": "In f32/f64, with all rounding errors, overflow and underflow: no component of cross(u, v), and no 2D dot(u, v), ever has the wrong sign - if the computed number is positive (negative), the exact one is positive (negative). dot(n, p - o) is exactly negated by turning n around or exchanging p and o, and cross(b - a, c - a) by exchanging b and c. For a coordinate axis as normal the side test is exactly the comparison of the coordinates; if three corners agree in one coordinate, the other components of their normal are exactly zero. In general dot(n, p - o) is within an explicit bound of the exact value, so its sign is right for all points further away than that, and a test in computed numbers only (|s| > 8u dot(n.abs(), (p - o).abs()) plus two times the smallest positive number) certifies it; the same for the signed volume dot(cross(b - a, c - a), d - a); for integers or any grid with enough bits both are exact. What does NOT hold: the 3D dot product can have a strictly wrong sign (exact 1, computed -8 in f32), and a point off the plane can get side 0 even in 2D.", "quantifier": "all finite f32/f64 vectors and points (cross and 2D dot: whenever the result is not NaN; bounds: whenever it is finite)", "why_tests_cant": "all pairs of floats, with cancellation, overflow and underflow; a wrong sign needs a very special input", "anchors": ["src/vector2.rs: Vector2::abs, DotProduct for Vector2, Sub for Point2", "src/vector3.rs: Vector3::abs, DotProduct for Vector3, CrossProduct, Sub for Point3"]}
{"id": "C108", "title": "Inverting affine matrices in floating point", "statement": "In f32/f64, let m be a finite matrix whose last row is 0 … 0 1, with products of two entries (not both in the last column) that do not overflow, and a finite computed determinant of the linear part. Then inverse() fails exactly when the computed determinant D of the linear part (ad - bc in 2D, the expansion along the first row in 3D) equals zero; otherwise each entry of the linear part of the result is the computed minor of the linear part divided by D, so that the linear part of the inverse does not depend on the translation, and the last row is exactly 0 0 1 in 2D, so that transforming a point divides by one. In 3D the last row is exactly 0 0 0 w, where w is the quotient of the determinant computed in another order (rule of Sarrus) by D: it differs from one by at most the stated bound, and for some matrices (determinant exactly 5, computed without error) it is zero, so that the Ok inverse maps every point to something not finite. Inverting the matrix of a translation by a finite v gives exactly the translation by -v, and try_from of it equals Transform::translate(v). If products overflow the inverse can be Ok with every entry NaN.", "quantifier": "every finite affine matrix with moderate entries; every finite translation; every pair of affine matrices with the same linear part", "why_tests_cant": "The claims are about all float matrices and all roundings; the zero w appears only for rare matrices", "anchors": ["src/transform2.rs: Matrix3x3::inverse, TryFrom<Matrix3x3>, Matrix3x3::translate", "src/transform3.rs: Matrix4x4::inverse, TryFrom<Matrix4x4>, Matrix4x4::translate"]}
{"id": "C109", "title": "Rejection and reflection: v - n*v.dot(n) and v - n*(v.dot(n)+v.dot(n))", "statement": "With exact arithmetic and a unit normal n, reflecting twice gives back v, a reflection keeps all dot products (so lengths), negates the component along n, and a rejection is perpendicular to n, is the nearest of all v - n*s, and rejecting again changes nothing. In floating point, whenever the result is finite, every component of a reflection (rejection) is within an explicit bound of the exact one: k+3 (k+2) roundings of the sum of the magnitudes of its terms plus underflow, in k dimensions; so its length differs from that of v (its dot product with n from 0) by at most the summed bounds plus a term proportional to the error of the length of n, which for a normalized vector of moderate components is at most (1+u)^2/(1-u)^(k+2)-1. Negating n changes no component, negating v exactly negates the result; at a coordinate axis the component is exactly negated (made zero) and the others stay, and reflecting there twice gives back exactly v, unless doubling the component overflows: there is a finite f32 vector with a finite mirror image whose computed reflection has an infinite and two NaN components.", "quantifier": "all vectors v and normals n, in 2D and 3D; any binary format", "why_tests_cant": "A statement about all pairs of vectors: the error bound and the exact symmetries have to hold for every rounding, not for sampled vectors.", "anchors": ["src/vector2.rs: Sub, Mul, DotProduct", "src/vector3.rs: Sub, Mul, DotProduct"]}
{"id": "C110", "title": "Culling boxes by planes", "statement": "Take a plane through a point o with normal n and call a point p in front of it if n.dot(p - o) >= 0. For a box bb let k be the index whose bit d is set iff n[d] >= 0. In f32/f64, rounding included: of all points for which bb.is_inside holds, bb.corner(k) has the largest computed n.dot(p - o) and the opposite corner the smallest; so if n.dot(bb.corner(k) - o) < 0, then no point inside bb is in front of the plane (no condition on NaN, overflow or the order of bb.min and bb.max), and if bb is well-formed and no product overflows, the converse holds too. Hence dropping boxes behind some plane of a list never drops a box that contains a point in front of all planes, also when descending a hierarchy of unions; if no product overflows, the descent finds exactly the leaves that pass the test. The other common test, n.dot(bb.center() - o) + n.abs().dot(bb.diagonal()) / 2 < 0, is the same test in exact arithmetic, but NOT in f32: it drops boxes that contain points in front of the plane.", "quantifier": "every box, normal, point on the plane, list of planes, inside point and tree of boxes", "why_tests_cant": "quantifies over all boxes, planes, points and trees, and over all rounding errors", "anchors": ["src/boundingbox2.rs: corner, is_inside, center, diagonal, union", "src/boundingbox3.rs: corner, is_inside, center, diagonal, union", "src/vector3.rs: dot_product, abs"]}
{"id": "C111", "title": "Composing transforms or applying them one after the other; pivots", "statement": "Let t about c be Transform::translate(-c).and_then(&t).and_then(&Transform::translate(c)). (1) In exact arithmetic, for affine t: it takes p to t(p - c) + c and treats vectors as t does; if t leaves the origin in place it leaves c in place; a rigid t stays rigid and keeps distances from c; about a fixed pivot identity, composition and inverse are respected and inverse pairs stay inverse pairs. (2) In f32/f64, for a list of affine transforms, the image of a point under the composition, and the image obtained by applying the transforms one after the other, are both within (n+1) roundings per transform (n the dimension) of the exact image, relative to the product of the absolute values of the matrices applied to the absolute values of the point, plus underflow; for a transform about a pivot this is relative to |c| + |L|(|p| + |c|) + |o|. (3) In f32/f64, applying the three steps one after the other takes the pivot to t(origin) + c, one rounding, so a t that leaves the origin in place leaves the pivot in place exactly. (4) The composed transform does NOT: scaling by 3 about (2^23 + 1, 0, ...) in f32 moves that point.", "quantifier": "every affine transform, list of affine transforms, pivot and point whose images are finite", "why_tests_cant": "quantifies over all lists of transforms, pivots and points and over all rounding errors", "anchors": ["src/transform2.rs: translate, scale, and_then, transform, inverse", "src/transform3.rs: translate, scale, and_then, transform, inverse"]}
{"id": "C112", "title": "Nearest point of a line, a half-line or a segment", "statement": "A client writes t = d.dot(p - o) / d.dot(d) for the parameter of the point of the ray nearest to p, t.max(0.0) for the half-line and t.max(0.0).min(1.0) for the segment from ray.at(0.0) to ray.at(1.0). In exact arithmetic, for every finite ray with a nonzero direction and every finite point: the vector from p to the nearest point of the line is perpendicular to the direction; no point of the line (half-line, segment) is nearer and no other one as near; a point of the line (half-line, segment) is its own nearest point. In floating point: for all inputs, NaN and infinities included, the parameter of the segment is a number from 0 to 1; for every finite ray and every point whatsoever the point found is not NaN, is in the box spanned by the two ends, and is the near end if the parameter is NaN or not positive and the far end if it is at least one; the near end is its own nearest point; if nothing overflows or underflows the computed parameter is within ((1+u)^(n+2)/(1-u)^n - 1) * sum |d_i||p_i - o_i| / d.d of the exact one, clamping does not add to the error, and the coordinates of the point are accurate accordingly. But if d.dot(d) overflows the near end is reported for every point, and if it underflows to zero always one of the ends: in every format there are segments with distinct finite ends where, asked for the point nearest to the far end, the near end is reported.", "quantifier": "every ray and point, every parameter s of a competing point, exact arithmetic and every binary format with round-to-nearest", "why_tests_cant": "that no other point of the segment is nearer ranges over a continuum, and the error bound and the in-the-box guarantee range over all floating-point rays and points", "anchors": ["src/ray2.rs: Ray2::at", "src/ray3.rs: Ray3::at", "src/vector2.rs: DotProduct for Vector2", "src/vector3.rs: DotProduct for Vector3", "src/point2.rs: Sub, Distance", "src/point3.rs: Sub, Distance"]}
{"id": "C113", "title": "Rays and triangles", "statement": "A client intersects a ray with a triangle a, b, c with the cross and dot products of the API (the method of Moller and Trumbore), either dividing by the determinant and comparing the weights with 0 and 1, or comparing the numerators with the determinant. In exact arithmetic, for every finite ray and triangle that are not parallel, both say yes exactly when the ray and the triangle have a point in common, and the distance and weights reported are those of the only common point; parallel or degenerate ones are never reported by the test without division. In floating point, for all inputs whatsoever: a reported distance is a number >= 0 and the weights are finite numbers from 0 to 1; nothing is reported when the determinant is a zero or any of the four numbers is NaN. On a grid that fits (integers to 70 in f32, to 57000 in f64) the test without division is exactly right about every ray and triangle, and the order of the corners does not matter. Without overflow the four numbers are exact up to eight roundings relative to their terms, and whenever none of the exact quantities that decide is within its bound of zero the test without division is right. The expected 'no hit is reported for a ray that misses' is FALSE of the floats: in every format an overflowing determinant makes the test with division report a ray that misses by far, and in f32 rounding alone makes both tests report a ray that misses a triangle with corners (0,0,0), (4096,0,0), (1,4096,0).", "quantifier": "every ray and triangle: exact arithmetic, all floats including NaN and infinities, every grid that fits the format; the witnesses for the false reports in every format and in f32", "why_tests_cant": "all rays and triangles; thin triangles, overflow and rounding at the edges are rarely hit by tests", "anchors": ["src/ray3.rs Ray3", "src/point3.rs Point3 Sub", "src/cross.rs CrossProduct", "src/dot.rs DotProduct", "src/vector3.rs Vector3"]}
{"id": "C114", "title": "A frame around a direction", "statement": "A client completes a direction to an orthonormal frame by crossing it with the axis along which it is smallest (v.cross(Vector3::axis(v.min_dimension()))) and normalizing. For every finite vector the cross product with an axis is computed without rounding, and its inner product with the vector is zero, not just small, unless the product of two components overflows, when it is NaN; the sideways vector is zero only for the zero vector and never shorter than sqrt(2/3) times the vector. In exact arithmetic the three vectors are an orthonormal right-handed frame for every finite vector other than zero; in f32 and f64 they are within 32 units of roundoff of the exact ones and orthonormal and right-handed up to 65 units of roundoff, for all directions alike, whenever the squared length neither overflows nor is subnormal. In the plane turning by a right angle (vector2(-v.y, v.x)) keeps the length bit for bit and gives inner product zero, or NaN on overflow. Outside that range it fails: in every format there is a finite non-zero direction whose frame collapses to zero vectors.", "quantifier": "all vectors (2D: all, any bits), all axes, every binary format", "why_tests_cant": "The choice of the axis has a seam wherever two components have the same size, and the worst case of the error lies at directions no test enumerates", "anchors": ["src/vector3.rs:min_dimension,axis,cross,normalize", "src/vector2.rs:Vector2", "src/vector3.rs:DotProduct,CrossProduct"]}
{"id": "C115", "title": "Every conforming implementation of the scalar type gives the same results", "statement": "The crate uses its scalars only through the operations of the scalar type. So (a) any relation between the values of two scalar types that is respected by the scalar operations a function uses is respected by the function: related arguments give related results, for every function of the crate; in particular a wrapper type whose operations are those of the wrapped type gives what the wrapped type gives. (b) On two conforming implementations of one floating-point format, which may differ in NaN payloads and in the zero that min(+0, -0) returns, every function gives the same results for the same arguments: the same data for everything that does without min and max, the same numbers (zeros of either sign counting as equal) for boxes, ray hits and transformed boxes, the same refusals from inverse, try_from and look_at; the functions that use sin and cos agree if those two do.", "quantifier": "all pairs of scalar types, all relations kept by the scalar operations, all arguments of every function", "why_tests_cant": "a test runs on one implementation of floating-point arithmetic", "anchors": ["src/scalar.rs: Scalar", "src/vector2.rs", "src/vector3.rs", "src/point2.rs", "src/point3.rs", "src/ray2.rs", "src/ray3.rs", "src/boundingbox2.rs", "src/boundingbox3.rs", "src/transform2.rs", "src/transform3.rs"]}
{"id": "C116", "title": "The sign of a zero shows only where something is divided by it", "statement": "Replace any zeros among the arguments by zeros of the other sign (so that old and new arguments compare equal with ==). The result is the same number in every component, for every function that does without division, and also for normalize, inverse, try_from, look_at, rotate_axis (if sin and cos do not see the sign), and the ray-box intersection whenever it reports a hit at a finite distance, although these divide; for division by a scalar, transformed points and transformed boxes it holds where the divisor (the point's weight) is not zero. It fails elsewhere: a ray without direction from a corner of a box hits or misses depending on the signs of its zeros, the inverse of a scaling by zero is plus or minus infinity, a point of weight zero goes to opposite infinities.", "quantifier": "all arguments of every function, and all choices of signs for the zeros among them, in every binary format", "why_tests_cant": "a test fixes the signs of its zeros", "anchors": ["src/vector2.rs: normalize", "src/vector3.rs: normalize", "src/transform2.rs: inverse, TryFrom, Transform", "src/transform3.rs: inverse, look_at, rotate_axis, TryFrom, Transform", "src/boundingbox2.rs: Intersection<&Ray2>", "src/boundingbox3.rs: Intersection<&Ray3>"]}
{"id": "C117", "title": "Plane geometry in space: the 3D functions extend the 2D ones", "statement": "Put the plane into space as z = 0 (a zero of either sign): a vector, point, ray or flat box keeps x and y; a box stands for its section if it reaches both sides of the plane or up to it; a 3x3 matrix becomes the 4x4 matrix that acts the same on x, y and the weight and leaves z alone. Then every 3D function gives the number (up to the sign of a zero) that the 2D function of the same name gives, and stays in the plane: +, -, negation, abs, floor, ceil, round, trunc, fract, min, max, scaling by a finite factor, dot products, lengths, distances, comparisons of lengths and distances, shortest, longest, closest, farthest, ==, normalize (x and y always, z if the length is a number other than zero), max_dimension (of a vector other than zero), points of rays, making, uniting and intersecting boxes, overlap and membership, extents, diagonal, center and the corners 0-3; the surface area of a flat box is twice the area and its volume is zero; the cross product is (0, 0, determinant). Identity, translations, rotate vs rotate_z, scalings with factor 1 for z, inverses and chains of finite transforms correspond, and so do transformed vectors, points with a weight, rays and boxes. A ray in the plane hits a box that reaches strictly to both sides of the plane, or lies in it, exactly if it hits the section, over the same range. Inverting an affine matrix whose products of entries do not overflow, and making a transform of it, succeeds or fails alike with corresponding results; without rounding this holds for every matrix. With rounding it fails for others: in single precision the plane refuses diag(2^-100, 2^-100, 2^100) and space returns a matrix that flattens z. And a box with exactly one face in the plane is missed by every ray in the plane that leaves the section.", "quantifier": "all vectors, points, rays, boxes, matrices and transforms of the plane and all their copies in space, over every scalar type with IEEE semantics (NaN and infinities included unless excluded above); all chains of transforms; all finite real matrices", "why_tests_cant": "there are infinitely many pairs of inputs; the 2D and 3D code is written separately, and the sums have different numbers of roundings and zeros of either sign, which tests with == on a few values do not exercise", "anchors": ["src/vector2.rs", "src/vector3.rs", "src/point2.rs", "src/point3.rs", "src/boundingbox2.rs: BoundingBox2", "src/boundingbox3.rs: BoundingBox3", "src/ray2.rs", "src/ray3.rs", "src/transform2.rs: Matrix3x3, Transform2", "src/transform3.rs: Matrix4x4, Transform3"]}
{"id": "C118", "title": "Interpolation and Bezier curves", "statement": "Interpolating between points with p + (q - p) * t, and evaluating a Bezier curve of any degree n by repeated interpolation (de Casteljau): for 0 <= t <= 1 every computed coordinate differs from the Bernstein form of the curve by at most ((1+5u+6u^2+2u^3)^n - 1) times the largest control coordinate, plus n underflow terms, and nothing overflows if three times that size is below the overflow threshold. At t = 0 the result equals the first control point provided the steps between control points are finite; at t = 1 it equals the last one provided stepping from each control point to the next arrives there. One interpolation stays in every box that holds p and the point computed for t = 1, hence in every box that holds p and q if p + (q - p) == q. For control points with few bits and t = j / 2^m nothing is rounded and the point lies in every box that holds the control points. Without rounding: the scheme is the Bernstein form, the curve lies in every box that holds the control points and in their convex hull, affine transforms of the curve are curves of transformed control points, the edges of the scheme are the control points of the parts before and after t, and reversing the control points reverses the curve. Witnesses: in f32 interpolation with t = 1 overshoots q and leaves a box holding p and q; in every format there are finite points for which interpolation with t = 0 is NaN.", "quantifier": "every degree, every sequence of control points, every parameter in the stated range, every IEEE format (and exact arithmetic)", "why_tests_cant": "the error accumulates over arbitrarily many interpolations, and overshoot depends on rounding of particular pairs of points; tests sample a few curves of low degree", "anchors": ["point2.rs: Sub, Add<Vector2>", "point3.rs: Sub, Add<Vector3>", "vector2.rs: Mul<S>", "vector3.rs: Mul<S>", "ray2.rs: at", "ray3.rs: at", "boundingbox2.rs: is_inside", "transform2.rs: transform", "transform3.rs: transform"]}
{"id": "C119", "title": "Rays and balls: the root range is ordered, keeps the start inside, grows with the radius", "statement": "Testing a ray against a disc (2D) or a ball (3D) with the crate's `-` and `dot`: `o = origin - center`, `a = dot(d, d)`, `h = dot(d, o)`, `k = dot(o, o) - r*r`, entry and exit `(-h -+ sqrt(h*h - a*k)) / a`. Without rounding the range is exactly the set of parameters at which the ray's point is within `r` of the center, its ends are on the boundary, motions of ray and center change nothing, and the box around the ball contains it, so testing the box first loses no hit. In floating point, whenever `a` and `h` are finite and `a > 0`: entry <= exit; the ray looking backwards reports exactly the opposite range; the sign of the radius plays no role; a larger ball around the same center is entered no later and left no earlier; and, when moreover `dot(o, o)` is finite and the square of `h` neither underflows nor overflows, a ray starting inside (computed) always hits with entry <= 0 <= exit; one starting outside and looking away has exit <= 0, one looking towards it has entry >= 0. For whole numbers that are not too large, a miss is reported exactly when the real line misses. In general the computed discriminant is off by at most `12u |d|^2 (2|o|^2 + r^2)` plus underflow, so the decision is right about every line that is not within that bound of touching; a reported hit comes within the radius up to the error, and a reported miss stays outside up to the error. It is false that a line through the center is always reported to hit (f32 witness), and that the box around the ball contains every point with computed distance at most `r` (f32 witness).", "quantifier": "all rays, centers and radii, in every binary format and in exact arithmetic, subject to the stated finiteness conditions", "why_tests_cant": "the claims compare computed numbers over all inputs, including rounding, overflow and infinite radii; the two failures need particular numbers that random tests do not find", "anchors": ["src/ray2.rs: Ray2::at", "src/ray3.rs: Ray3::at", "src/vector2.rs: DotProduct", "src/vector3.rs: DotProduct", "src/point2.rs: Sub, Distance", "src/point3.rs: Sub, Distance", "src/boundingbox2.rs: BoundingBox2::new, is_inside, intersect"]}
{"id": "C120", "title": "Perspective matrices: lines stay lines, order and boxes survive in front of the eye, clipping commutes with the division", "statement": "For an arbitrary matrix `m` (last row not `0 .. 0 1`), `m * p` divides by the homogeneous weight `w(p)`. Without rounding: the image of the point `r.at(s)` of a line is on the line through the images of `r.at(0)` and `r.at(1)`, at the parameter `s * w(1) / w(s)`; if both ends of a segment have positive weight, its image is exactly the segment between the images of the ends; among points of positive weight the order along the ray is kept; a multiple `m * s` with `s != 0` acts on points like `m`; if the corners of a box have positive weight, the box around the transformed corners contains the image of every point of the box and is the smallest such box. Transforming a ray (`t.transform(&ray)`) with a pair of inverse matrices, as `try_from` gives, is right for all rays exactly if the last row is `0 .. 0 1`: for every perspective matrix it is wrong (witness). In floating point: for finite positive weight, the image is inside the box [-1, 1] exactly if the homogeneous coordinates computed before the division are between `-w` and `w`, bit for bit, including underflow and overflow; for negative weight the test is reversed, so points behind the eye pass it (witness); `(m * -1) * p == m * p`; and the rounding error of a coordinate is bounded in terms of the terms of its row and of the weight.", "quantifier": "all matrices, points, rays and boxes, in every binary format and in exact arithmetic, subject to the stated conditions on the weights", "why_tests_cant": "a law over all matrices, points and parameters; examples cannot exclude a wrong decision at the boundary of the clip volume", "anchors": ["src/transform2.rs: Mul<Point2> for &Matrix3x3, Transform<&Ray2>, TryFrom<Matrix3x3>", "src/transform3.rs: Mul<Point3> for &Matrix4x4, Transform<&Ray3>, TryFrom<Matrix4x4>"]}
{"id": "C121", "title": "Bounding balls: the farthest corner, overlap, containment and the ball around two balls", "statement": "A client bounds objects by discs or balls, kept as a center and a radius, and uses `center.distance(p) <= radius` as membership, `a.center.distance(b.center) <= a.radius + b.radius` as overlap and `a.center.distance(b.center) + a.radius <= b.radius` as containment. In floating point, for every format: the corner of a finite well-formed box selected by folding `farthest` over `corner(0..)` is a corner, no point of the box is at a larger computed distance from the center than that corner, and no smaller radius does (so a ball sized by it has every point that `is_inside` accepts, with no margin for rounding); folding `max` over the distances of finite points gives the smallest radius that has them all; overlap does not depend on the order of the two balls; a larger radius keeps all members and all overlaps. In exact arithmetic: balls of nonnegative radius overlap exactly if they have a common point, one is contained in the other exactly if all its points are, the ball touching two balls from outside (or the larger, if it contains the other) is the smallest that has both, the ball around the center of a box with half the diagonal is the smallest that has the box, and rigid motions preserve membership and overlap. In floating point the last claims fail: half the diagonal can miss a corner, and two balls with a common computed member can fail the overlap test.", "quantifier": "all finite boxes, centers, lists of points of any length, balls with any radius; every floating-point format for the computed claims, exact reals for the geometric ones; all sequences of translations and rotations", "why_tests_cant": "that a radius computed with roundings has every one of the floating-point points of a box is a claim about up to 2^64 or 2^96 points at once; the equivalences quantify over all points of the plane or space; tests that try some points cannot see the one that is missed", "anchors": ["src/point2.rs: Distance, RelativeDistance", "src/point3.rs: Distance, RelativeDistance", "src/boundingbox2.rs: corner, center, diagonal, is_inside", "src/boundingbox3.rs: corner, center, diagonal, is_inside", "src/transform2.rs: Transform"]}
{"id": "C122", "title": "Polylines: the length of a path", "statement": "A client measures a path given by its vertices with `ps.windows(2).map(|w| w[0].distance(w[1])).fold(0.0, |t, d| t + d)`. In exact arithmetic the length is never less than the distance of the first and the last vertex; inserting a vertex anywhere never makes it smaller; it is the sum of the lengths of the two parts wherever the path is divided; it is the same backwards; and it does not change under translations and rotations. In floating point, for every format: for finite vertices the computed length is a number (it may be infinite), it is not negative, it is at least the computed length of every leg, and walking on never makes it smaller; backwards the computed legs are the same in the opposite order; if the result is finite and no square underflows, it is within 3 + m (2D) or 4 + m (3D) roundings of the length of the path, m the number of legs, so the computed distance of the ends exceeds it by at most that factor; if the legs are multiples of a power of two with room for the sum, the sum is exact. In floating point the other claims fail: a path can have a computed length less than the computed distance of its ends, a detour can make the computed length smaller, and backwards it can differ.", "quantifier": "all lists of vertices of any length, finite coordinates; every floating-point format for the computed claims, exact reals for the geometric ones; all sequences of translations and rotations", "why_tests_cant": "the claims range over lists of any length, and the error bound grows with the length; comparing a path with a shortcut in a test uses a tolerance, which hides that the inequality fails by a rounding", "anchors": ["src/point2.rs: Distance", "src/point3.rs: Distance", "src/transform2.rs: Transform", "src/transform3.rs: Transform"]}
{"id": "C123", "title": "Limiting a length; stepping towards a target", "statement": "A client limits a velocity with `if m < v.length() { v.normalize() * m } else { v }` and moves a point towards a target with `if p.distance(t) <= s { t } else { p + (t - p).normalize() * s }`. In exact arithmetic, for m >= 0 and s >= 0: the limited vector has the smaller of the two lengths, keeps its direction, is at least as close to v as every vector of length at most m, and limiting again changes nothing; a step moves the point by the smaller of s and the distance and shortens the distance by as much, so after k steps the distance is k*s shorter or 0, and as soon as k*s reaches the distance the point is the target. In floating point, for every format: a vector with m < length false is unchanged; if all is finite and no quotient underflows, limiting enlarges no component, changes no sign and does not make the computed length larger, whatever is rounded; if moreover no product underflows, the exact length of a limited vector is m up to 4 (2D) or 5 (3D) roundings; within reach the target is reached exactly and further steps stay there; a step moves no coordinate away from its target and none farther than adding the whole computed difference would. In floating point the other claims fail: a limited vector can be longer than the limit, and limiting it again changes it; a finite vector whose squared length overflows is limited to the zero vector, whatever m is; and a walk need not arrive: every step can be rounded away, however many there are.", "quantifier": "all vectors, points, limits and step lengths; any number of steps; every floating-point format for the computed claims, exact reals for the geometric ones", "why_tests_cant": "the claims range over all floats and any number of steps, and the failing ones depend on the last digit", "anchors": ["src/vector2.rs: normalize, Length, Mul<S>", "src/vector3.rs: normalize, Length, Mul<S>", "src/point2.rs: Distance, Add<Vector2>, Sub", "src/point3.rs: Distance, Add<Vector3>, Sub"]}
{"id": "C124", "title": "Areas of polygons", "statement": "A client measures a polygon with the vertices o, p1, ..., pn by the fan of triangles around its first vertex: in 2D the sum of turned(p - o).dot(q - o) with turned(v) = vector2(-v.y, v.x), in 3D the sum of (p - o).cross(q - o), over consecutive p, q. In exact arithmetic the doubled area does not depend on the vertex the polygon begins with, nor on the point it is seen from (if the way is closed); backwards it is the negative; cutting along a diagonal adds the areas of the parts; a translation does not change it; an affine transform multiplies it by the determinant in 2D and applies the transform of normals times the determinant in 3D; and the area vector of a polygon in a plane is parallel to the normal of the plane. In floating point, for every format: a finite computed area is off by at most n + 3 roundings of the magnitudes of its products plus their underflow, in every component; repeating a vertex, or coming back to the first vertex at the end, changes nothing; a triangle backwards has exactly the opposite area; the four corners of a box have exactly twice the area() of the box; and if the coordinates lie on a grid with room for the sum of the products (integers up to 512 and 8 triangles in f32), the area is exact, the first vertex does not matter, and backwards it is exactly the opposite. In floating point the other claims fail: seen from the origin the area of a small triangle far away gets the wrong sign although all coordinates are integers and the fan computes it exactly; and without room the area depends on the first vertex.", "quantifier": "all polygons with any number of vertices, in any position; all affine transforms; every floating-point format for the computed claims, exact reals for the geometric ones", "why_tests_cant": "the claims range over polygons of any size and all floats; the failing ones show only for coordinates whose products are rounded", "anchors": ["src/point2.rs: Sub<Point2>", "src/point3.rs: Sub<Point3>", "src/vector2.rs: DotProduct", "src/vector3.rs: CrossProduct, AddAssign", "src/boundingbox2.rs: area", "src/transform2.rs: Transform<Point2>", "src/transform3.rs: Transform<Point3>"]}
{"id": "C125", "title": "Separating axes", "statement": "A client tells two sets of points apart by an axis n: the set's shadow on the axis reaches from the least to the greatest n.dot(Vector::from(p)) (folds with min from infinity and max from -infinity), and the axis separates two sets if one shadow ends before the other begins. For every scalar type: if the projections are finite and the sets are not empty, the axis separates them if and only if every projection of one set is smaller than every projection of the other; it does not matter which set comes first, in which order the points are listed, or whether points repeat; an axis that separates two sets separates their subsets; and the opposite axis gives the same answer. For finite, well-formed boxes, overlaps() is false if and only if an axis of the coordinate system separates their corners, in every floating-point format. In exact arithmetic the axis separates two sets if and only if it separates their convex hulls; and the convex hulls have no common point if and only if some axis separates the sets. Then it is enough to try a few axes: in the plane, unless the points of the first set lie on a line, the perpendicular of q - p for some two points p, q of the same set separates; in space, unless they lie in a plane, the cross product of two such differences separates (so the edges, and the faces and pairs of edges, are enough for convex polygons and polyhedra). In floating point: if the computed gap is wider than twice the rounding error of a projection, the convex hulls are really disjoint; if the exact gap is wider than twice that error it is found; and on a grid with room for the projections the answer is exactly right about the convex hulls. In floating point the other claims fail: an axis can be reported to separate a point from two points it lies exactly between, and an axis that separates two points can be missed.", "quantifier": "all axes, all non-empty lists of points of any length, all boxes; every floating-point format for the computed claims, exact reals for the existence of an axis", "why_tests_cant": "the claims range over sets of any size and over all floats, and the converse needs an axis to exist for every pair of disjoint hulls; the failing ones need coordinates whose products are rounded in a particular way", "anchors": ["src/vector2.rs: DotProduct, From<Point2>, x_axis", "src/vector3.rs: DotProduct, From<Point3>, x_axis", "src/boundingbox2.rs: overlaps, corner", "src/boundingbox3.rs: overlaps, corner", "src/scalar.rs: Scalar, MinMax for S", "src/minmax.rs: MinMax"]}
{"id": "C126", "title": "Clipping by planes", "statement": "A client cuts the convex hull of a list of points by the half-space n.dot(Vector::from(p)) >= d: it keeps the points inside and adds, for each point p inside and each point q outside, the crossing p + (q - p) * ((d - n.dot(p)) / (n.dot(q) - n.dot(p))); and by several planes one after the other. For every scalar type: a point inside is kept; every other point of the result is such a crossing; if all points are inside nothing changes; if none is, nothing is left; and for one edge the crossing replaces the end outside. In exact arithmetic a crossing lies on the plane and between p and q; the convex hull of the result is exactly the convex hull of the points cut by the half-space, and after any list of planes it is exactly what lies inside all of them; so the result is empty if and only if no point of the hull is inside all of them, and the order and repetition of the planes do not matter to the hull. In every floating-point format: the computed parameter of a crossing is between 0 and 1 whenever the projections' difference is finite, so a new point does not leave the boxes that hold p and p + (q - p), and if the differences of the points are not rounded clipping stays in every box that holds the points; on a grid with room for the projections the points kept are exactly those in the half-space; and the distance by which n.dot(crossing) can differ from d is bounded by the rounding error of the two projections, five roundings of the height of p, and the rounding error of the interpolation. In floating point the claim that the result lies in the half-space fails: a crossing can be computed outside, so that its hull leaves the half-space and the same plane would cut the new point off again.", "quantifier": "all planes, all lists of points and all lists of planes of any length; every floating-point format for the computed claims, exact reals for the hulls", "why_tests_cant": "equality of convex hulls is about infinitely many points for lists of any size, and the parameter's range is over all floats; the failing claim needs a quotient rounded upward at the crossing", "anchors": ["src/vector2.rs: DotProduct, From<Point2>", "src/vector3.rs: DotProduct, From<Point3>", "src/point2.rs: Add, Sub", "src/point3.rs: Add, Sub", "src/boundingbox2.rs: is_inside", "src/boundingbox3.rs: is_inside", "src/scalar.rs: Scalar"]}
{"id": "C127", "title": "Sphere tracing", "statement": "A client finds the first of some balls on a ray by going ahead, again and again, by the distance to the nearest ball: t += min over the balls of (center.distance(ray.at(t)) - radius), from t = 0. In exact arithmetic, with a direction of length 1 and an origin outside all balls, for every number of steps: no step goes back; every point of the ray up to t lies outside all balls; t never passes a parameter at which the ray is in a ball; if the ray meets a ball, t converges to the smallest parameter at which it does, and if it meets none t grows without bound; and a loop that ends when the nearest ball is within e or the limit l is reached ends after at most l / e steps. In every floating-point format: the computed clearance is the least of the computed distances; if E bounds their rounding errors, no ball has a point within the computed clearance less E of the point; outside the balls no step goes back; and a march that stands still stays where it is. In floating point the march can go through a ball: with the center of the ball on the ray, the first step can end behind the ball, where the clearance is positive again.", "quantifier": "all rays with a direction of length 1, all non-empty lists of balls of any length, every number of steps; every floating-point format for the computed claims, exact reals for safety and convergence", "why_tests_cant": "safety and convergence are about every point of the ray and about infinitely many steps, for any number of balls; the failing claim needs a distance that is rounded upward past the ball", "anchors": ["src/ray2.rs: at", "src/ray3.rs: at", "src/point2.rs: Distance", "src/point3.rs: Distance", "src/distance.rs: Distance", "src/minmax.rs: MinMax", "src/scalar.rs: Scalar::infinity"]}
{"id": "C128", "title": "Volumes of closed meshes", "statement": "A client measures a solid given by the triangles of its surface: from a point o it adds up (a - o).cross(b - o).dot(c - o) over all triangles (a, b, c), which is six times the volume. A surface is closed if the edges of all triangles, turned round, are the same edges in some order. In exact arithmetic, for every closed surface with any number of triangles: the volume does not depend on o; moving the surface does not change it; an affine transform multiplies it by the determinant of its linear part; it does not matter with which corner a triangle begins nor in which order the triangles are added; solids glued together at a triangle have the sum of their volumes; the area vectors of the triangles add up to zero; and the twelve triangles of a box are closed and have six times volume(). In every floating-point format: a surface turned inside out has exactly the opposite computed volume; the triangles that begin at o may be left out; on a grid with room the computed volume is exact, so it does not depend on o; and off the grid it is off by at most n + 8 roundings of the magnitudes of the products, plus underflow. In floating point a closed surface that encloses nothing can have a volume: the two sides of one triangle, beginning with the same corner, can give different magnitudes.", "quantifier": "all lists of triangles of any length, closed where stated; all points o; every floating-point format for the computed claims, exact reals for the geometry", "why_tests_cant": "closed surfaces have any number of triangles; the cancellation of the edges is a statement about the whole list; the failing claim needs products that are rounded in a different order", "anchors": ["src/point3.rs: Sub", "src/vector3.rs: cross", "src/vector3.rs: dot", "src/vector3.rs: AddAssign", "src/boundingbox3.rs: volume", "src/transform3.rs: Transform3", "src/matrix4x4.rs: Mul"]}
{"id": "C129", "title": "Simulating motion step by step", "statement": "A client moves a body with a position and a velocity in n steps of length dt: in free fall v += g*dt; p += v*dt, on a spring fixed at c with stiffness k by v -= (p - c)*k*dt; p += v*dt. In exact arithmetic, for every number n of steps: the falling body has the velocity v + n dt g and the position p + n dt v + n(n+1)/2 dt^2 g; the steps can be taken back one by one; the spring keeps |v|^2 + k |x|^2 - k dt (x.v), x = p - c, so that for k > 0 and k dt^2 < 4 the body stays within a bounded distance for ever; and if the position is moved with the old velocity instead, the energy |v|^2 + k |x|^2 is multiplied by 1 + k dt^2 in every step and exceeds every bound. In every floating-point format, for every n: the opposite start with the opposite acceleration or fixed end gives the opposite motion; a body at rest at the fixed end stays there; no rounding turns a body back, along any axis; a velocity that one step does not change never changes. A falling body whose numbers are integers, or multiples of powers of two that fit into the format, is simulated without error for as many steps as the numbers fit, and the steps taken back lead exactly to the beginning. A body with such numbers on a spring of stiffness 1, in steps of 1, is exactly back where it began after every six steps, for ever. In floating point a falling body can stop getting faster: in f32 with g = (0, -1) and dt = 1/2 the velocity (0, -2^24) stays for ever.", "quantifier": "all bodies, accelerations, springs and step lengths, every number of steps, 2D and 3D; every floating-point format for the computed claims, exact reals for the closed forms and the energy", "why_tests_cant": "the claims are about every number of steps; a bound for ever and unbounded growth cannot be seen in finitely many; the failing claim is about infinitely many steps as well", "anchors": ["src/vector2.rs: Mul", "src/vector2.rs: AddAssign", "src/vector2.rs: SubAssign", "src/point2.rs: Sub", "src/point2.rs: AddAssign", "src/point2.rs: SubAssign", "src/vector3.rs: Mul", "src/vector3.rs: AddAssign", "src/vector3.rs: SubAssign", "src/point3.rs: Sub", "src/point3.rs: AddAssign", "src/point3.rs: SubAssign"]}
