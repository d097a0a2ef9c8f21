import json
P=[]
def p(id,title,statement,quantifier,why,anchors): P.append(dict(id=id,title=title,statement=statement,quantifier=quantifier,why_tests_cant=why,anchors=anchors))
F="all float inputs, including NaN, infinities, signed zeros and subnormals: 2^32 or 2^64 values per component, several components per call"
X="a law over a continuum of real inputs; examples cannot rule out a wrong term that vanishes on the chosen values"
p("C01","Compound assignment agrees with the binary operator","For Vector2/3, Point2/3 and Matrix3x3/4x4, `a op= b` leaves in `a` exactly the value `a op b` would return (+=, -=, *=, /=), component for component, and touches nothing else.","every scalar type, every left and right operand (any bits, NaN included)","needs every component of every operand; a dropped or crossed component only shows on inputs where it matters",["src/vector3.rs: AddAssign/SubAssign/MulAssign/DivAssign","src/vector2.rs","src/point2.rs","src/point3.rs","src/transform2.rs: MulAssign/DivAssign for &mut Matrix3x3","src/transform3.rs: MulAssign/DivAssign for &mut Matrix4x4"])
p("C02","Scalar multiplication may be written on either side","`s * v` and `v * s` are the same value for vectors, points and matrices.","every scalar s and every vector, point, matrix","quantifies over all values",["src/vector3.rs: impl Mul<Vector3f> for f32","src/point2.rs","src/transform3.rs: impl Mul<&Matrix4x4f> for f32"])
p("C03","Indexing by dimension reads and writes exactly one component","`v[d]` is the component named by d; after `v[d] = s`, `v[d]` is s and `v[e]` is unchanged for every e ≠ d; after any sequence of such writes each component holds its latest write.","every vector or point, every dimension, every finite history of writes","histories are unbounded",["src/vector2.rs: Index, IndexMut","src/vector3.rs: Index, IndexMut","src/point2.rs","src/point3.rs"])
p("C04","permute reorders components as asked","`v.permute(a,b,c)` has components v[a], v[b], v[c]; permuting with (X,Y,Z) is the identity and permuting twice composes the index maps; length is preserved by a true permutation (real arithmetic).","every vector/point and every triple (pair) of dimensions","all values and all index triples, compositions",["src/vector3.rs: permute","src/point3.rs: permute","src/vector2.rs: permute","src/point2.rs: permute"])
p("C05","Point/vector conversion is lossless","Converting a point to a vector and back (and the reverse) returns the same value, and conversion equals subtracting / adding the origin up to numeric equality for non-NaN values.","every point and vector","all bit patterns",["src/point3.rs: From<Vector3>","src/vector3.rs: From<Point3>","src/point2.rs","src/vector2.rs"])
p("C06","Vector addition laws","In f32/f64: `u + v` and `v + u` are the same value, `v + zero == v`, `v - v == zero` for finite v, `-(-v)` is v and `u - v == -(v - u)`, `u - v` is `u + (-v)`. In real arithmetic vectors form a commutative group under +.","all vectors (floats: all non-NaN/finite as stated; reals: all finite)",F,["src/vector2.rs: Add, Sub, Neg","src/vector3.rs: Add, Sub, Neg"])
p("C07","Point/vector affine laws","In real arithmetic `p + (q - p) == q`, `(p + v) - p == v`, `(p + v) - v == p`, `(p + u) + v == p + (u + v)`, `(p - q) + (q - r) == p - r`. In floats `p - p == zero` for finite p, `p + zero == p`, `p - q == -(q - p)`.","all points and vectors",X,["src/point2.rs: Add<Vector2>, Sub<Vector2>, Sub<Point2>","src/point3.rs"])
p("C08","Scaling laws","In real arithmetic scaling distributes over + and over scalar addition, is associative, and `(v * s) / s == v` for s ≠ 0. In floats `v * 1` and `v / 1` are exactly v, `v * -1 == -v`, and `v * 2 == v + v`.","all vectors, points and scalars",X,["src/vector3.rs: Mul<S>, Div<S>","src/point3.rs: Mul<S>, Div<S>","src/vector2.rs","src/point2.rs"])
p("C09","dot in floating point is symmetric and never negative on the diagonal","In f32/f64 `dot(u,v)` and `dot(v,u)` are the same value; `dot(v,v)` is NaN exactly when a component of v is NaN and is otherwise >= 0 (possibly +inf).","every pair of float vectors",F,["src/vector2.rs: DotProduct","src/vector3.rs: DotProduct","src/dot.rs: dot"])
p("C10","dot is the Euclidean inner product","In real arithmetic dot is the sum of component products: bilinear, positive definite, and satisfies Cauchy-Schwarz.","all finite vectors, all finite scalars",X,["src/vector2.rs: DotProduct","src/vector3.rs: DotProduct"])
p("C11","cross is the right-handed vector product","In floats `cross(u,v) == -cross(v,u)` whenever it is not NaN. In real arithmetic the result is orthogonal to both arguments, bilinear, |u x v|^2 = |u|^2|v|^2 - (u.v)^2, vanishes exactly on linearly dependent pairs, satisfies u x (v x w) = v(u.w) - w(u.v), and x_axis x y_axis = z_axis cyclically.","every pair of 3D vectors",X,["src/vector3.rs: CrossProduct","src/cross.rs: cross"])
p("C12","length is a norm","In floats `length(v)` is NaN exactly when a component is NaN, and is otherwise >= 0; it does not change under negation, abs or (for 2D and 3D) componentwise sign changes. In real arithmetic it is the Euclidean norm: zero only for the zero vector, homogeneous, and satisfies the triangle inequality.","every vector; every scalar factor",F,["src/vector2.rs: Length","src/vector3.rs: Length","src/length.rs: length"])
p("C13","normalize returns the unit vector in the same direction","In real arithmetic, for every nonzero finite v, `v.normalize()` has length 1, is a positive multiple of v (normalize(v) * length(v) == v), and is idempotent. In every arithmetic the zero vector normalizes to all-NaN (there is no panic or error).","every nonzero finite vector; the zero vector in every format",X,["src/vector2.rs: normalize","src/vector3.rs: normalize"])
p("C14","Length comparisons agree with length","In real arithmetic `u.is_shorter_than(v)` iff length(u) < length(v), `is_longer_than` iff >. In floats the sqrt-free comparison never contradicts the lengths: length(u) < length(v) implies is_shorter_than, is_shorter_than implies length(u) <= length(v); is_longer_than(u,v) is is_shorter_than(v,u); never both.","every pair of vectors",F,["src/vector2.rs: RelativeLength","src/vector3.rs: RelativeLength"])
p("C15","distance is a metric","In floats `distance(p,q)` and `distance(q,p)` are the same value, never negative, NaN only if some coordinate difference is NaN, and 0 for p == q finite. In real arithmetic it is zero only for equal points and satisfies the triangle inequality, and is invariant under adding the same vector to both points. (In f32/f64 zero distance does not imply equality: squares underflow.)","every pair/triple of points",F,["src/point2.rs: Distance","src/point3.rs: Distance","src/distance.rs: distance"])
p("C16","Distance comparisons agree with distance","In real arithmetic `p.is_closer_to(a,b)` iff distance(p,a) < distance(p,b) and is_farther_from iff >. In floats the sqrt-free comparison never contradicts the distances (strictly smaller distance implies is_closer_to; is_closer_to implies distance <=), is_farther_from(a,b) is is_closer_to(b,a), and never both hold.","every triple of points",F,["src/point2.rs: RelativeDistance","src/point3.rs: RelativeDistance"])
p("C17","closest/farthest/shortest/longest select an argument that is at least as good","The result is always one of the two arguments (never a blend); on floats without NaN its distance (length) is <= (closest, shortest) or >= (farthest, longest) that of both arguments, and on a tie or any NaN the second argument is returned.","every triple of points, pair of vectors, incl. NaN",F,["src/distance.rs: closest, farthest","src/length.rs: shortest, longest","src/point3.rs: RelativeDistance","src/vector3.rs: RelativeLength","src/scalar.rs"])
p("C18","min/max are the componentwise lattice operations and ignore NaN","For non-NaN components min is the greatest lower bound and max the least upper bound componentwise; both are commutative, associative, idempotent and absorptive up to ==; if one component is NaN the other operand's component is returned.","every pair/triple of points, vectors, scalars",F,["src/minmax.rs: min, max","src/scalar.rs: MinMax","src/point3.rs: MinMax","src/vector3.rs: MinMax","src/point2.rs","src/vector2.rs"])
p("C19","floor/ceil/round/trunc/fract are componentwise and exact","For every finite component x: floor(x) is the greatest integer <= x, ceil(x) the least integer >= x, trunc(x) is x rounded toward zero, round(x) the nearest integer with ties away from zero, fract(x) = x - trunc(x) with no rounding error and |fract| < 1, so trunc + fract == x; NaN stays NaN and floor/ceil/round/trunc leave infinities alone, fract of an infinity is NaN.","every float component",F,["src/vector3.rs: floor, ceil, round, trunc, fract","src/point3.rs","src/vector2.rs","src/point2.rs"])
p("C20","abs clears signs only","`v.abs()` is componentwise absolute value: >= 0 for non-NaN, idempotent, unchanged by negating v, equal to v or -v per component.","every vector and point",F,["src/vector3.rs: abs","src/point3.rs: abs","src/vector2.rs: abs","src/point2.rs: abs"])
p("C21","min_dimension/max_dimension name an extremal component","For NaN-free input, the component (extent) named by min_dimension is in absolute value <= every other, and that of max_dimension >= every other; ties: min_dimension prefers the earliest axis, max_dimension the latest.","every NaN-free vector, point, bounding box",F,["src/vector3.rs: min_dimension, max_dimension","src/point3.rs","src/boundingbox3.rs: min_dimension, max_dimension","src/vector2.rs","src/point2.rs","src/boundingbox2.rs"])
p("C22","Scalars are one-dimensional vectors/points","For f32/f64 values themselves: length is |s|, distance(s,t) == distance(t,s), zero exactly when s == t (finite; gradual underflow), and shortest/longest/closest/farthest agree with the absolute values/distances.","every pair/triple of scalars",F,["src/scalar.rs: Length, RelativeLength, Distance, RelativeDistance for S"])
p("C23","A ray is an affine parameterisation","`ray.at(0) == origin` for a finite ray in floats; in real arithmetic at(s + t) == at(s) + direction * t, distance(origin, at(t)) = |t| * length(direction) (so t is a distance exactly when direction is unit length), and at is injective for nonzero direction.","every ray and parameter",X,["src/ray2.rs: at","src/ray3.rs: at"])
p("C24","BoundingBox::new normalises its corners","For NaN-free points, new(p,q) has min <= max in every dimension, contains p and q, is contained in every box that contains p and q, and does not depend on the order of p and q. A NaN coordinate in one point is replaced by the other's.","every pair of float points",F,["src/boundingbox2.rs: new","src/boundingbox3.rs: new"])
p("C25","is_inside is closed-box membership; empty contains nothing; infinite contains everything","`bb.is_inside(p)` iff min <= p <= max in every dimension; no point is inside empty(); every NaN-free point is inside infinite(); a point with a NaN coordinate is inside no box.","every box and point of floats",F,["src/boundingbox2.rs: is_inside, empty, infinite","src/boundingbox3.rs: is_inside, empty, infinite"])
p("C26","Union of boxes is the smallest box containing both","For boxes with min <= max in every dimension (and no NaN): every point inside either is inside the union, the union is inside every box containing both, and union is commutative, associative and idempotent up to ==.","every pair/triple of well-formed float boxes",F,["src/boundingbox2.rs: Union","src/boundingbox3.rs: Union","src/union.rs: union"])
p("C27","Growing a box point by point gives the tight bounds of all points","union(bb, p) contains bb and p and nothing smaller does; starting from empty(), after adding any non-empty finite sequence of NaN-free points (in any order) the box contains each point, is contained in every box that contains them all, and its corners do not depend on the order.","every finite sequence of points, every order","unbounded histories and all permutations",["src/boundingbox2.rs: Union<Point2>","src/boundingbox3.rs: Union<Point3>, empty"])
p("C28","empty() is neutral for union","union(empty(), b) == b and union(b, empty()) == b for every box b, including b = empty().","every box","the interesting box (empty itself) is one value among all; the law is over all boxes",["src/boundingbox2.rs: empty, Union, new","src/boundingbox3.rs: empty, Union, new"])
p("C29","overlaps means sharing a point","overlaps is symmetric; for well-formed boxes it holds iff some point is inside both; no box overlaps empty().","every pair of boxes",F,["src/boundingbox2.rs: overlaps","src/boundingbox3.rs: overlaps"])
p("C30","Box intersection is exactly the common region","For well-formed boxes intersect returns Some iff they overlap, and a point is inside the returned box iff it is inside both; intersect is commutative; intersecting with empty() yields None.","every pair of float boxes and every point",F,["src/boundingbox2.rs: Intersection<&BoundingBox2>","src/boundingbox3.rs: Intersection<&BoundingBox3>","src/intersection.rs: intersect"])
p("C31","Extents and measures are consistent","width/height/depth are max - min per dimension, agree with size(), extent(dim) and diagonal(); for finite well-formed boxes they are >= 0 and area/volume/surface_area are >= 0 (never NaN) in floats, and in real arithmetic equal the geometric formulas and are monotone under containment.","every box",F,["src/boundingbox3.rs: width, height, depth, size, extent, diagonal, surface_area, volume","src/boundingbox2.rs: width, height, size, extent, diagonal, area"])
p("C32","center is the midpoint and lies inside","In real arithmetic center() is (min+max)/2 and lies inside a well-formed box, at equal distance from all corners. In f32/f64 it lies inside provided max - min does not overflow.","every well-formed finite box",F,["src/boundingbox2.rs: center","src/boundingbox3.rs: center"])
p("C33","corner enumerates exactly the corners","For index 0..=3 (2D) / 0..=7 (3D) corner picks min or max per dimension by the index bits, so every min/max combination occurs at exactly one index, all corners of a well-formed box are inside it, and a box contains another well-formed box iff it contains all its corners. A larger index panics in debug builds and uses the low bits in release builds.","every box and every u32 index","all 2^32 indices and all boxes",["src/boundingbox2.rs: corner","src/boundingbox3.rs: corner"])
p("C34","A reported ray/box range is well-formed","For any box and ray whatsoever (NaN, infinities, zero directions), if intersect returns Some(start..end) then 0 <= start <= end and neither is NaN.","every float box and ray",F,["src/boundingbox2.rs: Intersection<&Ray2>","src/boundingbox3.rs: Intersection<&Ray3>"])
p("C35","Ray/box intersection returns exactly the parameters inside the box","In real arithmetic, for a finite well-formed box and a finite ray with nonzero direction: t >= 0 and is_inside(ray.at(t)) iff intersect returned Some(start..end) with start <= t <= end; hence None iff the ray misses the box.","every box, ray and parameter t",X,["src/boundingbox2.rs: Intersection<&Ray2>","src/boundingbox3.rs: Intersection<&Ray3>"])
p("C36","A ray starting strictly inside a box always hits it, from 0","In f32/f64 with all rounding: if the finite origin is strictly inside a box and the direction is NaN-free, intersect returns Some(start..end) with start == 0.","every float box and ray with origin inside",F,["src/boundingbox2.rs: Intersection<&Ray2>","src/boundingbox3.rs: Intersection<&Ray3>"])
p("C37","A ray running inside a face plane of the box is reported as hitting it","If the origin lies exactly on a face plane and the direction is parallel to that plane, and the ray passes through the face, intersect returns Some.","every box, every ray in a face plane","measure-zero set that random tests never hit",["src/boundingbox2.rs: Intersection<&Ray2>","src/boundingbox3.rs: Intersection<&Ray3>"])
p("C38","A matrix is a mutable map from (row, col) to elements","new(array) reads back in row-major order; after any sequence of set / get_mut writes at valid positions, get(r,c) is the latest value written there, or the initial one; other positions are unaffected.","every matrix, every finite history of writes","unbounded histories",["src/transform2.rs: Matrix3x3::new, get, get_mut, set, linear_index","src/transform3.rs: Matrix4x4::new, get, get_mut, set, linear_index"])
p("C39","Out-of-range matrix indices","In debug builds get/set with row or col out of range panics and leaves the matrix unchanged; in release builds the access is to the element at (row*N+col) mod 2^32 if that is < N*N and panics otherwise, so an out-of-range column silently aliases another element, but memory outside the matrix is never touched.","every u32 row and column, both build profiles","2^64 index pairs, two profiles",["src/transform2.rs: linear_index","src/transform3.rs: linear_index"])
p("C40","transpose swaps rows and columns","transpose().get(r,c) is get(c,r); transpose is an involution; in floats too, (A*B)^T is exactly B^T * A^T and transposing commutes with scalar multiplication and division.","every matrix (pair)",F,["src/transform2.rs: transpose","src/transform3.rs: transpose"])
p("C41","Matrix product is the mathematical product","In real arithmetic `&a * &b` has entries sum_k a[i][k] b[k][j], is associative, distributes, and det(a*b) = det(a) det(b); in floats identity is a two-sided unit for finite matrices up to ==.","every pair/triple of matrices",X,["src/transform2.rs: Mul<&Matrix3x3> for &Matrix3x3, identity","src/transform3.rs: Mul<&Matrix4x4> for &Matrix4x4, identity"])
p("C42","Matrix scalar operations act on every element","(m * s).get(i,j) is m.get(i,j) * s and (m / s).get(i,j) is m.get(i,j) / s, exactly, for all positions; in real arithmetic (m * s) / s == m for s ≠ 0.","every matrix, scalar, position",F,["src/transform2.rs: Mul<S>, Div<S>","src/transform3.rs: Mul<S>, Div<S>"])
p("C43","Matrix times point/vector","In real arithmetic `m * p` is the projective action (homogeneous coordinate 1, divide by w) and `m * v` the linear part; (a*b)*p == a*(b*p) when the homogeneous weights are nonzero; for affine m, m*(p+v) == m*p + m*v and m*p - m*q == m*(p-q). In floats row-vector products are exactly those of the transpose: p * m is m^T * p, v * m is m^T * v.","every matrix, point, vector",X,["src/transform2.rs: Mul<Point2>, Mul<Vector2>, Mul<&Matrix3x3> for Point2/Vector2","src/transform3.rs: Mul<Point3>, Mul<Vector3>, Mul<&Matrix4x4> for Point3/Vector3"])
p("C44","A returned inverse is the inverse","In real arithmetic, if inverse() returns Ok(n) for a finite matrix m then m*n and n*m both == identity, and n.inverse() returns Ok(m).","every finite 3x3 and 4x4 matrix",X,["src/transform2.rs: inverse","src/transform3.rs: inverse"])
p("C45","inverse fails exactly on singular matrices","In real arithmetic inverse() returns Err iff the determinant of the finite matrix is zero. (In f32/f64 the computed determinant may underflow to 0, so an invertible matrix can be rejected; and a NaN determinant is accepted, returning a NaN matrix.)","every finite matrix",X,["src/transform2.rs: inverse","src/transform3.rs: inverse"])
p("C46","Translations and scalings do what they say, exactly","In floats: translate(v) maps a finite point p to exactly p + v and leaves finite vectors unchanged; scale(sx,sy,sz) maps p to (sx*p.x, ...) for finite factors, likewise vectors; scale_uniform(s) equals scale(s,s,s); identity leaves finite points and vectors unchanged (all up to ==).","every finite point, vector, offset and factor",F,["src/transform2.rs: translate, scale, scale_uniform, identity","src/transform3.rs: translate, scale, scale_uniform, identity"])
p("C47","Rotations are rigid and compose by adding angles","In real arithmetic rotate / rotate_x / rotate_y / rotate_z preserve dot products (hence lengths, angles, distances) and orientation (det 1), fix their axis, rotate(a) then rotate(b) is rotate(a+b), rotate(0) is identity, and a quarter turn takes x to y, y to z, z to x respectively (counter-clockwise/right-handed).","every angle, vector, point",X,["src/transform2.rs: rotate","src/transform3.rs: rotate_x, rotate_y, rotate_z"])
p("C48","Rotation about an arbitrary axis","In real arithmetic, for any nonzero axis: rotate_axis preserves dot products and orientation, fixes the axis, depends only on the axis direction, adds angles, rotates by the right-hand rule (Rodrigues' formula), and agrees with rotate_x/y/z on the coordinate axes. A zero axis gives a matrix with NaN entries in every arithmetic.","every nonzero axis and angle",X,["src/transform3.rs: rotate_axis"])
p("C49","Every constructed transform carries its true inverse","identity, translate, rotate*, rotate_axis (nonzero axis), scale/scale_uniform (nonzero factors): forward * inverse == identity == inverse * forward in real arithmetic; for translate of a finite vector this holds exactly in f32/f64 too. With a zero scale factor the stored inverse contains an infinity.","all constructor arguments",X,["src/transform2.rs: Transform2 constructors","src/transform3.rs: Transform3 constructors"])
p("C50","and_then applies self first, then next","In real arithmetic a.and_then(b).transform(x) == b.transform(a.transform(x)) for points (nonzero weights), vectors and rays; and_then is associative with identity as unit.","every pair/triple of transforms and every point/vector/ray",X,["src/transform2.rs: and_then, Transform impls","src/transform3.rs: and_then, Transform impls"])
p("C51","inverse() of a transform undoes it","inverse() is an involution and (a.and_then(b)).inverse() is exactly b.inverse().and_then(a.inverse()) in every arithmetic; in real arithmetic t.inverse().transform(t.transform(x)) == x for points and vectors when forward and inverse are mutually inverse.","every transform, point, vector",X,["src/transform2.rs: Transform2::inverse","src/transform3.rs: Transform3::inverse"])
p("C52","Any history of transform building keeps forward and inverse mutually inverse","In real arithmetic, a transform obtained by any finite combination of the constructors (valid arguments), TryFrom, look_at, and_then and inverse has forward * inverse == identity; if built without TryFrom it is also affine (last row 0 0 0 1), so points never meet a zero homogeneous weight and round-trip through transform and inverse-transform.","every finite expression tree of API calls","unbounded histories",["src/transform2.rs: Transform2","src/transform3.rs: Transform3"])
p("C53","look_at is the rigid view transform","In real arithmetic, for from ≠ target and up not parallel to the view direction: look_at returns Ok, maps from to the origin, target to (0,0,distance), up to the half plane x = 0, y > 0, preserves distances and orientation, and its stored inverse is the true inverse.","every non-degenerate from/target/up",X,["src/transform3.rs: inverse_look_at, look_at"])
p("C54","look_at reports degenerate input","If from == target or up is parallel to the view direction (or zero), look_at returns Err(NonInvertibleMatrixError).","every degenerate input","measure-zero inputs that random tests never hit",["src/transform3.rs: look_at, inverse_look_at, inverse"])
p("C55","Transforming a ray commutes with evaluating it","In real arithmetic, for an affine transform t: t.transform(ray).at(s) == t.transform(ray.at(s)); composition and inverse act on rays as on points.","every affine transform, ray, parameter",X,["src/transform2.rs: Transform<&Ray2>","src/transform3.rs: Transform<&Ray3>"])
p("C56","A transformed bounding box bounds the transformed contents","For an affine transform t and a point p inside box bb, t.transform(p) is inside t.transform(bb).","every affine transform, box and point","holds on all axis-aligned examples, so tests with scale/translate pass",["src/transform2.rs: Transform<&BoundingBox2>","src/transform3.rs: Transform<&BoundingBox3>"])
p("C57","TryFrom<Matrix> keeps the matrix and adds its inverse","try_from(m) is Ok iff m.inverse() is Ok; the result has forward = m unchanged and inverse = m.inverse(); so in real arithmetic it succeeds iff det m ≠ 0.","every matrix",X,["src/transform2.rs: TryFrom<Matrix3x3>","src/transform3.rs: TryFrom<Matrix4x4>"])
p("C58","== is numeric equality of all fields","Derived == on vectors, points, rays, boxes, matrices and transforms is symmetric and transitive, reflexive exactly on NaN-free values, identifies +0 and -0, and equal values agree under dot, length and is_inside.","every value",F,["src/vector3.rs: derive(PartialEq)","src/point3.rs","src/boundingbox3.rs","src/transform3.rs","src/ray3.rs"])
p("C59","Rounding error of dot and length is bounded","In f32/f64, absent overflow and underflow, |dot(u,v) - exact| <= gamma * sum|u_i v_i| with gamma = (1+u)^n - 1, and length(v) is within a relative (n/2+1)-ulp-type bound of the Euclidean length.","every pair of float vectors in range",F,["src/vector2.rs: dot, length","src/vector3.rs: dot, length"])
p("C60","Rounding error of distance and point arithmetic is bounded","In f32/f64 each coordinate of p + v, p - q, v * s is the correctly rounded result; distance(p,q) is within a small relative bound of the Euclidean distance absent overflow/underflow.","every pair of float points in range",F,["src/point3.rs: Add, Sub, Distance","src/point2.rs"])
open('/verif/properties.jsonl','w').write("".join(json.dumps(x,ensure_ascii=False)+"\n" for x in P))
print(len(P))
