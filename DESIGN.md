# Formal model of jesperdj/vecmath-rs — design

## 1. What is modelled

Every function of the crate (`/repo/src/*.rs`, 3,392 lines, no `unsafe`, no I/O, no concurrency) is translated
function by function into Lean 4 under `lean/Verif/Model/`, generically over a class `Scalar S` with exactly the
operations of `num_traits::Float` / `NumAssign` / `ScalarConst` that the crate calls. Each definition cites file and
lines. Order of operations, parenthesisation and argument order are those of the source, because in floating point
they are observable.

| Rust | Lean |
|---|---|
| generic code over `S: Scalar` | definitions over `[Scalar S]`; no law about scalars is assumed in `Model/` |
| traits (`Length`, `Distance`, `DotProduct`, `CrossProduct`, `MinMax`, `Union`, `Intersection`, `Transform`, …) | classes of the same shape; the free functions are `Api.length`, `Api.distance`, … |
| `impl Add/Sub/Mul/Div/Neg` for values and references | instances |
| `AddAssign`, `IndexMut::index_mut`, `Matrix::set`, other `&mut self` | functions returning the new value; histories of writes are lists |
| `derive(PartialEq)` | `BEq` instances comparing field by field with the scalar `==` |
| `Result`, `Option` | `Except`, `Option` |
| panics, `debug_assert!`, overflow checks | `Except Panic`, with the build profile (`Build.debug`/`.release`) a parameter |
| `u32`/`usize` indices | `UInt32`, and the wrap-around of the index arithmetic in release builds is modelled |
| matrices stored as `[S; 9]` / `[S; 16]` | fixed-length records with the same row-major index function |
| `Arc`-free sharing of the inverse in `Transform2/3` | two fields, `inverse()` swaps them |

Not modelled: `Debug` formatting, `#[inline]`, doc comments about efficiency, `target-cpu` code generation, NaN
payloads and NaN signs (all NaNs are one value: the crate never inspects them).

That this translation is faithful is itself a theorem (C81): `Rust/Source.lean` contains the text of every source file,
`Rust/Parse.lean` a parser, `Rust/Sem.lean` an evaluator for the fragment of Rust the crate uses, and
`Props/Source*.lean` prove that evaluating each function of the text on all arguments gives what `Model/` says.

## 2. Three arithmetics for one model

* **G (any `Scalar`)** – no law is used; true for f32/f64 bit for bit and for any user-defined scalar.
* **F (IEEE)** – `class IEEE S` (`IEEE/Class.lean`): every operation denotes, through `den : S → Val`, the IEEE-754
  operation of `IEEE/Val.lean`: the exact real result rounded once, with NaN, signed infinities, signed zeros,
  overflow and underflow as in the standard; `min`/`max` are `minNum`/`maxNum` with the choice between `+0` and `-0`
  left open (Rust leaves it open); `sin`/`cos` unconstrained. `class Binary S` adds that the rounding is
  round-to-nearest-even into a binary format with given precision and exponent range.
  The instances are *proved*, not assumed: `Fl F` (`IEEE/Fl.lean`) for every binary format, with `F32 = Fl binary32`
  and `F64 = Fl binary64`; `IEEE/Binary.lean` constructs the rounding function and proves it nearest, with ties to
  even, monotone, odd and idempotent. `IEEE/Bits.lean` connects the formats to the 32- and 64-bit encodings.
* **R (exact arithmetic)** – the same class with the identity rounding (`Ideal`): reals with NaN, infinities and
  signed zeros, so division by zero behaves as in the code and not as Lean's `x / 0 = 0`. Laws that rounding destroys
  (associativity, inverses, rigidity) are proved here; C59–C72 and C76 bound how far f32/f64 is from it.

## 3. Where things are

* `Model/` – the code. `Rust/` – its source text, parser and evaluator (C81). `IEEE/` – the arithmetic. `Spec/` – the vocabulary of the theorem statements (componentwise
  predicates, real vectors and matrices via Mathlib, error units, exact slabs, grids, trees); nothing there mentions
  a proof. `Lemmas/` – proofs only. `Props/` – the theorems; a theorem proving (part of) property Cnn is called
  `Cnn_…`; a suffix `2`/`3` is the dimension. Beside the theorems stand examples that instantiate the hypotheses;
  `Props/FloatExamples*.lean` do that with concrete f32 data.
* `tools/manifest.py` makes `MANIFEST.json` from the names, so the list of theorems there is complete by construction.
* `seeded/LOG.jsonl` – wrong programs and which theorems noticed.

Statements use the modelled API, Rust's `==` (`==`, false on NaN), `SameAll` (same datum bit for bit up to NaN), or
Mathlib notions (`Matrix`, `Matrix.det`, `⬝ᵥ`, `EuclideanSpace` norm, real sums, sets of points).

## 4. Plan per property

| id | layer | how |
|----|-------|-----|
| C01–C05 | G (+R for length under permute) | case analysis; induction over write histories |
| C06–C08 | F commutativity, neutral elements, signs; R group and module laws | denotation lemmas; `ring` after transport to ℝ |
| C09, C12, C14–C18, C20–C22 | F | sign/NaN analysis of squares and sums, monotone rounding, order laws of `Val`; for C12/C15 an exact characterisation of when a float length/distance is zero |
| C10, C11, C13 | R (C11, C13 also F) | transport to ℝ; limits of C13 (tiny and huge vectors) in F |
| C19 | F | integers are representable in every lawful format |
| C23 | F for `at(0)`, R for the rest | |
| C24–C30 | F | order reasoning in `EReal`; C27 induction on the list of points; C28–C30 exact iffs |
| C31–C33 | F and R | monotone rounding; `UInt32` index and build profile |
| C34–C37 | F and R | slab test unfolded; case split on a zero direction; C37 is the exact behaviour on face planes |
| C38–C39 | G | refinement to a map `(row, col) → S`, induction on the write history, `UInt32` arithmetic |
| C40–C43 | G/F for transposes and identities, R against `Matrix` | |
| C44–C45 | R (adjugate, `Matrix.det`), F for rounding failures | |
| C46 | F | 0·x and 1·x laws for finite values |
| C47–C48 | R | `Real.sin/cos`, Rodrigues' formula |
| C49–C52, C55, C57 | G where structural, else R; C52 induction over expression trees of builders | |
| C53–C54 | R and F | C54: the documented error is unreachable; negation proved |
| C56 | R iff, F span | |
| C58 | F | |
| C59–C64, C67 | F + `Binary` | error calculus `Approx k t a x A`: `a` is within `((1+u)^k - 1)·A + t` of `x` |
| C65 | F + `Binary` | soundness/completeness of the computed range against the exact slab, two roundings |
| C66 | F + `Binary` | permanent bounds for the determinant and the cofactors |
| C68 | F + `Binary` | grid calculus: a result on the grid within the significand is not rounded |
| C69 | F | monotone rounding of +, ×, √ on non-negative numbers |
| C70 | F + `Binary` | monotone quotients in every slab, then induction over trees |
| C71 | F + `Binary` | induction over the history of composed transforms |
| C72 | F + `Binary` | rotations under an explicit accuracy hypothesis on `sin`/`cos` (`TrigWithin`, met by the reference formats, `trig_fl`); Frobenius-norm perturbation, induction over the chain |
| C73 | F (witnesses: every format) | `num`, the datum up to the sign of zero, is respected by every operation but division by it; the ray/box test is reduced to one comparison of extended reals, in which the mirrored slabs coincide |
| C74 | F + `Binary` | rounding commutes with `2^k` in the normal range; subnormal sums are exact, equal-scale quotients have equal exact value, square roots are never subnormal |
| C75 | F | a NaN is chased through each expression; ray/box through the slab values with a NaN slab as (-inf, inf) |
| C76 | F | perturbation of unit vectors and cross products around the exact frame of Spec/LookAt; orthonormality from the Cauchy-Schwarz inequality |
| C77 | F | error of the two computed corners (C63 point and vector bounds) against the exact affine image of Spec/BoxImage; one-signed rows make every image monotone along the diagonal; exact on grids via C68 |
| C78 | F | induction on the schedule (Spec/Reduce: map, meet, JoinsNothing) from C26, C27, C28, C30; equality of boxes from equality of membership |
| C79 | F | induction on the tournament: winner = last best candidate of the strict weak order; uniqueness gives independence of shape |
| C80 | F | order-only form of the ray test (`ray_eq2/3`); one shared slab bound at the cut gives the join; induction on the kd-tree; the in-plane exception proved as C80_in_plane2/3 |
| C81 | G | the 22 source files are embedded as text; a lexer and parser (total Lean functions, run by the kernel: `Props/SourceText.lean`) give the syntax tree; an evaluator (`Rust/Sem.lean`) runs it; 345 theorems, one per function and type, equate the outcome with the model: the kernel evaluates straight-line code on symbolic arguments, branches by case analysis on the conditions, indices by `UInt32` arithmetic |
| C82 | G | `Rust/Typing.lean` reads off the declarations which values a type has; `Rust/Inhabit.lean` shows these are the values of the model; then C81 for each of the 312 functions, and membership in the syntax tree of the source, so that no function can be left out |
| C83 | F | `Spec/Hit.lean` states the error of locating a face; per slab: the computed crossing parameter puts the exact point at the face (`quot_face`), order of the two crossings by monotonicity of rounding; the running max/min picks one of them |
| C84 | F | C63 in homogeneous coordinates for both matrices, composed once for any `n` (`trip_core`); the lack of the stored inverse comes from C66 (`try_from`), from orthogonality in the Frobenius norm (C72), and for translate and scale the product is computed coordinate by coordinate (C46_float) |
| C85 | F | both orders compared with the exact image; errors of `at` (C60) and of the matrix product (C63) composed by the triangle inequality |
| C86 | F | `N·2^e` is a number of the format (`Room`) and rounding does not cross numbers of the format, so exact bounds carry over operation by operation (`Correct.upTo`); moderate factors do not underflow, computed differences of moderate numbers lie on a coarse enough grid, so the hypotheses of C59–C62, C65, C83 are met; instantiated at the largest exponents for f32 and f64 |
| C87 | F | Sterbenz: numbers within a factor two have a difference whose significand is not longer than theirs (`Fmt.Has.near`), so correct rounding delivers it; adding back is exact because the exact sum is a number of the format; the segment by C88; counterexample between 1 and the smallest number |
| C88 | F | rounding is monotone (`Rounding.finish_mono`), so multiplication by a fixed sign and addition are (`at_moves`); convexity and distances by C24, C25 and C69 |
| C89 | F | the exact laws over ℝ (triangle, Cauchy–Schwarz, orthogonality) combined with the accuracy theorems of C86, C59, C61: both sides are within a known number of roundings of exact values; the witness (3, 3) is executed in the kernel with `Lemmas/Exec` (each operation's result is given and checked to be the correctly rounded one) |
| C90 | F | the tournament of C79 selects the best *computed* value; by C86 computed values are within k roundings of exact ones |
| C91 | F | a history is a list of `plus v`/`minus v` steps folded over the start; induction on the list with the one-step error bound of C59 (addition has no underflow error), the grid lemma of C68, monotone rounding, and congruence of `==` under addition; the mean adds one division; the failures are concrete executions in the kernel (`Lemmas/Exec`, ties included) |
| C92 | F | `Fmt.bisect`: between two numbers of a format that are not neighbours rounding moves a real by at most a third of their distance (`Fmt.gap`), halving is exact except for odd multiples of the quantum; so `lo + (hi - lo) * half` is strictly between, and each half is at most 7/8 of the whole; induction on the path; the depth bound compares (7/8)^n with the smallest possible extent of two quanta |
| C93 | R, F | exact arithmetic: C35 for the transformed ray, C55 moves `at` through the transform, C51 moves between box and world; floats: C83 for the transformed ray composed with C85 for the stored inverse |
| C94 | F | the comparison compares keys in a linear order (`EReal` or its dual) on NaN-free elements (`KeyedBy`); the list facts are by induction (`Lemmas/Sort`), existence of a stable sort by insertion, uniqueness because a sorted list is determined by its runs of tied elements |
| C95 | F | `Spec/Corners`: `around`, `aroundAll` as the user writes them with `corner`, `transform`, `union`, `empty`. Rounding is monotone, so a rounded sum of products with fixed coefficients lies between its values at two corners (`Lemmas/Enc`; a NaN at an inner point would need opposite infinities, which some corner also has); division by the weight 1 changes nothing; smallest by C27. Depth: induction on the list of transforms. Culling: C93 and C35 in exact arithmetic |
| C96 | F, R | The slab arithmetic is monotone (`slab_mono`, C70) and for the target itself it computes `(q - p) / (q - p)`, which is exactly 1 (or NaN when the coordinates are equal, and then the running range is left alone): the running range keeps 1 (`Holds`). The same with 0 for the origin. Trees by C70. Segments in exact arithmetic from C35. Overflow witness by evaluation |
| C97 | F, R | `Spec/Clamp` writes down the client's clamping and search. Coordinatewise `|c - p| ≤ |q - p|` in computed differences (monotone rounding), then the monotone `dot`/`length` of C69. The search: a skipped subtree only holds points that lose against the candidate, so it equals the plain fold; which is a minimum by the order of C94. Exact arithmetic: the obtuse-angle inequality per coordinate |
| C98 | F | `Lemmas/SqrtSq`: `rnd √(rnd (x²)) = |x|` for every number x of the format (the relative error of the square is at most half of what would move the root by half a unit). The other components contribute exact zeros; monotonicity of squares, sums and roots (C69) carries the axis-aligned case to all vectors. Underflow witness: the smallest positive number |
| C99 | F, R | `Spec/Cells` writes down the client's `(p / s).floor()`. `Lemmas/Cells.quotient_step`: if x is at most s below y, the rounded quotients differ by less than it takes to skip a cell (a quotient that rounds up to an integer has no number of the format between it and the integer; adding s keeps that). Distances by C98. Exceptions evaluated in f32 |
| C100 | F | `Spec/Damp` executes a list of `*=`/`/=` on the model's assigning operators. One step rounds `x·g` once; `rnd` is monotone and keeps numbers of the format, gives 0 exactly up to half the smallest positive number (C63's `rnd_eq_zero_iff`), and is exact for powers of two in the normal range; the rest is induction over the history. Getting stuck: the magnitudes are a non-increasing sequence of multiples of `2^emin` |
| C101 | F | `Spec/Axes` numbers rows/columns by dimension and says what an affine last row is. Products with the literals 0 and 1 and sums with 0 are computed symbolically on values up to the sign of zero (`Lemmas/Num`); length and normalization from C98; the rest is reading entries |
| C102 | F | Entries of the products are computed symbolically up to the sign of zero (`Lemmas/Num`); the chain by induction on the list from the right, the invariant being equality (`==`) with a translation; witnesses are executed on concrete `f32` numbers (`Lemmas/Exec`) |
| C103 | F | `Spec/FirstHit` is the client's search. Skipping a box loses nothing because the box of a subtree is entered no later than every box in it (C70's nesting of ranges, by induction over the tree); so the search equals a fold over a permutation of the leaves, whose result is minimal by induction. The lost flat box is executed symbolically (`0/0` is dropped by `min`/`max`, C37) |
| C104 | F | `Spec/Broad` is the client's code. `overlaps` only compares and `union` only picks numbers, so a box that overlaps a leaf overlaps every bound above it (C26); descents by induction over the trees, sweep-and-prune by induction over the list (the first box beginning behind the end cuts off all later ones, by transitivity of `<=`) |
| C105 | F | `Spec/Moving` is the client's code. Corners move along rays, whose coordinates are monotone in time after rounding (C88), and `new`/`union` are the smallest boxes (C24, C26); margins by monotonicity of rounded addition. The two small steps are executed on concrete `f32` numbers |
| C106 | R, F | rows times matrices as `vecMul` with the linear part; `inverse.linear * forward.linear = 1` for every `Built` history gives the dot, plane and ray laws; uniqueness by testing against every vector; the cross product by the cofactor identity (`ring`); witness `scale(2, 1)`. Floats: `Same` by commutativity for rotations, `num` for translations and scalings, `row2`/`row3` error bounds |
| C107 | F | `Spec/Side`. Signs: the two products are ordered like the exact ones because rounding is monotone, so their sum/difference cannot cross zero; this covers overflow and underflow. Symmetry by `num`. Error bounds with the `Approx` calculus (`k + 1` roundings for `dot(n, p - o)`, 8 for the volume), certificates by real algebra, exactness with the grid calculus `G`. Witnesses executed with `exec_*` |
| C108 | F | `Spec/InvAffine`. The zeros of the last row make all but two of the six products vanish (up to the sign of zero, `num`), also under rounding; so determinant and cofactors reduce to those of the linear part. `w` by the `Approx` calculus: 7 roundings against 5. Translations by evaluating all 16 cofactors on `num` (`neg_simp`). Witness for `w = 0` executed with `exec_*` |
| C109 | R F | `Spec/Reflect` (`reject`, `reflect` as clients write them). Exact: dot-product algebra over `Fin k → ℝ`. Floating point: the error calculus `Approx` through dot, doubling, scaling and subtraction; the length from the triangle inequality and Cauchy-Schwarz; `num` congruences for the symmetries; doubling is exact in a binary format, hence exactness at an axis; `C109_overflow` is the witness. |
| C110 | R F | `Spec/Plane` (`farIndex`, `behind`, `kept`, `Visible` as clients write them). Floating point: every rounded operation is monotone, so the computed dot product is monotone in each coordinate in the direction of the normal's sign; `C33_corner` names the coordinates; unions through C26 and `Tree.search_eq`. Exact: one-dimensional identity `far_center`. `C110_center_wrong` is the `f32` witness against the center-and-extents form. |
| C111 | R F | `Spec/Pivot` (`oneByOne`, `about`, `stepSlack`). Exact: linear part and offset of `translate(c) * (m * translate(-c))`. Floating point: homogeneous coordinates turn a point image into a matrix-vector product with error `C63_point`; `chain_left`/`chain_right` give the induction over the list; `C111_composed` puts `C71_forward` in front. The pivot: translating `c` by `-c` gives zeros, whose image is the offset. `C111_pivot_moves` is the `f32` witness, from `C111_scale` (the composed scaling, operation by operation). |
| C112 | R F | `Spec/Foot` (`footParam`, `halfParam`, `segParam`, `exactParam`, `FootNormal`). Exact: the squared distance along the line is a parabola in the parameter (`foot_parabola`), so nearer means parameter nearer to the foot. Floating point: the clamp on the IEEE data (`clamp_cases`), C88 for the box, `quot_err` for the quotient of two inexact numbers. `C112_far_end`, `C112_near_end`: the witnesses in every format. |
| C113 | R F | `Spec/Triangle` (`hitTriangle`, `hitsTriangle`, `Meets`, `MeetsAt`, `Parallel3`, `triErr`). Exact: Cramer's rule (`tri_solve`), the determinant vanishes iff the three vectors are dependent (`det_parallel`). Floats: `C113_any`/`C113_none` on the IEEE data; grids by the `G` calculus of C68 (`G.triple`); errors by the `Approx` calculus (`Approx.triple`), signs kept by `sign_keep`. `C113_overflow` (every format), `C113_edge` (f32): the witnesses by evaluation. |
| C114 | R F | `Spec/Frame` (`sideways`, `frame`, `turned`, `IsFrameUpTo`). Crossing with an axis multiplies by 0 and 1 only, so it is exact (`num_cross_axis`) and the two products of the inner product cancel (`cancel_num`); the component dropped is a smallest one (C21), so the sideways vector keeps two thirds of the squared length (`side_norm`); accuracy by the perturbation lemmas of C76. Witness of collapse in every format |
| C115 | any scalar, F | `Spec/Param`: a relation between the values of two scalar types, and its lifting to every type of the crate (Mathlib's `Relator.LiftFun`). One lemma per function (`Props/Param2`, `Param3`, 286 in all), each following the code operation by operation; `Props/ParamAll` states them type by type. `Spec/Platform`: two `IEEE` instances of one format; equality of data is kept by all but `min`/`max`, equality of numbers by all but division; functions that divide first and take minima afterwards are treated with both relations (`rel_intersectRay'`, `rel_transform_box'`). Sharpness: a second implementation (`Alt`) whose `min` returns the other zero |
| C116 | F | `SameNumber` on one format is kept by everything but division (C115). `normalize`: a square, a sum of squares and its root never carry a minus sign (`neg?_length`), so both divide by the same datum. `inverse`: the zero determinant is tested first. Ray: opposite zeros in the direction exchange the two infinite crossings of a slab or make it unreachable (`slab_flip`). Witnesses in every format |
| C117 | F + R | `Spec/Flat` says what a copy in the plane is. Adding or subtracting a zero and multiplying it by a finite number keep the number (`add_z`, `zero_mul_zero`), so each function is related to its 2D namesake by following the code. Ray and box: the crossing values of a slab around the plane are minus and plus infinity, or NaN (ignored), so they set no bounds (`slab_free`). Inverse of an affine matrix: all sixteen cofactors of the copy are computed (generated, `tools/gen/flat.py`); the 4x4 determinant rounds to the same number as the 3x3 one. Without rounding: the copy of the inverse matrix is the inverse of the copy (Mathlib matrices). Witnesses: one face in the plane; `diag(t, t, 1/t)` with an underflowing square. |
| C118 | F + R | `Spec/Curve` defines interpolation from the modelled `+`, `-`, `*` and de Casteljau's scheme over any control sequence; the specification is the Bernstein sum `bezier`. Over the reals the scheme is the `n`-th power of a linear operator on sequences (`Lemmas/CurveReal`), which gives the Bernstein form, subdivision and the convex hull. Rounding: induction on the rows with the size bound `(1 + mixErr)^k (M + k …)` (`casteljau_err`, `casteljau_finite`); the ends by the laws of `0` and `1`; monotonicity of one interpolation from C88; exactness by grid arithmetic (`casteljau_grid`). |
| C119 | F + R | `Spec/Sphere` writes down the client's quadratic (`rootRange`, `ball`, `boxAround`, `back`). Order, growth, inside and outside follow from monotone rounding of `-`, `sqrt` and division by a positive number, with `sqrt(fl(h*h)) = |h|` (C98); infinities and overflow are included. Reversal on `num`. Whole numbers by the grid calculus of C68. The general error bound (`C119_disc`, `C119_clear`, `C119_near`) by the calculus `Approx` and Cauchy-Schwarz. Exact arithmetic: completing the square (`quad_iff`), C52 for motions, C35 for the box. Witnesses executed with `exec_*` |
| C120 | R + F | `Spec/Persp` writes down the homogeneous coordinates and the clip box. R: homogeneous coordinates of `r.at(s)` are affine in `s` (`mulVec_at`), the line law is one field identity; the box law because `C * w - x` is affine in the point and so non-negative in the box if it is at the corners; `C120_ray_iff` by linear algebra (`proj_ray`). F: two numbers of the format with quotient above 1 have a quotient above `1 + u` (`one_lt_rnd`: both are multiples of the last place of the smaller), so the rounded quotient is not 1 |
| C121 | F + R | `Spec/Ball` writes down the balls a client keeps. F: per coordinate the farther end of the interval dominates (`far1`, from `Dom.extent` of C69), so some corner dominates each point of the box; folding `farthest` by induction (`fold_far`), folding `max` by induction (`foldl_fmax`). R: through the Euclidean distance of Mathlib (`real_distance`): overlap by interpolation, containment by the point of the ball opposite to the other center (`ball_sub`), the joining ball by `ball_join` and the triangle inequality; motions by C52. Misses: `C121_half_misses*`, `C121_overlap_lost*`. |
| C122 | F + R | `Spec/Path` writes down the fold over the windows. R: the legs are distances in Mathlib's Euclidean space, the claims by induction on the list (`legs_direct`, `legs_insert`, `legs_join`, `legs_reverse`), motions by C52. F: `Dom` and monotone addition along the fold (`sum_up`), the error by C60 for each leg and `Within.add` along the fold (`sum_within`), exactness by `Correct.grid` along the fold (`sum_exact`). Misses: `C122_shorter*`, `C122_detour*`, `C122_back_differs*` (f32: −2^24, 0, 1, 2). |
| C123 | F + R | `Spec/Step` writes down the two expressions and the iteration. R: `C123_exact_limit*`, `C123_exact_step*`, `C123_exact_walk*` from `limit_norm`, `step_dist` in a normed space and induction over the steps. F: two numbers of a format, one less than the other, differ by a rounding (`below_by_rounding`), so d / L * m is not beyond d for m < L (`shrinks`), and monotone addition for the step (`between_add`); the length by C59. Misses: `C123_not_idempotent*` (f32: (3, 3) limited to 3), `C123_huge*` (every format), `C123_stuck*` (f32: from 2^24 to 2^24 + 2 by steps of 1, by an invariant of the walk). |
| C124 | F + R | `Spec/Area` writes down the two sums. R: `legs` of an alternating bilinear map (`Alternating`: `turn`, `reverse`, `split`, `anywhere` by induction over the vertices), for the determinant in 2D and the cross product in 3D; affine maps by C24/C27 and the cofactor matrix; the plane by the expansion of n x (u x v). F: `Off` carries the exact value, its magnitude and the number of roundings through differences, products, sums and the fold (`C124_error*`); `num_fold`, `num_skip` for terms that are zero; grids (`grid_fold`) for the exact cases. Misses: `C124_far`, `C124_first_vertex` (f32, integer coordinates). |
| C125 | F + R | `Spec/Shadow` writes down the two folds and the test. F: the folds return the least and greatest element (`highest_real`, `lowest_real`, by induction), so the test is the pairwise comparison (`C125_iff*`), from which symmetry, order, subsets and the opposite axis follow; boxes by C29/C33 and the projections on the axes; `C125_sound*`, `C125_found*` from the error bound of the dot product (C59), `C125_exact*` from its exactness on grids (C68), with half-spaces being convex. R: the existence of an axis is the geometric Hahn-Banach theorem for the convex hulls of two finite sets, the functional written as a dot product (`C125_axis*`); that edges are enough by turning a separating axis around the segment between the nearest points until a point of one set becomes level with the nearest one (`turn_until`: the first of finitely many linear constraints that becomes tight), once in the plane and twice in space (`C125_edges*`). Misses: `C125_between`, `C125_missed` (f32, integer coordinates). |
| C126 | L + F + R | `Spec/Clip` writes down the client's clip: the kept points and the crossings of the lines from each kept to each dropped point. L: membership by unfolding the list (`C126_mem*`, `C126_keep*`, `C126_all*`, `C126_none*`, `C126_edge*`). R: for a general set and a general linear function (`clip_hull`): a point of the hull above the plane is between a point of the hull of the kept points and one of the hull of the dropped points, and the crossing of that line is a convex combination of the crossings (`crossing_mix`, used once per side); the list of planes by induction (`C126_clips*`). F: the parameter is a quotient of two differences ordered by monotone rounding (`C126_parameter*`), boxes by C118 (`C126_between*`, `C126_box*`), the test by the exact dot product of C68 (`C126_exact*`), the distance from the plane by following the roundings of the parameter and of the interpolation (`C126_near*`). Witness in `f32`: the line from `(7,0)` to `(-6,0)` is cut by `x >= 0` at `-2^-21` (`C126_outside`). |
| C127 | L + F + R | `Spec/March` writes down the clearance (a fold with min from infinity) and the march (recursion on the number of steps). R: the clearance along the ray is a function of the parameter that changes by no more than the parameter does (`clear_lip`: triangle inequality at the ball where the minimum is taken); for any such function the march is monotone, stays before every zero, and is safe (`trace_*`, by induction on the steps); a monotone bounded sequence converges, and its limit is a zero by continuity (`C127_hit*`, `C127_miss*`); the loop bound by induction. F: the fold returns the least element (`C127_least*`), triangle inequality with the error (`C127_sphere*`), monotone addition (`C127_forward*`). Witness in `f32`: from `(-2^24, 0)` along the first axis the ball of radius `1/2` around `(3, 0)` is passed in one step (`C127_through`). |
| C128 | L + F + R | `Spec/Mesh` writes down the client's sum over the triangles and what a closed surface is (a permutation of the directed edges, over any type of corners). R: the volume seen from two points differs by a sum over the edges of an antisymmetric function (`edges_triple`), which is zero over a closed list (`closed_sum`); closedness is preserved by every map of the corners (`Closed.image`), so moving and affine maps reduce to the triple product; the box by its combinatorial surface on `Bool^3` (`box_closed`, a finite permutation) and expansion. F: inside out by the symmetry of rounding, by induction over the list (`C128_back`); exactness and error bounds by induction from the tetrahedron of C107 (`C128_exact`, `C128_error`). Witness in `f32`: the two sides of the triangle `(4097,0,0)`, `(0,4097,0)`, `(0,0,3)` have the volume -4 (`C128_leak`). |
| C129 | L + F + R | `Spec/Motion` writes down the loops: a body, one step of free fall or on a spring (with the new or the old velocity), the step taken back, and the step repeated n times. R: one step on the real vectors (`fall_real`, `swing_real`, ...), then induction on n: the closed form (`C129_parabola*`), the conserved quadratic form by expansion (`spring_keeps`), which is a sum of squares for k dt^2 < 4 (`spring_bound`), the growing energy (`spring_grows`), the way back for any step with a left inverse (`stepped_back`). F: induction on n with the symmetry of rounding (`C129_mirror*`), with zeros (`C129_rest*`), monotone rounding for one step (`C129_forward*`). `C129_exact*`, `C129_exact_back*`: numbers on a grid (C68), every sum and product of which fits, so no operation rounds; induction with the closed form. `C129_orbit*`: with k = dt = 1 the step sends (x, v) to (v, v - x), of order 6, and the three numbers x, v, v - x never leave the grid, so again no operation rounds. Witness in `f32`: `-2^24 - 1/2` rounds to `-2^24`, by induction for ever (`C129_stall`). |

## 5. Trusted base

* Lean's kernel (4.33.0) and Mathlib's definitions of ℝ, `EReal`, `Matrix`, `Real.sqrt`, `Real.sin`, `Real.cos`.
* Axioms: every theorem of the manifest depends on a subset of `propext`, `Classical.choice`, `Quot.sound`
  (`#print axioms` on all of them; 40-odd structural ones use none or only `propext`). No axiom is declared.
* The semantics of Rust in `Rust/Sem.lean` (an evaluator of 540 lines; its header lists the simplifications: references
  are values, method calls are resolved by the types of the actual receiver and argument, all integers are `u32`) and
  the grammar in `Rust/Parse.lean`; and that the strings in `Rust/Source.lean` are the files in `/repo/src`
  (`tools/gen/source.py` writes them; comparing them is a `diff`). Given these, the transcription into `Model/` is not
  trusted but proved (C81). The tactics `kernel_rfl` and `kernel_parse` only build proof terms, which the kernel
  checks; the elaborator `rust_source` builds the syntax trees, which `Props/SourceText.lean` then proves to be the
  parser's results.
* For layer F: that Rust's `f32`/`f64` operations are the IEEE-754 binary32/binary64 ones with round-to-nearest-even,
  i.e. `IEEE f32` with `Binary` at `binary32` (what the Rust reference promises on all targets with hardware floats;
  x87 without SSE2 does not), that `num_traits::Float` forwards to `std`, that `f32::min/max` ignore a NaN, that
  `fract` is `x - trunc x` and `recip` is `1 / x`.
* For layer R: nothing about floats; these are statements about the algorithm in exact arithmetic.
* `sin`/`cos`: exact in R, arbitrary in F (no theorem of layer F before C72 depends on them).

## 6. Properties found false of the code

Each is stated in `properties.jsonl` as what the code does, with the expected law named as false, and the refutation
is a theorem: C28 `union(empty, empty)` is the infinite box; C29/C30 the infinite box overlaps `empty()`; C31 area and
volume can be NaN on finite boxes; C32 the centre is outside exactly when the extent overflows; C13/C15 tiny and huge
vectors; C35 float false hits; C37 a ray in a face plane is missed; C39 out-of-range indices alias in release builds;
C45 underflow rejects invertible matrices, overflow and NaN are accepted; C48 zero axis; C49 `scale` by 0; C54
`look_at` never reports an error; C56 a transformed box need not contain the transformed contents; C58 division tells
`+0` from `-0` although they are `==`; C75 a ray with a NaN
direction hits every box; C78 two pointless chunks give the infinite box; C80 a ray in the cutting plane is lost by both
halves; C89 a normalized vector's product with itself can exceed 1; C91 the mean of equal vectors can leave their box and
small steps far from the origin never move; C92 splitting can stall; C94 a NaN breaks sorting; C95 an overflowing
corner image is NaN; C96 an overflowing difference loses the target; C98 a component can exceed the length where squares
underflow; C99 a grid cell can be one too high, and points at the computed distance of one cell can be two cells apart;
C100 damping by a factor above 1/2 never reaches zero; C101 `axis(d).dot(v)` is NaN beside an infinite component; C102 composing translations (or translate-then-scale) is not applying them one after the other, and `scale(3).and_then(scale(3)) != scale(9)`; C103 a hierarchy loses a flat box whose plane contains the ray; C105 small steps leave the swept box of the whole way; C106 transforming a normal like a vector loses perpendicularity; C107 the 3D dot product can have the wrong sign; C108 the computed inverse
of an affine 4x4 matrix whose determinant is computed exactly can have bottom-right entry 0; C109 reflecting
a finite vector at an axis can give NaN although the mirror image is finite; C110 the center-and-extents form of
the plane test drops boxes with visible points; C111 the composed transform about a pivot can move the pivot; C112 the nearest
point of a long or short segment is the wrong end; C113 a ray that misses a triangle is reported to hit it;
C114 the frame of a long direction collapses to zero vectors;
C116 whether a ray without direction hits a box depends on the signs of its zeros; C117 a ray in the plane of one face of a box misses it although it hits the section, and the 2D and 3D inversions of corresponding projective matrices differ; C118 interpolation with t = 1 overshoots the second point, and with t = 0 can be NaN; C119 a line through the center of a disc is reported to miss it, and the box around a disc misses a point the distance test puts into it; C120 transforming a ray by a perspective matrix gives a wrong ray, and points behind the eye pass the clip test of their image; C121 the disc around the center of a box with half its diagonal misses a corner, and two discs with a common point fail the overlap test; C122 the computed length of a path is less than the distance of its ends, gets smaller by a detour, and depends on the direction; C123 a limited vector can be longer than the limit or lost, and a walk towards a target may never arrive; C124 the area of a polygon seen from the origin can have the wrong sign, and the area depends on the first vertex; C125 an axis can be reported to separate a point from two points it lies between, and a separating axis can be missed; C126 the point where a line crosses a plane can be computed outside the half-space; C127 sphere tracing can step through a ball; C128 a closed surface that encloses nothing can have a computed volume; C129 a falling body can stop getting faster.
