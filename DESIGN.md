# Formal model of timow-gh/Geometry — design

Source: `/repo` (header-only C++ templates under `src/include/Geometry/`).
Model and proofs: `/verif/lean` (Lean 4.33.0, single Mathlib modules).

## 1. Layout

| Directory | Content |
|---|---|
| `Verif/Model/*.lean` | the code, function by function, each definition citing file and lines |
| `Verif/Spec/*.lean`  | small independent specifications (point sets, least distance, containment, closed surface, ...) that never mention the model |
| `Verif/Proofs/*.lean`| helper lemmas |
| `Verif/Props/*.lean` | one theorem (or a few) per property `Cnn`, each next to an `example` meeting its hypotheses |
| `Verif/Conformance/Tests.lean` | the expectations of `/repo/tests` evaluated on the model (`#guard`): tests that the model follows the code, not proofs; nothing depends on them. Getter and setter tests are left out |

## 2. Trusted base

* Lean's kernel, and the axioms `propext`, `Classical.choice`, `Quot.sound` (nothing else). `AXIOMS.txt` lists the axioms of every theorem named in
  `MANIFEST.json`, as printed by `#print axioms`.
* The reading of the C++ text in `Verif/Model` (each definition cites the lines it transcribes).
* The external library `linal` (github.com/timow-gh/LinAl) is **not** in `/repo`; its behaviour is assumed:
  * `isLess(a,b,eps)` etc. are comparisons with an absolute tolerance. Assumed only (class `LawfulTol`), for eps > 0:
    `isLess a b e` is true if `b - a > e`, false if `b - a < e` (or `b <= a`); **unspecified at exactly** `b - a = e`;
    `isGreater a b = isLess b a`, `isLessEq = !isGreater`, `isGreaterEq = !isLess`, `isEq = !isLess && !isGreater`, `isZero x = isEq x 0`.
    Theorems hold for every implementation with these laws; both boundary conventions are shown to satisfy them.
  * `dot`, `cross`, `length`, `normalize`, `projection`, `rejection`, vector `+ - *`: the textbook operations.
  * `is_equal(u,v)`: componentwise `isEq`.
  * `vec::operator==`: a parameter (`BEq`); theorems state what they need of it (usually: exact equality, `LawfulBEq`). The tests of the library
    suggest that the real one has a tolerance: three of their expectations (`RayPointsAtSegment`, `circle3_rotY`) fail for exact comparison in
    double precision. C143, C144 and C145 say what becomes of mesh building, the tree and the solids under a comparison with a tolerance, which need not be transitive.
  * `hmat * hvec`: 4x4 matrix times column; `to_hvec` appends 1, `to_vec` drops the last component (no division by it); `hmat::identity`,
    `set_translation` write the obvious entries. `hmat::operator==` is a parameter (`LawfulBEq` where needed).
  * `rot_align(u, v)`: a parameter. Where the builders need it, the hypothesis `RotatesZTo` says that the matrix returned for the z axis is a
    rotation (orthogonal, determinant 1, no translation) taking the z axis to the axis direction. In floating point (C96) its entries may be off by `K` units of roundoff, `K` arbitrary.
  * `vec::size_type`: unsigned of unknown width `w` (parameter).
* Arithmetic: theorems that involve arithmetic on coordinates are over the exact real numbers (or any ordered field). Floating-point rounding,
  overflow, NaN and infinities are **not** modelled there (the infinities that `aabb_ray_intersection_interval` writes explicitly are).
  Exception: C90 and later claims that mention floating point instantiate the same model functions with `Fl F`, the numbers of a binary format `F`
  with correctly rounded operations (`Model/Float.lean`; any precision, any lower bound of the exponents, any rounding to nearest that is odd; no
  largest exponent, so no overflow, infinities or NaN; one zero). Of `std::sin`, `std::cos` and `linal::PI` the structure `Fl.LibAccurate` assumes,
  where a theorem names it, that they are accurate to two units in the last place (C++ promises nothing; common libraries do better).
  C116 and later claims that mention NaN, infinities or overflow instantiate the model functions with `Ieee F` (`Model/Ieee.lean`): the same rounding, with a largest
  exponent, overflow to infinity, NaN and both zeros (all NaNs are one value; no exception flags).
  Theorems that only compare coordinates (KdTree insert/search, mesh building) hold for any coordinate type with any decidable `<`.
* Index types: `size_t` counts and `uint8_t/16/32/64` indices are natural numbers with an explicit bound `M` (number of values of the index type);
  wrap-around and the reserved invalid value `M - 1` are modelled. Intermediate `uint32_t` products are modelled only through `M`; the theorems
  assume that index buffers fit `M`, which for `M <= 2^32` also excludes overflow of those products.
* Undefined behaviour (index out of range, dereferencing an empty `optional`), failed `GEO_ASSERT`s (debug) and non-termination are explicit
  outcomes of the model (`Fault`), never silently totalised. The faults: `assertFailed` (a `GEO_ASSERT` in a debug build), `outOfRange` (vector
  index), `emptyOptional`, `exception`, `diverges` (a loop that never ends), `dangling` (access through a pointer to a moved or destroyed mesh),
  `notFinite` (a floating point result that is infinite or NaN
  although the inputs are finite: no error in C++, but outside of exact arithmetic).
* Parameter `dbg`: `true` checks the assertions (debug build), `false` skips them (release build). Theorems hold for both unless they say otherwise.
* `std::min`, `std::max`, `std::abs`, `std::sqrt`, `std::sin`, `std::cos`, `std::find`, `std::set`, `std::priority_queue`: the documented behaviour.

## 3. Method per property

See `properties.jsonl` for the statements and `MANIFEST.json` for theorem names and notes.

* C01–C05 KdTree: inductive tree, `insert`/`search`/`nearest` as structural recursions with the depth counter of width `w`;
  invariant "left subtree decided `<`, right subtree decided not `<` at the node's axis" by induction over the insertion history; refinement to a
  list of distinct (point, payload) entries; `nearest` against "least distance over all stored points".
* C06–C07 Interval, C08–C15, C78 AABB: direct proofs from the tolerance laws; histories by induction over the list of adds.
* C16–C18, C101 ray/box: slab method with explicit +-infinity (`Ext`); spec = existence of a parameter t >= 0 with the point in the box.
* C19–C27, C73, C74 distances: spec `IsLeast {euclidean distances}`; orthogonal decomposition.
* C28–C38 intersections: spec = common points of the two point sets.
* C39–C41 sweep line: the event queue is *any* order sorted by x, the status structure an arbitrary oracle; soundness for every oracle; the
  incompleteness witness holds for every order and every tree that respects the comparator.
* C85: invariant of the sweep up to the leftmost crossing: the status is exactly the set of open segments, sorted by height, and neighbours have
  been tested.
* C42–C50 mesh: closed form of the mesh after any triangle sequence, by induction; everything else follows from it. Meshes are values; an element
  holds the mesh it points into only where that matters (C53, C54: `Model/MeshMove.lean` has an explicit store).
* C51, C52 normals over the reals; C83 combines them with C81/C82.
* C53–C54: equality, containment and move with explicit memory.
* C55–C61, C79, C80 builders: index lists as functions of the counts, manifoldness by an explicit inverse ("decoder") of the edge enumeration; point
  distinctness by trigonometry. C81, C82: sign of a determinant (`Spec.side`) for each triangle and each vertex, again for all counts. C84: the sum
  of these determinants (telescoping for the sphere), made independent of the apex by closedness of the index list.
  C88: the plane of each triangle as an explicit linear form; convex combinations of the corners.
  C89: explicit walks between neighbouring triangles (chains around each ring), carried over to the mesh by the injectivity of the corner names.
* C90: the theorems about `nearest` are proved once for every coordinate type in which the pruning is sound (class `NearestSound`: a predicate
  `dom` on points and four laws of `kdDistance` on it), with the reals (`dom` = everything) and floating point numbers clear of underflow as
  instances. C91–C93: finding *stored* points needs less (class `StoredSound`, and `Apart` for the points concerned), since the descent meets them
  before anything is pruned; the builder lemmas are proved for that class. C94: absolute error bounds through the point computation against a lower
  bound on the distances of the exact points (Jordan's inequality). C95: relative error bounds, by induction over the dimension for the scalar
  product. C96: the same as C94 with the errors of axis, rotation and translation added.
  C102: sums and differences of floating point numbers have a relative error even among subnormal numbers (`Proofs/FloatSum.lean`); monotone rounding.
  C103: relative errors of the six parameters, carried through maximum and minimum by a monotone widening.
  C104: scalar products, lengths and rejections with an absolute error part (`Proofs/FloatVec.lean`), so that no operand has to be large; distances
  depend continuously on the stored direction.
  C97: forward error analysis of determinants, quotients and the point. Rounding is monotone, which gives the pruning laws; products and square roots lose at most a factor `1 ± u` each.
  C105: perturbation of the quotient of two scalar products; the residual in the plane equation is bounded separately from the position along the line
  (`Props/FloatPlane.lean`).
  C106: the error of a sum of four products per coordinate, carried through the product of two matrices; monotone rounding for boxes
  (`Props/FloatTransform.lean`).
  C107: forward error of the discriminant, and backward error of each root: the residual of the quadratic equation stays small even where the
  root itself is ill conditioned (`Proofs/FloatQuadratic.lean`, `Props/FloatSphereHit.lean`).
* C62–C66 transforms: matrices. C63 and C65 are characterised exactly (C63: linear parts without negative entries; C65: motions that keep the
  normal up to sign).
* C99, C100: every function involved uses only differences of points, scalar products and combinations of directions; these are rewritten one by one.
* C108: the same functions are homogeneous in the lengths; each comparison with the tolerance is examined for the power of the unit it contains.
* C109, C110: from the closed form of the mesh (C42–C50); sorting and `std::unique` give a list that depends on the set of normals only.
* C111: first-order error of differences, products, cross product, root and quotient; the summands are chosen by the computed normals.
* C112: the rounded root of a rounded square is exact in binary, so axis-parallel normals are exact; the counterexample rests on one product,
  22 (32 + 64 u), that is rounded by 6 · 64 u.
* C116, C117: a finite `Ieee` value of size at most `2 ^ k` stands for an `Fl` number (`Near k`), and so do sums, products, ... of such values as long as the bound stays
  below `emax`; so results proved for `Fl` carry over. Distances with a NaN or infinite coordinate are NaN or infinite (`Big`) and never win a comparison. The search is
  followed with the order `ord` on extended reals; the tree invariant only needs `==` to be symmetric, transitive and compatible with `<`, not reflexive.
* C118: the scalar product with a unit axis is the coordinate itself if the others are finite (`0 * x + ...` keeps the value up to the sign of zero), else NaN; the loop is
  followed with `ord`.
* C119: `ZN` (zero or NaN) is kept by all operations of the numerator and denominator, and `ZN / ZN` is NaN; if the first and last corner coincide, the two edges are
  opposite also where they overflow (`Opp`), so that the cross product is `ZN`. NaN survives `std::unique` and the sum.
* C122: Gram determinant of each triangle (`ring_area` covers every triangle of the round solids: base a chord of one ring, tip above one end of it on
  another ring), summed over the index lists; rotation invariance carries it to the placed mesh.
* C121: the output of each `print` on the explicit form of a built mesh (`meshOfO`); `shown` reads off the numbers behind a label.
* C123: the slab test sorts the two parameters of each slab, so it is symmetric in the corners (`raySlab_flip`); C17 and C18 on the exchanged box give the hits.
* C124: welding and the opposite links only compare points for equality, so an injective map of the points changes none of them (`weld_map`, `firstSame_map`);
  the translated or scaled solids differ from the original by such a map of the placed points. Counterexamples: the rotation about the axis by half a sector.
* C125: every corner of a facet is a point of the mesh, facets are convex combinations of their corners; then C11, C17 and the definition of the box/box test.
* C126: composes the intersection functions with the distance functions of the library; the property only mentions results of
  both, `Spec` distances appear in the proofs only.
* C127, C128: second model of the ray/box test (`Model/RayBoxIeee.lean`) with the parameters as plain IEEE values.  `ord` places every value but NaN among
  the extended reals; subtraction of a finite number and multiplication by a finite number other than zero keep the order (`sub_mono`, `mul_mono`,
  `mul_anti`), overflow included, so the slab of a larger box contains the slab of the smaller one.  `C127_refine` shows that the simplification of
  `Ext.isLessEq` (no tolerance for infinite arguments) does not matter when some direction component is not zero.
* C129: the model of mesh building is generic in the arithmetic, so nothing but the structure of the code is used: the nearest search returns some stored node
  (`nearest_entry`), welding gives every corner a point it started from or was found equal to (`weld_any`), each round of linking keeps the explicit form of the
  mesh (`set_round_any`).
* C130: a NaN corner equals no corner, so no half-edge is ever chosen for the one ending there. C131: distances from an infinite point are infinite or NaN,
  so the nearest search stays at the root.
* C132: `Pos` (infinite, or finite and not negative) is kept by sums and roots, so distances are never NaN; subtraction is negative exactly when the order says so (gradual
  underflow; overflow goes to an infinity of the same sign), so the search finds the node equal to the query (`refinds_of`).
* C133: the functions nothing calls are modelled like the others (`Model/CylinderUnused.lean`); `std::vector::reserve` does not change the size.
* C134, C135: `C134_normals` needs only a ball behind all facets; for spheres this is C88. C135 computes the plane of every triangle
  (`PlaneOf`, unit normal and positive factor) before placement and moves it with the rigid motion; the set of different normals at a vertex
  is then {base, left, right} on circles, one element at centres, and invariant under a turn by one sector at the apex of a cone.
* C136: a list of triangles has no boundary (`NoBoundary`) when every directed edge also occurs in the other direction.  `hits S x d` is the set of
  the `s > 0` with `x + s d ∈ S`.  `Watertight m` says: the hull of the points of the mesh has inner points; the surface of the mesh is exactly the
  boundary of that hull; every ray from an inner point hits the surface exactly once; from every other point some ray misses it.  `interior`,
  `frontier` and `convexHull` are Mathlib's.
* C137: `SignedOps` collects the laws about signs (and commutativity of the product) that hold for ordered fields and, bit for bit, for rounded numbers
  `Fl F`; the five theorems over `SignedOps` cover both.  The hypothesis `Tol.isZero (-x) ε = Tol.isZero x ε` is met by every comparison of `|x|`.
* C138: two descriptions of a line or plane are the same when their point sets (`Spec.line`, `Spec.plane`) are equal; `Segment.flip` exchanges the ends.
  Where ends of segments are compared with a tolerance, the hypothesis `Tol.isLess (1 - t) 0 ε = Tol.isGreater t 1 ε` says that the tolerance is the same
  at both ends.
* C139: parts and wholes are compared through the functions themselves (the hit of the ray is the hit of `Line.make` of the same origin and direction); no notion of part is needed.
* C140: changes are measured by `Spec.dist` of the old and new point or origin; directions and normals are kept.
* C141: "keeps" is said with list prefixes (`<+:`) of points, half-edges and facets, field by field; "as built at once"
  is equality with `buildMesh` of the concatenated list.  The mesh before the addition is any `BuiltFrom` mesh, so the
  links it carries are arbitrary.
* C142: the value of `distSegmentVec` computed in `Fl` is compared with the real formula (`segment_param_err`, `segment_distance_err`) and the real formula with the distance (`C142_excess`, reached by `C142_sharp`). The lower bound needs no comparison of the parameters, since any parameter in [0, 1] gives a point of the segment.
* C143: the welding loop is compared with the specification `snapTriangles` (`Spec/Snap.lean`); as the kept points never compare equal, the linking
  loop sees no difference between the two comparisons (`setOpposite_congr`). Counterexample with tolerance 1 on rational points.
* C144: induction over the history under any comparison; the part that was not refused builds the same tree under exact comparison, so C04 applies to it.
* C145: the builders only compare points of the buffer with each other, so two comparisons that agree on those give the same mesh (`buildBuffer_congr`); the smallest distances come from the float proofs (`conePoints_pairwise`, `cylPoints_pairwise`, `sphPt_sep`). A skipped placement is put back by C124.
* C146 (`Proofs/FloatClosest3.lean`): the errors of C114 again, but for directions of any length that are themselves rounded differences.
  All errors are taken relative to the exact segments: scalar products to `10·u·|a|·|b|`, the determinants to `45·u` times the product
  of the lengths, the parameters to `122·E` divided by the length.  Underflow is kept out by one lower bound `m` on all lengths and their inverses.
* C147 (`Props/FloatSweep.lean`): C97 started from a common point of the exact segments; here the start is a reported point, so the exact parameters are recovered from the computed ones (`quot_back`) and nothing is assumed about the exact segments but their sizes. The part on the sweep holds for any arithmetic because `bentleyOttmann_gen` only needs that `intersect` returns.
* C148 (`Props/FloatMeasure.lean`): the inverse tangent turns relative errors into absolute ones also for large arguments (`arctan_rel`, by `arctan x = pi/2 - arctan (1/x)`); its accuracy is assumed in the theorem, not in `LibAccurate`.
* C149 (`Props/IeeeCross.lean`): C97 and C147 are used for the same segments without overflow; the tolerance they need is made from the bounds of the theorem (`tolOf`), so that a result of C97 also tells what the intermediate values are.
* C150 (`Props/IeeeSegment3.lean`): C146 in the same way; the counterexample calculates with zeros and powers of two only (`Simple`), for which every operation is exact.
* C151: `M` is the number of values of the index type. Release builds (no assertions) of meshes with at least `M` half-edges; the loops of
  `set_opposite_halfedges` count in `std::size_t`, so they do not wrap, but the stored indices do.
* C152: `MU` is the number of values of the type the indices are exported as, `M` that of the index type of the mesh; `static_cast<U>` is reduction modulo `MU`.
* C153: C107 carried over; `tolAs` carries the comparisons of finite values over to the arithmetic without overflow, for which they must not tell `0.0` from `-0.0` (`ZeroBlind`).
* C154: C105, C113 and C114 carried over. The lower bounds on the denominators come from running the same theorem without overflow under a tolerance that calls small denominators zero.
* C155: C113, C114 and C142 carried over. The length of the cross product is bounded from below (`skew_length`), the parameter on a segment after clamping by one.
* `Props/Exact.lean`: for C12, C24, C34, C35, C38, C82 the refuted claim is replaced by the exact set of inputs with a right answer (up to the width of one tolerance).
* C98 (`Props/FloatCrossGrid.lean`): if the determinant is a power of two and the coordinates have few digits, no operation rounds, so both points of the assertion are the exact one (`grid_values`). The axis-parallel counterexample needs `49 * (1 / 49) ≠ 1` in `double` (`rnd_49`).
* C156 (`Props/Builds.lean`): a relation between the outcomes of two builds (`Spec/Builds.lean`) that every construct of the model respects (`same_bind`, `same_foldlM`, …); the theorems take the function bodies apart.
* C157: (`Props/FloatKdGrid.lean`) squares and their sums are exact below `2^prec`; rounded roots of different integers differ below `2^(prec-2)`, since `√y - √x = (y-x)/(√y+√x)` exceeds the two rounding errors. `C157_sharp` is the limit: `√(2^(2m)+1)` is rounded to `2^m` with `2m+1` digits.
* C158: (`Props/FloatExact.lean`) `dot_grid`: partial sums of multiples of `2^g` stay representable while the absolute values add up to `2^prec` units. `C158_sharp` moves a point with coordinates `2^prec` by one.
* C159: (`Props/FloatLengthGrid.lean`) differences, squares and sums are exact (`dot_grid`), so only the root rounds; `rnd_sqrt_lt` of C157 separates the rounded roots of different integers. `Fl.sub_sign`: with gradual underflow a computed difference has the sign of the difference.
* C160: (`Props/FloatCuboidOutward.lean`) the corners are exact on a grid, so the facets are those of the real cuboid; `unitCube` and `side_affine` of C82 give the signs.
* C161: (`Props/FloatAxis.lean`) `sqrt_sq_le`: the root of a rounded square is within half a unit in the last place of the number; with `sqrt_sq` the two roundings cancel. For facets the computed and the exact normal are both ± the same unit vector, and the bound of C111 excludes opposite signs.
* C162: (`Props/FloatAxisDist.lean`) with C161 the stored direction is exactly ± a unit vector `e`; products with its coordinates are exact, so the rejection deletes one coordinate (`rejection_axis`) and what is left is the difference to the nearest point, which is a floating point vector.
* C163: (`Props/FloatKeep.lean`) all these functions return `origin + direction * t` of the first operand (the ray for ray and segment); the product with a zero is zero and the sum with zero is exact, whatever `t` was computed.
* C164: (`Props/FloatAxisPlane.lean`) with C161 the scalar products with the stored normal are exact and its sign cancels in the quotient (`quot_axis`), so a coordinate is `o + d * ((c - p) / g)` with four roundings (`slab_point`); additions and subtractions do not underflow.
* C165: (`Props/FloatAxisLine.lean`) a determinant with an axis-parallel unit row is a coordinate up to sign, without rounding (`det_axis`), so the quotient is that of C164 and `slab_point` applies.
* C166: (`Props/FloatAxisBox.lean`) the reciprocal of ±1 is exact, the slabs across the ray are unbounded, so the interval consists of the two computed differences (`interval_axis`).
* C167: (`Props/FloatAxisLines.lean`) the stored directions are ± unit vectors, their computed cross product is exactly ± the third one or zero (`cross_unit`), and the scalar product with it is a difference of coordinates.
* C168: (`Props/IeeeCenter.lean`) without overflow the three operations agree with those of `Fl`, to which C102 applies; half of the extent cannot overflow if the extent does not.
* C169: (`Props/IeeeBoxBox.lean`) the comparisons are written in terms of the extended reals (`lessEq_exact`); `std::min` and `std::max` return their first argument if the other is NaN.
* C120: `Near k a x` (`a` is finite, has the value of the float `x` of the format without largest exponent, and `|x| ≤ 2 ^ k`) is followed through every operation
  of each function, the exponent growing by one per sum and adding up in products, so that the theorems for arithmetic without overflow (C95, C104, C105, C106,
  C111) apply to the same computation. The counterexamples compute with powers of two, where every step before the overflow or underflow is exact.
* C113: a line of the plane is, operation by operation, a plane of space met by a line (`lift3`), so C105 applies; distances by error analysis of the
  cross product. C114: errors of scalar products, of the two-by-two determinants and of the quotients; a ray parameter of the wrong sign costs at most
  its own size, because the distance is 1-Lipschitz in the point.
* C67–C72, C75–C77: direct; C77 by induction over call sequences.

## 4. Properties that are false

For these the negation is proved with a concrete witness (theorem names containing `counterexample` and similar), and what remains true is proved
with the suffix `_partial`.

| Property | Why it fails |
|---|---|
| C06 | the code for single-point intervals is wrong |
| C12 | a default constructed box contributes its bounds 1/-1 |
| C13 | `is_valid` is strict although documented as min <= max |
| C16 | direction components that are non-zero but within eps are treated as parallel |
| C24 | the distance of lines can be negative |
| C26 | the parameter is divided by the length instead of its square (`C26_exact` says for which inputs the result is right all the same) |
| C27 | both parameters are clamped independently (`C27_nearest_partial` says which two points the result belongs to, `C27_exact` that the result is right if and only if these two are nearest to each other) |
| C31, C32 | skew segments/rays at any distance are reported to intersect (`C31_closest_partial`, `C32_closest_partial`: always, when the closest points of the carrier lines lie on both) |
| C34, C35 | a ray origin / segment source on the plane is not reported |
| C38 | the tangent parameter is computed as `-b / 2 * a` |
| C40 | crossings are missed once the order of the status changes, and a vertical segment touched by another one is missed too (`C40_touch_counterexample`); at most 3n points are ever reported, so of the n(n-1)/2 crossings of n tangents of a parabola nearly all are missed (`C40_many_counterexample`) |
| C47 | the lookup finds the half-edge itself |
| C53 | vertex `==` is asymmetric; half-edges of another mesh are "contained" |
| C54 | elements keep pointing to the moved-from mesh |
| C57 | one or no point on the circle: read outside the array |
| C63 | rotated boxes are inverted or trip the assertion |
| C65 | the normal of a 3D circle is not rotated |
| C70 | a default constructed plain `Handle` is valid |
| C73 | nearly parallel lines: unbounded error |
| C76 | equality up to a tolerance is not transitive and depends on the representation |
| C77 | some constructors and setters do not establish the invariant |
| C79 | `set_origin`/`set_diagonal` of a used cuboid builder have no effect |
| C82 | cuboids with left-handed sides face inward |
| C86 | the size counter of a moved-from tree is not reset |
| C91 | the square of a tiny difference underflows to zero |
| C98 | the debug assertion compares two independently rounded points with `==` (`IntersectSegment.hpp:50`); even axis-parallel segments with integer coordinates abort in `double` ((0, 0)-(49, 0) and (1, -1)-(1, 1)). What holds: no abort if the determinant is a power of two and the coordinates are moderate integers in a power of two as unit |
| C101 | contact over a length below eps: the test accepts it, `intersect` (`tEnter >= tExit` up to eps) does not; flat boxes are never hit (`IntersectAABB.hpp:179`) |
| C108 | absolute tolerances are compared with products of lengths: detA scales with the square, the denominator of the closest parameters with the fourth power, the discriminant with the square of the unit (`IntersectSegment.hpp:21-82`, `IntersectSphere.hpp:35-65`, `IntersectPlane.hpp:19-32`) |
| C112 | `std::unique` compares rounded normals exactly (`CalcVertexNormals.hpp:39`) |
| C115 | the difference of the origins is rounded relative to the larger origin (`ClosetPointOnLine.hpp:45`) |
| C116 | a NaN distance of the first point is never replaced by a smaller one (`KdTree.hpp:133,215`) |
| C117 | the distance overflows although the coordinates are finite (`KdTree.hpp:234-243`) |
| C118 | infinity times the zero of the axis vector is NaN (`ExtremePointsInDirection.hpp:27-51`) |
| C119 | division by the length zero (`DistanceSegment.hpp:64-80`, `CalcVertexNormals.hpp:33`); NaN in the comparison of `std::sort` (`CalcVertexNormals.hpp:35-38`) |
| C120 | `linal::length` adds squares without scaling (`Segment.hpp:34-35`), so it overflows from the square root of the largest number on and underflows below the square root of the smallest; the normal (`CalcFacetNormal.hpp:11-27`) squares products, so it overflows from the fourth root on (2^32 in `float`) |
| C121 | `print(Halfedge)` shows `he.getFacet().getHalfedgeIndex()` instead of `he.getHalfedgeIndex()` (`DebugHelper.hpp:81`), `print_inline(Facet)` shows `getHalfedge().getFacetIndex()` instead of `getHalfedgeIndex()` (`DebugHelper.hpp:57`); the tests expect this output |
| C123 | `AABB()` is min 1, max -1 (`AABB.hpp:27-31`) and is what `intersect` returns for disjoint boxes (`IntersectAABB.hpp`); nobody checks `isEmpty`, and the ray test sorts the slab parameters (`IntersectAABBHelper.hpp:29-106`), so the empty box acts as [-1, 1]^3 |
| C124 | the rings of a sphere start at a fixed direction, those of cones and cylinders at the image of the x-axis under `rot_align` (`SphereMeshBuilder.hpp:91-130`, `ConeMeshBuilder.hpp:46-71`, `CylinderMeshBuilder.hpp:45-67`), and the solids do not store a direction, so a rotation about the axis is lost (by design, but it makes the order of building and rotating matter) |
| C125 | a direction component within eps counts as parallel (`IntersectAABBHelper.hpp:29-106`), so a far away box is missed; boxes that only touch are disjoint (`IntersectAABB.hpp:25-43`), so flat boxes in one plane are |
| C126 | lines one unit apart have distance -1 and no intersection; lines that meet at a small angle have distance 0 and no intersection; the middle of a segment, found by cutting it with a plane, has half of the length as distance from it; a segment and a ray have a reported point at any distance |
| C128 | `std::min(t1, t2)` returns its first argument if one is NaN (`IntersectAABBHelper.hpp:94-105`): NaN in the lower y corner makes it ignore y **and** z: a box 100 behind the ray is hit; NaN in an upper corner shrinks the slab to its lower plane |
| C131 | the distance of a point with an infinite coordinate from itself is NaN (`KdTree.hpp:209-243`), so the tree does not find the point it stores |
| C133 | `calc_cylinder_points` (never called) accesses its vector of n points at index n; the triangles of `calc_cylinder_triangle_indices` (never called) use the edge from the bottom centre to point 0 twice in the same direction |
| C137 | for nearly parallel lines the distance of the first line's origin is returned; for skew segments the point on the first one |
| C138 | signed distance of lines (`DistanceLine.hpp`), parameter divided by the length instead of its square (`DistanceSegment.hpp`), plane at the source excluded (`IntersectPlane.hpp`), `-b / 2 * a` (`IntersectSphere.hpp`) |
| C139 | lines are tested for being parallel with unit directions, segments with their full directions (`IntersectPlane.hpp`, `IntersectSegment.hpp`, `IntersectSphere.hpp`); no distance test for segments of space; the parameter of the foot point is divided by the length (`DistanceSegment.hpp`) |
| C140 | the foot point on a ray counts only beyond `eps` (`DistanceRay.hpp`); the parameter of the foot point on a segment is divided by the length instead of its square (`DistanceSegment.hpp`) |
| C143 | corners that compare equal with a tolerance may get two vertices, and corners that do not may get one (`MeshTriangleAdder.hpp:117-135`); stated as the negative part of the claim |
| C144 | the tree may store two points that compare equal with a tolerance (`KdTree.hpp`); stated as the negative part of the claim |
| C148 | for every format, the box with corner `2^(prec+1)` and edge 1 is a single point; for every IEEE format, the centre of the box from `-2^(emax-1)` to `2^(emax-1)` is infinite. What holds: the far corner has relative error u and the box is not inverted; the centre is in the box for corners up to `2^(emax-2)` |
| C149 | for every IEEE format, the segments from (0, 0) to (M, M) and from (M, 0) to (0, M) with M = 2^(emax-1) cross, and the point reported for them is NaN: all products overflow. For float and double (emax = 2n + 2) the segments from (-2^n, 0) to (2^n, 0) and from (0, -2^n) to (0, 2^n) are reported to meet in (-2^n, 0) instead of the origin: the determinant overflows, the parameter is finite / infinity = 0. What holds: the bounds of C97 and C147 for coordinates up to 2^k, k below emax/2 |
| C150 | for float and double (emax = 4n + 4) the segments from (-2^n, 0, 0) to (2^n, 0, 0) and from (0, -2^n, 0) to (0, 2^n, 0) are reported to meet in (-2^n, 0, 0) instead of the origin: n = 31 for float, 255 for double. What holds: the bounds of C146 for coordinates up to 2^k, k below emax/4 (emax/5 with a ray) |
| C151 | with one triangle more than the index type can number, the last facet of a mesh of a release build has twice the same half-edge, and `calc_vertex_facets` reads out of range; with two more `calc_halfedges` of the first facet never ends |
| C153 | for emax <= 2n < 2 emax the line along the first axis stored with the origin (2^n, 0, 0), the ray from (-2^n, 0, 0) and the segment between them do not meet the sphere of radius 2^n around the origin, according to the code, because ∞ - ∞ is NaN: n = 64 for float, 512 for double. What holds: the bounds of C107 for coordinates up to 2^k, k about emax/2 (emax/4 for segments) |
| C154 | with M = 2^(emax-1) and any tolerance: the ray from (0,0,-M) along z and the plane z = M, the segment from (0,0,-M) to (0,0,M) and the plane z = 0, the lines through (M,0) along x and (-M,0) along y (also in space) do not meet according to the code, or meet in a point with a coordinate that is infinite or NaN. What holds: the bounds of C105, C113 and C114 for coordinates up to 2^k, k about emax (emax/2 for lines in space) |
| C155 | with M = 2^(emax-1) and any tolerance: the line through (M,0,0) along x and the line (or ray) through (-M,0,0) along y meet, and (-M,0,0) is an end of the segment to (M,0,0), but the distances computed are infinite or NaN. What holds: the bounds of C113, C114 and C142 for coordinates up to 2^k, k about emax for skew lines and emax/2 otherwise |
| C168 | `AABB::center` computes `min + (max - min) / 2`; the difference overflows for boxes larger than the largest number, and the centre of the box from -2^1023 to 2^1023 is infinite (`C168_counterexample`) |
| C169 | all tests of boxes look for a comparison that holds, and no comparison holds for NaN (`IntersectAABB.hpp:25-77`, `AABB.hpp:69-94`) |
| C93 | the corner opposite to the origin is a sum taken in different orders on different faces (`CuboidMeshBuilder.hpp:80-123`); on a grid the sums are exact and the mesh is closed (`C93_grid_partial`) |

## 5. What is not modelled

* Code that cannot be instantiated (it calls members or names that do not exist): `distance(segment, segment)` and `distance(line, segment)`
  (`DistanceSegment.hpp` 82-109), `TransformCuboid.hpp` (undeclared `D`), `CalcSegmentIndicesHalfedgeIndices.hpp` (undeclared `Halfedge_t`),
  `HalfedgeMesh::contains(vec3)` (calls a one-argument `contains` that does not exist). `CuboidMeshBuilder` uses `linal::double3` and so compiles only
  for `double`; the model is generic.
* `Triangle.hpp` (three points and an accessor; the model uses triples of points), `MeshTraits.hpp` (type names).
* Number formatting of `std::ostream` (`DebugHelper.hpp`), `ConversionHelper.hpp`, `Warnings.hpp`, `Compiler.hpp`, `Assert.hpp`, `GeometryAssert.hpp`, `DefaultValues.hpp` (build plumbing and constants).
* Floating-point rounding outside of the claims that mention it (C90 ff.). Where it would change a result visibly this is noted with the claim (C52: normals of coplanar triangles; C59: the same
  cuboid corner computed in different orders).

## 6. Mutation tests

`seeded/LOG.jsonl` has one line per seeded bug: the definition of the model that was edited, the edit, the claim it breaks, the theorems whose proof
failed, and theorems added or tightened because nothing failed.

A failing proof is weaker evidence than a false statement, so `killed_at` says where it failed: `claim` (a theorem of a claim or its example),
`helper` (only a lemma the claim is proved from, which can break merely because its proof script names the edited code), `none`, or `invalid` (the edit
does not compile and tests nothing). For every `helper` line the statement of the claim was compared with the edit by hand; that comparison is not
machine-checked. It found one edit (`ds13`) that only broke a proof script while all theorems of C27 stayed true; `C27_nearest_partial` was added for it.
