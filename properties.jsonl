{"id": "C01", "title": "KdTree search finds exactly what was inserted", "statement": "After any sequence of KdTree::insert calls on an initially empty tree, search(q) returns true if and only if some earlier insert was given a point equal to q.", "quantifier": "every finite sequence of insert calls (any points, any payloads, any insertion order, including duplicates), every dimension D >= 1, every width of the tree's size type, and every query point", "why_tests_cant": "The set of insertion orders and resulting tree shapes is infinite; a test can only visit a few of them.", "anchors": ["src/include/Geometry/KdTree.hpp:106-124 insert/search", "src/include/Geometry/KdTree.hpp:161-207 insertHelper/searchHelper"]}
{"id": "C02", "title": "KdTree insert reports novelty and never overwrites", "statement": "KdTree::insert(p, payload) returns true exactly when no point equal to p is stored yet; when it returns false the tree, all its points and all its payloads are unchanged, and when it returns true exactly one (point, payload) entry is added.", "quantifier": "every reachable tree (any insertion history) and every new point/payload", "why_tests_cant": "Needs to hold in every reachable tree shape, not in the handful of trees a test builds.", "anchors": ["src/include/Geometry/KdTree.hpp:106-121 insert", "src/include/Geometry/KdTree.hpp:161-184 insertHelper"]}
{"id": "C03", "title": "KdTree size and empty count distinct points", "statement": "After any sequence of insert calls size() is the number of pairwise different points inserted, and empty() is true exactly when nothing was inserted, as long as that number fits the tree's size type.", "quantifier": "every insertion sequence, every width of the size type", "why_tests_cant": "Depends on the whole history and on counter wrap-around, which would need 2^w inserts to observe.", "anchors": ["src/include/Geometry/KdTree.hpp:106-121 insert", "src/include/Geometry/KdTree.hpp:153-155 size/empty"]}
{"id": "C04", "title": "KdTree nearest returns a true nearest neighbour", "statement": "On a non-empty tree nearest(q) returns a stored point whose Euclidean distance to q is less than or equal to the distance from q to every stored point; on an empty tree it throws.", "quantifier": "every insertion history, every dimension D >= 1, every query point (real coordinates)", "why_tests_cant": "Correctness of branch-and-bound pruning depends on the tree shape, depth and query; a missed subtree only shows for adversarial layouts.", "anchors": ["src/include/Geometry/KdTree.hpp:125-151 nearest", "src/include/Geometry/KdTree.hpp:209-243 nearestHelper/distance"]}
{"id": "C05", "title": "KdTree nearest exposes the payload of the first insertion", "statement": "The payload reached through nearest(q) is the payload of the first insert call whose point equals the returned point; writing through the returned reference changes the payload of that point and of no other point, and changes no search result.", "quantifier": "every insertion history, every query, every sequence of payload writes", "why_tests_cant": "Aliasing between payload references and the tree depends on the history of writes and on the tree shape.", "anchors": ["src/include/Geometry/KdTree.hpp:125-151 nearest", "src/include/Geometry/HalfedgeMeshBuilder/MeshTriangleAdder.hpp:137-180 set_opposite_halfedges"]}
{"id": "C06", "title": "Interval intersection count is exact", "statement": "intersect(a, b) of two intervals returns 0 exactly when the intervals are separated by more than eps, 1 when they only touch at an end point (within eps), and 2 when they overlap by more than eps.", "quantifier": "all intervals with start <= end over the reals, every positive eps", "why_tests_cant": "Infinitely many relative positions and tolerance boundary cases.", "anchors": ["src/include/Geometry/Intersect/IntersectInterval.hpp:15-63 intersect"]}
{"id": "C07", "title": "Interval intersection result is the common part", "statement": "When intersect(a, b) returns 2 the written interval is the common part of a and b, and when it returns 1 the written point is common to both within eps; the answer does not depend on the argument order.", "quantifier": "all intervals with start <= end, every positive eps", "why_tests_cant": "Set equality over a continuum of points cannot be sampled.", "anchors": ["src/include/Geometry/Intersect/IntersectInterval.hpp:15-63 intersect"]}
{"id": "C08", "title": "AABB::add(point) covers the point, never shrinks and is tight", "statement": "After box.add(v) the box contains v (up to eps), contains everything it contained before, and every bound either is the old one or equals the coordinate of v.", "quantifier": "every box, every point, every dimension, every positive comparison tolerance", "why_tests_cant": "Quantifies over all points of all boxes.", "anchors": ["src/include/Geometry/AABB.hpp:101-114 add(vec)"]}
{"id": "C09", "title": "A box grown by any sequence of adds bounds everything added", "statement": "After any sequence of add(point) and add(box) calls every added point and every point of every added box lies in the box up to eps, and each bound of the final box is a bound of the initial box or a coordinate of something that was added.", "quantifier": "every finite sequence of add calls starting from any box", "why_tests_cant": "An invariant over arbitrarily long histories.", "anchors": ["src/include/Geometry/AABB.hpp:101-133 add"]}
{"id": "C10", "title": "The bounding box does not depend on insertion order", "statement": "Adding the same points in two different orders to the same box gives boxes whose bounds differ by at most eps in every coordinate (and are identical when comparisons are exact).", "quantifier": "every list of points, every permutation of it, every starting box", "why_tests_cant": "n! orders of unboundedly many points.", "anchors": ["src/include/Geometry/AABB.hpp:101-114 add(vec)"]}
{"id": "C11", "title": "make_aabb returns the tight bounding box", "statement": "make_aabb(points) returns the box whose minimum and maximum in each coordinate are the minimum and maximum of that coordinate over the points, independently of their order; it traps (debug) or returns an invalid box exactly when the points do not extend by more than eps in some coordinate.", "quantifier": "every non-empty list of 3D points", "why_tests_cant": "All finite point sets and orders.", "anchors": ["src/include/Geometry/AABB.hpp:143-165 make_aabb", "src/include/Geometry/ExtremePointsInDirection.hpp:27-51 extreme_points_along_direction"]}
{"id": "C12", "title": "A default constructed box is an empty neutral start for growing", "statement": "Growing a default constructed AABB by adding points yields the bounding box of exactly those points.", "quantifier": "every non-empty list of points", "why_tests_cant": "Tests only add points that happen to cover the default bounds.", "anchors": ["src/include/Geometry/AABB.hpp:27-31 AABB()", "src/include/Geometry/AABB.hpp:101-133 add"]}
{"id": "C13", "title": "AABB validity and emptiness are exact", "statement": "is_valid() holds exactly when the box is not inverted (min <= max in every coordinate, as documented) and is_empty() exactly when it contains no point, up to eps.", "quantifier": "every box, every dimension, every positive eps", "why_tests_cant": "Boundary behaviour at all magnitudes and in all coordinates.", "anchors": ["src/include/Geometry/AABB.hpp:66-94 is_valid/is_empty"]}
{"id": "C14", "title": "AABB/AABB overlap test is symmetric and exact", "statement": "is_intersecting(a, b) equals is_intersecting(b, a), and for boxes it is true exactly when in every coordinate the two boxes overlap by more than eps.", "quantifier": "all pairs of boxes, every dimension, every positive eps", "why_tests_cant": "All relative placements in all dimensions.", "anchors": ["src/include/Geometry/Intersect/IntersectAABB.hpp:25-43 is_intersecting"]}
{"id": "C15", "title": "AABB/AABB intersection is the set intersection", "statement": "intersect(a, b) returns a valid box exactly when is_intersecting(a, b); in that case a point is in the result exactly when it is in both boxes, and the arguments may be swapped.", "quantifier": "all pairs of valid boxes and all points", "why_tests_cant": "Set equality over a continuum.", "anchors": ["src/include/Geometry/Intersect/IntersectAABB.hpp:53-77 intersect"]}
{"id": "C16", "title": "Ray/AABB test has no false positives", "statement": "If is_intersecting(ray, box) is true there is a point on the ray (at parameter >= 0) that lies in the box enlarged by eps.", "quantifier": "every ray with a unit direction, every valid box, every dimension, every positive eps", "why_tests_cant": "All ray directions including axis-parallel, grazing, inside and behind cases.", "anchors": ["src/include/Geometry/Intersect/IntersectAABB.hpp:111-133 is_intersecting", "src/include/Geometry/Intersect/IntersectAABBHelper.hpp:29-106 aabb_ray_intersection_interval"]}
{"id": "C17", "title": "Ray/AABB test has no false negatives", "statement": "If some point at parameter >= 0 on the ray lies in the box then is_intersecting(ray, box) is true.", "quantifier": "every ray whose direction components are zero or larger than eps in magnitude, every box", "why_tests_cant": "All rays and all boxes; a missed hit only shows for particular axis-parallel or grazing configurations.", "anchors": ["src/include/Geometry/Intersect/IntersectAABB.hpp:111-133 is_intersecting", "src/include/Geometry/Intersect/IntersectAABBHelper.hpp:29-106"]}
{"id": "C18", "title": "Ray/AABB enter and exit points are the clipped ends", "statement": "intersect(ray, box) reports an exit point whenever the ray runs through the box over a length larger than eps, reports an enter point when the origin is outside the box and none when it is inside by more than eps, and the reported points lie on the ray (up to eps) and on the boundary of the box; the part of the line between them is exactly the part inside the box.", "quantifier": "every ray with a unit direction whose components are zero or larger than eps in magnitude, every valid box", "why_tests_cant": "Continuum of parameters, all face combinations.", "anchors": ["src/include/Geometry/Intersect/IntersectAABB.hpp:135-200 AABBIntersectionResult/intersect", "src/include/Geometry/Intersect/IntersectAABBHelper.hpp:29-113"]}
{"id": "C19", "title": "Closest parameters minimise the distance of two lines", "statement": "closest_point_on_line_parameters returns parameters of the unique pair of points, one on each line, with the smallest distance among all pairs, and returns nothing exactly when the directions are (nearly) parallel.", "quantifier": "all pairs of lines (any non-zero, not necessarily unit directions) in any dimension", "why_tests_cant": "A minimum over two real parameters for all inputs.", "anchors": ["src/include/Geometry/ClosetPointOnLine.hpp:38-64 closest_point_on_line_parameters"]}
{"id": "C20", "title": "Point/line distance is the minimum distance", "statement": "distance(point, line) is the smallest Euclidean distance from the point to a point of the line, in both argument orders.", "quantifier": "every line constructed from a non-zero direction, every point, every dimension", "why_tests_cant": "Minimum over a continuum for every input.", "anchors": ["src/include/Geometry/Distance/DistanceLine.hpp:14-24", "src/include/Geometry/Line.hpp"]}
{"id": "C21", "title": "Point/ray distance is the minimum distance", "statement": "distance(point, ray) is the smallest Euclidean distance from the point to a point of the ray, up to eps, and exactly that when the point is not within eps of the plane through the ray origin.", "quantifier": "every ray with a unit direction, every point, every dimension", "why_tests_cant": "Minimum over a half-line for every input.", "anchors": ["src/include/Geometry/Distance/DistanceRay.hpp:16-34"]}
{"id": "C22", "title": "Point/plane distance is the minimum distance", "statement": "distance(point, plane) is the smallest Euclidean distance from the point to a point of the plane.", "quantifier": "every plane constructed from a non-zero normal, every point", "why_tests_cant": "Minimum over a plane for every input.", "anchors": ["src/include/Geometry/Distance/DistancePlane.hpp:12-17", "src/include/Geometry/Plane.hpp"]}
{"id": "C23", "title": "Point/sphere distance is the minimum distance to the surface", "statement": "distance(point, sphere) is the smallest Euclidean distance to a point of the sphere surface; the signed version is negative exactly for interior points, and Sphere::contains agrees with signed distance <= eps.", "quantifier": "every sphere with radius >= 0 and every point", "why_tests_cant": "Minimum over a surface for every input.", "anchors": ["src/include/Geometry/Distance/DistanceSphere.hpp", "src/include/Geometry/Sphere.hpp:31-34 contains"]}
{"id": "C24", "title": "Line/line distance is the minimum distance", "statement": "distance(lineA, lineB) is the smallest Euclidean distance between a point of A and a point of B; in particular it is never negative and does not depend on the argument order.", "quantifier": "all pairs of lines in 3D", "why_tests_cant": "Sign and minimality for all relative placements.", "anchors": ["src/include/Geometry/Distance/DistanceLine.hpp:26-39"]}
{"id": "C25", "title": "Line/ray distance is the minimum distance", "statement": "distance(line, ray) is the smallest Euclidean distance between a point of the line and a point of the ray.", "quantifier": "all lines and rays whose directions are parallel or enclose an angle with sin^2 > eps (nearly parallel ones: see C73)", "why_tests_cant": "Minimum over two parameters with a constraint, for all inputs.", "anchors": ["src/include/Geometry/Distance/DistanceRay.hpp:42-64"]}
{"id": "C26", "title": "Point/segment distance is the minimum distance", "statement": "distance(segment, point) is the smallest Euclidean distance from the point to a point of the segment.", "quantifier": "all segments of positive length, all points, any dimension", "why_tests_cant": "Minimum over a segment for every input; existing tests only use unit length segments.", "anchors": ["src/include/Geometry/Distance/DistanceSegment.hpp:27-42 calc_segment_point", "src/include/Geometry/Distance/DistanceSegment.hpp:64-74"]}
{"id": "C27", "title": "Segment/ray distance is the minimum distance", "statement": "distance(segment, ray) is the smallest Euclidean distance between a point of the segment and a point of the ray.", "quantifier": "all segments and rays", "why_tests_cant": "Minimum over two constrained parameters for every input.", "anchors": ["src/include/Geometry/Distance/DistanceSegment.hpp:111-193"]}
{"id": "C28", "title": "2D line/line intersection is sound and complete", "statement": "intersect of two 2D lines returns a point exactly when the directions are not parallel (up to eps), and the point is the unique common point of both lines.", "quantifier": "all pairs of 2D lines", "why_tests_cant": "All inputs, including nearly parallel ones.", "anchors": ["src/include/Geometry/Intersect/IntersectLine.hpp:19-40"]}
{"id": "C29", "title": "3D line/line intersection is sound and complete", "statement": "intersect of two 3D lines returns a point only if the lines pass each other within eps, the point is on the first line and within eps of the second, and it returns a point whenever non-parallel lines truly meet.", "quantifier": "all pairs of 3D lines", "why_tests_cant": "Skew/parallel/meeting are continuous families.", "anchors": ["src/include/Geometry/Intersect/IntersectLine.hpp:46-68"]}
{"id": "C30", "title": "2D segment/segment intersection is sound and complete", "statement": "intersect of two 2D segments returns a point if and only if the segments are not parallel and share a point (up to the parameter tolerance), and the returned point is that common point.", "quantifier": "all pairs of 2D segments", "why_tests_cant": "All relative placements, end-point touching included.", "anchors": ["src/include/Geometry/Intersect/IntersectSegment.hpp:21-52"]}
{"id": "C31", "title": "3D segment/segment intersection is sound and complete", "statement": "intersect of two 3D segments returns a point if and only if the segments are not parallel and share a point (up to tolerance), and the returned point lies on both segments.", "quantifier": "all pairs of 3D segments", "why_tests_cant": "Skew segments form an open set that tests miss.", "anchors": ["src/include/Geometry/Intersect/IntersectSegment.hpp:59-82"]}
{"id": "C32", "title": "3D segment/ray intersection is sound and complete", "statement": "intersect of a 3D segment and a ray returns a point if and only if they are not parallel and share a point (up to tolerance), the returned point lies on both, and the argument order does not matter.", "quantifier": "all segments and rays in 3D", "why_tests_cant": "Skew configurations form an open set that tests miss.", "anchors": ["src/include/Geometry/Intersect/IntersectSegment.hpp:84-113"]}
{"id": "C33", "title": "Plane/line intersection is sound and complete", "statement": "intersect(plane, line) returns a point exactly when the line is not parallel to the plane (up to eps) and the point lies on both; it is the only such point.", "quantifier": "all planes and lines", "why_tests_cant": "All inputs.", "anchors": ["src/include/Geometry/Intersect/IntersectPlane.hpp:19-53"]}
{"id": "C34", "title": "Plane/ray intersection is sound and complete", "statement": "intersect(plane, ray) returns a point if and only if the ray is not parallel to the plane and some point of the ray lies on the plane, and the returned point lies on both.", "quantifier": "all planes and rays", "why_tests_cant": "Boundary case of the ray origin on the plane, for all inputs.", "anchors": ["src/include/Geometry/Intersect/IntersectPlane.hpp:55-71"]}
{"id": "C35", "title": "Plane/segment intersection is sound and complete", "statement": "intersect(plane, segment) returns a point if and only if the segment is not parallel to the plane and some point of the segment lies on the plane, and the returned point lies on both.", "quantifier": "all planes and segments of positive length", "why_tests_cant": "Boundary cases at both end points, for all inputs.", "anchors": ["src/include/Geometry/Intersect/IntersectPlane.hpp:73-89"]}
{"id": "C36", "title": "Sphere/line intersection reports exactly the common points", "statement": "intersect(sphere, line) returns 0, 1 or 2 according to whether the line misses, touches (up to eps) or crosses the sphere; the reported points lie on the line and on the sphere, and when two are reported they are all the common points, ordered along the line.", "quantifier": "all spheres and lines", "why_tests_cant": "All inputs; roots of a quadratic with tolerance branches.", "anchors": ["src/include/Geometry/Intersect/IntersectSphere.hpp:35-65"]}
{"id": "C37", "title": "Sphere/ray intersection reports exactly the common points", "statement": "intersect(sphere, ray) reports the common points of the sphere surface and the ray: every reported point is on both (up to tolerance) and every common point is reported; when the ray's line touches the sphere up to eps, one point within sqrt(eps)/2 stands for the common points.", "quantifier": "all spheres and rays with unit direction", "why_tests_cant": "All inputs: origin inside, outside, behind, tangent.", "anchors": ["src/include/Geometry/Intersect/IntersectSphere.hpp:67-109"]}
{"id": "C38", "title": "Sphere/segment intersection reports exactly the common points", "statement": "intersect(sphere, segment) reports the common points of the sphere surface and the segment: every reported point is on both (up to tolerance) and every common point is reported.", "quantifier": "all spheres and segments, any length", "why_tests_cant": "All inputs; the tangent case is a measure-zero set tests rarely hit with non-unit segments.", "anchors": ["src/include/Geometry/Intersect/IntersectSphere.hpp:111-160"]}
{"id": "C39", "title": "Sweep-line intersections are real", "statement": "Every point reported by bentley_ottmann(segments) is the intersection point of two different segments of the input, and the segment indices it is computed from are in range.", "quantifier": "every list of 2D segments, every order of equal-x events, every behaviour of the status structure", "why_tests_cant": "Depends on the event schedule and on the ordering of the status structure.", "anchors": ["src/include/Geometry/Intersect/BentleyOttmann.hpp:49-136"]}
{"id": "C40", "title": "Sweep-line reports every intersection", "statement": "bentley_ottmann(segments) reports an intersection point for every pair of segments that cross.", "quantifier": "every list of 2D segments", "why_tests_cant": "Missing pairs only show in inputs where crossing segments are never adjacent at an end point event.", "anchors": ["src/include/Geometry/Intersect/BentleyOttmann.hpp:49-136"]}
{"id": "C41", "title": "Sweep-line terminates with linear output", "statement": "bentley_ottmann(segments) processes exactly two events per segment and reports at most three points per segment.", "quantifier": "every list of 2D segments and every event order", "why_tests_cant": "Termination and output size for every input.", "anchors": ["src/include/Geometry/Intersect/BentleyOttmann.hpp:49-136"]}
{"id": "C42", "title": "Adding triangles to a half-edge mesh is memory safe and counts right", "statement": "Adding any sequence of triangles through MeshTriangleAdder never reads or writes out of range, trips no assertion, and yields exactly one facet and three half-edges per triangle, as long as the indices fit the index type.", "quantifier": "every sequence of triangles (any points, degenerate ones included), every index width", "why_tests_cant": "Arbitrary triangle soups; index overflow needs 2^w elements.", "anchors": ["src/include/Geometry/HalfedgeMeshBuilder/MeshTriangleAdder.hpp:47-135"]}
{"id": "C43", "title": "Mesh vertices are the distinct points", "statement": "After adding any triangles the mesh has exactly one vertex per distinct corner point, in order of first appearance, and every half-edge starts at the vertex of its corner point.", "quantifier": "every sequence of triangles", "why_tests_cant": "Point sharing patterns are unbounded.", "anchors": ["src/include/Geometry/HalfedgeMeshBuilder/MeshTriangleAdder.hpp:117-135 create_or_find_vertex", "src/include/Geometry/HalfedgeMesh/MeshPoints.hpp:38-63"]}
{"id": "C44", "title": "Next and previous are inverse and cycle with period three", "statement": "In every built mesh next(previous(h)) = previous(next(h)) = h, next applied three times is the identity, and next/previous stay in the same facet.", "quantifier": "every built mesh and every half-edge", "why_tests_cant": "Unbounded number of meshes and half-edges.", "anchors": ["src/include/Geometry/HalfedgeMeshBuilder/MeshTriangleAdder.hpp:47-98", "src/include/Geometry/HalfedgeMesh/Halfedge.hpp"]}
{"id": "C45", "title": "Facet loops and triangle indices reproduce the input triangles", "statement": "calc_halfedges of a facet terminates and lists exactly its three half-edges, and looking up the mesh points at calc_triangle_indices(mesh) gives back the added triangles' corner points, triangle by triangle in order.", "quantifier": "every sequence of triangles", "why_tests_cant": "Round trip over all inputs.", "anchors": ["src/include/Geometry/HalfedgeMesh/CalcFaceHalfedges.hpp:16-35", "src/include/Geometry/HalfedgeMesh/CalcTriangleIndices.hpp:14-43"]}
{"id": "C46", "title": "A vertex lists exactly its outgoing half-edges", "statement": "For every vertex of a built mesh the stored half-edges are exactly the half-edges that start at it, each once and in increasing order, so no vertex is isolated.", "quantifier": "every sequence of triangles, every vertex", "why_tests_cant": "Invariant over all build histories.", "anchors": ["src/include/Geometry/HalfedgeMesh/Vertex.hpp:48-62", "src/include/Geometry/HalfedgeMeshBuilder/MeshTriangleAdder.hpp:47-98"]}
{"id": "C47", "title": "The opposite half-edge runs the other way", "statement": "After a mesh is built, getOpposite() of a half-edge from u to v is the half-edge of the neighbouring facet from v to u.", "quantifier": "every built mesh whose every edge is shared by two consistently oriented triangles", "why_tests_cant": "Must hold for all meshes; the only test that looks at it records the observed value.", "anchors": ["src/include/Geometry/HalfedgeMeshBuilder/MeshTriangleAdder.hpp:137-180 set_opposite_halfedges"]}
{"id": "C48", "title": "Built meshes validate", "statement": "HalfedgeMesh::is_valid() holds for a mesh built from triangles exactly when no directed edge is used by more than two triangles, and evaluating it never reads out of range.", "quantifier": "every sequence of triangles", "why_tests_cant": "All inputs, including non-manifold soups.", "anchors": ["src/include/Geometry/HalfedgeMesh/HalfedgeMesh.hpp:69-96 is_valid", "src/include/Geometry/HalfedgeMesh/Halfedge.hpp:82-111", "src/include/Geometry/HalfedgeMesh/Vertex.hpp:75-101", "src/include/Geometry/HalfedgeMeshBuilder/MeshTriangleAdder.hpp:137-180"]}
{"id": "C49", "title": "Line indices list every edge exactly once", "statement": "calc_line_indices(mesh) lists every undirected edge of the mesh exactly once, smaller vertex first, in increasing lexicographic order, and nothing else.", "quantifier": "every built mesh", "why_tests_cant": "All meshes; duplicates only appear for particular orders of insertion.", "anchors": ["src/include/Geometry/HalfedgeMesh/CalcTriangleIndices.hpp:45-88"]}
{"id": "C50", "title": "Vertex facets are the facets around a vertex", "statement": "calc_vertex_facets returns exactly the facets having the vertex as a corner.", "quantifier": "every built mesh and every vertex", "why_tests_cant": "All meshes.", "anchors": ["src/include/Geometry/HalfedgeMesh/CalcVertexFacets.hpp"]}
{"id": "C51", "title": "Facet normals are unit and perpendicular", "statement": "calc_facet_normal returns a unit vector perpendicular to all three sides of a non-degenerate triangle, oriented by the right-hand rule.", "quantifier": "every built mesh and every non-degenerate facet", "why_tests_cant": "All triangles.", "anchors": ["src/include/Geometry/HalfedgeMesh/CalcFacetNormal.hpp"]}
{"id": "C52", "title": "Vertex normals average the different facet normals", "statement": "calc_vertex_normals returns one normal per vertex, equal to the normalised sum of the pairwise different normals of the facets at that vertex, independent of how a flat face is split into triangles.", "quantifier": "every built mesh with non-degenerate facets", "why_tests_cant": "All meshes and all vertex fans.", "anchors": ["src/include/Geometry/HalfedgeMesh/CalcVertexNormals.hpp"]}
{"id": "C53", "title": "Element equality and containment are consistent", "statement": "Vertex::operator== is an equivalence relation that never reads out of range, and mesh.contains(x) is true exactly for the elements of that mesh.", "quantifier": "all vertices/half-edges/facets of all meshes", "why_tests_cant": "All pairs of elements.", "anchors": ["src/include/Geometry/HalfedgeMesh/Vertex.hpp:103-124", "src/include/Geometry/HalfedgeMesh/HalfedgeMesh.hpp:98-122", "src/include/Geometry/HalfedgeMesh/Halfedge.hpp"]}
{"id": "C54", "title": "A moved mesh stays navigable", "statement": "After move-constructing or move-assigning a HalfedgeMesh, navigating from the elements of the destination mesh gives the same answers as before the move.", "quantifier": "every non-empty mesh", "why_tests_cant": "A dangling back pointer usually still reads plausible memory, so tests pass by accident.", "anchors": ["src/include/Geometry/HalfedgeMesh/HalfedgeMesh.hpp", "src/include/Geometry/HalfedgeMesh/Vertex.hpp", "src/include/Geometry/HalfedgeMesh/Halfedge.hpp", "src/include/Geometry/HalfedgeMesh/Facet.hpp"]}
{"id": "C55", "title": "Circle discretisation lies on the circle", "statement": "Discretising a circle into n points gives n pairwise different points, all at distance radius from the centre and in the circle plane, equally spaced.", "quantifier": "every circle with positive radius and every n >= 1 over the reals", "why_tests_cant": "Every n and every radius.", "anchors": ["src/include/Geometry/HalfedgeMeshBuilder/DiscretizeCircle.hpp:20-95"]}
{"id": "C56", "title": "Cone mesh is closed, oriented and in range", "statement": "For every azimuth count n >= 3 the cone mesh builder uses only indices of existing points and yields a closed surface: every directed edge occurs in exactly one triangle and so does its reverse; it has n+2 vertices, 3n edges and 2n triangles.", "quantifier": "every n >= 3 (and n < 3: no out-of-range access)", "why_tests_cant": "Unbounded n; wrap-around triangles are the corner case.", "anchors": ["src/include/Geometry/HalfedgeMeshBuilder/ConeMeshBuilder.hpp:46-101"]}
{"id": "C57", "title": "Cylinder mesh is closed, oriented and in range", "statement": "For every azimuth count n >= 3 the cylinder mesh builder uses only indices of existing points and yields a closed surface with 2n+2 vertices, 6n edges and 4n triangles; for n = 2 it is still in range, for n < 2 it must not read out of range.", "quantifier": "every n", "why_tests_cant": "Unbounded n.", "anchors": ["src/include/Geometry/HalfedgeMeshBuilder/CylinderMeshBuilder.hpp:45-134"]}
{"id": "C58", "title": "Sphere mesh is closed, oriented and in range", "statement": "For every polar count p >= 2 and azimuth count n >= 3 the sphere mesh builder uses only indices of existing points and yields a closed surface with (p-1)n+2 vertices, 3n(p-1) edges and 2n(p-1) triangles.", "quantifier": "all p and n", "why_tests_cant": "Unbounded p and n.", "anchors": ["src/include/Geometry/HalfedgeMeshBuilder/SphereMeshBuilder.hpp:92-201"]}
{"id": "C59", "title": "Cuboid mesh is closed, oriented and has eight vertices", "statement": "For every cuboid with linearly independent side vectors the cuboid mesh has exactly 8 vertices, which are the 8 corners of the parallelepiped, 18 edges and 12 triangles, and is closed.", "quantifier": "every cuboid", "why_tests_cant": "All side vectors and origins.", "anchors": ["src/include/Geometry/HalfedgeMeshBuilder/CuboidMeshBuilder.hpp:57-123", "src/include/Geometry/Cuboid.hpp"]}
{"id": "C60", "title": "Generated points lie on the solid's surface", "statement": "All points generated for a sphere are at distance radius from its centre, all points of a cylinder or cone lie on its base circle(s), axis ends or apex, and different indices give different points.", "quantifier": "all positive radii/heights, all counts", "why_tests_cant": "All counts and sizes; distinctness depends on trigonometry for every n.", "anchors": ["src/include/Geometry/HalfedgeMeshBuilder/SphereMeshBuilder.hpp:92-129", "src/include/Geometry/HalfedgeMeshBuilder/CylinderMeshBuilder.hpp:45-134", "src/include/Geometry/HalfedgeMeshBuilder/ConeMeshBuilder.hpp:46-101"]}
{"id": "C61", "title": "Building from an index buffer is all-or-nothing safe", "statement": "build_triangle_halfedge_mesh(points, indices) succeeds in a debug build exactly when there is a point, every index is smaller than the number of points and the index count is a multiple of three; a release build is memory safe exactly when every index of a complete triple is smaller than the number of points (the rest is ignored). It then produces one facet per index triple with the corner points in reversed order.", "quantifier": "every point list, every index list, every transformation", "why_tests_cant": "All index buffers.", "anchors": ["src/include/Geometry/HalfedgeMeshBuilder/MeshBuilderBase.hpp:26-58"]}
{"id": "C62", "title": "Transforming points composes", "statement": "Transforming by a product of matrices equals transforming successively, and the identity changes nothing.", "quantifier": "all affine matrices and all points", "why_tests_cant": "All matrices.", "anchors": ["src/include/Geometry/Transform/TransformVec.hpp:12-17", "src/include/Geometry/Transform/TransformSegment.hpp"]}
{"id": "C63", "title": "A transformed box bounds the transformed points", "statement": "If a point is in an AABB then the transformed point is in the transformed AABB.", "quantifier": "all affine transformations, all boxes, all points", "why_tests_cant": "All transformations; tests only translate.", "anchors": ["src/include/Geometry/Transform/TransformAABB.hpp"]}
{"id": "C64", "title": "A transformed sphere is the image of the sphere", "statement": "For a rigid motion M, a point is on sphere S exactly when its image is on transform(S, M).", "quantifier": "all rigid motions, all spheres, all points", "why_tests_cant": "All motions.", "anchors": ["src/include/Geometry/Transform/TransformSphere.hpp"]}
{"id": "C65", "title": "A transformed circle is the image of the circle", "statement": "For a rigid motion M, a point is on circle C exactly when its image is on transform(C, M).", "quantifier": "all rigid motions, all 3D circles, all points", "why_tests_cant": "All motions; tests only look at the centre.", "anchors": ["src/include/Geometry/Transform/TransformCircle.hpp"]}
{"id": "C66", "title": "Transformed cones and cylinders are images", "statement": "For a rigid motion the transformed cone/cylinder has the image of the base centre and apex/top centre, the same radius, height, slant height and opening angle.", "quantifier": "all rigid motions, all cones and cylinders", "why_tests_cant": "All motions.", "anchors": ["src/include/Geometry/Transform/TransformCone.hpp", "src/include/Geometry/Transform/TransformCylinder.hpp", "src/include/Geometry/Cone.hpp", "src/include/Geometry/Cylinder.hpp"]}
{"id": "C67", "title": "Constructed lines, rays and planes carry unit directions", "statement": "Line, Ray and Plane constructors store a unit vector with the same direction as the argument, whatever its (non-zero) length, and describe the same point set.", "quantifier": "every non-zero direction, every dimension", "why_tests_cant": "All directions.", "anchors": ["src/include/Geometry/Line.hpp", "src/include/Geometry/Ray.hpp", "src/include/Geometry/Plane.hpp"]}
{"id": "C68", "title": "Cuboid vertices are the eight corners", "statement": "calc_cuboid_vertices returns the eight sums origin + a*X + b*Y + c*Z with a,b,c in {0,1}, each exactly once; a cuboid built from a diagonal has the two diagonal end points among its corners and edges parallel to the axes.", "quantifier": "every cuboid", "why_tests_cant": "All cuboids.", "anchors": ["src/include/Geometry/Cuboid.hpp"]}
{"id": "C69", "title": "Cone measures are consistent", "statement": "height, slant height and opening angle satisfy slant^2 = height^2 + radius^2 and tan(angle/2) = radius/height.", "quantifier": "every cone with positive height and radius", "why_tests_cant": "All cones.", "anchors": ["src/include/Geometry/Cone.hpp"]}
{"id": "C70", "title": "Handles are totally ordered with one reserved invalid value", "statement": "Handle comparisons form a total order consistent with ==; exactly one value is invalid, a default constructed handle is invalid, and every index smaller than the largest is valid.", "quantifier": "every handle width", "why_tests_cant": "All pairs and triples of values.", "anchors": ["src/include/Geometry/Handle.hpp", "src/include/Geometry/HalfedgeMesh/MeshIndices.hpp"]}
{"id": "C71", "title": "Extreme points are extreme", "statement": "extreme_points_along_direction(direction, points) returns the smallest and the largest projection of the given points on the direction: both are attained by a point and every projection lies between them.", "quantifier": "every non-empty list of points and every direction (release builds), every direction of length one (debug builds)", "why_tests_cant": "All point lists.", "anchors": ["src/include/Geometry/ExtremePointsInDirection.hpp:27-51"]}
{"id": "C72", "title": "Mesh point transformation and flattening preserve order", "statement": "MeshPoints::transform adds the translation to every point and changes nothing else, and flattening the points to components lists x, y, z of each point in order.", "quantifier": "every mesh and translation", "why_tests_cant": "All meshes.", "anchors": ["src/include/Geometry/HalfedgeMesh/MeshPoints.hpp:38-85"]}
{"id": "C73", "title": "Distances of lines and rays stay accurate when nearly parallel", "statement": "distance(line, line) and distance(line, ray) do not exceed the true smallest distance by more than the tolerance when the directions are nearly, but not exactly, parallel.", "quantifier": "all pairs of directions whose angle is below the parallelism tolerance", "why_tests_cant": "The error grows without bound with the placement; only a proof finds the worst case.", "anchors": ["src/include/Geometry/Distance/DistanceLine.hpp:26-39", "src/include/Geometry/Distance/DistanceRay.hpp:42-64"]}
{"id": "C74", "title": "Segment/ray distance never reads an empty result", "statement": "distance(segment, ray) always returns a value: the closest parameters are only read when they were computed, in every branch of the parallel case analysis.", "quantifier": "every segment and every ray over exact numbers, every positive tolerance", "why_tests_cant": "The fall-through of the parallel branch is only safe if the tolerance comparisons are exhaustive for every value.", "anchors": ["src/include/Geometry/Distance/DistanceSegment.hpp:111-193"]}
{"id": "C75", "title": "Shape equality compares the defining coordinates", "statement": "For Interval, AABB, Line, Ray, Plane, Segment, Sphere, Circle2, Circle3, Cone, Cylinder and Cuboid, operator== is true when all defining coordinates agree to less than the tolerance and false when one differs by more; it is reflexive and symmetric, and operator!= is its negation.", "quantifier": "every pair of shapes of each type over exact numbers, every positive tolerance", "why_tests_cant": "A comparison that forgets one coordinate, or compares it with itself, passes every test whose shapes differ elsewhere.", "anchors": ["src/include/Geometry/Interval.hpp", "src/include/Geometry/AABB.hpp:135-143", "src/include/Geometry/Line.hpp", "src/include/Geometry/Ray.hpp", "src/include/Geometry/Plane.hpp", "src/include/Geometry/Segment.hpp", "src/include/Geometry/Sphere.hpp", "src/include/Geometry/Circle.hpp", "src/include/Geometry/Cone.hpp", "src/include/Geometry/Cylinder.hpp", "src/include/Geometry/Cuboid.hpp"]}
{"id": "C76", "title": "Shape equality is an equivalence of point sets", "statement": "operator== of shapes is transitive, and two shapes with the same point set (a line through another origin, a segment with its ends swapped) compare equal.", "quantifier": "all triples of shapes; all representations of the same point set", "why_tests_cant": "Holds for most samples and fails only for chains near the tolerance or other representations of the same set.", "anchors": ["src/include/Geometry/Line.hpp", "src/include/Geometry/Segment.hpp", "src/include/Geometry/Interval.hpp"]}
{"id": "C77", "title": "Setters keep the class invariants", "statement": "After construction and any sequence of setter calls in a debug build a circle has a radius of at least zero, a 3D circle a unit normal, a ray a unit direction and a box min below max.", "quantifier": "every sequence of constructor and setter calls of any length", "why_tests_cant": "Quantifies over all call sequences.", "anchors": ["src/include/Geometry/Circle.hpp:21-80", "src/include/Geometry/Ray.hpp:20-31", "src/include/Geometry/AABB.hpp:33-61"]}
{"id": "C78", "title": "Box centre and box from an edge length", "statement": "AABB::center is the point the box is symmetric about, it lies in every box that is not inverted, and AABB(min, extend) is the axis aligned cube over min with that edge, refused in debug builds exactly for a negative edge.", "quantifier": "every box, every corner and edge over exact numbers, every dimension", "why_tests_cant": "All boxes of all dimensions.", "anchors": ["src/include/Geometry/AABB.hpp:40-63"]}
{"id": "C79", "title": "Builders can be reused", "statement": "Every mesh built in a session with one builder object equals the mesh a fresh builder makes for the values that were set last before that build call.", "quantifier": "every sequence of setter and build calls of any length on a sphere or cuboid builder, every index type", "why_tests_cant": "Cached shapes make the result depend on the order of calls; tests use each builder once.", "anchors": ["src/include/Geometry/HalfedgeMeshBuilder/SphereMeshBuilder.hpp:34-89", "src/include/Geometry/HalfedgeMeshBuilder/CuboidMeshBuilder.hpp:39-77"]}
{"id": "C80", "title": "MeshBuilder makes closed sphere-like surfaces", "statement": "For every solid that is not degenerate and every configuration with at least two rings and three sectors whose index buffer fits the index type, MeshBuilder::build returns a closed mesh with V - E + F = 2 whose points lie on the solid; the default configuration needs an index type with more than 1080 values.", "quantifier": "every sphere, cone, cylinder and cuboid over exact numbers, every configuration, every index type", "why_tests_cant": "All counts and all index widths; tests fix one configuration and one width.", "anchors": ["src/include/Geometry/HalfedgeMeshBuilder/MeshBuilder.hpp:48-70", "src/include/Geometry/HalfedgeMeshBuilder/MeshBuilderConfig.hpp"]}
{"id": "C81", "title": "Meshes of spheres, cones and cylinders are convex and oriented outward", "statement": "Every facet of a mesh built from a sphere, cone or cylinder is a triangle that has the centre of the solid strictly behind it and no mesh vertex in front of it, when its corners are read in the order the half-edge loop gives them.", "quantifier": "every solid that is not degenerate over exact numbers, every count of rings (two or more) and sectors (three or more), every index type that fits", "why_tests_cant": "Holds for all counts at once; a test looks at one mesh, and one swapped triangle winding shows only as a dark facet.", "anchors": ["src/include/Geometry/HalfedgeMeshBuilder/SphereMeshBuilder.hpp:91-185", "src/include/Geometry/HalfedgeMeshBuilder/ConeMeshBuilder.hpp", "src/include/Geometry/HalfedgeMeshBuilder/CylinderMeshBuilder.hpp", "src/include/Geometry/HalfedgeMeshBuilder/MeshBuilderBase.hpp"]}
{"id": "C82", "title": "Cuboid meshes are oriented outward", "statement": "Every facet of a mesh built from a cuboid that is not degenerate has the centre strictly behind it and no mesh vertex in front of it.", "quantifier": "every cuboid with linearly independent sides over exact numbers, every index type that fits", "why_tests_cant": "Depends on the handedness of the sides; tests use right-handed boxes.", "anchors": ["src/include/Geometry/HalfedgeMeshBuilder/CuboidMeshBuilder.hpp:57-123", "src/include/Geometry/Cuboid.hpp:16-39"]}
{"id": "C83", "title": "Normals of built solids point outward", "statement": "Facet normals and vertex normals of meshes built from the solids exist, have length one, point away from the centre and have all mesh vertices behind the plane they define; a vertex normal is never computed from normals that cancel out.", "quantifier": "every mesh that is convex and oriented outward, in particular every sphere, cone, cylinder and right-handed cuboid over exact numbers and every count", "why_tests_cant": "Quantifies over all counts and all vertices; shading tests look at single pictures.", "anchors": ["src/include/Geometry/HalfedgeMesh/CalcFacetNormal.hpp", "src/include/Geometry/HalfedgeMesh/CalcVertexNormals.hpp:15-52"]}
{"id": "C84", "title": "Meshes enclose the volume of the solid up to a bound that vanishes with the counts", "statement": "The mesh of a cylinder encloses the prism volume n/2 r^2 h sin(2 pi/n), the mesh of a cone one third of it, the mesh of a sphere 2/3 n sin(2 pi/n) cos^2(pi/(2p)) r^3, the mesh of a cuboid the determinant of its sides. The first three are never above the volume of the exact solid and differ from it by at most a constant times 1/n^2 (plus 1/p^2 for spheres); the enclosed volume does not depend on the point it is measured from.", "quantifier": "every solid that is not degenerate over exact numbers, every count of rings p (two or more) and sectors n (three or more), every index type that fits", "why_tests_cant": "A closed formula and a convergence rate for all counts; a test compares one volume at one count. A facet counted twice, missing or turned changes the volume.", "anchors": ["src/include/Geometry/HalfedgeMeshBuilder/SphereMeshBuilder.hpp:91-185", "src/include/Geometry/HalfedgeMeshBuilder/ConeMeshBuilder.hpp", "src/include/Geometry/HalfedgeMeshBuilder/CylinderMeshBuilder.hpp", "src/include/Geometry/HalfedgeMeshBuilder/CuboidMeshBuilder.hpp:57-123"]}
{"id": "C85", "title": "The sweep line detects whether any two segments cross", "statement": "For segments given from left to right of which none starts or ends on another and none meet nearly parallel, bentley_ottmann reports the leftmost crossing (all crossings with the least x); so the result is empty only if no two segments cross, and complete if all crossings have the same x. Without the first two assumptions it can return nothing although segments cross.", "quantifier": "every number of segments, every order of events with equal x, every tree that respects the comparator, exact arithmetic", "why_tests_cant": "The claim is about all arrangements of segments; tests have a handful of them, and the missing crossings (C40) do not show in arrangements with one crossing.", "anchors": ["src/include/Geometry/Intersect/BentleyOttmann.hpp:49-136"]}
{"id": "C86", "title": "A moved-from k-d tree is an empty tree", "statement": "After a move construction or assignment the target holds what the source held; the source finds no point, has size 0, is empty, throws on nearest, and can be filled again.", "quantifier": "every tree, every sequence of insertions after the move", "why_tests_cant": "Tests of move operations check the target; the stale counter of the source shows only when it is used again.", "anchors": ["src/include/Geometry/KdTree.hpp:103-104", "src/include/Geometry/KdTree.hpp:153-159"]}
{"id": "C87", "title": "The height of the k-d tree is at most the number of points, and sorted input reaches it", "statement": "Insertion, search and destruction recurse along one path; its length is at most the number of stored points, and if points are inserted so that no coordinate decreases the tree is a list of exactly that height.", "quantifier": "every history, every dimension, every coordinate type", "why_tests_cant": "Quantifies over all histories; a test with few points never sees the recursion depth.", "anchors": ["src/include/Geometry/KdTree.hpp:161-207"]}
{"id": "C88", "title": "Mesh surfaces stay inside the solid and enclose its inscribed body", "statement": "Every point of every facet (not only the vertices) of a sphere, cone or cylinder mesh lies in the solid; points of a sphere mesh are at least r cos(pi/n) cos(pi/2p) from the centre, and the ball, cone or cylinder with the radius reduced by these factors lies strictly behind every facet. The surface of a cuboid mesh is exactly the union of the six faces.", "quantifier": "every count of subdivisions, every solid, every facet, every point of every facet", "why_tests_cant": "A facet has infinitely many points and there are infinitely many counts; vertices alone say nothing about the surface between them.", "anchors": ["src/include/Geometry/HalfedgeMeshBuilder/SphereMeshBuilder.hpp:91-185", "src/include/Geometry/HalfedgeMeshBuilder/ConeMeshBuilder.hpp", "src/include/Geometry/HalfedgeMeshBuilder/CylinderMeshBuilder.hpp", "src/include/Geometry/HalfedgeMeshBuilder/CuboidMeshBuilder.hpp:57-123"]}
{"id": "C89", "title": "Built meshes are connected and have no pinched vertex", "statement": "From every facet of a sphere, cone, cylinder or cuboid mesh one can walk to every other facet across common edges, and the facets around every vertex form a single fan: one can walk between any two of them across edges at that vertex.", "quantifier": "every count of subdivisions, every solid that is not degenerate over exact numbers, every pair of facets, every vertex", "why_tests_cant": "Quantifies over all counts and all pairs of facets; a surface made of two closed pieces, or two pieces touching in one vertex, passes every local check.", "anchors": ["src/include/Geometry/HalfedgeMeshBuilder/SphereMeshBuilder.hpp:91-185", "src/include/Geometry/HalfedgeMeshBuilder/ConeMeshBuilder.hpp", "src/include/Geometry/HalfedgeMeshBuilder/CylinderMeshBuilder.hpp", "src/include/Geometry/HalfedgeMeshBuilder/CuboidMeshBuilder.hpp:57-123"]}
{"id": "C90", "title": "Nearest neighbour search tolerates floating point rounding", "statement": "In floating point arithmetic nearest returns an inserted point with the payload of its first insertion, and no inserted point is closer to the query than the returned one by more than a relative rounding error of D+5 units in the last place of the squared distance: pruning with the rounded distance never loses a subtree that holds a better point by more than that.", "quantifier": "every binary floating point format and every rounding to nearest (float and double included), every dimension, every history, every query whose coordinates are clear of underflow", "why_tests_cant": "Rounding errors depend on the values of all coordinates on the search path; a test sees a few of 2^192 points.", "anchors": ["src/include/Geometry/KdTree.hpp:125-151", "src/include/Geometry/KdTree.hpp:209-243"]}
{"id": "C91", "title": "A stored point is found exactly in floating point", "statement": "Asking the k-d tree for the nearest neighbour of a stored point returns this point and its payload, also with rounded arithmetic. The mesh builder relies on it to weld vertices.", "quantifier": "every binary floating point format and every rounding to nearest, every history, every stored point", "why_tests_cant": "Fails only for coordinates whose differences underflow when squared, which no test has; for all others it must hold for every tree shape.", "anchors": ["src/include/Geometry/KdTree.hpp:125-151", "src/include/Geometry/KdTree.hpp:209-243"]}
{"id": "C92", "title": "Rounding affects the topology of built meshes only by merging points", "statement": "Building the mesh of a sphere, cone or cylinder in floating point arithmetic succeeds, also in debug builds. The vertices are the computed points without repetition, and the numbers of facets and half-edges are those of exact arithmetic. If the computed points are pairwise different the mesh is closed and consistently oriented with as many vertices and lines as in exact arithmetic; rounding cannot spoil the welding in any other way. Far from the origin all points do merge into one.", "quantifier": "every binary floating point format, every rounding to nearest, any sine and cosine, every count of subdivisions, every solid whose computed points, where different, differ by 2^-537 (double) or 2^-74 (float) in some coordinate", "why_tests_cant": "Welding compares rounded distances along a search path that depends on all points inserted before; a wrong pruning decision would duplicate a vertex only for particular points.", "anchors": ["src/include/Geometry/HalfedgeMeshBuilder/MeshTriangleAdder.hpp", "src/include/Geometry/HalfedgeMeshBuilder/SphereMeshBuilder.hpp:91-185", "src/include/Geometry/HalfedgeMeshBuilder/ConeMeshBuilder.hpp", "src/include/Geometry/HalfedgeMeshBuilder/CylinderMeshBuilder.hpp", "src/include/Geometry/KdTree.hpp:209-243"]}
{"id": "C93", "title": "The mesh of a cuboid is closed in floating point", "statement": "In floating point arithmetic the mesh of every cuboid with linearly independent sides is closed and has the eight corners as vertices: each corner is computed as the same point on all three faces it belongs to, and debug assertions hold.", "quantifier": "every binary floating point format, every rounding to nearest, every cuboid", "why_tests_cant": "The corners are sums taken in different orders on different faces, and rounded addition is not associative; whether two such sums agree depends on all bits of the side vectors.", "anchors": ["src/include/Geometry/HalfedgeMeshBuilder/CuboidMeshBuilder.hpp:57-123", "src/include/Geometry/Cuboid.hpp:22-30"]}
{"id": "C94", "title": "The mesh of a sphere is closed and accurate in floating point", "statement": "With sine, cosine and pi accurate to two units in the last place, every coordinate of every computed point of a sphere is within 52 units of roundoff, relative to radius plus distance from the origin, of the exact point. Unless the counts are huge or the centre is far away compared with the radius (64 N^2 u (r + A) <= r), the computed points are pairwise different and the mesh is closed with the exact numbers of vertices, edges and triangles, and lies on the sphere up to 91 units of roundoff.", "quantifier": "all floating point formats, all libraries of that accuracy, all spheres, all polar and azimuth counts satisfying the bound", "why_tests_cant": "The claim is about all radii, centres and counts; whether two of thousands of rounded points coincide depends on the particular roundings.", "anchors": ["src/include/Geometry/HalfedgeMeshBuilder/SphereMeshBuilder.hpp:78-89", "src/include/Geometry/HalfedgeMeshBuilder/SphereMeshBuilder.hpp:92-129", "src/include/Geometry/HalfedgeMeshBuilder/SphereMeshBuilder.hpp:131-201"]}
{"id": "C95", "title": "Lengths and directions of segments are accurate in floating point", "statement": "In every dimension D the computed length of a segment has a relative error of at most (D + 4) units of roundoff, each coordinate of the computed direction is within (2 D + 7) units of roundoff of the exact unit vector, and the computed length of the computed direction differs from one by at most (3 D + 7) units of roundoff.", "quantifier": "all floating point formats, all roundings to nearest, all dimensions D with 64 (D + 2) <= 2^prec, all segments longer than the underflow threshold", "why_tests_cant": "Rounding errors depend on all bits of all coordinates; cancellation in the difference of the end points could destroy all digits and no finite set of inputs excludes it.", "anchors": ["src/include/Geometry/Segment.hpp:34", "src/include/Geometry/Segment.hpp:35"]}
{"id": "C96", "title": "The meshes of cones and cylinders are closed and accurate in floating point", "statement": "With sine, cosine and pi accurate to two units in the last place and a rotation accurate to K units of roundoff, building the mesh of a cone or cylinder in floating point succeeds, the mesh is closed and consistently oriented with the exact numbers of vertices, edges and triangles, and its vertices are the corners of the exact solid up to (3 K + 122) units of roundoff relative to radius plus height plus distance from the origin. The debug assertions about length and direction of the axis hold for any tolerance wider than 16 units of roundoff. Excluded are only huge counts and solids that are tiny or slender compared with their distance from the origin.", "quantifier": "all floating point formats, all libraries of that accuracy, all radii, axes and counts satisfying the bound", "why_tests_cant": "Rounding errors accumulate over length, direction, rotation, sine and cosine, and placing; whether two of thousands of rounded points coincide depends on all of them.", "anchors": ["src/include/Geometry/HalfedgeMeshBuilder/ConeMeshBuilder.hpp:46-101", "src/include/Geometry/HalfedgeMeshBuilder/CylinderMeshBuilder.hpp:45-134", "src/include/Geometry/Segment.hpp:34-35"]}
{"id": "C97", "title": "2D segment intersection points are accurate in floating point", "statement": "If two segments in the plane cross and are not too parallel, intersecting them in floating point (assertions apart) returns a point, and each coordinate is within u (50 L^3 / |D| + A) of the exact common point: u is the unit roundoff, L bounds the coordinates of the directions and of the difference of the sources, A those of the first source, and D is the determinant of the directions (72 u L^2 <= |D|).", "quantifier": "all floating point formats with at least ten digits, all roundings to nearest, all crossing pairs of segments, all tolerances that are not finer than the roundoff and not coarser than the determinant", "why_tests_cant": "The error is amplified by the angle of the segments; no finite set of inputs bounds it for all angles, lengths and positions.", "anchors": ["src/include/Geometry/Intersect/IntersectSegment.hpp:20-52"]}
{"id": "C98", "title": "Intersecting crossing segments passes the debug assertion in floating point", "statement": "Debug builds intersect every pair of crossing segments without aborting: the assertion that both segments yield the same point holds in floating point.", "quantifier": "all floating point formats, all pairs of crossing segments", "why_tests_cant": "The assertion compares two independently rounded points with ==; test segments with round coordinates satisfy it by luck.", "anchors": ["src/include/Geometry/Intersect/IntersectSegment.hpp:50", "src/include/Geometry/Utils/GeometryAssert.hpp"]}
{"id": "C99", "title": "Distances do not change when everything is moved", "statement": "Moving two shapes by the same rigid motion does not change what any distance function returns: point to line, ray, plane, sphere and segment, line to ray, segment to ray. The distance of two lines, which can be negative, keeps its value under rotations and translations and its absolute value under reflections. A line, ray or plane built from moved points is the moved line, ray or plane.", "quantifier": "all homogeneous matrices describing an orthogonal map and a translation, all shapes, all tolerances, also where the function is wrong", "why_tests_cant": "Functions that branch on tolerances could take another branch after a rotation; a test covers a few angles.", "anchors": ["src/include/Geometry/Distance/DistanceLine.hpp", "src/include/Geometry/Distance/DistanceRay.hpp", "src/include/Geometry/Distance/DistancePlane.hpp", "src/include/Geometry/Distance/DistanceSphere.hpp", "src/include/Geometry/Distance/DistanceSegment.hpp", "src/include/Geometry/Transform/TransformVec.hpp", "src/include/Geometry/Transform/TransformSegment.hpp", "src/include/Geometry/Transform/TransformSphere.hpp"]}
{"id": "C100", "title": "Intersections move along when everything is moved", "statement": "Moving two shapes by the same rigid motion moves what their intersection function returns: line and line, plane and line, ray or segment, segment and segment or ray, sphere and line, ray or segment return the images of the points they returned before, and nothing if they returned nothing. In the plane this holds for every affine map of determinant one, shears included, and the debug assertion fires for the moved segments exactly if it fires for the original ones.", "quantifier": "all rigid motions (in the plane: all affine maps of determinant one), all shapes, all tolerances", "why_tests_cant": "The result and the branch taken must agree for all rotations at once, including in the cases at the edge of a tolerance.", "anchors": ["src/include/Geometry/Intersect/IntersectLine.hpp", "src/include/Geometry/Intersect/IntersectPlane.hpp", "src/include/Geometry/Intersect/IntersectSegment.hpp", "src/include/Geometry/Intersect/IntersectSphere.hpp", "src/include/Geometry/Transform/TransformVec.hpp", "src/include/Geometry/Transform/TransformSegment.hpp", "src/include/Geometry/Transform/TransformSphere.hpp"]}
{"id": "C101", "title": "The ray/box test and the ray/box intersection agree", "statement": "is_intersecting says that a ray hits a box if and only if intersect reports a point, and an enter point is never reported without an exit point.", "quantifier": "all rays with unit direction, all boxes", "why_tests_cant": "Two functions interpret the same pair of parameters with different tolerant comparisons; they differ only in the cases of contact over a short length, which tests with fat boxes never reach.", "anchors": ["src/include/Geometry/Intersect/IntersectAABB.hpp:110-133", "src/include/Geometry/Intersect/IntersectAABB.hpp:172-200", "src/include/Geometry/Intersect/IntersectAABBHelper.hpp:29-106"]}
{"id": "C102", "title": "Bounding boxes are exact in floating point", "statement": "make_aabb returns exactly the coordinatewise minima and maxima of the given floating point numbers although it computes scalar products with the axes. The centre of a box lies in the box, however thin, tiny or far away it is, and is within 4 u B of the exact centre (u unit roundoff, B the largest coordinate).", "quantifier": "all floating point formats, all roundings to nearest, all non-empty lists of points, all boxes with min <= max in every dimension", "why_tests_cant": "That min + (max - min) / 2 never rounds to a number outside of [min, max] is a statement about all pairs of floating point numbers, subnormal ones included.", "anchors": ["src/include/Geometry/AABB.hpp:63", "src/include/Geometry/AABB.hpp:143-165", "src/include/Geometry/ExtremePointsInDirection.hpp:27-51"]}
{"id": "C103", "title": "Ray/box intersections are accurate in floating point", "statement": "If a line is inside a box exactly for the parameters from te to tx and this stretch is longer than the tolerance plus 4 u (|te| + |tx|), then intersecting ray and box in floating point never fails, the test says yes if tx >= 0, and the enter point (if te >= 0) and the exit point (if tx >= 0) are reported with coordinates within u (|p| + 6 |t d|) of the exact ones. If the ray starts inside the box the enter point is not reported.", "quantifier": "all floating point formats with at least six digits, all roundings to nearest, all boxes, all rays whose direction components are at most two and either zero or outside of the tolerance", "why_tests_cant": "Six rounded quotients are compared with each other; which of them wins can change by rounding, and only a proof shows that the result is accurate nevertheless.", "anchors": ["src/include/Geometry/Intersect/IntersectAABBHelper.hpp:29-113", "src/include/Geometry/Intersect/IntersectAABB.hpp:110-133", "src/include/Geometry/Intersect/IntersectAABB.hpp:172-200"]}
{"id": "C104", "title": "Point distances are accurate in floating point", "statement": "The computed distances of a point to a line, a ray and a plane made from an origin and a direction (of any length that does not underflow) differ from the smallest distance to a point of that line, ray or plane by at most a constant times u times the distance of the point to the origin (u unit roundoff; constants 12 (D + 2), 14 (D + 2) and 20), plus an absolute term of the order of the square root of the smallest positive number, plus twice the tolerance for rays. The signed distance to a sphere is within u (12 |v - c| + |exact|). In particular a point on the line, where everything cancels, gets a distance of rounding error size.", "quantifier": "all floating point formats with enough digits for the dimension, all roundings to nearest, all dimensions for lines and rays, all points", "why_tests_cant": "The error bound must hold for every cancellation pattern, for points on the line and for subnormal squares; samples only show typical errors.", "anchors": ["src/include/Geometry/Distance/DistanceLine.hpp:14-24", "src/include/Geometry/Distance/DistanceRay.hpp:16-40", "src/include/Geometry/Distance/DistancePlane.hpp:12-23", "src/include/Geometry/Distance/DistanceSphere.hpp:12-22", "src/include/Geometry/Line.hpp:18-22", "src/include/Geometry/Ray.hpp:20-25", "src/include/Geometry/Plane.hpp:20-24"]}
{"id": "C105", "title": "Plane intersections are accurate in floating point", "statement": "Let s be the sine of the angle between a plane and a line (up to the length of the stored normal) and W the distance of their stored origins. If s is above 64 u (u unit roundoff) and above the tolerance, intersecting them in floating point returns a point whose coordinates are within u (|x| + 26 W / s^2) of the coordinates x of the only common point, and which is within u (2 sum |x| + 36 W / s) of the plane. Points reported for rays and segments are just as accurate; a point is reported if its exact parameter is inside the range by the tolerance plus the error of the parameter (23 u W / s^2, for segments divided by their length), and nothing is reported if it is outside by the same margin.", "quantifier": "all floating point formats with at least nine digits, all roundings to nearest, all planes, lines and rays with stored directions of length within 1/32 of one, all segments that are not of subnormal size", "why_tests_cant": "The error depends on the angle and the distance at once and is worst for flat angles, where the quotient of two small rounded numbers is multiplied by a long vector; which bound holds cannot be read off samples.", "anchors": ["src/include/Geometry/Intersect/IntersectPlane.hpp:19-89"]}
{"id": "C106", "title": "Transformations are accurate in floating point", "statement": "Every coordinate of a transformed point is within 6 u times the sum of the absolute values it is made of (u unit roundoff); segments, cones, cylinders, spheres and circles inherit this and keep radius and normal unchanged. Where a row of the linear part is a signed unit vector (identity, quarter turns, exchanges of axes) the result is the correctly rounded exact one, and the identity changes nothing. Motions preserve distances up to 12 u (|p| + |q| + |b|) and the defect of the stored matrix. Multiplying the matrices first or transforming twice makes a difference of at most 26 u times the sum of the absolute values of all products. Matrices without negative entries keep points in the transformed box, exactly.", "quantifier": "all floating point formats with at least nine digits, all roundings to nearest, all matrices whose last row is 0 0 0 1, all points", "why_tests_cant": "Tests compare a handful of rotations with a tolerance; that the error is bounded relative to the sum of the products for every matrix, and that axis-aligned maps add no error at all, are statements about all floating point numbers.", "anchors": ["src/include/Geometry/Transform/TransformVec.hpp:12-17", "src/include/Geometry/Transform/TransformSegment.hpp:13-19", "src/include/Geometry/Transform/TransformSphere.hpp:12-16", "src/include/Geometry/Transform/TransformCircle.hpp:20-24", "src/include/Geometry/Transform/TransformCone.hpp:12-16", "src/include/Geometry/Transform/TransformCylinder.hpp:12-16"]}
{"id": "C107", "title": "Sphere intersections are accurate in floating point", "statement": "Let R be the distance of the origin of a line to the centre of a sphere plus its radius r, u the unit roundoff, tau the tolerance and d the exact distance of the centre from the line. Every point that intersect(Sphere, Line3) or intersect(Sphere, Ray3) reports is, up to rounding, a point of the line whose distance from the centre differs from r by at most 110 u R^2 / r, plus (4.5 eta + 24 u)^2 R^2 / r + 0.27 tau / r if the discriminant counted as zero (eta: how far the stored direction is from unit length). If r^2 - d^2 exceeds (tau + 177 u R^2) / 3.75, both crossings are found in order, each within 81 u R^2 / sqrt(r^2 - d^2) of the exact one; if d^2 - r^2 exceeds it, nothing is reported. Rays and segments report exactly the crossings whose parameter is in range, up to an explicit margin.", "quantifier": "all floating point formats with at least eleven digits, all roundings to nearest, all spheres, all lines and rays with stored directions of length within 1/32 of one, all segments that are not of subnormal length", "why_tests_cant": "The discriminant cancels near tangency and far from the origin; that the reported point stays on the sphere although its position along the line loses half of the digits is a statement about all cancellation patterns.", "anchors": ["src/include/Geometry/Intersect/IntersectSphere.hpp:35-65", "src/include/Geometry/Intersect/IntersectSphere.hpp:67-109", "src/include/Geometry/Intersect/IntersectSphere.hpp:111-160"]}
{"id": "C108", "title": "Results do not depend on the unit of length", "statement": "Multiplying all coordinates and radii by a factor k > 0 multiplies distances by k and moves intersection points along. This is true, for every tolerance implementation, of the distances of points to lines, planes and spheres, of two lines and of a line and a ray, of the intersections of two lines of the plane and of a plane and a line, and of the constructors of lines and planes. It is false for segments and spheres: two segments of the plane whose lengths multiply to less than the tolerance, two segments of space whose squared lengths multiply to less than it, and a plane and a segment shorter than it are never reported to meet, and a line through the centre of a small sphere is reported to touch it at the centre. What remains true is that enlarging (k > 1) never loses an intersection. The distance of a point to a ray scales up to the tolerance, not exactly; the distance of a point to a segment is scaled by every factor exactly if the foot point is at or before the source.", "quantifier": "all factors, all tolerances, all shapes", "why_tests_cant": "A test fixes one unit of length; the claim relates the results of two runs at every pair of scales.", "anchors": ["src/include/Geometry/Distance/DistanceLine.hpp:14-40", "src/include/Geometry/Distance/DistancePlane.hpp:12-23", "src/include/Geometry/Distance/DistanceSphere.hpp:12-22", "src/include/Geometry/Intersect/IntersectLine.hpp:19-40", "src/include/Geometry/Intersect/IntersectPlane.hpp:36-89", "src/include/Geometry/Intersect/IntersectSegment.hpp:21-82", "src/include/Geometry/Intersect/IntersectSphere.hpp:35-65", "src/include/Geometry/ClosetPointOnLine.hpp:38-64"]}
{"id": "C109", "title": "Exporting and rebuilding gives the same mesh", "statement": "The triangle indices exported from a mesh, looked up in its points, are the triangles that were added, in order and starting at the same corners. Adding them again gives exactly the same mesh: points, vertices, half-edges with all links, and facets. Handing points and indices to the index buffer builder instead gives the mesh of the same triangles with the opposite orientation, because that builder reads each index triple backwards; exporting and building once more restores the original mesh link by link.", "quantifier": "all triangle lists, both build modes, all index widths that can hold the indices, real and floating point coordinates", "why_tests_cant": "The claim equates two whole data structures after any sequence of insertions, with any pattern of shared corners.", "anchors": ["src/include/Geometry/HalfedgeMesh/CalcTriangleIndices.hpp:16-45", "src/include/Geometry/HalfedgeMeshBuilder/MeshBuilderBase.hpp:26-58", "src/include/Geometry/HalfedgeMeshBuilder/MeshTriangleAdder.hpp:47-135"]}
{"id": "C110", "title": "The order in which triangles are added does not matter", "statement": "Adding the same oriented triangles in another order, each starting at any of its corners, gives the same points, as many half-edges and facets, the same lines, the same enclosed volume, and over the reals the same normal at every point. In any arithmetic whose numbers are linearly ordered, so also with rounding, adding the same set of triangles in another order or repeatedly gives bitwise the same vertex normals, because the facet normals are sorted and made unique before they are summed.", "quantifier": "all triangle lists, all reorderings and rotations of corners, both build modes", "why_tests_cant": "Addition of rounded numbers is not associative, so independence of the order is a statement about all permutations of all meshes.", "anchors": ["src/include/Geometry/HalfedgeMesh/CalcVertexNormals.hpp:15-52", "src/include/Geometry/HalfedgeMesh/CalcTriangleIndices.hpp:45-88", "src/include/Geometry/HalfedgeMeshBuilder/MeshTriangleAdder.hpp:47-135"]}
{"id": "C111", "title": "Facet and vertex normals are accurate in floating point", "statement": "The computed normal of a facet differs from the unit normal of its triangle by at most 21 u / sin(phi), where phi is the angle between its first two sides and u the unit roundoff, and its length from one by at most 8 u, unless sin(phi) < 16 u or the area underflows. The computed normal of a vertex is the direction of a sum of unit normals of facets at the vertex, one for every computed normal that differs from the others, up to (2 k d + (40 k + 3 k^2) u) / |sum| for k summands (d bounds the errors of the facet normals); every facet has a normal within 2 d + 32 u of one of the summands. If the facets at the vertex have clearly different normals, all of them are added up.", "quantifier": "all floating point formats with at least nine digits, all roundings to nearest, all meshes, all vertices whose facets are not needles of subnormal area", "why_tests_cant": "The error depends on the shape of the triangle and on which rounded normals happen to coincide; a test sees a few shapes.", "anchors": ["src/include/Geometry/HalfedgeMesh/CalcFacetNormal.hpp:11-27", "src/include/Geometry/HalfedgeMesh/CalcVertexNormals.hpp:15-52"]}
{"id": "C112", "title": "Dividing a flat face differently changes the vertex normals only by rounding", "statement": "Vertex normals weigh every face once, however it is divided into triangles, because equal facet normals are merged (true over the reals). In floating point this is false: in every format with at least 16 digits there is a convex flat quadrilateral, and one more triangle at its corner, such that dividing it along one diagonal or the other turns the vertex normal at that corner by more than 1/3, because the two halves have computed normals that differ in the last digits and are counted twice. What is true: the normal of a facet parallel to a coordinate plane is computed without error, and a vertex all of whose facets are parallel to coordinate planes has bitwise the same normal for all divisions.", "quantifier": "all floating point formats with at least 16 digits (counterexample), at least nine digits (facets parallel to coordinate planes), all roundings to nearest", "why_tests_cant": "The difference hangs on the last digits of two products; it does not show on boxes and on most integer coordinates, which are what tests use.", "anchors": ["src/include/Geometry/HalfedgeMesh/CalcFacetNormal.hpp:11-27", "src/include/Geometry/HalfedgeMesh/CalcVertexNormals.hpp:26-48"]}
{"id": "C113", "title": "Intersections of lines in the plane and distances of lines are accurate in floating point", "statement": "Two lines of the plane whose directions have about unit length and enclose an angle with sine at least s >= 64 u are reported to meet, and every coordinate of the reported point differs from that of the exact common point x by at most u |x_i| + 26 (u/s) (W/s), where W is the distance of the stored origins and u the unit roundoff; its distance to the second line is only of the order u W / s. Lines whose determinant is within the tolerance are reported not to meet. The distance of two skew lines in space is exact up to its sign and 40 u W / s, that of two parallel lines up to 40 u W.", "quantifier": "all floating point formats with at least nine digits, all roundings to nearest, all lines with directions of about unit length, all tolerances", "why_tests_cant": "The error grows with the inverse sine of the angle; the claim bounds it for every angle, position and rounding pattern.", "anchors": ["src/include/Geometry/Intersect/IntersectLine.hpp:19-40", "src/include/Geometry/Distance/DistanceLine.hpp:26-39", "src/include/Geometry/Distance/DistanceLine.hpp:14-24"]}
{"id": "C114", "title": "Closest points of lines and distances of lines and rays are accurate in floating point", "statement": "For directions of about unit length with sine at least s, s^2 >= 256 u: the intersection of two lines in space reports a point within u |origin| + 135 (u/s^2) (W/s) of the point of the first line that is closest to the second; it reports a point if the exact distance is below the tolerance, and none if it is above, each by a margin of 2 u (|origin1| + |origin2|) + 290 (u/s^2) (W/s). So lines with a common point are reported to meet whenever the tolerance exceeds this margin. The distance of a line and a ray is exact up to 2 u (|origin1| + |origin2|) + 420 (u/s^2) (W/s), also where rounding puts the closest point on the wrong side of the origin of the ray; for parallel directions up to 40 u W.", "quantifier": "all floating point formats with at least nine digits, all roundings to nearest, all lines and rays with directions of about unit length, all tolerances", "why_tests_cant": "The parameters are quotients of differences of products that cancel for small angles, and the sign of a rounded parameter selects a different formula.", "anchors": ["src/include/Geometry/Intersect/IntersectLine.hpp:46-68", "src/include/Geometry/ClosetPointOnLine.hpp:38-64", "src/include/Geometry/Distance/DistanceRay.hpp:42-70"]}
{"id": "C115", "title": "Lines with a common point are reported to meet", "statement": "Two perpendicular lines in space with a common point are reported to meet, and a line and a ray with a common point have distance (nearly) zero, wherever the origins of the lines are. This is false in every floating point format: if the origin of one line is 2^(p+2) times as far away as the common point (p digits), rounding the difference of the origins moves the closest points apart; the intersection is lost, and the distance is reported as large as the coordinate of the common point, whatever the tolerance. What remains true is C114.", "quantifier": "all floating point formats, all roundings to nearest, all tolerances", "why_tests_cant": "It needs origins whose magnitudes differ by more than the precision; over the reals the property is true (C29).", "anchors": ["src/include/Geometry/Intersect/IntersectLine.hpp:46-68", "src/include/Geometry/ClosetPointOnLine.hpp:38-64", "src/include/Geometry/Distance/DistanceRay.hpp:42-70"]}
{"id": "C116", "title": "Points with NaN or infinite coordinates do not disturb the k-d tree", "statement": "A k-d tree may contain points with NaN or infinite coordinates. search(q) is true exactly if a point with equal coordinates was inserted and insert accepts a point exactly if none was (NaN is equal to nothing, -0.0 equals 0.0), so NaN points never hide other points. nearest(q) for a finite query returns a finite stored point, if there is one, that is nearest up to rounding. The last part is false if the first inserted point has a NaN coordinate: then every query is answered with that point.", "quantifier": "all IEEE formats, all insertion histories, all dimensions, all queries", "why_tests_cant": "NaN makes all comparisons false, so ordering invariants that tests with ordinary numbers confirm say nothing; which subtree is lost depends on the position of the NaN point in the tree.", "anchors": ["src/include/Geometry/KdTree.hpp:161-207", "src/include/Geometry/KdTree.hpp:209-243"]}
{"id": "C117", "title": "nearest is right in the presence of overflow", "statement": "In IEEE arithmetic, the point that nearest returns is nearest up to a relative error of a few units of roundoff, no intermediate result overflows. This holds for coordinates up to 2^k with 2 (k + 1) + D < emax (about 1e153 for double, 1e18 for float). It is false for larger coordinates: in every format and dimension there are two stored points and a query, all finite, for which nearest returns the point at twice the distance, because both squared distances are infinite.", "quantifier": "all IEEE formats with emax at least 4, all dimensions, all insertion histories, all queries", "why_tests_cant": "The limit depends on the format and the dimension; tests use ordinary coordinates.", "anchors": ["src/include/Geometry/KdTree.hpp:125-151", "src/include/Geometry/KdTree.hpp:209-243"]}
{"id": "C118", "title": "Bounding boxes of points with NaN or infinite coordinates", "statement": "In IEEE arithmetic, make_aabb and add ignore NaN: if at least one point is finite, the box of make_aabb has in each coordinate the smallest and largest value among the points without NaN, without any rounding or overflow, and a point with a NaN coordinate never makes a corner NaN; if every point has a NaN coordinate, the box is the inverted box (max, lowest). For points with infinite coordinates this is false: the other coordinates of such a point are lost, because infinity times zero is NaN, so the box does not contain it. add skips NaN coordinates one by one, a NaN corner stays NaN.", "quantifier": "all IEEE formats, all point lists, NaN and infinities anywhere", "why_tests_cant": "Which comparisons NaN and infinity win depends on operand order in each max and min; no finite set of point lists covers the positions.", "anchors": ["src/include/Geometry/AABB.hpp:143-165", "src/include/Geometry/ExtremePointsInDirection.hpp:27-51", "src/include/Geometry/AABB.hpp:101-114"]}
{"id": "C119", "title": "Degenerate input does not produce NaN", "statement": "Distances to segments and normals of meshes computed from finite coordinates are not NaN, and the comparison passed to std::sort in calc_vertex_normals is a strict weak order. False: the distance of any point to a segment whose end points coincide is NaN, the normal of a facet with two equal corners is NaN, and so are the vertex normals at its corners (also if proper facets meet there, and in whatever order the normals are sorted); NaN normals are incomparable with all others, so std::sort is called with a comparison that is not a strict weak order, which is undefined behaviour. On normals without NaN it is one.", "quantifier": "all IEEE formats, all end points, all triangle lists, all degenerate facets", "why_tests_cant": "A test can show one NaN; that it happens for every degenerate segment and facet, and at every corner whatever the sort does with an invalid order, is a statement about all inputs.", "anchors": ["src/include/Geometry/Distance/DistanceSegment.hpp:64-80", "src/include/Geometry/HalfedgeMesh/CalcFacetNormal.hpp:11-27", "src/include/Geometry/HalfedgeMesh/CalcVertexNormals.hpp:28-48"]}
{"id": "C120", "title": "Ordinary geometry of finite size does not overflow or underflow", "statement": "Lengths and directions of segments, distances of points to lines, rays, planes and spheres, intersections of planes and lines, images under transformations and facet normals, computed in IEEE arithmetic from finite coordinates, are finite and have the accuracy claimed for arithmetic without overflow. True for coordinates up to 2^k, where the exponent k is about half the largest one for lengths and distances, about a quarter of it for facet normals, and nearly all of it for planes and transformations. False beyond: in every format a segment of length sqrt(D) * 2^(emax/2) has computed length infinity and computed direction zero; a right-angled triangle with sides 2^(emax/4) (for float: 2^32) has the zero vector as its computed normal; and a short enough segment with distinct end points has computed length zero and a direction with infinite coordinates.", "quantifier": "all IEEE formats, dimensions, shapes and coordinates up to the stated size", "why_tests_cant": "Overflow happens in intermediate products far below the largest number; that no intermediate result overflows is a statement about all operands of that size.", "anchors": ["src/include/Geometry/Segment.hpp:34-35", "src/include/Geometry/Distance/DistanceLine.hpp:14-24", "src/include/Geometry/Distance/DistanceRay.hpp:16-40", "src/include/Geometry/Distance/DistancePlane.hpp:12-23", "src/include/Geometry/Distance/DistanceSphere.hpp:12-22", "src/include/Geometry/HalfedgeMesh/CalcFacetNormal.hpp:11-27", "src/include/Geometry/Intersect/IntersectPlane.hpp:36-53", "src/include/Geometry/Transform/TransformVec.hpp:12-17"]}
{"id": "C121", "title": "Debug output names the printed element", "statement": "print of a vertex, a facet or a half-edge of a built mesh writes one line that shows the element's own index and data, and never reads out of range. True for vertices, and for the vertex, point, facet and opposite of a half-edge; different half-edges give different lines unless a triangle has two equal corners. False for the index of a half-edge: the line shows the index of the first half-edge of its facet, wrong for two of three half-edges; and for facets: the number labelled as half-edge index is the index of the facet, wrong for all facets but the first.", "quantifier": "all meshes built from triangles, all vertices, facets and half-edges", "why_tests_cant": "The tests of these functions expect the wrong number for the second half-edge and look at the first two facets only through the same code; that the output is right or wrong for every element needs the index structure of all built meshes.", "anchors": ["src/include/Geometry/HalfedgeMesh/DebugHelper.hpp:34-99"]}
{"id": "C122", "title": "The area of the meshes approaches the area of the solid from below", "statement": "The surface of the mesh of a cylinder has the area n r^2 sin(2 pi/n) + 2 n r h sin(pi/n), the mesh of a cone n/2 r^2 sin(2 pi/n) + n r sin(pi/n) sqrt(r^2 cos^2(pi/n) + h^2), the mesh of a cuboid twice the sum of the areas of the three parallelograms spanned by its sides. The mesh of a sphere has an area between cos(pi/n) times and once 4 n sin(pi/n) cos(pi/(2p)) r^2. For the round solids the area never exceeds that of the exact solid and differs from it by at most a constant times 1/n^2 (plus 1/p^2 for spheres), however the two counts of a sphere are chosen.", "quantifier": "every solid over exact numbers with a radius that is not negative, every count of rings p (two or more) and sectors n (three or more), every index type that fits", "why_tests_cant": "Triangulating a curved surface ever finer does not by itself make the areas converge (Schwarz lantern), and no number of tested counts shows the rate; a facet counted twice, folded or missing changes the area.", "anchors": ["src/include/Geometry/HalfedgeMeshBuilder/SphereMeshBuilder.hpp:91-185", "src/include/Geometry/HalfedgeMeshBuilder/ConeMeshBuilder.hpp", "src/include/Geometry/HalfedgeMeshBuilder/CylinderMeshBuilder.hpp", "src/include/Geometry/HalfedgeMeshBuilder/CuboidMeshBuilder.hpp:57-123"]}
{"id": "C123", "title": "The empty box acts as the empty set", "statement": "The box without points, which AABB() makes and the intersection of two disjoint boxes returns, has no point in common with a ray or box, stays empty under intersection and changes nothing when added to another box. True for the intersection with another box in release builds, for rays parallel to a coordinate plane across which the box is empty, for boxes that do not reach over the gap, and for adding to bounds around it. False otherwise: for rays that are not parallel to a coordinate plane every box is treated as the box with its corners exchanged, so that the intersection of any two disjoint boxes is hit by rays through [-1, 1]^3 and reports points where they enter and leave; AABB() intersects every box around [-1, 1]^D, and computing this intersection stops at an assertion in debug builds; adding AABB() to a box moves every bound above 1 or below -1.", "quantifier": "all boxes, rays, dimensions (rays: 3) and tolerances", "why_tests_cant": "That an empty box is never hit is a statement about all rays and boxes; tests with axis-parallel rays pass although almost all other rays towards the origin fail.", "anchors": ["src/include/Geometry/AABB.hpp:27-31", "src/include/Geometry/AABB.hpp:84-94", "src/include/Geometry/AABB.hpp:120-133", "src/include/Geometry/Intersect/IntersectAABB.hpp:25-77", "src/include/Geometry/Intersect/IntersectAABB.hpp:110-133", "src/include/Geometry/Intersect/IntersectAABBHelper.hpp:29-106"]}
{"id": "C124", "title": "Meshes move along with their solids", "statement": "Moving the triangles by any map that keeps different points different and then building gives the mesh built from the unmoved triangles with its points moved, and the same vertices, half-edges, facets and opposite links in the same order. So translating a sphere, cone or cylinder and building it gives the translated mesh, scaling a sphere gives the scaled mesh, moving a cuboid by an affine map gives the moved mesh (and a debug build refuses both or neither), and the placement of an index buffer changes nothing but the points. False for rotations of the round solids: for every sphere, cone and cylinder some rotation leaves the solid as it is but moves a point of its mesh to where the mesh has none, so rotating the solid and rotating its mesh give different meshes.", "quantifier": "all triangle lists and index buffers that fit the index type, injective maps, solids, counts, translations; whatever rot_align returns", "why_tests_cant": "That no decision of the builder (welding, order, opposite links) depends on where the points lie is a statement about all inputs and maps; two tested positions do not show it.", "anchors": ["src/include/Geometry/HalfedgeMesh/MeshPoints.hpp:65-69", "src/include/Geometry/HalfedgeMeshBuilder/MeshTriangleAdder.hpp", "src/include/Geometry/HalfedgeMeshBuilder/SphereMeshBuilder.hpp:77-185", "src/include/Geometry/HalfedgeMeshBuilder/ConeMeshBuilder.hpp:46-71", "src/include/Geometry/HalfedgeMeshBuilder/CylinderMeshBuilder.hpp:45-67", "src/include/Geometry/HalfedgeMeshBuilder/CuboidMeshBuilder.hpp:57-123", "src/include/Geometry/Transform/TransformSphere.hpp:12-16", "src/include/Geometry/Transform/TransformCone.hpp", "src/include/Geometry/Transform/TransformCylinder.hpp:12-16"]}
{"id": "C125", "title": "Rejecting by bounding boxes loses no hits", "statement": "The box make_aabb returns for the points of a mesh contains every point of every facet and touches a vertex on each of its sides, so that a ray that hits the surface passes the ray/box test, and two meshes whose surfaces meet have boxes that pass the box/box test. True for the box itself, for rays whose direction components are zero or larger than eps, and for boxes if a common point lies more than eps inside one of them. False otherwise: for every eps below 1/2 some mesh is hit by a ray that fails the test with its (valid) box, and two meshes in one plane perpendicular to an axis never pass the box/box test, not even a mesh with itself.", "quantifier": "every mesh with at least one point, every ray, every tolerance, every dimension of the box (3)", "why_tests_cant": "A filter that wrongly rejects shows only for the rare ray or pair of meshes that a test happens to hit; that none is lost is a statement about all surfaces, not their vertices.", "anchors": ["src/include/Geometry/AABB.hpp:143-165", "src/include/Geometry/Intersect/IntersectAABB.hpp:25-43", "src/include/Geometry/Intersect/IntersectAABB.hpp:79-109", "src/include/Geometry/Intersect/IntersectAABBHelper.hpp:29-106", "src/include/Geometry/ExtremePointsInDirection.hpp:27-51"]}
{"id": "C126", "title": "Intersections and distances agree", "statement": "A point that intersect reports for two shapes has distance zero, up to the tolerance, from both of them when asked with the distance functions, and intersect finds a common point exactly when the distance of the shapes is zero up to the tolerance. True for the points of line/line, plane/line, plane/ray, sphere/line and sphere/ray, for the distance of lines that are not nearly parallel (as absolute value), and for the distance of a sphere's centre from a line compared with the radius. False for lines with a negative distance, for nearly parallel lines that meet, for the point where a plane cuts a segment (distance says half of the length away), and for a segment and a ray (a point is reported at any distance).", "quantifier": "all shapes with non-zero directions and radii that are not negative, every tolerance", "why_tests_cant": "Each function is tested by itself; that two functions never contradict each other is a statement about all pairs of shapes, and the contradictions sit at lengths and angles tests do not use.", "anchors": ["src/include/Geometry/Distance/DistanceLine.hpp:14-39", "src/include/Geometry/Distance/DistanceRay.hpp:16-40", "src/include/Geometry/Distance/DistancePlane.hpp:12-23", "src/include/Geometry/Distance/DistanceSphere.hpp:12-22", "src/include/Geometry/Distance/DistanceSegment.hpp:64-80", "src/include/Geometry/Distance/DistanceSegment.hpp:111-199", "src/include/Geometry/Intersect/IntersectLine.hpp:19-68", "src/include/Geometry/Intersect/IntersectPlane.hpp:36-89", "src/include/Geometry/Intersect/IntersectSphere.hpp:35-109", "src/include/Geometry/Intersect/IntersectSegment.hpp:84-113"]}
{"id": "C127", "title": "Ray/box test with huge and unbounded boxes", "statement": "With IEEE numbers, roundings, overflow and infinite box coordinates included: a ray with finite origin that starts inside a box hits it in every direction, making a box larger never loses a hit, and for finite numbers of moderate size the test is the one studied with exact infinities.", "quantifier": "every IEEE format, every ray with finite origin whose direction components are taken for zero or have a finite reciprocal other than zero, every box without NaN", "why_tests_cant": "Overflow of (min - origin) * invDir and boxes with infinite corners are outside every ordinary test; the claim is about all bit patterns.", "anchors": ["src/include/Geometry/Intersect/IntersectAABBHelper.hpp:29-106", "src/include/Geometry/Intersect/IntersectAABB.hpp:111-133"]}
{"id": "C128", "title": "Ray/box test and NaN", "statement": "A box with a NaN coordinate is not reported as hit because of that coordinate: at most the axis with the NaN is ignored.", "quantifier": "every IEEE format, every ray and box with a NaN corner coordinate", "why_tests_cant": "Which operand std::min and std::max return for NaN depends on the order of arguments; the combination over three axes is easily misjudged.", "anchors": ["src/include/Geometry/Intersect/IntersectAABBHelper.hpp:86-105"]}
{"id": "C129", "title": "Building a mesh from any coordinates is defined", "statement": "buildMesh from a triangle list runs to its end in a release build whatever the coordinates, the arithmetic and the equality of points do (NaN, infinity, an equality that is not transitive): every triangle gets its facet and three half-edges, every opposite handle is either the invalid handle or leads to a half-edge whose end point was found equal, and asking whether the mesh is valid never reads out of range. A debug build returns the same mesh or stops at an assertion.", "quantifier": "every triangle list that fits the index type, every coordinate type, arithmetic, comparison and equality of points", "why_tests_cant": "No test covers coordinate types or equalities that do not exist yet, nor every NaN and infinity among them; that no access is out of range is a statement about all executions.", "anchors": ["src/include/Geometry/HalfedgeMeshBuilder/MeshTriangleAdder.hpp", "src/include/Geometry/KdTree.hpp:125-151", "src/include/Geometry/KdTree.hpp:209-243"]}
{"id": "C130", "title": "Mesh from triangles with a NaN coordinate", "statement": "Whenever a corner of a triangle list has a NaN coordinate, building the mesh stops at an assertion in a debug build; a release build returns a mesh that isValid rejects, in which no other half-edge starts at the vertex of that corner, and the half-edge that ends there has no opposite, so that asking for its opposite reads out of range.", "quantifier": "every IEEE format, every triangle list, every position of the NaN", "why_tests_cant": "The position of the NaN decides which node of the tree is compared when; a test covers one position in one list.", "anchors": ["src/include/Geometry/HalfedgeMeshBuilder/MeshTriangleAdder.hpp", "src/include/Geometry/HalfedgeMesh/HalfedgeMesh.hpp", "src/include/Geometry/HalfedgeMesh/MeshPoints.hpp:65-69"]}
{"id": "C131", "title": "Mesh from triangles with an infinite coordinate", "statement": "Infinite coordinates are values like others that compare equal to themselves, so triangles with infinite corners give a mesh with opposite links as finite ones do. False: a single triangle whose third corner has an infinite coordinate stops at an assertion in a debug build, and gives a mesh that isValid rejects in a release build, because the distance of an infinite point from itself is NaN and the search for the nearest point never leaves the root.", "quantifier": "every IEEE format, every triangle of different corners without NaN whose third corner has an infinite coordinate", "why_tests_cant": "Needs the interplay of the equality of points and the distance of the tree for all triangles.", "anchors": ["src/include/Geometry/HalfedgeMeshBuilder/MeshTriangleAdder.hpp", "src/include/Geometry/KdTree.hpp:209-243"]}
{"id": "C132", "title": "Mesh from huge finite coordinates", "statement": "Overflow of the squared distances in the kd-tree does no harm to mesh building: in IEEE arithmetic, for finite corners of any size of which any two are equal or differ enough for the square of a difference not to underflow, debug and release builds finish and every half-edge gets an opposite with equal end points, even if the computed distances of all different corners are infinite.", "quantifier": "every IEEE format, every triangle list with finite coordinates up to the largest number", "why_tests_cant": "All distances being infinite makes every comparison in the search a tie; that the exact match is still found in every tree is a statement about all insertion orders.", "anchors": ["src/include/Geometry/HalfedgeMeshBuilder/MeshTriangleAdder.hpp", "src/include/Geometry/KdTree.hpp:125-151", "src/include/Geometry/KdTree.hpp:209-243"]}
{"id": "C133", "title": "The alternative generator of cylinder meshes is safe and closed", "statement": "CylinderMeshBuilder contains a second way to compute points (calc_cylinder_points) and triangle indices (calc_cylinder_triangle_indices) of a cylinder, which nothing calls so far. It can be used instead of calc_cylinder_triangles: the vector of points is never accessed out of range, the indices are those of 4 n triangles with corners among the 2 n + 2 points, and the surface is closed and consistently oriented. False: for every count n the point generator reads and writes its vector of n points at index n, and for every n >= 2 two triangles of the bottom use the same directed edge. True: number and range of the indices.", "quantifier": "all counts n >= 1 that the index type can hold, all radii and heights, all coordinate types", "why_tests_cant": "Private functions without a caller are compiled at most, never run; out of range accesses of a vector with reserved capacity rarely show.", "anchors": ["src/include/Geometry/HalfedgeMeshBuilder/CylinderMeshBuilder.hpp:136-163", "src/include/Geometry/HalfedgeMeshBuilder/CylinderMeshBuilder.hpp:165-179", "src/include/Geometry/HalfedgeMeshBuilder/CylinderMeshBuilder.hpp:181-221"]}
{"id": "C134", "title": "Normals of sphere meshes approximate the normals of the sphere", "statement": "A renderer shades a sphere mesh with its facet or vertex normals as if they were the normals of the sphere. Both have length one. The normal of a facet differs from the direction from the centre to any point of that facet, and the normal of a vertex from the direction from the centre to that vertex, by at most sqrt((pi/n)^2 + (pi/(2p))^2) for n sectors and p rings. In general, if a ball of radius rho lies strictly behind all facets of a mesh, the planes that its facet normals and vertex normals define keep the distance rho from the centre of the ball.", "quantifier": "every sphere with positive radius over exact numbers, every count of rings p (two or more) and sectors n (three or more), every facet, vertex and point of a facet; the general form for every triangle list", "why_tests_cant": "An error bound that vanishes with the counts, for all counts and all vertices including the poles, where n facets meet; a test looks at one resolution.", "anchors": ["src/include/Geometry/HalfedgeMesh/CalcFacetNormal.hpp", "src/include/Geometry/HalfedgeMesh/CalcVertexNormals.hpp:15-52", "src/include/Geometry/HalfedgeMeshBuilder/SphereMeshBuilder.hpp"]}
{"id": "C135", "title": "Normals of cylinder, cone and cuboid meshes have the values geometry gives", "statement": "Cylinder: facets of bottom and lid have the normals -a and a (a the direction of the axis), a facet of the mantle a normal perpendicular to the axis that deviates by the angle pi/n from the radial direction at its corners; the two centres have the normals -a and a, a vertex on a circle in the radial direction u the direction of -a + 2 cos(pi/n) u or a + 2 cos(pi/n) u. Cone: facets of the base have the normal -a, the planes of the mantle facets contain the apex and their normals have the axial component r cos(pi/n)/q with q = sqrt(h^2 + r^2 cos^2(pi/n)); the centre of the base has the normal -a, the apex exactly a, a vertex on the circle the direction of -a + 2 cos(pi/n)/q (h u + r a). Cuboid: facets have the unit normals of the faces, and each corner the direction of the sum of its three face normals, although the corner has one triangle in some faces and two in others; with left-handed sides all normals are reversed.", "quantifier": "every cylinder and cone that is not degenerate over exact numbers, every count n (three or more), every facet and vertex; every cuboid with independent sides", "why_tests_cant": "Exact values for all counts and placements; a test compares few vertices of one mesh with numbers printed by the same code.", "anchors": ["src/include/Geometry/HalfedgeMesh/CalcFacetNormal.hpp", "src/include/Geometry/HalfedgeMesh/CalcVertexNormals.hpp:15-52", "src/include/Geometry/HalfedgeMeshBuilder/CylinderMeshBuilder.hpp", "src/include/Geometry/HalfedgeMeshBuilder/ConeMeshBuilder.hpp", "src/include/Geometry/HalfedgeMeshBuilder/CuboidMeshBuilder.hpp"]}
{"id": "C136", "title": "Meshes of solids are watertight", "statement": "The surface of a mesh built from triangles without boundary (every directed edge also occurs in the other direction) cannot be escaped: a ray from a point strictly behind all facets hits the surface, whatever its direction. If also no vertex lies in front of a facet, the surface is exactly the boundary of the convex hull of the vertices, the inner points of that hull are exactly the points strictly behind all facets, every ray from an inner point hits the surface exactly once, and from every other point some ray misses it. The meshes of spheres (radius positive, polar count at least 2, azimuth count n at least 3), cones and cylinders (radius not zero, ends distinct, n at least 3), and cuboids with independent sides of either handedness all are of this kind. From the centre of a sphere mesh there is exactly one surface point in every direction, at distance between r cos(pi/n) cos(pi/(2p)) and r; the hull of a cone or cylinder mesh lies in the cone or cylinder and contains the inner points of the one with radius r cos(pi/n); the hull of a cuboid mesh is the parallelepiped.", "quantifier": "all closed convex triangle lists, all solids in the stated ranges whose indices fit the index type, all segment counts, all directions and points over the reals", "why_tests_cant": "No finite set of rays shows that a surface has no gap, and the vertices alone do not tell: a missing or doubled facet leaves them all in place.", "anchors": ["src/include/Geometry/HalfedgeMeshBuilder/SphereMeshBuilder.hpp", "src/include/Geometry/HalfedgeMeshBuilder/ConeMeshBuilder.hpp", "src/include/Geometry/HalfedgeMeshBuilder/CylinderMeshBuilder.hpp", "src/include/Geometry/HalfedgeMeshBuilder/CuboidMeshBuilder.hpp", "src/include/Geometry/HalfedgeMeshBuilder/MeshTriangleAdder.hpp"]}
{"id": "C137", "title": "Swapping the two shapes does not change the answer", "statement": "Whether two segments of the plane, two segments of space, two lines of the plane or two lines of space intersect does not depend on the order in which they are passed, and neither does whether a debug build stops; this holds bit for bit in rounded arithmetic too. In exact arithmetic the intersection points agree as well (for lines of space up to the tolerance, which is the distance allowed between them), and in debug builds the rounded points of two segments of the plane agree. The distance of two lines is the same in both orders when they are exactly parallel or not nearly parallel, also in rounded arithmetic in the second case. False in two respects: for nearly parallel lines the distance can be any value in one order and zero in the other, and of two skew segments of space the reported points lie at any distance.", "quantifier": "all segments and lines, all tolerances, exact and rounded arithmetic of any precision (without overflow)", "why_tests_cant": "That two different formulas agree in every bit for all inputs cannot be sampled, and the failing cases need nearly parallel lines.", "anchors": ["src/include/Geometry/Intersect/IntersectSegment.hpp", "src/include/Geometry/Intersect/IntersectLine.hpp", "src/include/Geometry/ClosetPointOnLine.hpp", "src/include/Geometry/Distance/DistanceLine.hpp"]}
{"id": "C138", "title": "Results depend on the line, plane or segment and not on how it is given", "statement": "A line can be given by any of its points and either direction, a plane by any of its points and either normal, a segment from either end. The distance of a point and a line, of a line and a ray, of a point and a plane, the intersections of lines of the plane and of space, of planes with lines, rays and segments (for another description of the plane), of spheres with lines (up to the order of the two points), of two segments and of a segment and a ray, and the distance of a segment to a ray not nearly parallel to it, do not change. False elsewhere: the distance of two lines changes its sign with the direction of one, and for nearly parallel lines any value can be had by choosing another point; the distance of a point and a segment, and of a segment and a parallel ray, depends on the end the segment is given from; a plane through the source of a segment is not found, through the target it is; a segment touching a sphere may have a reported point from one end and none from the other.", "quantifier": "all lines, planes, segments, rays, spheres over exact numbers, every tolerance; the failures for every height or length", "why_tests_cant": "Equality of results over all descriptions of a line or plane; unit tests use one description each, mostly the one with origin zero.", "anchors": ["src/include/Geometry/Intersect/IntersectSegment.hpp", "src/include/Geometry/Intersect/IntersectLine.hpp", "src/include/Geometry/Intersect/IntersectPlane.hpp", "src/include/Geometry/Intersect/IntersectSphere.hpp", "src/include/Geometry/ClosetPointOnLine.hpp", "src/include/Geometry/Distance/DistanceLine.hpp", "src/include/Geometry/Distance/DistanceSegment.hpp", "src/include/Geometry/Distance/DistancePlane.hpp", "src/include/Geometry/Distance/DistanceRay.hpp"]}
{"id": "C139", "title": "A hit of a part is a hit of the whole, and the whole is not farther than its parts", "statement": "A point reported for a plane or sphere and a ray is reported, as the same point, for the line of the ray; this holds in every arithmetic, bit for bit. A line is not farther from a point than a ray or segment of it, a ray is not farther than its origin and exceeds the distance of a segment of it by at most the tolerance, and a line is not farther from a ray than from the ray's origin. Where the lines are not nearly parallel and the segments not short, hits of segments are hits of their lines too, and distances to lines do not exceed those to rays and segments on them. False otherwise: a segment may hit a plane although its line does not, two segments may cross although their lines do not, two segments of space may be reported to meet although their lines are skew, a short segment may touch a sphere its line misses, the distance of a line to a ray may be 0 while the distance to the line of the ray is any number, and the distance of a point and a segment may exceed the distance to the segment's source by any amount.", "quantifier": "all planes, spheres, rays, segments, lines and points; every tolerance; the first claim for every number type", "why_tests_cant": "The failures sit at nearly parallel or short inputs; that the rest holds for all inputs and tolerances is not a matter of samples.", "anchors": ["src/include/Geometry/Intersect/IntersectPlane.hpp", "src/include/Geometry/Intersect/IntersectSphere.hpp", "src/include/Geometry/Intersect/IntersectSegment.hpp", "src/include/Geometry/Intersect/IntersectLine.hpp", "src/include/Geometry/Distance/DistanceLine.hpp", "src/include/Geometry/Distance/DistanceRay.hpp", "src/include/Geometry/Distance/DistanceSegment.hpp"]}
{"id": "C140", "title": "Small changes of the input change the results by little", "statement": "Moving the query point and the line or plane (without turning it) changes the distance by no more than the sum of the two ways; the same for spheres, where the change of the radius is added, for the distance found by a nearest neighbour search, where the stored points may move too, and for the corners of a bounding box. If a plane and a line, or two lines of the plane, have a reported intersection and are moved, they still have one, and it moves by at most 1/eps and 1 + 1/eps times the ways; the two points on a sphere move by at most the change of the squared radius over the square root of eps. False for rays and segments: the distance of a point and a ray jumps by the tolerance eps where the foot point passes eps (up to such a jump the bound holds), and the distance of a point and a segment of length l changes up to l - 1 times as fast as the point (and never more than l + 1 times).", "quantifier": "all inputs over the reals, all tolerances, all ways, all sets of stored points", "why_tests_cant": "A bound on the change over all pairs of inputs; a jump is hit by a test only if it happens to sample both sides.", "anchors": ["src/include/Geometry/Distance/DistanceLine.hpp", "src/include/Geometry/Distance/DistancePlane.hpp", "src/include/Geometry/Distance/DistanceSphere.hpp", "src/include/Geometry/Distance/DistanceRay.hpp", "src/include/Geometry/Distance/DistanceSegment.hpp", "src/include/Geometry/KdTree.hpp", "src/include/Geometry/AABB.hpp", "src/include/Geometry/Intersect/IntersectPlane.hpp", "src/include/Geometry/Intersect/IntersectLine.hpp", "src/include/Geometry/Intersect/IntersectSphere.hpp"]}
{"id": "C141", "title": "A mesh can be built in stages", "statement": "Triangles may be added to a mesh that was built and linked before. This succeeds in every build while the handles suffice, adds one facet and three half-edges per triangle, and disturbs nothing: points, half-edges with all their links, and facets keep index and content, vertices keep their index and their half-edges. Until the links are computed again the new half-edges carry the invalid handle and is_valid does not return true. Computing the links again gives, handle for handle, the mesh that adding all triangles at once gives; computing them twice changes nothing.", "quantifier": "all lists of triangles, all splits of the list, all handle types large enough, debug and release builds; the first two claims for every point type and every comparison of points", "why_tests_cant": "That no later addition ever disturbs earlier elements, and that stale links never survive relinking, is a statement over all meshes and all splits.", "anchors": ["src/include/Geometry/HalfedgeMeshBuilder/MeshTriangleAdder.hpp", "src/include/Geometry/HalfedgeMesh/HalfedgeMesh.hpp", "src/include/Geometry/HalfedgeMeshBuilder/MeshBuilderBase.hpp"]}
{"id": "C142", "title": "Distances of points and segments in floating point", "statement": "The computed distance of a point and a segment is never below the true distance by more than a small multiple of the rounding unit times the lengths involved, and it agrees up to such an error with the value of the formula in exact arithmetic. It can be above the true distance, but by no more than the distance of the point from the source times |length - 1| (the routine clips a length to [0, 1] as if it were a parameter), plus that error; for every length l of at least 1 this excess is reached. So for segments of length 1 the result is the distance up to rounding.", "quantifier": "all segments and points, all dimensions D, all binary formats with 64 (D + 2) <= 2^prec, barring overflow; the excess over the reals", "why_tests_cant": "The error bound ranges over all inputs and all formats, and the excess depends on the length of the segment, which tests with unit segments never show.", "anchors": ["src/include/Geometry/Distance/DistanceSegment.hpp", "src/include/Geometry/Segment.hpp"]}
{"id": "C143", "title": "Mesh building with a comparison of points that has a tolerance", "statement": "If points are compared with a tolerance (any reflexive and symmetric comparison, transitive or not), the mesh built from a list of triangles is the mesh exact comparison gives for the triangles whose corners were each replaced by the first kept corner they compare equal to; outcome and handles agree in both builds. The mesh points are corners, no two of them compare equal, and every half-edge starts at a point that compares equal to its corner. If different corners never compare equal the result is the one of exact comparison. Over the reals building succeeds, and the mesh is valid exactly if no directed edge of the replaced triangles occurs three times; with a tolerance eps per coordinate no half-edge starts further than eps from its corner in any coordinate. That corners share a vertex exactly if they compare equal is false in both directions, and the number of vertices depends on the order of the triangles.", "quantifier": "all coordinate types and all reflexive symmetric comparisons, all lists of triangles that fit the handles, debug and release builds; success and the bound for all tolerances over the reals", "why_tests_cant": "The comparison comes from another library and is not transitive; a test fixes one comparison and a few triangles.", "anchors": ["src/include/Geometry/HalfedgeMeshBuilder/MeshTriangleAdder.hpp", "src/include/Geometry/HalfedgeMesh/MeshPoints.hpp", "src/include/Geometry/KdTree.hpp"]}
{"id": "C144", "title": "Nearest neighbour tree with a comparison of points that has a tolerance", "statement": "If points are compared with a tolerance, a search for any inserted point still succeeds, and a search that succeeds has found an inserted point that compares equal. insert returns true exactly if the search for the point failed before, and changes nothing otherwise. The tree is the one exact comparison builds from part of the insertions in their order, and every inserted point compares equal to one of that part. With a tolerance eps per coordinate over the reals, nearest returns an inserted entry, at most sqrt(D) eps further away than the nearest inserted point, and the nearest one if different points are more than eps apart in some coordinate. That stored points never compare equal is false, and so is that the size does not depend on the order of insertion.", "quantifier": "all histories of insertions, all query points, dimensions, payloads and depth counters; all comparisons (reflexive where needed); the nearest point for all tolerances over the reals", "why_tests_cant": "Whether two points within the tolerance are told apart depends on the path through the tree, that is on the whole history.", "anchors": ["src/include/Geometry/KdTree.hpp"]}
{"id": "C145", "title": "Building solids with a comparison of points that has a tolerance", "statement": "With points compared up to eps in every coordinate, cones and cylinders of n sides whose radius exceeds sqrt(3) eps n and whose height exceeds sqrt(3) eps, spheres of radius r with counts up to N and eps N^2 < 2 r, and cuboids any two corners of which differ by more than eps in some coordinate are built with the same vertices, half-edges, facets and links as with exact comparison. Cuboids have the same points too. A sphere has the same points unless its centre is within eps of zero, then it is built around zero. A cone or cylinder has the same points unless its placement compares equal to the identity, then it is not placed; if that comparison allows delta per entry, no coordinate of a point is off by more than delta (1 + |x| + |y| + |z|). Debug builds accept exactly the cuboids described, for a box given by its diagonal those thicker than eps in every direction. If all corners of a list of triangles agree with the first corner up to eps, building succeeds with a single vertex and a mesh that is not valid.", "quantifier": "all sizes, counts, axes and tolerances over the reals, all handle types that suffice, debug and release builds, all comparisons of matrices with the stated bound", "why_tests_cant": "Which sizes and counts a tolerance tolerates is a relation between four numbers; a test shows one combination that works.", "anchors": ["src/include/Geometry/HalfedgeMeshBuilder/MeshBuilderBase.hpp", "src/include/Geometry/HalfedgeMeshBuilder/ConeMeshBuilder.hpp", "src/include/Geometry/HalfedgeMeshBuilder/CylinderMeshBuilder.hpp", "src/include/Geometry/HalfedgeMeshBuilder/SphereMeshBuilder.hpp", "src/include/Geometry/HalfedgeMeshBuilder/CuboidMeshBuilder.hpp", "src/include/Geometry/HalfedgeMeshBuilder/MeshTriangleAdder.hpp"]}
{"id": "C146", "title": "Intersections of segments in space, and of segments and rays, are accurate in floating point", "statement": "For segments of any length (and rays with a direction of any length) whose angle has a sine of at least s, s^2 >= 256 u, with W a bound on the distance of the sources and E = (u/s^2)(W/s): the reported point is within u |P| + 127 E of P, the exact point of its line that is closest to the other line. If a point is reported, the two closest points lie on the segments (the ray) prolonged by the tolerance and 122 E; and a point is reported whenever they lie on the segments (the ray) prolonged by the tolerance and shortened by 122 E. So segments with a common point are reported to meet, within u |x| + 127 E of that point x, whenever the tolerance times their lengths covers 122 E.", "quantifier": "all floating point formats with at least nine digits, all roundings to nearest, all segments and rays at an angle whose lengths are between m and 1/m with u m^4 above underflow, all tolerances", "why_tests_cant": "A bound over all inputs and formats, relative to the exact segments although already their directions are rounded; a test compares a few results with a guessed tolerance.", "anchors": ["src/include/Geometry/Intersect/IntersectSegment.hpp", "src/include/Geometry/ClosetPointOnLine.hpp"]}
{"id": "C147", "title": "What the intersection of segments of the plane and the sweep line report in floating point is sound", "statement": "Release builds, with any arithmetic (NaN included), any order of the events and any behaviour of the tree of active segments: the sweep reads nothing out of range, reports at most three points per segment, and each of them is what intersect returns for two different input segments. In rounded arithmetic without overflow: let the directions of two segments and the difference of their sources have coordinates up to L, the first source coordinates up to A, let D be the determinant of the directions and 72 u L^2 <= |D|. If intersect reports a point, and the tolerance rejects parameters outside [-t, 1+t] with t at most 1, then the exact lines meet in a point that lies on both segments prolonged by t + 40 u L^2/|D| times their lengths, and the reported point is within u (64 L^3/|D| + A) of it in every coordinate. So for coordinates up to M every point of the sweep belongs to two different input segments and, unless |D| < 288 u M^2, is within u (512 M^3/|D| + M) of a common point of these, prolonged by t + 160 u M^2/|D|.", "quantifier": "all coordinate types for the first part; all floating point formats with at least ten digits and all roundings to nearest, all lists of segments above underflow, all orders of events, all tolerances up to 1 for the others", "why_tests_cant": "That no wrong point is ever reported is a statement about all pairs of segments, all roundings and all orders of events; a test sees a few points that happen to be right.", "anchors": ["src/include/Geometry/Intersect/IntersectSegment.hpp", "src/include/Geometry/Intersect/BentleyOttmann.hpp"]}
{"id": "C148", "title": "Projections, measures of cones, and corners and centres of boxes in floating point", "statement": "The extreme projections of points of length up to R on a direction of length up to N are within 2 (D + 2) u R N of the exact ones (u unit roundoff, D dimension). The slant height of a cone has a relative error of at most 10 u, whatever the ratio of radius and height; its opening angle is within 25 u radians of the exact angle, for needles and flat cones alike, if the inverse tangent of the library is within 2 u. The box from a corner and a non-negative edge length starts at the corner, is not inverted and has a far corner with relative error u; that a positive edge gives a box that is more than a point is false: in every format there is a corner for which the box with edge one is that point, and debug builds accept it. With overflow (IEEE): the centre of a box with finite corners, not inverted, is finite and in the box for corners up to 2^(emax-2), but false beyond: in every format the centre of the box from -2^(emax-1) to 2^(emax-1) is infinite.", "quantifier": "all floating point formats with enough digits and roundings to nearest, all lists of points, directions, cones, corners and edges above underflow", "why_tests_cant": "A bound over all inputs and formats; the failures need corners a test would not choose.", "anchors": ["src/include/Geometry/ExtremePointsInDirection.hpp", "src/include/Geometry/Cone.hpp", "src/include/Geometry/AABB.hpp"]}
{"id": "C149", "title": "Intersections of segments of the plane and the sweep line do not overflow for coordinates of moderate size", "statement": "With IEEE numbers (overflow, infinities, NaN) and coordinates up to 2^k, 2 k + 4 < emax: two segments that cross are found to cross, at a finite point with the error bound for arithmetic without overflow (u (50 L^3 / |D| + A), see C97). With a tolerance that takes determinants below 2^-j for zero and 2 k + j + 4 < emax, every reported point, alone or by the sweep in release builds, is finite, and within u (64 L^3 / |D| + A) of a common point of the exact segments prolonged by the tolerance. Without a bound on the coordinates this is false: in every format there are two crossing segments with finite ends, up to 2^(emax-1), for which a point with coordinates NaN is reported. If emax = 2 n + 2, as for float and double, already the segments from (-2^n, 0) to (2^n, 0) and from (0, -2^n) to (0, 2^n), which meet in the origin, are reported to meet in (-2^n, 0): a finite and wrong point.", "quantifier": "all IEEE formats with at least ten digits, all roundings to nearest, all segments with coordinates up to 2^k, all orders of events, all tolerances with the stated bounds", "why_tests_cant": "Overflow of an intermediate product needs coordinates no test uses, and that none occurs below a bound is a statement about all segments.", "anchors": ["src/include/Geometry/Intersect/IntersectSegment.hpp", "src/include/Geometry/Intersect/BentleyOttmann.hpp"]}
{"id": "C150", "title": "Intersections of segments in space, and of segments and rays, do not overflow for coordinates of moderate size", "statement": "With IEEE numbers (overflow, infinities, NaN) and coordinates up to 2^k: segments at an angle with a common point x are found to meet, at a finite point within u |x| + 127 E of x (E as in C146), if 4 k + 11 < emax and the tolerance covers the error. With a tolerance that takes denominators below 2^-j for zero and 4 k + j + 11 < emax (5 k + j + 13 < emax for a ray), every reported point is finite, within u |P| + 127 E of the point P of the first exact line closest to the second one, and the two closest points lie on the segments (the ray) prolonged by the tolerance and 122 E. Without a bound on the coordinates this is false: if emax = 4 n + 4, as for float and double, the segments from (-2^n, 0, 0) to (2^n, 0, 0) and from (0, -2^n, 0) to (0, 2^n, 0), which meet in the origin only, are reported to meet in (-2^n, 0, 0).", "quantifier": "all IEEE formats with at least nine digits, all roundings to nearest, all segments and rays at an angle with coordinates up to 2^k, all tolerances with the stated bounds", "why_tests_cant": "The failure is a plausible finite point at a quarter of the exponent range, far from what a test uses; that none occurs below a bound is a statement about all segments.", "anchors": ["src/include/Geometry/Intersect/IntersectSegment.hpp", "src/include/Geometry/ClosetPointOnLine.hpp"]}
{"id": "C151", "title": "Meshes with more elements than their index type can number, in release builds", "statement": "In debug builds a mesh that needs more half-edges than the index type (M values) can number fails an assertion (C42, C61). In release builds, adding triangles never accesses anything outside of its arrays. It ends exactly if there are at most M different corner points, with all triangles, the different corners as points, and half-edge k starting at corner k; otherwise it never ends. Building from an index buffer ends if all indices are in range and there are at most M points. A mesh with M or more half-edges is recognisable: is_valid returns false. That it can still be used is false: for every M = 3 q + 1 (so for all unsigned types), as soon as there is one triangle too many, the half-edges of the last facet are twice the same one and calc_vertex_facets of some vertex reads out of range; with one more triangle, calc_halfedges of the first facet never ends.", "quantifier": "all numbers of index values, all lists of triangles, all types of points and comparisons (lawful ones for the number of points)", "why_tests_cant": "A test would have to build a mesh of the size of the index type; what happens depends on where indices wrap around.", "anchors": ["src/include/Geometry/HalfedgeMeshBuilder/MeshTriangleAdder.hpp", "src/include/Geometry/HalfedgeMesh/HalfedgeMesh.hpp", "src/include/Geometry/HalfedgeMesh/MeshPoints.hpp", "src/include/Geometry/HalfedgeMesh/CalcFaceHalfedges.hpp", "src/include/Geometry/HalfedgeMesh/CalcVertexFacets.hpp", "src/include/Geometry/HalfedgeMeshBuilder/MeshBuilderBase.hpp"]}
{"id": "C152", "title": "Exporting indices as numbers of a narrower type", "statement": "For a mesh built from triangles and any unsigned type U with MU values: calc_triangle_indices<U> always ends without error, in debug builds too, with the number of the point at each corner modulo MU. Looked up in the points they are the triangles of the mesh exactly if there are at most MU points. calc_line_indices<U> fails an assertion of a debug build exactly if there are more than MU points. In release builds it ends with the increasing list of the pairs of numbers, modulo MU, of points joined by a side; every side is in the list exactly if there are at most MU points, so otherwise sides are lost silently.", "quantifier": "all lists of triangles over any type of points with lawful equality, all index types M of the mesh that can hold it, all MU", "why_tests_cant": "A test would need a mesh larger than U for every U; the exported numbers look plausible.", "anchors": ["src/include/Geometry/HalfedgeMesh/CalcTriangleIndices.hpp"]}
{"id": "C153", "title": "Spheres and lines, rays and segments in IEEE arithmetic do not miss each other by overflow", "statement": "In IEEE arithmetic with overflow: for spheres, lines and rays with coordinates and radius up to 2^k, 2k + 14 < emax (segments: 4k + 14 < emax, and 2k + q + 8 < emax where the squared length is at least 2^-q), nothing overflows, all reported points are finite and all that C107 says holds of them: points clearly present are reported to the stated accuracy, points clearly absent are not. Without the bound this is false: for every format and every n with emax <= 2n < 2 emax a line, a ray and a segment through the centre of the sphere of radius 2^n around the origin, stored with an origin on the sphere, are reported not to meet it.", "quantifier": "all IEEE formats with at least 11 bits, all finite spheres, lines, rays and segments within the bounds, all tolerances that do not tell the two zeros apart", "why_tests_cant": "Tests use coordinates of ordinary size; the numbers that overflow are squares and fourth powers of the coordinates, which tests at the limits of the coordinates themselves do not single out.", "anchors": ["src/include/Geometry/Intersect/IntersectSphere.hpp"]}
{"id": "C154", "title": "Planes and rays or segments, and pairs of lines, in IEEE arithmetic meet where they should unless sums of coordinates overflow", "statement": "In IEEE arithmetic with overflow, for coordinates up to 2^k and angles whose sine is at least 2^(1-j): the intersection of a plane and a ray (k + j + 7 < emax), of a plane and a segment (k + j + 5 < emax, where the ends of the segment differ by at least 2^(1-j) along the normal), of two lines in the plane (k + j + 5 < emax) and of two lines in space (2k + 2j + 31 < emax, squared sine) neither overflows nor yields a point with a coordinate that is not finite, and all that C105, C113 and C114 say holds of it. Nearly parallel lines in the plane are reported not to meet, whatever their origins. Without the bound this is false for every format and every tolerance: with M = 2^(emax-1), the ray from (0,0,-M) along z and the plane z = M, the segment from (0,0,-M) to (0,0,M) and the plane z = 0, and the lines through (M,0) along x and (-M,0) along y, in the plane and in space, are reported not to meet or to meet in a point with a coordinate that is infinite or NaN.", "quantifier": "all IEEE formats with at least 9 bits, all finite planes, rays, segments and lines within the bounds, all tolerances", "why_tests_cant": "Tests use coordinates of ordinary size; that nothing overflows below an explicit bound for every angle, and that no tolerance whatever repairs the results beyond it, are statements over all values.", "anchors": ["src/include/Geometry/Intersect/IntersectPlane.hpp", "src/include/Geometry/Intersect/IntersectLine.hpp", "src/include/Geometry/ClosetPointOnLine.hpp"]}
{"id": "C155", "title": "Distances of lines, of a line and a ray and of a point and a segment in IEEE arithmetic are right unless sums of coordinates overflow", "statement": "In IEEE arithmetic with overflow, for coordinates up to 2^k: the distance computed for two lines in space whose directions span a parallelogram of area at least 2^(1-j) (k + j + 9 < emax), for two parallel lines (2k + 23 < emax), for a line and a ray with squared sine at least 2^(1-j) (2k + 2j + 31 < emax) or parallel (2k + 23 < emax), and for a point and a segment of length at least 2^(1-j) in any dimension D (2k + D + j + 6 < emax) is finite, and within the bounds of C113, C114 and C142 of the exact distance of the exact lines, rays and segments. Without the bound this is false for every format and every tolerance: with M = 2^(emax-1), the line through (M,0,0) along x meets the line through (-M,0,0) along y and the ray from there, and the point (-M,0,0) lies on the segment from it to (M,0,0), but all three distances are infinite or NaN instead of zero.", "quantifier": "all IEEE formats with at least 9 bits, all finite lines, rays, segments and points within the bounds, all tolerances, with and without assertions", "why_tests_cant": "Tests use coordinates of ordinary size; that nothing overflows below an explicit bound for every angle and length, and that beyond it objects that touch have no finite distance whatever the tolerance, are statements over all values.", "anchors": ["src/include/Geometry/Distance/DistanceLine.hpp", "src/include/Geometry/Distance/DistanceRay.hpp", "src/include/Geometry/Distance/DistanceSegment.hpp", "src/include/Geometry/ClosetPointOnLine.hpp"]}
{"id": "C156", "title": "Debug and release builds do the same", "statement": "Every function that checks something with GEO_ASSERT has the same outcome in a debug and in a release build (the same value, or the same failure such as reading out of range), unless the debug build stops at an assertion, which a release build never does. So no assertion has a side effect the result depends on, and what a debug build returns, the release build returns. This holds for every number type and every equality of points (rounded arithmetic, NaN and infinity included), for all inputs, whether valid or not, and for every sequence of setter calls and of calls on a mesh builder.", "quantifier": "all functions with assertions, all number types and tolerance functions, all inputs, all sequences of calls", "why_tests_cant": "Tests run one build. That the other build agrees on all inputs, also on invalid ones and in sequences of calls, is a statement about pairs of executions.", "anchors": ["src/include/Geometry/Utils/Assert.hpp:50-63", "src/include/Geometry/AABB.hpp:33-55,143-165", "src/include/Geometry/ExtremePointsInDirection.hpp:27-51", "src/include/Geometry/Circle.hpp:21-76", "src/include/Geometry/Ray.hpp:20-25", "src/include/Geometry/Distance/DistanceLine.hpp:26-39", "src/include/Geometry/Intersect/IntersectSegment.hpp:21-52", "src/include/Geometry/Intersect/IntersectAABBHelper.hpp:108-113", "src/include/Geometry/HalfedgeMesh/CalcTriangleIndices.hpp:45-88", "src/include/Geometry/HalfedgeMeshBuilder/MeshTriangleAdder.hpp:47-180", "src/include/Geometry/HalfedgeMeshBuilder/MeshBuilderBase.hpp:26-58"]}
{"id": "C157", "title": "On integer coordinates the nearest neighbour is exact", "statement": "If all coordinates of the stored points and of the query are integer multiples of one power of two and the squared distances (in this unit) are at most 2^(prec-2), nearest returns a truly nearest point in floating point arithmetic, with the payload of its first insertion: rounding and pruning have no influence. For double: integers up to about 13 million in space. The bound is sharp up to a factor of two: for a format with an odd number of digits such as double, with squared distances 2^(prec-1) and 2^(prec-1)+1 nearest can return the farther point.", "quantifier": "every binary floating point format and every rounding to nearest, every dimension, every history of insertions on a grid, every query on the grid", "why_tests_cant": "The bound depends on the precision and on the smallest gap between rounded square roots of different integers; a test sees few of the pairs of distances.", "anchors": ["src/include/Geometry/KdTree.hpp:125-151", "src/include/Geometry/KdTree.hpp:209-243"]}
{"id": "C158", "title": "Transformations and projections of integer data are exact", "statement": "If all products that occur and the translation are integer multiples of one power of two and their absolute values add up to at most 2^prec such units (9007199254740992 for double), transform gives the exact image of a point. Transforming by the inverse then gives back the very same point. With integer entries bounded by M, N and V, 4MN(3V+1) at most 2^prec, transforming by the product of two matrices and transforming by one after the other agree bit for bit. Under the same conditions extremePointsAlongDirection returns exactly the least and the greatest projection. The bound is sharp in every format.", "quantifier": "every binary floating point format and every rounding to nearest, every matrix and point on a grid, every list of points in every dimension", "why_tests_cant": "Whether a sum is rounded depends on all digits of all summands; a test tries few matrices and points, and those with small numbers hide the limit.", "anchors": ["src/include/Geometry/Transform/TransformVec.hpp:12-17", "src/include/Geometry/ExtremePointsInDirection.hpp"]}
{"id": "C159", "title": "Lengths on integer coordinates are correctly rounded, and points and integer spheres are told apart exactly", "statement": "If the coordinates of a segment are integer multiples of one power of two and its squared length in this unit is at most 2^prec (double: integers up to 27 million in space), the computed length is the exact length rounded once, and exact if the length is an integer in this unit. Up to 2^(prec-2) computed lengths of different segments are ordered exactly as the lengths. For a sphere with integer centre and radius the computed signed distance of an integer point is positive exactly outside, zero exactly on the sphere, and distance is zero exactly on the sphere. contains decides exactly, if its tolerance is less than one unit divided by 2(2r+1).", "quantifier": "every binary floating point format and every rounding to nearest, every pair of points of a grid (every dimension for lengths), every integer radius, every comparison with a small enough tolerance", "why_tests_cant": "Whether the sum of squares is rounded depends on all digits; points one unit off a large sphere are at a distance of about 1/(2r) from it and no test goes through them all.", "anchors": ["src/include/Geometry/Segment.hpp:34", "src/include/Geometry/Distance/DistanceSphere.hpp:12-22", "src/include/Geometry/Sphere.hpp:31-34"]}
{"id": "C160", "title": "Meshes of cuboids with integer coordinates are oriented outward in floating point exactly for right-handed sides", "statement": "For a cuboid whose origin and sides are integer multiples of one power of two, with linearly independent sides and coordinates small enough that no sum is rounded, the mesh built in floating point arithmetic has twelve facets. If the determinant of the sides is positive, every facet has the centre strictly behind it and no vertex in front of it; if it is negative, every facet has the centre strictly in front of it and no vertex behind it.", "quantifier": "every binary floating point format and every rounding to nearest, every such cuboid, debug and release builds, every index type that can number 36 half-edges", "why_tests_cant": "Orientation is the sign of a determinant for each of twelve facets and eight vertices; rounded corners could be welded or leave the plane of their face for some of the unlimited number of oblique cuboids.", "anchors": ["src/include/Geometry/HalfedgeMeshBuilder/CuboidMeshBuilder.hpp:80-102"]}
{"id": "C161", "title": "Axis-parallel vectors are measured and normalised exactly", "statement": "The computed length of a vector along a coordinate axis is exactly the absolute value of its coordinate and its computed unit vector is exactly the unit vector along the axis, although square, root and quotient are each rounded. So lines, rays and planes made with such a vector store the exact unit vector, the direction of an axis-parallel segment is exact and its length correctly rounded, and the normal of a facet parallel to a coordinate plane is exactly its unit normal with the right sign.", "quantifier": "every binary floating point format and every rounding to nearest, every dimension, every axis and coordinate whose square does not underflow; facets of every mesh built from triangles, with the angle and area conditions of C111", "why_tests_cant": "For a format like double there are 2^62 coordinates, and that the rounding errors of the square and of the root cancel holds in binary only, by an argument on the spacing of the numbers; tests check single coordinates.", "anchors": ["src/include/Geometry/Line.hpp:18-22", "src/include/Geometry/Ray.hpp:20-25", "src/include/Geometry/Plane.hpp:20-24", "src/include/Geometry/Segment.hpp:30-35", "src/include/Geometry/HalfedgeMesh/CalcFacetNormal.hpp:11-27"]}
{"id": "C162", "title": "Distances of points to axis-parallel planes, lines and rays have no error but that of a length", "statement": "The computed distance of a point and a plane made with a normal along an axis is the correctly rounded distance, and zero exactly for the points of the plane. The computed distance of a point and an axis-parallel line is the computed length of the segment from the point to the nearest point of the line, so its error is relative to the distance itself and not to the distance to the stored origin; it is zero for points of the line and in the plane it is correctly rounded. For an axis-parallel ray it is the computed length of the segment to the nearest point of the ray whenever the tolerant comparison decides rightly on which side of the origin the point is.", "quantifier": "every binary floating point format and every rounding to nearest, all points and origins, every axis, every normal or direction along it whose square does not underflow, every dimension for lines and rays", "why_tests_cant": "The claim concerns all pairs of floating point points and shows that projection, division and subtraction are exact in this position; tests with convenient numbers cannot tell a correctly rounded result from one with a small error.", "anchors": ["src/include/Geometry/Distance/DistancePlane.hpp:12-23", "src/include/Geometry/Distance/DistanceLine.hpp:14-24", "src/include/Geometry/Distance/DistanceRay.hpp:16-40"]}
{"id": "C163", "title": "Computed intersection points keep, exactly, the coordinates that a line, ray or segment does not change", "statement": "Where the direction of a line or ray has a zero coordinate, or the end points of a segment share a coordinate, every point computed for it has exactly the coordinate of the origin or source: in the intersection of a line with a plane, a line and a sphere, of a ray with a plane, a segment, a sphere and a box, of a segment with a plane, a segment and a sphere, and of lines and segments in the plane. Lines and rays made with a direction that has a zero coordinate store a zero there.", "quantifier": "every binary floating point format and every rounding to nearest, all tolerances, all operands, every coordinate", "why_tests_cant": "The claim is about every computed point for all floating point operands, however large the error in the other coordinates is; no tests can show that no rounding ever leaks into the remaining coordinates.", "anchors": ["src/include/Geometry/Intersect/IntersectPlane.hpp:19-89", "src/include/Geometry/Intersect/IntersectLine.hpp:19-68", "src/include/Geometry/Intersect/IntersectSegment.hpp:21-113", "src/include/Geometry/Intersect/IntersectSphere.hpp:35-160", "src/include/Geometry/Intersect/IntersectAABB.hpp:172-200"]}
{"id": "C164", "title": "Intersections with axis-parallel planes are accurate whatever the angle", "statement": "For a plane made with a normal along an axis and any line or ray whose direction has a non-zero coordinate along it, every coordinate of the computed point is within 2^-prec (|x| + 4 |x - o|) of that of the only common point x (o is the origin of the line), up to underflow, however flat the line meets the plane; for a segment the factor is 7. Whether there is an intersection is decided by that coordinate of the direction without error. For a line along the normal the computed point is exactly the common point whenever the difference of the two coordinates is a floating point number, and keeps the other coordinates in any case.", "quantifier": "every binary floating point format of at least 4 bits and every rounding to nearest, all planes with a normal along an axis whose square does not underflow, all lines, rays and segments not parallel to the plane, all tolerances", "why_tests_cant": "The general bound (C105) grows with the square of the inverse sine of the angle; that it does not for axis-parallel planes is a statement about all angles down to the smallest floating point number, which tests cannot reach.", "anchors": ["src/include/Geometry/Intersect/IntersectPlane.hpp:19-89"]}
{"id": "C165", "title": "Intersections with axis-parallel lines in the plane are accurate whatever the angle, and exact for two axis-parallel lines", "statement": "For any line of the plane and a line made along an axis, both coordinates of the computed point are within 2^-prec (|x| + 4 |x - o|) of those of the only common point x (o is the origin of the first line), up to underflow, however flat the lines meet. Whether there is an intersection is decided by one coordinate of the direction without error. For two lines made along different axes the computed point is exactly the common point whenever the difference of the coordinates is a floating point number, and has the coordinate of the first line in any case.", "quantifier": "every binary floating point format of at least 4 bits and every rounding to nearest, all lines made along an axis with a direction whose square does not underflow, all first lines not parallel to them, all tolerances", "why_tests_cant": "The statement is about all angles down to the smallest floating point number and all origins; tests with convenient directions cannot tell a bound independent of the angle from one that grows when lines become parallel.", "anchors": ["src/include/Geometry/Intersect/IntersectLine.hpp:19-40"]}
{"id": "C166", "title": "Axis-parallel rays and boxes are intersected exactly", "statement": "For a ray made along an axis and a box: if the box is not beside the ray, the origin is in front of the box and the box is thicker than the tolerance, the test says yes and the two points reported have exactly the other coordinates of the origin and along the ray the coordinate o + (face - o) as computed. If these differences are floating point numbers, the common part of the ray and the box is exactly the segment between the two computed points. If the origin is in the box, farther than the tolerance from the face behind it, only the point where the ray leaves is reported, and the common part is exactly the segment from the origin to it. If the box lies behind the origin, or beside the ray in a coordinate the ray does not change, by more than the tolerance, neither function reports anything and there is no common point.", "quantifier": "every binary floating point format and every rounding to nearest, every tolerance that is one-sided (FlTol), both build modes, all origins, boxes, axes and signs of the direction whose square does not underflow", "why_tests_cant": "The general result (C103) has rounding errors in every coordinate; exactness for all origins and boxes in axis-parallel position, in both directions along every axis, is a statement about all floating point numbers.", "anchors": ["src/include/Geometry/Intersect/IntersectAABBHelper.hpp:29-113", "src/include/Geometry/Intersect/IntersectAABB.hpp:110-200"]}
{"id": "C167", "title": "Distances of axis-parallel lines are correctly rounded", "statement": "For two lines made along different axes the computed distance is, up to its sign, the correctly rounded distance of the lines; the assertions hold. For two lines made along the same axis it is the computed length of a segment from the first origin to the nearest point of the second line, whose length is the distance of the lines, so that it has only the error of a length.", "quantifier": "every binary floating point format and every rounding to nearest, both build modes, all origins, all pairs of axes, all directions along them whose squares do not underflow", "why_tests_cant": "A statement about all origins in floating point; tests with convenient numbers cannot tell correct rounding from a small error in normalisation, cross product or projection.", "anchors": ["src/include/Geometry/Distance/DistanceLine.hpp:26-39"]}
{"id": "C168", "title": "The centre of a box with finite corners is a finite point of the box", "statement": "With IEEE numbers, for every box whose corners are finite and not inverted, AABB::center is finite and lies between the corners in every coordinate. Refuted: in a coordinate in which the extent max - min overflows, the centre is plus infinity, e.g. for the box from -2^1023 to 2^1023 in double precision, whose centre is the origin. It holds in exactly those coordinates in which the rounded extent is below the overflow threshold, however thin, tiny or far away the box is.", "quantifier": "every IEEE format (float, double and all others) and every rounding to nearest, every dimension, all boxes with finite corners; no bound on the size", "why_tests_cant": "Overflow happens only for extents near the largest number, and staying within the corners after three roundings is a statement about all pairs of floating point numbers; tests try a few boxes of moderate size.", "anchors": ["src/include/Geometry/AABB.hpp:63"]}
{"id": "C169", "title": "Boxes with NaN corners meet no box", "statement": "The box/box test and intersection with IEEE numbers: a box with NaN corners has no points, so it is not valid, it meets no box and intersecting with it gives no points. Refuted: a box of NaNs counts as valid and not empty, meets every box, and the intersection of it with a valid box is whichever of the two is given first. What holds, with exact comparisons: two boxes are found apart exactly if in some coordinate the maximum of one and the minimum of the other are numbers, infinite ones included, with the maximum not above the minimum; this does not depend on the order of the two boxes.", "quantifier": "every IEEE format, every dimension, all boxes with finite, infinite or NaN corners; the refutation for every valid box, both build modes and every comparison that is false for NaN", "why_tests_cant": "Tests rarely use NaN or infinite corners, and the characterisation is about every combination of them in every coordinate.", "anchors": ["src/include/Geometry/Intersect/IntersectAABB.hpp:25-77", "src/include/Geometry/AABB.hpp:69-94"]}
