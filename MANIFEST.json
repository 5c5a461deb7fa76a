{
 "claims": [
  {
   "property": "C01",
   "status": "proved",
   "theorems": [
    "Verif.C01_search_iff_inserted",
    "Verif.C01_search_iff_mem",
    "Verif.C01_tolerance_counterexample"
   ],
   "note": "C01_tolerance_counterexample: for an equality up to a tolerance it is false. All histories, all dimensions, any coordinate type, any width of size_type; == any symmetric, transitive relation whose equal vectors compare alike, not necessarily reflexive (exact equality as corollary; IEEE equality with NaN: C116)."
  },
  {
   "property": "C02",
   "status": "proved",
   "theorems": [
    "Verif.C02_insert"
   ],
   "note": ""
  },
  {
   "property": "C03",
   "status": "proved",
   "theorems": [
    "Verif.C03_size_mod",
    "Verif.C03_size_exact",
    "Verif.C03_size_wraps"
   ],
   "note": "Exact while the count fits the size type; the wrap-around at 2^w is proved too."
  },
  {
   "property": "C04",
   "status": "proved",
   "theorems": [
    "Verif.C04_nearest",
    "Verif.C04_nearest_reachable"
   ],
   "note": "Real coordinates (sqrt exact)."
  },
  {
   "property": "C05",
   "status": "proved",
   "theorems": [
    "Verif.C04_nearest",
    "Verif.C05_nearest_of_stored",
    "Verif.C05_write",
    "Verif.C05_points_distinct"
   ],
   "note": "Real coordinates."
  },
  {
   "property": "C06",
   "status": "partial",
   "theorems": [
    "Verif.C06_code_zero",
    "Verif.C06_code_partial",
    "Verif.C06_degenerate_counterexample"
   ],
   "note": "False for single-point intervals (proved counterexample); proved for intervals longer than eps, code 0 for all."
  },
  {
   "property": "C07",
   "status": "proved",
   "theorems": [
    "Verif.C07_result_two",
    "Verif.C07_result_one",
    "Verif.C07_symmetric"
   ],
   "note": "Up to the comparison tolerance eps, any ordered field."
  },
  {
   "property": "C08",
   "status": "proved",
   "theorems": [
    "Verif.C08_add",
    "Verif.C08_addBox"
   ],
   "note": ""
  },
  {
   "property": "C09",
   "status": "proved",
   "theorems": [
    "Verif.C09_history",
    "Verif.C09_contains"
   ],
   "note": ""
  },
  {
   "property": "C10",
   "status": "proved",
   "theorems": [
    "Verif.C10_order",
    "Verif.C10_order_exact"
   ],
   "note": ""
  },
  {
   "property": "C11",
   "status": "proved",
   "theorems": [
    "Verif.C11_make_aabb",
    "Verif.C11_empty"
   ],
   "note": "Real coordinates within numeric_limits."
  },
  {
   "property": "C12",
   "status": "partial",
   "theorems": [
    "Verif.C12_default_counterexample",
    "Verif.C12_default_partial",
    "Verif.C12_default_invalid",
    "Verif.C12_exact"
   ],
   "note": "False (proved counterexample): the default bounds 1/-1 stay in the result; proved when the points straddle them. C12_exact: each single bound is right if some point is clearly beyond the default bound, and equal to the default bound if none is."
  },
  {
   "property": "C13",
   "status": "partial",
   "theorems": [
    "Verif.C13_valid_partial",
    "Verif.C13_doc_false",
    "Verif.C13_empty"
   ],
   "note": "is_valid is strict: min = max is reported invalid although the documentation says min <= max (proved); is_empty is exact up to eps."
  },
  {
   "property": "C14",
   "status": "proved",
   "theorems": [
    "Verif.C14_symmetric",
    "Verif.C14_exact"
   ],
   "note": ""
  },
  {
   "property": "C15",
   "status": "proved",
   "theorems": [
    "Verif.C15_intersect"
   ],
   "note": ""
  },
  {
   "property": "C16",
   "status": "partial",
   "theorems": [
    "Verif.C16_partial",
    "Verif.C16_slack_partial",
    "Verif.C16_counterexample"
   ],
   "note": "False for directions with a component that is non-zero but within eps (C16_counterexample). Proved for all other unit directions; for every unit direction with slack eps*(1+t)."
  },
  {
   "property": "C17",
   "status": "proved",
   "theorems": [
    "Verif.C17_no_false_negative"
   ],
   "note": "Over any ordered field, for unit directions whose components are 0 or larger than eps."
  },
  {
   "property": "C18",
   "status": "proved",
   "theorems": [
    "Verif.C18_reported",
    "Verif.C18_chord"
   ],
   "note": "Over any ordered field, for unit directions whose components are 0 or larger than eps; the call never trips its assertion."
  },
  {
   "property": "C19",
   "status": "proved",
   "theorems": [
    "Verif.C19_minimum",
    "Verif.C19_none"
   ],
   "note": "Over the reals, any dimension, every eps > 0."
  },
  {
   "property": "C20",
   "status": "proved",
   "theorems": [
    "Verif.C20_point_line"
   ],
   "note": "Over the reals, any dimension."
  },
  {
   "property": "C21",
   "status": "proved",
   "theorems": [
    "Verif.C21_point_ray",
    "Verif.C21_point_ray_exact"
   ],
   "note": "Over the reals, any dimension."
  },
  {
   "property": "C22",
   "status": "proved",
   "theorems": [
    "Verif.C22_point_plane"
   ],
   "note": "Over the reals."
  },
  {
   "property": "C23",
   "status": "proved",
   "theorems": [
    "Verif.C23_point_sphere",
    "Verif.C23_signed",
    "Verif.C23_contains"
   ],
   "note": "Over the reals."
  },
  {
   "property": "C24",
   "status": "partial",
   "theorems": [
    "Verif.C24_partial",
    "Verif.C24_counterexample",
    "Verif.C24_symmetric",
    "Verif.C24_exact"
   ],
   "note": "False: the result can be negative (proved). Its absolute value is the distance, and it is symmetric, for parallel lines and for lines with sin(angle) > eps; nearly parallel lines: see C73. C24_exact: the sign is right exactly if the connection of the origins and the two directions form no left-handed system."
  },
  {
   "property": "C25",
   "status": "proved",
   "theorems": [
    "Verif.C25_line_ray"
   ],
   "note": "Parallel or sin^2(angle) > eps; false in between (C73)."
  },
  {
   "property": "C26",
   "status": "partial",
   "theorems": [
    "Verif.C26_partial",
    "Verif.C26_exact",
    "Verif.C26_upper_partial",
    "Verif.C26_counterexample"
   ],
   "note": "False: the parameter is divided by the length instead of its square (proved counterexample). C26_exact characterises the inputs with a right answer: length 1, a foot point before the source, or both the projection and the length-divided projection beyond the target. The result is always an upper bound."
  },
  {
   "property": "C27",
   "status": "partial",
   "theorems": [
    "Verif.C27_partial",
    "Verif.C27_nearest_partial",
    "Verif.C27_attained_partial",
    "Verif.C27_parallel_partial",
    "Verif.C27_exact",
    "Verif.C27_counterexample"
   ],
   "note": "False: both parameters are clamped independently (proved counterexample). C27_exact: for clearly non-parallel inputs the result is right if and only if the two clamped points are nearest to each other on segment and ray. Proved when the closest points of the carrier lines lie on both, for parallel unit segments up to 2 eps, and as an upper bound; for all clearly non-parallel inputs the two points the result belongs to are determined."
  },
  {
   "property": "C28",
   "status": "proved",
   "theorems": [
    "Verif.C28_sound",
    "Verif.C28_complete"
   ],
   "note": "Over the reals, for lines built by the constructor from non-zero directions and every positive tolerance."
  },
  {
   "property": "C29",
   "status": "proved",
   "theorems": [
    "Verif.C29_sound",
    "Verif.C29_complete",
    "Verif.C29_none"
   ],
   "note": "Over the reals. 'Not parallel' is sin^2 > eps (the default tolerance is used for that test whatever eps is passed)."
  },
  {
   "property": "C30",
   "status": "proved",
   "theorems": [
    "Verif.C30_sound",
    "Verif.C30_complete",
    "Verif.C30_parallel",
    "Verif.C30_none"
   ],
   "note": "Over any ordered field; the assertion at the end never fails."
  },
  {
   "property": "C31",
   "status": "partial",
   "theorems": [
    "Verif.C31_complete_partial",
    "Verif.C31_closest_partial",
    "Verif.C31_sound_partial",
    "Verif.C31_counterexample"
   ],
   "note": "False as stated: skew segments at any distance are reported to intersect (C31_counterexample). Proved: completeness, and soundness of what the returned point is (on the first segment, closest to the second carrier line, common point if the carrier lines meet)."
  },
  {
   "property": "C32",
   "status": "partial",
   "theorems": [
    "Verif.C32_complete_partial",
    "Verif.C32_closest_partial",
    "Verif.C32_sound_partial",
    "Verif.C32_counterexample"
   ],
   "note": "The overload with exchanged arguments calls the modelled one (IntersectSegment.hpp:108-113). False as stated: a ray passing a segment at any distance is reported to intersect (C32_counterexample). Proved: completeness, and what the returned point is."
  },
  {
   "property": "C33",
   "status": "proved",
   "theorems": [
    "Verif.C33_sound",
    "Verif.C33_complete"
   ],
   "note": "Over the reals; 'not parallel' is |cos(direction, normal)| > eps."
  },
  {
   "property": "C34",
   "status": "partial",
   "theorems": [
    "Verif.C34_sound",
    "Verif.C34_complete_partial",
    "Verif.C34_counterexample",
    "Verif.C34_near"
   ],
   "note": "False at the ray origin (C34_counterexample). Proved: soundness, completeness for common points further than eps from the origin. C34_near: every common point nearer than eps to the origin is missed."
  },
  {
   "property": "C35",
   "status": "partial",
   "theorems": [
    "Verif.C35_sound",
    "Verif.C35_complete_partial",
    "Verif.C35_counterexample",
    "Verif.C35_near"
   ],
   "note": "False at the segment source (C35_counterexample). Proved: soundness, completeness for common points at parameter > eps. C35_near: every common point at a parameter below eps is missed."
  },
  {
   "property": "C36",
   "status": "proved",
   "theorems": [
    "Verif.C36_crossing",
    "Verif.C36_touching",
    "Verif.C36_missing",
    "Verif.C36_reading",
    "Verif.C36_hasIntersection"
   ],
   "note": "Over the reals; touching means |h^2 - r^2| <= eps/4 with h the distance of the centre from the line."
  },
  {
   "property": "C37",
   "status": "proved",
   "theorems": [
    "Verif.C37_sound",
    "Verif.C37_complete",
    "Verif.C37_near",
    "Verif.C37_hasIntersection"
   ],
   "note": "Over the reals. In the touch band one point stands for both common points; C37_near bounds the error by sqrt(eps)/2."
  },
  {
   "property": "C38",
   "status": "partial",
   "theorems": [
    "Verif.C38_sound_partial",
    "Verif.C38_complete_partial",
    "Verif.C38_missing_partial",
    "Verif.C38_hasIntersection_partial",
    "Verif.C38_counterexample_missed",
    "Verif.C38_counterexample_unsound",
    "Verif.C38_touch",
    "Verif.C38_touch_exact"
   ],
   "note": "False when the segment touches the sphere: the tangent parameter is computed as -b/2*a. Proved for segments whose carrier line clearly crosses or misses. C38_touch: a touching segment of length l reports the point at l^4 times the right parameter; C38_touch_exact: so it is right exactly if l is 1 or it touches in its source."
  },
  {
   "property": "C39",
   "status": "proved",
   "theorems": [
    "Verif.C39_real"
   ],
   "note": "For every list of segments, every order of events with equal x and every behaviour of the status tree; 'lies on' is up to the parameter tolerance of intersect."
  },
  {
   "property": "C40",
   "status": "partial",
   "theorems": [
    "Verif.C40_counterexample",
    "Verif.C40_many_counterexample",
    "Verif.C40_touch_counterexample",
    "Verif.C40_two_partial",
    "Verif.C40_vertical_partial",
    "Verif.boThree_result"
   ],
   "note": "False: three segments whose last crossing is never reported, and two segments of which the vertical one starts on the other, for every order and every tree that respects the comparator. C40_many_counterexample: of n(n-1)/2 crossings of n segments in general position at most 3n are reported, whatever the tree. Proved for two segments given from left to right, one of which may be vertical."
  },
  {
   "property": "C41",
   "status": "proved",
   "theorems": [
    "Verif.C41_linear"
   ],
   "note": "2n events, at most 3n points."
  },
  {
   "property": "C42",
   "status": "proved",
   "theorems": [
    "Verif.C42_add_triangles",
    "Verif.C42_capacity_exact"
   ],
   "note": "Any point type and any point equality; debug and release builds."
  },
  {
   "property": "C43",
   "status": "proved",
   "theorems": [
    "Verif.C43_vertices"
   ],
   "note": "Exact point equality."
  },
  {
   "property": "C44",
   "status": "proved",
   "theorems": [
    "Verif.C44_next_prev"
   ],
   "note": ""
  },
  {
   "property": "C45",
   "status": "proved",
   "theorems": [
    "Verif.C45_facet_loop",
    "Verif.C45_triangle_indices"
   ],
   "note": "Exact point equality for the triangle indices."
  },
  {
   "property": "C46",
   "status": "proved",
   "theorems": [
    "Verif.C46_vertex_halfedges"
   ],
   "note": "Exact point equality."
  },
  {
   "property": "C47",
   "status": "partial",
   "theorems": [
    "Verif.C47_counterexample",
    "Verif.C47_opposite_is_self",
    "Verif.C47_opposite_partial"
   ],
   "note": "False: the code looks for a half-edge with the same direction, so on a consistently oriented surface every half-edge is its own opposite (C47_counterexample, C47_opposite_is_self). C47_opposite_partial says which half-edge is stored."
  },
  {
   "property": "C48",
   "status": "proved",
   "theorems": [
    "Verif.C48_build_succeeds",
    "Verif.C48_is_valid"
   ],
   "note": "Over the reals, exact point equality, any tree size type."
  },
  {
   "property": "C49",
   "status": "proved",
   "theorems": [
    "Verif.C49_line_indices"
   ],
   "note": "Exact point equality."
  },
  {
   "property": "C50",
   "status": "proved",
   "theorems": [
    "Verif.C50_vertex_facets"
   ],
   "note": "Exact point equality."
  },
  {
   "property": "C51",
   "status": "proved",
   "theorems": [
    "Verif.C51_facet_normal"
   ],
   "note": "Over the reals, exact point equality; degenerate triangles give NaN in C++ and are excluded."
  },
  {
   "property": "C52",
   "status": "proved",
   "theorems": [
    "Verif.C52_vertex_normals",
    "Verif.C52_split_independent"
   ],
   "note": "Over the reals (in floating point the normals of coplanar triangles can differ by rounding and are then not merged). Vertices whose normals cancel out give NaN in C++ and are excluded."
  },
  {
   "property": "C53",
   "status": "partial",
   "theorems": [
    "Verif.C53_vertex_eq_exact",
    "Verif.C53_counterexample",
    "Verif.C53_vertex_eq_partial",
    "Verif.C53_contains_vertex_partial",
    "Verif.C53_contains_facet",
    "Verif.C53_contains_halfedge_partial",
    "Verif.C53_counterexample_halfedge"
   ],
   "note": "False: vertex == is asymmetric and reads out of range for copies taken earlier; half-edges of another mesh are 'contained'. Proved for the current elements of one mesh and for facets."
  },
  {
   "property": "C54",
   "status": "partial",
   "theorems": [
    "Verif.C54_counterexample",
    "Verif.C54_round_trip_partial"
   ],
   "note": "False: elements keep pointing to the source, which is empty or gone after the move. Moving back restores navigation."
  },
  {
   "property": "C55",
   "status": "proved",
   "theorems": [
    "Verif.C55_discretize",
    "Verif.C55_direction",
    "Verif.C55_discretize_xy"
   ],
   "note": "Over the reals (exact sine and cosine)."
  },
  {
   "property": "C56",
   "status": "proved",
   "theorems": [
    "Verif.C56_in_range",
    "Verif.C56_closed",
    "Verif.C56_no_cone",
    "Verif.C56_largest_count_diverges"
   ],
   "note": "Over the reals, exact point equality; rot_align is external and only assumed to return a rotation taking the z-axis to the axis direction. Counts must fit the index type: at its largest value the loop never ends (C56_largest_count_diverges)."
  },
  {
   "property": "C57",
   "status": "partial",
   "theorems": [
    "Verif.C57_closed",
    "Verif.C57_in_range_partial",
    "Verif.C57_small_counterexample",
    "Verif.C57_no_cylinder"
   ],
   "note": "Closed for n >= 3 and in range for n >= 2 (same assumptions as C56). The last part is false: n = 0 and n = 1 read outside the point array (C57_small_counterexample)."
  },
  {
   "property": "C58",
   "status": "proved",
   "theorems": [
    "Verif.C58_in_range",
    "Verif.C58_closed",
    "Verif.C58_small_counterexample"
   ],
   "note": "Over the reals, exact point equality; counts whose index buffer fits the index type. With polar count 1 or azimuth count 0 the builder reads outside the point array (C58_small_counterexample)."
  },
  {
   "property": "C59",
   "status": "proved",
   "theorems": [
    "Verif.C59_cuboid",
    "Verif.C59_accepts"
   ],
   "note": "Over the reals, exact point equality (in floating point the same corner is computed by sums in different orders, so rounding can produce more than eight vertices)."
  },
  {
   "property": "C60",
   "status": "proved",
   "theorems": [
    "Verif.C60_cone",
    "Verif.C60_cylinder",
    "Verif.C60_sphere",
    "Verif.C60_distinct"
   ],
   "note": "Over the reals."
  },
  {
   "property": "C61",
   "status": "proved",
   "theorems": [
    "Verif.C61_debug",
    "Verif.C61_release",
    "Verif.C61_facets",
    "Verif.C61_capacity"
   ],
   "note": "Over the reals; index buffers that fit the index type."
  },
  {
   "property": "C62",
   "status": "proved",
   "theorems": [
    "Verif.C62_affine",
    "Verif.C62_compose",
    "Verif.C62_identity",
    "Verif.C62_segment",
    "Verif.C62_affine_needed"
   ],
   "note": "Over any field; the inner matrix must be affine (last row 0 0 0 1), which C62_affine_needed shows to be necessary."
  },
  {
   "property": "C63",
   "status": "partial",
   "theorems": [
    "Verif.C63_counterexample",
    "Verif.C63_partial",
    "Verif.C63_debug"
   ],
   "note": "False: a rotation by 180 degrees trips the assertion or gives an inverted box (C63_counterexample). Proved: it holds exactly for linear parts without negative entries."
  },
  {
   "property": "C64",
   "status": "proved",
   "theorems": [
    "Verif.C64_sphere",
    "Verif.C64_contains"
   ],
   "note": "Over the reals, rigid motions."
  },
  {
   "property": "C65",
   "status": "partial",
   "theorems": [
    "Verif.C65_counterexample",
    "Verif.C65_partial",
    "Verif.C65_exact",
    "Verif.C65_circle2"
   ],
   "note": "False for 3D circles: the normal is not rotated (C65_counterexample). Proved exactly for rigid motions that keep the normal up to sign (C65_partial, C65_exact), and for circles in the plane."
  },
  {
   "property": "C66",
   "status": "proved",
   "theorems": [
    "Verif.C66_cone",
    "Verif.C66_cylinder"
   ],
   "note": "Over the reals, rigid motions."
  },
  {
   "property": "C67",
   "status": "proved",
   "theorems": [
    "Verif.C67_line",
    "Verif.C67_ray",
    "Verif.C67_plane"
   ],
   "note": "Over the reals. A debug build refuses ray directions of length <= eps."
  },
  {
   "property": "C68",
   "status": "proved",
   "theorems": [
    "Verif.C68_corners",
    "Verif.C68_all_choices",
    "Verif.C68_distinct",
    "Verif.C68_diagonal",
    "Verif.C68_diagonal_independent"
   ],
   "note": "Over any field."
  },
  {
   "property": "C69",
   "status": "proved",
   "theorems": [
    "Verif.C69_measures"
   ],
   "note": "Over the reals."
  },
  {
   "property": "C70",
   "status": "partial",
   "theorems": [
    "Verif.C70_order",
    "Verif.C70_invalid",
    "Verif.C70_counterexample"
   ],
   "note": "The order and the reserved value are proved; a default constructed plain Handle is valid (C70_counterexample), only the three index types default to invalid."
  },
  {
   "property": "C71",
   "status": "proved",
   "theorems": [
    "Verif.C71_extreme",
    "Verif.C71_any_direction"
   ],
   "note": "Over the reals, for projections within numeric_limits; debug builds refuse directions whose length is not one up to the tolerance."
  },
  {
   "property": "C72",
   "status": "proved",
   "theorems": [
    "Verif.C72_transform",
    "Verif.C72_components"
   ],
   "note": ""
  },
  {
   "property": "C73",
   "status": "partial",
   "theorems": [
    "Verif.C73_near_parallel_counterexample"
   ],
   "note": "False: the error is unbounded (proved for every tolerance < 1).  C24_partial/C25_line_ray give the exact range where it holds."
  },
  {
   "property": "C74",
   "status": "proved",
   "theorems": [
    "Verif.C74_no_fault"
   ],
   "note": "Exact arithmetic; a degenerate segment gives NaN in C++, which is not modelled."
  },
  {
   "property": "C75",
   "status": "proved",
   "theorems": [
    "Verif.C75_interval",
    "Verif.C75_aabb",
    "Verif.C75_line",
    "Verif.C75_ray",
    "Verif.C75_plane",
    "Verif.C75_segment",
    "Verif.C75_sphere",
    "Verif.C75_circle2",
    "Verif.C75_circle3",
    "Verif.C75_cone",
    "Verif.C75_cylinder",
    "Verif.C75_cuboid"
   ],
   "note": "Exact arithmetic over any ordered field; at a difference of exactly the tolerance linal decides."
  },
  {
   "property": "C76",
   "status": "partial",
   "theorems": [
    "Verif.C76_chain_partial",
    "Verif.C76_not_transitive",
    "Verif.C76_same_line",
    "Verif.C76_same_segment"
   ],
   "note": "False: equality is not transitive (C76_not_transitive) and distinguishes representations of the same line and the same segment. Proved: shapes two equalities apart agree to twice the tolerance."
  },
  {
   "property": "C77",
   "status": "partial",
   "theorems": [
    "Verif.C77_circle2",
    "Verif.C77_circle2_radius",
    "Verif.C77_box_partial",
    "Verif.C77_box_setters",
    "Verif.C77_box_counterexample",
    "Verif.C77_circle3_partial",
    "Verif.C77_circle3_counterexample",
    "Verif.C77_ray_partial",
    "Verif.C77_ray_counterexample"
   ],
   "note": "Holds for 2D circles. False for 3D circles (unchecked constructor), rays (set_direction does not normalise) and boxes (set_min, set_max check nothing); proved for the remaining calls of these classes."
  },
  {
   "property": "C78",
   "status": "proved",
   "theorems": [
    "Verif.C78_center",
    "Verif.C78_center_inside",
    "Verif.C78_extend",
    "Verif.C78_extend_zero"
   ],
   "note": "Exact arithmetic over any ordered field. C78_extend_zero: edge 0 is accepted although the other constructor refuses the same box."
  },
  {
   "property": "C79",
   "status": "partial",
   "theorems": [
    "Verif.C79_sphere",
    "Verif.C79_cuboid_partial",
    "Verif.C79_cuboid_stored",
    "Verif.C79_cuboid_counterexample",
    "Verif.C79_cone",
    "Verif.C79_cylinder"
   ],
   "note": "Holds for spheres, cones and cylinders. False for cuboids: set_origin and set_diagonal have no effect after the first build or set_cuboid; proved for sessions without such calls."
  },
  {
   "property": "C80",
   "status": "proved",
   "theorems": [
    "Verif.C80_sphere",
    "Verif.C80_cone",
    "Verif.C80_cylinder",
    "Verif.C80_cuboid",
    "Verif.C80_default_needs_16_bit"
   ],
   "note": "Over the reals, exact point equality; rot_align is any rotation that takes the z axis to the direction."
  },
  {
   "property": "C81",
   "status": "proved",
   "theorems": [
    "Verif.C81_sphere",
    "Verif.C81_cone",
    "Verif.C81_cylinder"
   ],
   "note": "Over the reals; rot_align is any rotation that takes the z axis to the direction."
  },
  {
   "property": "C82",
   "status": "partial",
   "theorems": [
    "Verif.C82_cuboid_partial",
    "Verif.C82_cuboid_counterexample",
    "Verif.C82_exact"
   ],
   "note": "False for cuboids with left-handed sides, for example a diagonal with one negative component: all facets face inward. Proved for right-handed sides. C82_exact: outward exactly if the sides are right-handed."
  },
  {
   "property": "C83",
   "status": "proved",
   "theorems": [
    "Verif.C83_normals",
    "Verif.C83_sphere",
    "Verif.C83_cone",
    "Verif.C83_cylinder",
    "Verif.C83_cuboid"
   ],
   "note": "For cuboids with right-handed sides (see C82)."
  },
  {
   "property": "C84",
   "status": "proved",
   "theorems": [
    "Verif.C84_sphere",
    "Verif.C84_cone",
    "Verif.C84_cylinder",
    "Verif.C84_cuboid",
    "Verif.C84_apex"
   ],
   "note": "Over the reals; for left-handed cuboids the enclosed volume is negative (the facets face inward, see C82); rot_align is any rotation that takes the z axis to the direction."
  },
  {
   "property": "C85",
   "status": "proved",
   "theorems": [
    "Verif.C85_leftmost",
    "Verif.C85_detects",
    "Verif.C85_single",
    "Verif.C85_reversed_counterexample",
    "Verif.C85_start_on_segment_counterexample"
   ],
   "note": "Any ordered field. The two counterexamples show that the assumptions are needed."
  },
  {
   "property": "C86",
   "status": "partial",
   "theorems": [
    "Verif.C86_move_partial",
    "Verif.C86_size",
    "Verif.C86_counterexample"
   ],
   "note": "False: the size counter of the source is not reset (C86_counterexample, C86_size). Proved: contents of target and source, reuse of the source."
  },
  {
   "property": "C87",
   "status": "proved",
   "theorems": [
    "Verif.C87_height"
   ],
   "note": ""
  },
  {
   "property": "C88",
   "status": "proved",
   "theorems": [
    "Verif.C88_sphere",
    "Verif.C88_cone",
    "Verif.C88_cylinder",
    "Verif.C88_cuboid"
   ],
   "note": "Over the reals; rot_align is any rotation that takes the z axis to the direction."
  },
  {
   "property": "C89",
   "status": "proved",
   "theorems": [
    "Verif.C89_sphere",
    "Verif.C89_cone",
    "Verif.C89_cylinder",
    "Verif.C89_cuboid"
   ],
   "note": "Over the reals; rot_align is any rotation that takes the z axis to the direction."
  },
  {
   "property": "C90",
   "status": "proved",
   "theorems": [
    "Verif.C90_nearest"
   ],
   "note": "Format with bounded or unbounded exponents below; no overflow, infinities or NaN. With subnormals: coordinates are multiples of 2^-511 (double) or 2^-63 (float)."
  },
  {
   "property": "C91",
   "status": "partial",
   "theorems": [
    "Verif.C91_nearest_of_stored_partial",
    "Verif.C91_counterexample"
   ],
   "note": "False: if the square of a difference underflows another point is returned (C91_counterexample, every format with subnormals below 2^-1). Proved: holds if different points differ in some coordinate by 2^-537 (double) or 2^-74 (float) at least, and without restriction if exponents are unbounded."
  },
  {
   "property": "C92",
   "status": "proved",
   "theorems": [
    "Verif.C92_sphere",
    "Verif.C92_cone",
    "Verif.C92_cylinder",
    "Verif.C92_collapse"
   ],
   "note": "std::sin, std::cos, pi and linal::rot_align are arbitrary functions here. Formats without overflow. With subnormals: different computed points differ in some coordinate by 2^-537 (double) or 2^-74 (float) at least. Cones in debug builds: for cones that pass the two assertions of the builder."
  },
  {
   "property": "C93",
   "status": "partial",
   "theorems": [
    "Verif.C93_box_partial",
    "Verif.C93_box_absorbed",
    "Verif.C93_grid_partial",
    "Verif.C93_counterexample"
   ],
   "note": "False for oblique sides: C93_counterexample gives, for every format (float and double included), a cuboid with independent sides whose far corner is computed as two points; the debug assertion fails and the release mesh has nine vertices and is not closed. Proved: holds for boxes given by origin and diagonal whenever no side is swallowed by the origin (C93_box_partial; with subnormals the ends of a side differ by 2^-537 (double) or 2^-74 (float) at least); that condition is needed (C93_box_absorbed). Also proved for oblique cuboids whose coordinates lie on a grid, e.g. integers whose sums stay below 2^53 in double (C93_grid_partial): there the vertices are exactly the corners."
  },
  {
   "property": "C94",
   "status": "proved",
   "theorems": [
    "Verif.C94_accuracy",
    "Verif.C94_closed"
   ],
   "note": "Forward error analysis of the point computation and a lower bound on the distances of the exact points. Assumes Fl.LibAccurate of the mathematical library (sine, cosine and pi within two units in the last place). C92_collapse shows that without the bound on the distance of the centre the claim is false."
  },
  {
   "property": "C95",
   "status": "proved",
   "theorems": [
    "Verif.C95_length",
    "Verif.C95_direction"
   ],
   "note": "Relative error bounds in all dimensions; the difference of the end points is rounded but never cancels badly because the end points themselves are exact. Lengths so small that squares underflow are excluded."
  },
  {
   "property": "C96",
   "status": "proved",
   "theorems": [
    "Verif.C96_cone",
    "Verif.C96_cylinder"
   ],
   "note": "Assumes Fl.LibAccurate of the mathematical library and that linal::rot_align is accurate to K units of roundoff (K arbitrary, it enters the bounds); for debug builds of cones also that the tolerance of linal::isEq and isZero is wide enough and not too wide, stated as hypotheses."
  },
  {
   "property": "C97",
   "status": "proved",
   "theorems": [
    "Verif.C97_accuracy"
   ],
   "note": "Release build (the assertion is the subject of C98). Hypotheses about linal::isZero, isLess and isGreater say that the determinant counts as nonzero and that parameters outside [0, 1] by roundoff only are accepted. Segments so short that products underflow are excluded."
  },
  {
   "property": "C98",
   "status": "partial",
   "theorems": [
    "Verif.C98_counterexample",
    "Verif.C98_axis_counterexample",
    "Verif.C98_partial",
    "Verif.C98_grid_partial",
    "Verif.C98_exact_partial"
   ],
   "note": "False if == of vectors is exact, as modelled: in every format (float and double included) the debug build aborts on the segments from (0,0) to (1,1) and from (1,0) to (-1,1), which cross in (1/3,1/3); in double also on the axis-parallel segments from (0,0) to (49,0) and from (1,-1) to (1,1) (C98_axis_counterexample). Proved: the release build never fails, and a debug build that gets past the assertion returns the same; for moderate integer coordinates in a power of two as unit whose determinant is a power of two the assertion holds (C98_grid_partial) and a crossing point is returned without any error (C98_exact_partial)."
  },
  {
   "property": "C99",
   "status": "proved",
   "theorems": [
    "Verif.C99_make",
    "Verif.C99_distances",
    "Verif.C99_lines"
   ],
   "note": "At the reals, for every tolerance implementation (no laws assumed). Lines, rays and planes have no transform function in the library; their image is defined as the image of origin and direction, and C99_make shows that this is what the constructors return for moved points."
  },
  {
   "property": "C100",
   "status": "proved",
   "theorems": [
    "Verif.C100_intersections",
    "Verif.C100_sphere",
    "Verif.C100_planar",
    "Verif.C100_lines"
   ],
   "note": "At the reals, for every tolerance implementation (no laws assumed)."
  },
  {
   "property": "C101",
   "status": "partial",
   "theorems": [
    "Verif.C101_counterexample",
    "Verif.C101_flat",
    "Verif.C101_partial"
   ],
   "note": "False: for a ray that crosses a flat box (min = max in one coordinate, such as the box of a triangle parallel to a coordinate plane) the test says yes and intersect never reports anything. Proved: a reported point implies that the test says yes, an enter point is never reported without an exit point, and the converse for contacts over a length larger than eps."
  },
  {
   "property": "C102",
   "status": "proved",
   "theorems": [
    "Verif.C102_make_aabb",
    "Verif.C102_center",
    "Verif.C102_center_accuracy"
   ],
   "note": "Assumes that isEq(1, 1) is true. Debug builds of make_aabb stop exactly if the constructor assertion (is_valid) fails, as in C11."
  },
  {
   "property": "C103",
   "status": "proved",
   "theorems": [
    "Verif.C103_accuracy"
   ],
   "note": "Assumes of the tolerant comparisons (FlTol) that they never contradict the exact order and that numbers that differ by tau count as different."
  },
  {
   "property": "C104",
   "status": "proved",
   "theorems": [
    "Verif.C104_point_line",
    "Verif.C104_point_ray",
    "Verif.C104_point_plane",
    "Verif.C104_point_sphere",
    "Verif.C104_line_make",
    "Verif.C104_ray_make",
    "Verif.C104_plane_make"
   ],
   "note": "Overflow is not modelled (Fl has no largest number). For rays the tolerant comparison with zero is assumed never to contradict the exact order and to be true above tau."
  },
  {
   "property": "C105",
   "status": "proved",
   "theorems": [
    "Verif.C105_plane_line",
    "Verif.C105_plane_ray",
    "Verif.C105_plane_segment"
   ],
   "note": "The tolerant comparisons are assumed not to contradict the exact order and to be decisive beyond tau (isZero: beyond half the exact denominator). Overflow is not modelled."
  },
  {
   "property": "C106",
   "status": "proved",
   "theorems": [
    "Verif.C106_point",
    "Verif.C106_shapes",
    "Verif.C106_axes",
    "Verif.C106_identity",
    "Verif.C106_box",
    "Verif.C106_rigid",
    "Verif.C106_compose",
    "Verif.C106_planar"
   ],
   "note": "Multiplication of matrices and vectors is linal's and is assumed to add the products from left to right, each operation rounded (no fused multiply-add). Overflow is not modelled."
  },
  {
   "property": "C107",
   "status": "proved",
   "theorems": [
    "Verif.C107_line",
    "Verif.C107_ray",
    "Verif.C107_segment"
   ],
   "note": "For segments only the clear cases (crossing or missing by more than tolerance and roundoff) are claimed, because the touching branch is wrong for segments not of unit length (C38). The tolerant comparisons are assumed not to contradict the exact order and to be decisive beyond tau. The root is computed with the stored factor -b / 2 * a as written. Overflow is not modelled."
  },
  {
   "property": "C108",
   "status": "partial",
   "theorems": [
    "Verif.C108_make",
    "Verif.C108_exact",
    "Verif.C108_enlarge_partial",
    "Verif.C108_small",
    "Verif.C108_counterexample",
    "Verif.C108_ray_partial",
    "Verif.C108_ray_counterexample",
    "Verif.C108_segment_exact"
   ],
   "note": "The claim is refuted for segments and spheres (C108_counterexample, for every tolerance below one half) because absolute tolerances are compared with products of lengths; C108_enlarge_partial is what remains. C108_ray_partial, C108_ray_counterexample, C108_segment_exact: distances of points to rays and segments. Intersections of rays and the distance of a segment and a ray are not covered."
  },
  {
   "property": "C109",
   "status": "proved",
   "theorems": [
    "Verif.C109_export",
    "Verif.C109_rebuild",
    "Verif.C109_buffer"
   ],
   "note": "Floating point coordinates: distinct corners must be kept apart by the k-d tree (Apart, see C91-C93). Index buffer: identity transformation."
  },
  {
   "property": "C110",
   "status": "proved",
   "theorems": [
    "Verif.C110_topology",
    "Verif.C110_volume",
    "Verif.C110_normals",
    "Verif.C110_normals_bitwise"
   ],
   "note": "The bitwise statement keeps the first corner of each triangle (the cross product is computed from it); NaN is outside the model."
  },
  {
   "property": "C111",
   "status": "proved",
   "theorems": [
    "Verif.C111_facet",
    "Verif.C111_vertex",
    "Verif.C111_vertex_distinct"
   ],
   "note": "Shaped collects the hypotheses on a triangle. std::unique compares with the vector operator== of linal, assumed to be exact equality."
  },
  {
   "property": "C112",
   "status": "partial",
   "theorems": [
    "Verif.C112_facet",
    "Verif.C112_partial",
    "Verif.C112_counterexample"
   ],
   "note": "The claim is refuted (C112_counterexample, for double and float among others); C112_partial covers facets parallel to coordinate planes. Assumes that the vector operator== of linal is exact; with a tolerance std::unique would merge the two normals of the counterexample."
  },
  {
   "property": "C113",
   "status": "proved",
   "theorems": [
    "Verif.C113_line_2d",
    "Verif.C113_line_2d_none",
    "Verif.C113_distance_skew",
    "Verif.C113_distance_parallel"
   ],
   "note": "isZero is assumed to be false beyond half the exact determinant (or cross product), and true below the stated bound for parallel lines; isEq(length, 1) is assumed to hold for the lengths that occur. Overflow is not modelled. The sign of the distance of skew lines is wrong for half of the pairs (C24), so its absolute value is compared."
  },
  {
   "property": "C114",
   "status": "proved",
   "theorems": [
    "Verif.C114_line_3d",
    "Verif.C114_common_point",
    "Verif.C114_line_ray",
    "Verif.C114_line_ray_parallel"
   ],
   "note": "isZero is assumed to be false beyond half the exact denominator, with any threshold for the final length test. Overflow is not modelled."
  },
  {
   "property": "C115",
   "status": "partial",
   "theorems": [
    "Verif.C115_counterexample",
    "Verif.C114_common_point"
   ],
   "note": "Refuted by C115_counterexample; C114_common_point is what remains true (the margin grows with the distances of the origins)."
  },
  {
   "property": "C116",
   "status": "partial",
   "theorems": [
    "Verif.C116_search",
    "Verif.C116_nearest_partial",
    "Verif.C116_counterexample"
   ],
   "note": "IEEE arithmetic with NaN, infinities and both zeros. C116_search: search and insert, all values. C116_nearest_partial: the first inserted point has no NaN coordinate; then NaN and infinite points are ignored. C116_counterexample: otherwise, or if the query has a NaN or infinite coordinate, nearest always returns the first inserted point."
  },
  {
   "property": "C117",
   "status": "partial",
   "theorems": [
    "Verif.C117_nearest_partial",
    "Verif.C117_counterexample"
   ],
   "note": "IEEE arithmetic with overflow. Holds for coordinates up to 2^k with 2(k+1)+D < emax; C117_counterexample: in every format and dimension it fails for larger ones."
  },
  {
   "property": "C118",
   "status": "partial",
   "theorems": [
    "Verif.C118_make_aabb",
    "Verif.C118_only_nan",
    "Verif.C118_add",
    "Verif.C118_counterexample"
   ],
   "note": "IEEE arithmetic. C118_make_aabb assumes that isEq(1, 1) holds in debug builds; a point with a NaN coordinate is ignored, of a point with exactly one infinite coordinate that coordinate counts. C118_counterexample: the other coordinates of a point with an infinite coordinate are lost. C118_add assumes that isLess and isGreater are false for NaN."
  },
  {
   "property": "C119",
   "status": "partial",
   "theorems": [
    "Verif.C119_segment_counterexample",
    "Verif.C119_facet_counterexample",
    "Verif.C119_vertex_counterexample",
    "Verif.C119_order_partial",
    "Verif.C119_order_counterexample"
   ],
   "note": "IEEE arithmetic. The claim is refuted for every degenerate segment and facet; C119_order_partial is what holds without NaN. normalize of linal is assumed to divide by the length without a check."
  },
  {
   "property": "C120",
   "status": "partial",
   "theorems": [
    "Verif.C120_point_line_partial",
    "Verif.C120_point_ray_partial",
    "Verif.C120_point_plane_partial",
    "Verif.C120_point_sphere_partial",
    "Verif.C120_plane_line_partial",
    "Verif.C120_transform_partial",
    "Verif.C120_segment_length_partial",
    "Verif.C120_segment_direction_partial",
    "Verif.C120_facet_partial",
    "Verif.C120_segment_counterexample",
    "Verif.C120_facet_counterexample",
    "Verif.C120_tiny_counterexample"
   ],
   "note": "IEEE arithmetic. The _partial theorems bound the coordinates by 2^k (the bound on k is a hypothesis of each) and then give the bounds of C95, C104, C105, C106 and C111; the counterexamples show that lengths, directions and normals overflow or underflow beyond. The comparison with zero in the ray and in the plane/line test is a parameter."
  },
  {
   "property": "C121",
   "status": "partial",
   "theorems": [
    "Verif.C121_vertex",
    "Verif.C121_halfedge_partial",
    "Verif.C121_halfedge_counterexample",
    "Verif.C121_facet_counterexample",
    "Verif.C121_distinct_partial",
    "Verif.C121_all"
   ],
   "note": "Holds for vertices; false for the printed index of half-edges (C121_halfedge_counterexample) and facets (C121_facet_counterexample), for every built mesh. Output is modelled as the list of inserted items; number formatting is not modelled."
  },
  {
   "property": "C122",
   "status": "proved",
   "theorems": [
    "Verif.C122_sphere",
    "Verif.C122_cone",
    "Verif.C122_cylinder",
    "Verif.C122_cuboid"
   ],
   "note": "Over the reals; rot_align is any rotation that takes the z axis to the direction. The cuboid theorem covers dependent sides in release builds (debug builds assert eight vertices)."
  },
  {
   "property": "C123",
   "status": "partial",
   "theorems": [
    "Verif.C123_disjoint",
    "Verif.C123_intersect_partial",
    "Verif.C123_box_partial",
    "Verif.C123_add_partial",
    "Verif.C123_ray_partial",
    "Verif.C123_ray_flipped",
    "Verif.C123_ray_counterexample",
    "Verif.C123_box_counterexample",
    "Verif.C123_add_counterexample"
   ],
   "note": "Over ordered fields. The _partial theorems say when it holds; the counterexamples cover the intersection of any two disjoint valid boxes (rays) and AABB() (boxes, adding)."
  },
  {
   "property": "C124",
   "status": "partial",
   "theorems": [
    "Verif.C124_commute",
    "Verif.C124_placement",
    "Verif.C124_sphere_partial",
    "Verif.C124_sphere_scaled",
    "Verif.C124_cone_partial",
    "Verif.C124_cylinder_partial",
    "Verif.C124_cuboid",
    "Verif.C124_sphere_counterexample",
    "Verif.C124_cone_counterexample",
    "Verif.C124_cylinder_counterexample"
   ],
   "note": "Over the reals. Holds for every injective map of triangles, cuboids, and for translations of round solids; the counterexamples refute it for rotations of every sphere, cone and cylinder."
  },
  {
   "property": "C125",
   "status": "partial",
   "theorems": [
    "Verif.C125_surface",
    "Verif.C125_ray_partial",
    "Verif.C125_boxes_partial",
    "Verif.C125_ray_counterexample",
    "Verif.C125_boxes_counterexample"
   ],
   "note": "Over the reals, for points within numeric_limits. The box itself is right; the tests in front of it lose hits for rays nearly parallel to a coordinate plane and for flat meshes."
  },
  {
   "property": "C126",
   "status": "partial",
   "theorems": [
    "Verif.C126_line2",
    "Verif.C126_line3",
    "Verif.C126_plane_line",
    "Verif.C126_plane_ray",
    "Verif.C126_sphere_line",
    "Verif.C126_sphere_ray",
    "Verif.C126_sphere_centre",
    "Verif.C126_lines_partial",
    "Verif.C126_sign_counterexample",
    "Verif.C126_parallel_counterexample",
    "Verif.C126_segment_counterexample",
    "Verif.C126_segment_ray_counterexample"
   ],
   "note": "Over the reals. Refuted for lines (negative distance; nearly parallel lines), for the point of a segment cut by a plane, and for a segment and a ray; proved for the points of all other pairs, for the distance of two lines as absolute value when they are not nearly parallel, and for the centre of a sphere."
  },
  {
   "property": "C127",
   "status": "proved",
   "theorems": [
    "Verif.Ieee.C127_grow",
    "Verif.Ieee.C127_inside",
    "Verif.Ieee.C127_refine",
    "Verif.Ieee.C127_refine_points"
   ],
   "note": "Raw model: TFloat values with infinities as in the code. Assumes of linal's comparisons that they are monotone and agree with the order of numbers that are not NaN (OrderedTol; shown for an added tolerance in IEEE arithmetic)."
  },
  {
   "property": "C128",
   "status": "partial",
   "theorems": [
    "Verif.Ieee.C128_counterexample",
    "Verif.Ieee.C128_nan_y",
    "Verif.Ieee.C128_nan_max"
   ],
   "note": "False: NaN in the lower y corner makes the test ignore the y and the z axis, so boxes far away or behind the ray are hit (C128_counterexample). NaN in an upper corner shrinks the slab to its lower plane."
  },
  {
   "property": "C129",
   "status": "proved",
   "theorems": [
    "Verif.C129_release",
    "Verif.C129_debug"
   ],
   "note": "For every coordinate type with any arithmetic, any comparison and any BEq on points."
  },
  {
   "property": "C130",
   "status": "proved",
   "theorems": [
    "Verif.Ieee.C130_nan"
   ],
   "note": "IEEE model."
  },
  {
   "property": "C131",
   "status": "partial",
   "theorems": [
    "Verif.Ieee.C131_counterexample"
   ],
   "note": "False for every triangle whose third corner is infinite (all IEEE formats). What remains true of infinite coordinates is C129."
  },
  {
   "property": "C132",
   "status": "proved",
   "theorems": [
    "Verif.Ieee.C132_finite",
    "Verif.Ieee.resolves_of"
   ],
   "note": "IEEE model with overflow, underflow and -0. resolves_of gives the hypothesis for finite corners that are equal or differ by 2^-537 (double) in some coordinate."
  },
  {
   "property": "C133",
   "status": "partial",
   "theorems": [
    "Verif.C133_partial",
    "Verif.C133_points_counterexample",
    "Verif.C133_indices_counterexample"
   ],
   "note": "Refuted: out of range access for every count with 2 n below the number of index values (C133_points_counterexample), inconsistent orientation for every count from 2 (C133_indices_counterexample). C133_partial is what holds: number of triangles and exact range of the indices."
  },
  {
   "property": "C134",
   "status": "proved",
   "theorems": [
    "Verif.C134_sphere",
    "Verif.C134_normals"
   ],
   "note": "Over the reals. C134_normals is the general form for every triangle list with a ball strictly behind all facets."
  },
  {
   "property": "C135",
   "status": "proved",
   "theorems": [
    "Verif.C135_cylinder",
    "Verif.C135_cone",
    "Verif.C135_cuboid"
   ],
   "note": "Over the reals; cylinders and cones under the assumption on linal's rotation (RotatesZTo) as in C56, C57."
  },
  {
   "property": "C136",
   "status": "proved",
   "theorems": [
    "Verif.C136_hit",
    "Verif.C136_convex",
    "Verif.C136_sphere",
    "Verif.C136_cone",
    "Verif.C136_cylinder",
    "Verif.C136_cuboid"
   ],
   "note": "Over the reals.  For cones and cylinders linal's rotation is assumed to turn the z axis to the axis (RotatesZTo)."
  },
  {
   "property": "C137",
   "status": "partial",
   "theorems": [
    "Verif.C137_segments2",
    "Verif.C137_lines2",
    "Verif.C137_lines3",
    "Verif.C137_segments3",
    "Verif.C137_distance",
    "Verif.C137_lines2_point",
    "Verif.C137_segments2_point",
    "Verif.C137_lines3_point",
    "Verif.C137_distance_parallel",
    "Verif.C137_distance_counterexample",
    "Verif.C137_segments3_counterexample"
   ],
   "note": "Refuted for the distance of nearly parallel lines (C137_distance_counterexample) and for the points of skew segments (C137_segments3_counterexample). The rest is proved; the first five theorems for ordered fields and for rounded arithmetic (Fl) at once."
  },
  {
   "property": "C138",
   "status": "partial",
   "theorems": [
    "Verif.C138_segments3",
    "Verif.C138_segment_ray",
    "Verif.C138_segments2",
    "Verif.C138_distance_segment_ray",
    "Verif.C138_line_distances",
    "Verif.C138_lines2",
    "Verif.C138_lines3",
    "Verif.C138_sphere_line",
    "Verif.C138_planes",
    "Verif.C138_plane_line",
    "Verif.C138_distance_lines_partial",
    "Verif.C138_plane_segment_partial",
    "Verif.C138_sphere_segment_partial",
    "Verif.C138_distance_segment_partial",
    "Verif.C138_distance_lines_counterexample",
    "Verif.C138_distance_origin_counterexample",
    "Verif.C138_distance_segment_counterexample",
    "Verif.C138_distance_segment_ray_counterexample",
    "Verif.C138_plane_segment_counterexample",
    "Verif.C138_sphere_segment_counterexample"
   ],
   "note": "Refuted where listed as counterexample; the _partial theorems state where these functions do not depend on the description."
  },
  {
   "property": "C139",
   "status": "partial",
   "theorems": [
    "Verif.C139_plane_ray",
    "Verif.C139_sphere_ray",
    "Verif.C139_plane_segment_partial",
    "Verif.C139_segments2_partial",
    "Verif.C139_segments3_partial",
    "Verif.C139_sphere_segment_partial",
    "Verif.C139_point_distances",
    "Verif.C139_line_ray",
    "Verif.C139_line_distances_partial",
    "Verif.C139_plane_segment_counterexample",
    "Verif.C139_segments2_counterexample",
    "Verif.C139_segments3_counterexample",
    "Verif.C139_sphere_segment_counterexample",
    "Verif.C139_line_ray_counterexample",
    "Verif.C139_segment_end_counterexample"
   ],
   "note": "Refuted where listed as counterexample; the _partial theorems say what holds instead. The claims on rays, points and the origin of a ray are proved in full; C139_plane_ray and C139_sphere_ray for every number type without any law."
  },
  {
   "property": "C140",
   "status": "partial",
   "theorems": [
    "Verif.C140_point_line",
    "Verif.C140_point_plane",
    "Verif.C140_point_sphere",
    "Verif.C140_nearest",
    "Verif.C140_box",
    "Verif.C140_plane_line",
    "Verif.C140_lines2",
    "Verif.C140_sphere_line",
    "Verif.C140_point_ray_partial",
    "Verif.C140_point_segment_partial",
    "Verif.C140_point_ray_counterexample",
    "Verif.C140_point_segment_counterexample"
   ],
   "note": "Refuted for rays (jump by eps, C140_point_ray_counterexample) and segments (factor l - 1, C140_point_segment_counterexample); the _partial theorems give the bounds that hold. The rest is proved over the reals."
  },
  {
   "property": "C141",
   "status": "proved",
   "theorems": [
    "Verif.C141_extend",
    "Verif.C141_unfinished",
    "Verif.C141_stages",
    "Verif.C141_idempotent"
   ],
   "note": "C141_extend and C141_unfinished for every point type; C141_stages and C141_idempotent over the reals and over rounded arithmetic for corners that are Apart (automatic over the reals)."
  },
  {
   "property": "C142",
   "status": "proved",
   "theorems": [
    "Verif.C142_excess",
    "Verif.C142_sharp",
    "Verif.C142_lower",
    "Verif.C142_value",
    "Verif.C142_upper"
   ],
   "note": "C142_excess and C142_sharp over the reals; the others in rounded arithmetic without overflow (Fl). That the result is not the distance for other lengths is refuted in C26 and C140; this gives the two-sided bound that holds."
  },
  {
   "property": "C143",
   "status": "proved",
   "theorems": [
    "Verif.C143_mesh",
    "Verif.C143_same",
    "Verif.C143_points",
    "Verif.C143_succeeds",
    "Verif.C143_tolerance",
    "Verif.C143_tolerance_same",
    "Verif.C143_counterexample"
   ],
   "note": "C143_mesh, C143_same, C143_points for every coordinate type; C143_succeeds and the tolerance theorems over the reals. C143_counterexample proves the last sentence (what does not hold)."
  },
  {
   "property": "C144",
   "status": "proved",
   "theorems": [
    "Verif.C144_found",
    "Verif.C144_sound",
    "Verif.C144_insert",
    "Verif.C144_part",
    "Verif.C144_nearest",
    "Verif.C144_counterexample"
   ],
   "note": "C144_nearest over the reals, the others for every coordinate type. C144_counterexample proves the last sentence (what does not hold)."
  },
  {
   "property": "C145",
   "status": "proved",
   "theorems": [
    "Verif.C145_buffer",
    "Verif.C145_cone",
    "Verif.C145_cylinder",
    "Verif.C145_sphere",
    "Verif.C145_cuboid",
    "Verif.C145_box",
    "Verif.C145_collapse"
   ],
   "note": "Over the reals. Cones and cylinders under the assumption on linal's rotation (RotatesZTo) as in C56, C57; C145_buffer is the general form for every index buffer placed by a rigid motion."
  },
  {
   "property": "C146",
   "status": "proved",
   "theorems": [
    "Verif.C146_segment",
    "Verif.C146_common_point",
    "Verif.C146_ray"
   ],
   "note": "isZero is assumed to be false beyond half the exact denominator; the thresholds of the comparisons of the parameters are arbitrary. The distance of the two closest points is not tested by the code (C32), so P and Q may differ. Overflow is not modelled."
  },
  {
   "property": "C147",
   "status": "proved",
   "theorems": [
    "Verif.C147_release",
    "Verif.C147_point",
    "Verif.C147_sweep"
   ],
   "note": "C147_release for every coordinate type. In debug builds the sweep can fail the assertion of intersect for valid input (C98). That every crossing is reported is refuted in C40. Overflow is not modelled in C147_point and C147_sweep."
  },
  {
   "property": "C148",
   "status": "partial",
   "theorems": [
    "Verif.C148_extreme",
    "Verif.C148_slant",
    "Verif.C148_angle",
    "Verif.C148_extend",
    "Verif.C148_extend_counterexample",
    "Verif.Ieee.C148_center_partial",
    "Verif.Ieee.C148_center_counterexample"
   ],
   "note": "Refuted in two places, for every format: a box with edge one that is a single point (C148_extend_counterexample) and a finite box with an infinite centre (C148_center_counterexample). The accuracy of std::atan is a hypothesis of C148_angle."
  },
  {
   "property": "C149",
   "status": "partial",
   "theorems": [
    "Verif.Ieee.C149_accuracy_partial",
    "Verif.Ieee.C149_point_partial",
    "Verif.Ieee.C149_sweep_partial",
    "Verif.Ieee.C149_counterexample",
    "Verif.Ieee.C149_wrong_counterexample"
   ],
   "note": "Refuted for coordinates of any size in every IEEE format (C149_counterexample; a finite wrong point: C149_wrong_counterexample). The _partial theorems need coordinates up to 2^k, otherwise they prove the statement; release builds only (the assertion of debug builds: C98)."
  },
  {
   "property": "C150",
   "status": "partial",
   "theorems": [
    "Verif.Ieee.C150_common_point_partial",
    "Verif.Ieee.C150_segment_partial",
    "Verif.Ieee.C150_ray_partial",
    "Verif.Ieee.C150_counterexample"
   ],
   "note": "Refuted for coordinates of any size (C150_counterexample). The _partial theorems need coordinates up to 2^k, otherwise they prove the statement."
  },
  {
   "property": "C151",
   "status": "partial",
   "theorems": [
    "Verif.C151_safe",
    "Verif.C151_ends",
    "Verif.C151_build",
    "Verif.C151_invalid",
    "Verif.C151_buffer",
    "Verif.C151_counterexample",
    "Verif.C151_loop_counterexample"
   ],
   "note": "That an over-full mesh of a release build can be used is refuted (C151_counterexample, C151_loop_counterexample); everything else in the statement is proved. C151_build is over the reals."
  },
  {
   "property": "C152",
   "status": "proved",
   "theorems": [
    "Verif.C152_triangles",
    "Verif.C152_faithful",
    "Verif.C152_lines_debug",
    "Verif.C152_lines",
    "Verif.C152_lines_complete"
   ],
   "note": "The statement says exactly when the export is faithful; that it always is is false (both directions of C152_faithful and C152_lines_complete)."
  },
  {
   "property": "C153",
   "status": "partial",
   "theorems": [
    "Verif.C153_line_partial",
    "Verif.C153_ray_partial",
    "Verif.C153_segment_partial",
    "Verif.C153_counterexample"
   ],
   "note": "Proved for moderate coordinates; refuted without bound (C153_counterexample)."
  },
  {
   "property": "C154",
   "status": "partial",
   "theorems": [
    "Verif.Ieee.C154_plane_ray_partial",
    "Verif.Ieee.C154_plane_segment_partial",
    "Verif.Ieee.C154_line_2d_partial",
    "Verif.Ieee.C154_line_2d_none",
    "Verif.Ieee.C154_line_3d_partial",
    "Verif.Ieee.C154_counterexample"
   ],
   "note": "Proved for moderate coordinates; refuted without bound (C154_counterexample)."
  },
  {
   "property": "C155",
   "status": "partial",
   "theorems": [
    "Verif.Ieee.C155_skew_partial",
    "Verif.Ieee.C155_parallel_partial",
    "Verif.Ieee.C155_line_ray_partial",
    "Verif.Ieee.C155_line_ray_parallel_partial",
    "Verif.Ieee.C155_point_segment_partial",
    "Verif.Ieee.C155_counterexample"
   ],
   "note": "Proved for moderate coordinates; refuted without bound (C155_counterexample)."
  },
  {
   "property": "C156",
   "status": "proved",
   "theorems": [
    "Verif.C156_boxes",
    "Verif.C156_shapes",
    "Verif.C156_intersections",
    "Verif.C156_mesh",
    "Verif.C156_build",
    "Verif.C156_sessions",
    "Verif.C156_facade"
   ],
   "note": "For every type with the operations, without any law. Conditions of assertions are modelled as pure (they call const functions only). DistanceSegment.hpp:101 is unreachable (C74) and has no model of its own."
  },
  {
   "property": "C157",
   "status": "proved",
   "theorems": [
    "Verif.C157_nearest_exact",
    "Verif.C157_sharp"
   ],
   "note": "Without overflow, infinities or NaN. The unit of the grid has to be clear of underflow: 2^-511 at least for double, 2^-63 for float."
  },
  {
   "property": "C158",
   "status": "proved",
   "theorems": [
    "Verif.C158_point",
    "Verif.C158_sharp",
    "Verif.C158_round_trip",
    "Verif.C158_compose",
    "Verif.C158_extreme"
   ],
   "note": "Without overflow, infinities or NaN. The unit of the grid has to be a representable power of two or greater. The order of summation is the one of Model/Linal.lean; the result does not depend on it, since nothing is rounded."
  },
  {
   "property": "C159",
   "status": "proved",
   "theorems": [
    "Verif.C159_length",
    "Verif.C159_exact",
    "Verif.C159_order",
    "Verif.C159_side",
    "Verif.C159_contains"
   ],
   "note": "Without overflow, infinities or NaN. The unit of the grid has to be clear of underflow, as in C157. std::sqrt is correctly rounded, as IEEE 754 demands."
  },
  {
   "property": "C160",
   "status": "proved",
   "theorems": [
    "Verif.C160_facets"
   ],
   "note": "Without overflow, infinities or NaN; unit of the grid and bound of the coordinates as in C93_grid_partial. That left-handed sides give inward facets is the defect of C82."
  },
  {
   "property": "C161",
   "status": "proved",
   "theorems": [
    "Verif.C161_length",
    "Verif.C161_normalize",
    "Verif.C161_make",
    "Verif.C161_plane",
    "Verif.C161_segment",
    "Verif.C161_facet"
   ],
   "note": "Without overflow, infinities or NaN; the coordinate is at least 2^((emin+prec)/2), for double 2^-511. That dot products are summed from zero in order is the model of linal (external)."
  },
  {
   "property": "C162",
   "status": "proved",
   "theorems": [
    "Verif.C162_plane",
    "Verif.C162_line",
    "Verif.C162_line_accurate",
    "Verif.C162_line_zero",
    "Verif.C162_line_plane",
    "Verif.C162_ray"
   ],
   "note": "Without overflow, infinities or NaN. C162_ray excludes points between zero and the tolerance in front of the origin, where the code measures to the origin (C21). linal's projection and rejection are modelled by their defining formulas."
  },
  {
   "property": "C163",
   "status": "proved",
   "theorems": [
    "Verif.C163_made",
    "Verif.C163_line",
    "Verif.C163_ray",
    "Verif.C163_segment",
    "Verif.C163_plane"
   ],
   "note": "Without overflow, infinities or NaN (with an infinite parameter the product with a zero coordinate is NaN). For pairs of lines or segments the claim is for the first operand, whose point the code returns."
  },
  {
   "property": "C164",
   "status": "proved",
   "theorems": [
    "Verif.C164_decided",
    "Verif.C164_line",
    "Verif.C164_ray",
    "Verif.C164_segment",
    "Verif.C164_along"
   ],
   "note": "Without overflow, infinities or NaN. The bounds are for points that the code returns; C164_decided says when it returns one for a line, C105 for rays and segments. For a ray and a segment x is the common point with the whole line."
  },
  {
   "property": "C165",
   "status": "proved",
   "theorems": [
    "Verif.C165_decided",
    "Verif.C165_line",
    "Verif.C165_cross"
   ],
   "note": "Without overflow, infinities or NaN. The axis-parallel line is the second argument; for an axis-parallel first argument see C163_plane and C165_cross."
  },
  {
   "property": "C166",
   "status": "proved",
   "theorems": [
    "Verif.C166_through",
    "Verif.C166_inside",
    "Verif.C166_behind",
    "Verif.C166_beside"
   ],
   "note": "Without overflow, infinities other than those the code itself uses, or NaN. The tolerance must count zero as zero and one as not zero."
  },
  {
   "property": "C167",
   "status": "proved",
   "theorems": [
    "Verif.C167_skew",
    "Verif.C167_parallel"
   ],
   "note": "Without overflow, infinities or NaN. The sign is that of C24: the code returns a signed distance for lines that are not parallel. The tolerance must count one and one as equal, one as not zero and zero as zero."
  },
  {
   "property": "C168",
   "status": "partial",
   "theorems": [
    "Verif.C168_center_partial",
    "Verif.C168_overflow",
    "Verif.C168_counterexample"
   ],
   "note": "Together the two theorems decide every box with finite corners: the centre is in the box where the rounded extent does not overflow and infinite where it does. The claim without this condition is refuted by C168_counterexample."
  },
  {
   "property": "C169",
   "status": "partial",
   "theorems": [
    "Verif.C169_apart_partial",
    "Verif.C169_counterexample"
   ],
   "note": "C169_apart_partial is an equivalence for exact comparisons (tolExact). The claim itself is refuted by C169_counterexample, for all comparisons that are false for NaN."
  }
 ]
}