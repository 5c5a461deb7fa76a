Axioms each theorem named in MANIFEST.json depends on (output of `#print axioms`, grouped).

[propext]
  Verif.C137_lines2
  Verif.C144_insert
  Verif.C72_transform
  Verif.C86_size

[propext, Classical.choice, Quot.sound]
  Verif.C01_tolerance_counterexample
  Verif.C03_size_exact
  Verif.C03_size_wraps
  Verif.C04_nearest
  Verif.C04_nearest_reachable
  Verif.C06_code_partial
  Verif.C06_code_zero
  Verif.C06_degenerate_counterexample
  Verif.C07_result_one
  Verif.C07_result_two
  Verif.C07_symmetric
  Verif.C08_add
  Verif.C08_addBox
  Verif.C09_contains
  Verif.C09_history
  Verif.C100_intersections
  Verif.C100_lines
  Verif.C100_planar
  Verif.C100_sphere
  Verif.C101_counterexample
  Verif.C101_flat
  Verif.C101_partial
  Verif.C102_center
  Verif.C102_center_accuracy
  Verif.C102_make_aabb
  Verif.C103_accuracy
  Verif.C104_line_make
  Verif.C104_plane_make
  Verif.C104_point_line
  Verif.C104_point_plane
  Verif.C104_point_ray
  Verif.C104_point_sphere
  Verif.C104_ray_make
  Verif.C105_plane_line
  Verif.C105_plane_ray
  Verif.C105_plane_segment
  Verif.C106_axes
  Verif.C106_box
  Verif.C106_compose
  Verif.C106_identity
  Verif.C106_planar
  Verif.C106_point
  Verif.C106_rigid
  Verif.C106_shapes
  Verif.C107_line
  Verif.C107_ray
  Verif.C107_segment
  Verif.C108_counterexample
  Verif.C108_enlarge_partial
  Verif.C108_exact
  Verif.C108_make
  Verif.C108_ray_counterexample
  Verif.C108_ray_partial
  Verif.C108_segment_exact
  Verif.C108_small
  Verif.C109_buffer
  Verif.C109_export
  Verif.C109_rebuild
  Verif.C10_order
  Verif.C110_normals
  Verif.C110_normals_bitwise
  Verif.C110_topology
  Verif.C110_volume
  Verif.C111_facet
  Verif.C111_vertex
  Verif.C111_vertex_distinct
  Verif.C112_counterexample
  Verif.C112_facet
  Verif.C112_partial
  Verif.C113_distance_parallel
  Verif.C113_distance_skew
  Verif.C113_line_2d
  Verif.C113_line_2d_none
  Verif.C114_common_point
  Verif.C114_line_3d
  Verif.C114_line_ray
  Verif.C114_line_ray_parallel
  Verif.C115_counterexample
  Verif.C116_counterexample
  Verif.C116_nearest_partial
  Verif.C116_search
  Verif.C117_counterexample
  Verif.C117_nearest_partial
  Verif.C118_add
  Verif.C118_counterexample
  Verif.C118_make_aabb
  Verif.C118_only_nan
  Verif.C119_facet_counterexample
  Verif.C119_order_counterexample
  Verif.C119_order_partial
  Verif.C119_segment_counterexample
  Verif.C119_vertex_counterexample
  Verif.C11_empty
  Verif.C11_make_aabb
  Verif.C120_facet_counterexample
  Verif.C120_facet_partial
  Verif.C120_plane_line_partial
  Verif.C120_point_line_partial
  Verif.C120_point_plane_partial
  Verif.C120_point_ray_partial
  Verif.C120_point_sphere_partial
  Verif.C120_segment_counterexample
  Verif.C120_segment_direction_partial
  Verif.C120_segment_length_partial
  Verif.C120_tiny_counterexample
  Verif.C120_transform_partial
  Verif.C121_all
  Verif.C121_distinct_partial
  Verif.C121_facet_counterexample
  Verif.C121_halfedge_counterexample
  Verif.C121_halfedge_partial
  Verif.C121_vertex
  Verif.C122_cone
  Verif.C122_cuboid
  Verif.C122_cylinder
  Verif.C122_sphere
  Verif.C123_add_partial
  Verif.C123_box_counterexample
  Verif.C123_box_partial
  Verif.C123_disjoint
  Verif.C123_intersect_partial
  Verif.C123_ray_counterexample
  Verif.C123_ray_partial
  Verif.C124_commute
  Verif.C124_cone_counterexample
  Verif.C124_cone_partial
  Verif.C124_cuboid
  Verif.C124_cylinder_counterexample
  Verif.C124_cylinder_partial
  Verif.C124_placement
  Verif.C124_sphere_counterexample
  Verif.C124_sphere_partial
  Verif.C124_sphere_scaled
  Verif.C125_boxes_counterexample
  Verif.C125_boxes_partial
  Verif.C125_ray_counterexample
  Verif.C125_ray_partial
  Verif.C125_surface
  Verif.C126_line2
  Verif.C126_line3
  Verif.C126_lines_partial
  Verif.C126_parallel_counterexample
  Verif.C126_plane_line
  Verif.C126_plane_ray
  Verif.C126_segment_counterexample
  Verif.C126_segment_ray_counterexample
  Verif.C126_sign_counterexample
  Verif.C126_sphere_centre
  Verif.C126_sphere_line
  Verif.C126_sphere_ray
  Verif.C129_debug
  Verif.C129_release
  Verif.C12_default_counterexample
  Verif.C12_default_invalid
  Verif.C12_default_partial
  Verif.C12_exact
  Verif.C133_indices_counterexample
  Verif.C133_partial
  Verif.C134_normals
  Verif.C134_sphere
  Verif.C135_cone
  Verif.C135_cuboid
  Verif.C135_cylinder
  Verif.C136_cone
  Verif.C136_convex
  Verif.C136_cuboid
  Verif.C136_cylinder
  Verif.C136_hit
  Verif.C136_sphere
  Verif.C137_distance_counterexample
  Verif.C137_distance_parallel
  Verif.C137_lines2_point
  Verif.C137_lines3_point
  Verif.C137_segments2
  Verif.C137_segments2_point
  Verif.C137_segments3_counterexample
  Verif.C138_distance_lines_counterexample
  Verif.C138_distance_lines_partial
  Verif.C138_distance_origin_counterexample
  Verif.C138_distance_segment_counterexample
  Verif.C138_distance_segment_partial
  Verif.C138_distance_segment_ray
  Verif.C138_distance_segment_ray_counterexample
  Verif.C138_line_distances
  Verif.C138_lines2
  Verif.C138_lines3
  Verif.C138_plane_line
  Verif.C138_plane_segment_counterexample
  Verif.C138_plane_segment_partial
  Verif.C138_planes
  Verif.C138_segment_ray
  Verif.C138_segments2
  Verif.C138_segments3
  Verif.C138_sphere_line
  Verif.C138_sphere_segment_counterexample
  Verif.C138_sphere_segment_partial
  Verif.C139_line_distances_partial
  Verif.C139_line_ray
  Verif.C139_line_ray_counterexample
  Verif.C139_plane_segment_counterexample
  Verif.C139_plane_segment_partial
  Verif.C139_point_distances
  Verif.C139_segment_end_counterexample
  Verif.C139_segments2_counterexample
  Verif.C139_segments2_partial
  Verif.C139_segments3_counterexample
  Verif.C139_segments3_partial
  Verif.C139_sphere_segment_counterexample
  Verif.C139_sphere_segment_partial
  Verif.C13_doc_false
  Verif.C13_empty
  Verif.C140_box
  Verif.C140_lines2
  Verif.C140_nearest
  Verif.C140_plane_line
  Verif.C140_point_line
  Verif.C140_point_plane
  Verif.C140_point_ray_counterexample
  Verif.C140_point_ray_partial
  Verif.C140_point_segment_counterexample
  Verif.C140_point_segment_partial
  Verif.C140_point_sphere
  Verif.C140_sphere_line
  Verif.C141_extend
  Verif.C141_idempotent
  Verif.C141_stages
  Verif.C141_unfinished
  Verif.C142_excess
  Verif.C142_lower
  Verif.C142_sharp
  Verif.C142_upper
  Verif.C142_value
  Verif.C143_counterexample
  Verif.C143_mesh
  Verif.C143_points
  Verif.C143_same
  Verif.C143_succeeds
  Verif.C143_tolerance
  Verif.C143_tolerance_same
  Verif.C144_counterexample
  Verif.C144_nearest
  Verif.C145_box
  Verif.C145_buffer
  Verif.C145_collapse
  Verif.C145_cone
  Verif.C145_cuboid
  Verif.C145_cylinder
  Verif.C145_sphere
  Verif.C146_common_point
  Verif.C146_ray
  Verif.C146_segment
  Verif.C147_point
  Verif.C147_release
  Verif.C147_sweep
  Verif.C148_angle
  Verif.C148_extend
  Verif.C148_extend_counterexample
  Verif.C148_extreme
  Verif.C148_slant
  Verif.C14_exact
  Verif.C151_buffer
  Verif.C151_build
  Verif.C151_counterexample
  Verif.C151_ends
  Verif.C151_invalid
  Verif.C151_loop_counterexample
  Verif.C151_safe
  Verif.C152_faithful
  Verif.C152_lines
  Verif.C152_lines_complete
  Verif.C152_lines_debug
  Verif.C152_triangles
  Verif.C153_counterexample
  Verif.C153_line_partial
  Verif.C153_ray_partial
  Verif.C153_segment_partial
  Verif.C157_nearest_exact
  Verif.C157_sharp
  Verif.C158_compose
  Verif.C158_extreme
  Verif.C158_point
  Verif.C158_round_trip
  Verif.C158_sharp
  Verif.C159_contains
  Verif.C159_exact
  Verif.C159_length
  Verif.C159_order
  Verif.C159_side
  Verif.C15_intersect
  Verif.C160_facets
  Verif.C161_facet
  Verif.C161_length
  Verif.C161_make
  Verif.C161_normalize
  Verif.C161_plane
  Verif.C161_segment
  Verif.C162_line
  Verif.C162_line_accurate
  Verif.C162_line_plane
  Verif.C162_line_zero
  Verif.C162_plane
  Verif.C162_ray
  Verif.C163_line
  Verif.C163_made
  Verif.C163_plane
  Verif.C163_ray
  Verif.C163_segment
  Verif.C164_along
  Verif.C164_decided
  Verif.C164_line
  Verif.C164_ray
  Verif.C164_segment
  Verif.C165_cross
  Verif.C165_decided
  Verif.C165_line
  Verif.C166_behind
  Verif.C166_beside
  Verif.C166_inside
  Verif.C166_through
  Verif.C167_parallel
  Verif.C167_skew
  Verif.C168_center_partial
  Verif.C168_counterexample
  Verif.C168_overflow
  Verif.C169_apart_partial
  Verif.C169_counterexample
  Verif.C16_counterexample
  Verif.C16_partial
  Verif.C16_slack_partial
  Verif.C17_no_false_negative
  Verif.C18_chord
  Verif.C18_reported
  Verif.C19_minimum
  Verif.C19_none
  Verif.C20_point_line
  Verif.C21_point_ray
  Verif.C21_point_ray_exact
  Verif.C22_point_plane
  Verif.C23_contains
  Verif.C23_point_sphere
  Verif.C23_signed
  Verif.C24_counterexample
  Verif.C24_exact
  Verif.C24_partial
  Verif.C24_symmetric
  Verif.C25_line_ray
  Verif.C26_counterexample
  Verif.C26_exact
  Verif.C26_partial
  Verif.C26_upper_partial
  Verif.C27_attained_partial
  Verif.C27_counterexample
  Verif.C27_exact
  Verif.C27_nearest_partial
  Verif.C27_parallel_partial
  Verif.C27_partial
  Verif.C28_complete
  Verif.C28_sound
  Verif.C29_complete
  Verif.C29_none
  Verif.C29_sound
  Verif.C30_complete
  Verif.C30_none
  Verif.C30_parallel
  Verif.C30_sound
  Verif.C31_closest_partial
  Verif.C31_complete_partial
  Verif.C31_counterexample
  Verif.C31_sound_partial
  Verif.C32_closest_partial
  Verif.C32_complete_partial
  Verif.C32_counterexample
  Verif.C32_sound_partial
  Verif.C33_complete
  Verif.C33_sound
  Verif.C34_complete_partial
  Verif.C34_counterexample
  Verif.C34_near
  Verif.C34_sound
  Verif.C35_complete_partial
  Verif.C35_counterexample
  Verif.C35_near
  Verif.C35_sound
  Verif.C36_crossing
  Verif.C36_hasIntersection
  Verif.C36_missing
  Verif.C36_reading
  Verif.C36_touching
  Verif.C37_complete
  Verif.C37_hasIntersection
  Verif.C37_near
  Verif.C37_sound
  Verif.C38_complete_partial
  Verif.C38_counterexample_missed
  Verif.C38_counterexample_unsound
  Verif.C38_hasIntersection_partial
  Verif.C38_missing_partial
  Verif.C38_sound_partial
  Verif.C38_touch
  Verif.C38_touch_exact
  Verif.C39_real
  Verif.C40_counterexample
  Verif.C40_many_counterexample
  Verif.C40_touch_counterexample
  Verif.C40_two_partial
  Verif.C40_vertical_partial
  Verif.C41_linear
  Verif.C42_add_triangles
  Verif.C42_capacity_exact
  Verif.C43_vertices
  Verif.C44_next_prev
  Verif.C45_facet_loop
  Verif.C45_triangle_indices
  Verif.C46_vertex_halfedges
  Verif.C47_counterexample
  Verif.C47_opposite_is_self
  Verif.C47_opposite_partial
  Verif.C48_build_succeeds
  Verif.C48_is_valid
  Verif.C49_line_indices
  Verif.C50_vertex_facets
  Verif.C51_facet_normal
  Verif.C52_split_independent
  Verif.C52_vertex_normals
  Verif.C53_contains_facet
  Verif.C53_contains_halfedge_partial
  Verif.C53_contains_vertex_partial
  Verif.C53_counterexample
  Verif.C53_counterexample_halfedge
  Verif.C53_vertex_eq_partial
  Verif.C54_counterexample
  Verif.C55_direction
  Verif.C55_discretize
  Verif.C55_discretize_xy
  Verif.C56_closed
  Verif.C56_in_range
  Verif.C56_largest_count_diverges
  Verif.C56_no_cone
  Verif.C57_closed
  Verif.C57_in_range_partial
  Verif.C57_no_cylinder
  Verif.C57_small_counterexample
  Verif.C58_closed
  Verif.C58_in_range
  Verif.C58_small_counterexample
  Verif.C59_accepts
  Verif.C59_cuboid
  Verif.C60_cone
  Verif.C60_cylinder
  Verif.C60_distinct
  Verif.C60_sphere
  Verif.C61_capacity
  Verif.C61_debug
  Verif.C61_facets
  Verif.C61_release
  Verif.C62_affine
  Verif.C62_affine_needed
  Verif.C62_compose
  Verif.C62_identity
  Verif.C62_segment
  Verif.C63_counterexample
  Verif.C63_partial
  Verif.C64_contains
  Verif.C64_sphere
  Verif.C65_circle2
  Verif.C65_counterexample
  Verif.C65_exact
  Verif.C65_partial
  Verif.C66_cone
  Verif.C66_cylinder
  Verif.C67_line
  Verif.C67_plane
  Verif.C67_ray
  Verif.C68_all_choices
  Verif.C68_corners
  Verif.C68_diagonal
  Verif.C68_diagonal_independent
  Verif.C68_distinct
  Verif.C69_measures
  Verif.C70_order
  Verif.C71_any_direction
  Verif.C71_extreme
  Verif.C72_components
  Verif.C73_near_parallel_counterexample
  Verif.C74_no_fault
  Verif.C75_aabb
  Verif.C75_circle2
  Verif.C75_circle3
  Verif.C75_cone
  Verif.C75_cuboid
  Verif.C75_cylinder
  Verif.C75_interval
  Verif.C75_line
  Verif.C75_plane
  Verif.C75_ray
  Verif.C75_segment
  Verif.C75_sphere
  Verif.C76_chain_partial
  Verif.C76_not_transitive
  Verif.C76_same_line
  Verif.C76_same_segment
  Verif.C77_box_counterexample
  Verif.C77_box_partial
  Verif.C77_circle2
  Verif.C77_circle2_radius
  Verif.C77_circle3_counterexample
  Verif.C77_circle3_partial
  Verif.C77_ray_counterexample
  Verif.C77_ray_partial
  Verif.C78_center
  Verif.C78_center_inside
  Verif.C78_extend
  Verif.C78_extend_zero
  Verif.C79_cone
  Verif.C79_cuboid_counterexample
  Verif.C79_cuboid_partial
  Verif.C79_cuboid_stored
  Verif.C79_cylinder
  Verif.C79_sphere
  Verif.C80_cone
  Verif.C80_cuboid
  Verif.C80_cylinder
  Verif.C80_default_needs_16_bit
  Verif.C80_sphere
  Verif.C81_cone
  Verif.C81_cylinder
  Verif.C81_sphere
  Verif.C82_cuboid_counterexample
  Verif.C82_cuboid_partial
  Verif.C82_exact
  Verif.C83_cone
  Verif.C83_cuboid
  Verif.C83_cylinder
  Verif.C83_normals
  Verif.C83_sphere
  Verif.C84_apex
  Verif.C84_cone
  Verif.C84_cuboid
  Verif.C84_cylinder
  Verif.C84_sphere
  Verif.C85_detects
  Verif.C85_leftmost
  Verif.C85_reversed_counterexample
  Verif.C85_single
  Verif.C85_start_on_segment_counterexample
  Verif.C86_counterexample
  Verif.C88_cone
  Verif.C88_cuboid
  Verif.C88_cylinder
  Verif.C88_sphere
  Verif.C89_cone
  Verif.C89_cuboid
  Verif.C89_cylinder
  Verif.C89_sphere
  Verif.C90_nearest
  Verif.C91_counterexample
  Verif.C91_nearest_of_stored_partial
  Verif.C92_collapse
  Verif.C92_cone
  Verif.C92_cylinder
  Verif.C92_sphere
  Verif.C93_box_absorbed
  Verif.C93_box_partial
  Verif.C93_counterexample
  Verif.C93_grid_partial
  Verif.C94_accuracy
  Verif.C94_closed
  Verif.C95_direction
  Verif.C95_length
  Verif.C96_cone
  Verif.C96_cylinder
  Verif.C97_accuracy
  Verif.C98_axis_counterexample
  Verif.C98_counterexample
  Verif.C98_exact_partial
  Verif.C98_grid_partial
  Verif.C99_distances
  Verif.C99_lines
  Verif.C99_make
  Verif.Ieee.C127_grow
  Verif.Ieee.C127_inside
  Verif.Ieee.C127_refine
  Verif.Ieee.C127_refine_points
  Verif.Ieee.C128_counterexample
  Verif.Ieee.C128_nan_max
  Verif.Ieee.C128_nan_y
  Verif.Ieee.C130_nan
  Verif.Ieee.C131_counterexample
  Verif.Ieee.C132_finite
  Verif.Ieee.C148_center_counterexample
  Verif.Ieee.C148_center_partial
  Verif.Ieee.C149_accuracy_partial
  Verif.Ieee.C149_counterexample
  Verif.Ieee.C149_point_partial
  Verif.Ieee.C149_sweep_partial
  Verif.Ieee.C149_wrong_counterexample
  Verif.Ieee.C150_common_point_partial
  Verif.Ieee.C150_counterexample
  Verif.Ieee.C150_ray_partial
  Verif.Ieee.C150_segment_partial
  Verif.Ieee.C154_counterexample
  Verif.Ieee.C154_line_2d_none
  Verif.Ieee.C154_line_2d_partial
  Verif.Ieee.C154_line_3d_partial
  Verif.Ieee.C154_plane_ray_partial
  Verif.Ieee.C154_plane_segment_partial
  Verif.Ieee.C155_counterexample
  Verif.Ieee.C155_line_ray_parallel_partial
  Verif.Ieee.C155_line_ray_partial
  Verif.Ieee.C155_parallel_partial
  Verif.Ieee.C155_point_segment_partial
  Verif.Ieee.C155_skew_partial
  Verif.Ieee.resolves_of
  Verif.boThree_result

[propext, Quot.sound]
  Verif.C01_search_iff_inserted
  Verif.C01_search_iff_mem
  Verif.C02_insert
  Verif.C03_size_mod
  Verif.C05_nearest_of_stored
  Verif.C05_points_distinct
  Verif.C05_write
  Verif.C10_order_exact
  Verif.C123_add_counterexample
  Verif.C123_ray_flipped
  Verif.C133_points_counterexample
  Verif.C137_distance
  Verif.C137_lines3
  Verif.C137_segments3
  Verif.C139_plane_ray
  Verif.C139_sphere_ray
  Verif.C13_valid_partial
  Verif.C144_found
  Verif.C144_part
  Verif.C144_sound
  Verif.C14_symmetric
  Verif.C156_boxes
  Verif.C156_build
  Verif.C156_facade
  Verif.C156_intersections
  Verif.C156_mesh
  Verif.C156_sessions
  Verif.C156_shapes
  Verif.C53_vertex_eq_exact
  Verif.C54_round_trip_partial
  Verif.C63_debug
  Verif.C70_counterexample
  Verif.C70_invalid
  Verif.C77_box_setters
  Verif.C86_move_partial
  Verif.C87_height
  Verif.C98_partial
