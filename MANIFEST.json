{
 "claims": [
  {
   "property": "C01",
   "status": "proved",
   "theorems": [
    "Fenris.C01_nested_vec_refines_list_of_lists",
    "Fenris.C01_begin_array_equals_push"
   ],
   "note": ""
  },
  {
   "property": "C02",
   "status": "proved",
   "theorems": [
    "Fenris.C02_round_trip_lists",
    "Fenris.C02_round_trip_nested"
   ],
   "note": ""
  },
  {
   "property": "C03",
   "status": "proved",
   "theorems": [
    "Fenris.C03_try_from_accepts_iff_disjoint",
    "Fenris.C03_panics_iff_label_mismatch"
   ],
   "note": ""
  },
  {
   "property": "C04",
   "status": "partial",
   "theorems": [
    "Fenris.C04_split_tree_delivers_each_subset_once_partial",
    "Fenris.C04_leaf_exhausted",
    "Fenris.C04_halving_is_allowed",
    "Fenris.C04_split_at_len_panics"
   ],
   "note": "Proved for every split tree whose indices satisfy the producer's own assertion (index < len), which includes every halving split rayon's bridge performs; C04_split_at_len_panics shows the full statement is false of the code for index = len."
  },
  {
   "property": "C05",
   "status": "proved",
   "theorems": [
    "Fenris.C05_every_interleaving_same_result",
    "Fenris.C05_parallel_equals_sequential",
    "Fenris.C05_other_positions_untouched",
    "Fenris.C05_only_empty_subsets_panics_in_debug"
   ],
   "note": "C05_only_empty_subsets_panics_in_debug records that debug builds reject a family of only empty subsets."
  },
  {
   "property": "C06",
   "status": "proved",
   "theorems": [
    "Fenris.C06_coloring_is_proper_partition",
    "Fenris.C06_same_color_no_shared_index"
   ],
   "note": ""
  },
  {
   "property": "C07",
   "status": "proved",
   "theorems": [
    "Fenris.C07_first_fit",
    "Fenris.C07_color_count_bound"
   ],
   "note": ""
  },
  {
   "property": "C08",
   "status": "proved",
   "theorems": [
    "Fenris.C08_block_adapter_accepts_iff",
    "Fenris.C08_blocks_partition_the_slice"
   ],
   "note": ""
  },
  {
   "property": "C09",
   "status": "proved",
   "theorems": [
    "Fenris.C09_prefix_sum_is_exclusive_scan",
    "Fenris.C09_flatten_vertically_stacks_rows",
    "Fenris.RowMat.C09_flatten_into"
   ],
   "note": ""
  },
  {
   "property": "C10",
   "status": "partial",
   "theorems": [
    "Fenris.C10_from_vec_ok_iff_permutation",
    "Fenris.C10_in_range_vectors_never_panic_partial",
    "Fenris.C10_out_of_range_entry_panics",
    "Fenris.C10_panics_iff"
   ],
   "note": "No panic is proved for vectors whose entries are in range. The full statement is false of the code: an entry out of range makes from_vec panic."
  },
  {
   "property": "C11",
   "status": "proved",
   "theorems": [
    "Fenris.C11_inverse_laws",
    "Fenris.C11_reverse_laws",
    "Fenris.C11_apply_moves_source_to_target",
    "Fenris.C11_apply_then_inverse_restores"
   ],
   "note": ""
  },
  {
   "property": "C12",
   "status": "proved",
   "theorems": [
    "Fenris.C12_cuthill_mckee_is_permutation",
    "Fenris.C12_components_numbered_consecutively"
   ],
   "note": ""
  },
  {
   "property": "C13",
   "status": "proved",
   "theorems": [
    "Fenris.C13_apply_only_renumbers",
    "Fenris.C13_reorder_produces_valid_permutations",
    "Fenris.C13_cells_ordered_by_least_vertex",
    "Fenris.C13_reorder_mesh_par_only_renumbers"
   ],
   "note": ""
  },
  {
   "property": "C14",
   "status": "proved",
   "theorems": [
    "Fenris.C14_boundary_faces_exact",
    "Fenris.C14_boundary_vertices_exact",
    "Fenris.C14_boundary_cells_exact",
    "Fenris.C14_surface_mesh_is_boundary"
   ],
   "note": ""
  },
  {
   "property": "C15",
   "status": "proved",
   "theorems": [
    "Fenris.C15_keep_cells_panics_iff_out_of_range",
    "Fenris.C15_keep_cells_keeps_selected_cells",
    "Fenris.Poly.C15_poly_keep_cells"
   ],
   "note": ""
  },
  {
   "property": "C16",
   "status": "proved",
   "theorems": [
    "Fenris.C16_refinement_is_conforming_midpoint_subdivision",
    "Fenris.C16_children_have_quarter_area",
    "Fenris.C16_repeat_counts_cells_and_preserves_area",
    "Fenris.C16_children_cover_parent",
    "Fenris.C16_children_interiors_disjoint"
   ],
   "note": ""
  },
  {
   "property": "C17",
   "status": "proved",
   "theorems": [
    "Fenris.C17_zero_count_gives_empty_mesh",
    "Fenris.C17_quad_mesh_is_the_grid",
    "Fenris.C17_cells_tile_the_rectangle",
    "Fenris.C17_vertices_are_distinct",
    "Fenris.C17_unit_square"
   ],
   "note": ""
  },
  {
   "property": "C18",
   "status": "proved",
   "theorems": [
    "Fenris.C18_zero_count_gives_no_cells",
    "Fenris.C18_zero_units_z_leaves_unused_vertices",
    "Fenris.C18_hex_mesh_is_the_grid",
    "Fenris.C18_cells_tile_the_box",
    "Fenris.C18_unit_box"
   ],
   "note": ""
  },
  {
   "property": "C19",
   "status": "proved",
   "theorems": [
    "Fenris.C19_tet10_elevation",
    "Fenris.C19_hex20_elevation",
    "Fenris.C19_hex27_elevation",
    "Fenris.C19_tet20_elevation",
    "Fenris.C19_boundaryNodes_tri6",
    "Fenris.C19_boundaryNodes_quad9",
    "Fenris.C19_tri6_elevation",
    "Fenris.C19_quad9_elevation",
    "Fenris.C19_tet10_round_trip",
    "Fenris.C19_nodes_are_images_of_reference_nodes"
   ],
   "note": ""
  },
  {
   "property": "C20",
   "status": "proved",
   "theorems": [
    "Fenris.C20_pattern_is_exact",
    "Fenris.C20_parallel_pattern_equals_serial",
    "Fenris.C20_missing_node_panics"
   ],
   "note": ""
  },
  {
   "property": "C21",
   "status": "proved",
   "theorems": [
    "Fenris.C21_assemble_into_adds_contributions",
    "Fenris.C21_first_error_is_returned",
    "Fenris.C21_assemble_is_sum_of_contributions",
    "Fenris.C21_repeated_node_panics"
   ],
   "note": ""
  },
  {
   "property": "C22",
   "status": "proved",
   "theorems": [
    "Fenris.C22_parallel_matrix_equals_serial",
    "Fenris.C22_parallel_matrix_error",
    "Fenris.C22_parallel_assemble_equals_serial",
    "Fenris.C22_parallel_vector_equals_serial",
    "Fenris.C22_concurrent_elements_write_different_rows"
   ],
   "note": ""
  },
  {
   "property": "C23",
   "status": "proved",
   "theorems": [
    "Fenris.C23_assemble_vector_into_adds_contributions",
    "Fenris.C23_assemble_vector_is_sum_of_contributions",
    "Fenris.C23_first_error_is_returned",
    "Fenris.C23_gather_reads_element_entries"
   ],
   "note": ""
  },
  {
   "property": "C24",
   "status": "proved",
   "theorems": [
    "Fenris.C24_scalar_is_sum",
    "Fenris.C24_scalar_first_error",
    "Fenris.C24_parallel_scalar_every_tree"
   ],
   "note": ""
  },
  {
   "property": "C25",
   "status": "proved",
   "theorems": [
    "Fenris.Assembly.C25_csr_entries",
    "Fenris.Assembly.C25_csr_keeps_symmetry",
    "Fenris.Assembly.C25_rhs_entries",
    "Fenris.Assembly.C25_dense_entries",
    "Fenris.Assembly.C25_csr_solutions",
    "Fenris.Assembly.C25_dense_solutions",
    "Fenris.Assembly.C25_assembled_system_solutions",
    "Fenris.Assembly.C25_missing_diagonal_leaves_zero_row",
    "Fenris.Assembly.C25_unsymmetric_pattern_keeps_column",
    "Fenris.Assembly.C25_dense_zero_diagonal_leaves_zero_row"
   ],
   "note": ""
  },
  {
   "property": "C26",
   "status": "partial",
   "theorems": [
    "Fenris.Assembly.C26_construction",
    "Fenris.Assembly.C26_query_is_answered_by_owner_partial",
    "Fenris.Assembly.C26_query_is_answered_by_owner_with_last_match",
    "Fenris.Assembly.C26_every_index_has_one_owner",
    "Fenris.Assembly.C26_aggregate_is_concatenation_partial",
    "Fenris.Assembly.C26_indices_beyond_total_rejected",
    "Fenris.Assembly.C26_one_past_the_end_is_not_rejected",
    "Fenris.Assembly.C26_empty_part_may_be_selected"
   ],
   "note": "Full for lists without empty parts, and for all lists if binary_search finds the last of equal offsets. The rest is false of the code: C26_empty_part_may_be_selected, C26_one_past_the_end_is_not_rejected."
  },
  {
   "property": "C27",
   "status": "proved",
   "theorems": [
    "Fenris.Quadrature.C27_general_accepted_iff",
    "Fenris.Quadrature.C27_compact_accepted_iff",
    "Fenris.Quadrature.C27_general_returns_rule",
    "Fenris.Quadrature.C27_compact_returns_assigned_rule",
    "Fenris.Quadrature.C27_compact_equals_expanded_general",
    "Fenris.Quadrature.C27_uniform_returns_the_rule",
    "Fenris.Quadrature.C27_uniform_data",
    "Fenris.Quadrature.C27_unit_data_tables",
    "Fenris.Quadrature.C27_weights_and_points",
    "Fenris.Quadrature.C27_uniform_equals_expanded_general",
    "Fenris.Quadrature.C27_into_parts"
   ],
   "note": ""
  },
  {
   "property": "C28",
   "status": "proved",
   "theorems": [
    "Fenris.Local.C28_matrix_is_quadrature_sum",
    "Fenris.Local.C28_declared_symmetric_gives_symmetric_matrix",
    "Fenris.Local.C28_vector_is_quadrature_sum",
    "Fenris.Local.C28_energy_is_quadrature_sum",
    "Fenris.Local.C28_singular_jacobian_is_an_error",
    "Fenris.Local.C28_mismatched_arrays_panic",
    "Fenris.Local.C28_laplace_matrix_vector_energy",
    "Fenris.Local.C28_laplace_matrix_is_positive_semidefinite",
    "Fenris.Local.C28_laplace_matrix_annihilates_constants"
   ],
   "note": ""
  },
  {
   "property": "C29",
   "status": "proved",
   "theorems": [
    "Fenris.Local.C29_mass_matrix_is_quadrature_sum",
    "Fenris.Local.C29_mass_matrix_is_symmetric",
    "Fenris.Local.C29_mass_matrix_entries_sum_to_mass",
    "Fenris.Local.C29_mass_matrix_is_positive_semidefinite",
    "Fenris.Local.C29_source_vector_is_quadrature_sum",
    "Fenris.Local.C29_mismatched_arrays_panic",
    "Fenris.Local.C29_gravity_vector",
    "Fenris.Local.C29_gravity_total_force"
   ],
   "note": ""
  },
  {
   "property": "C30",
   "status": "proved",
   "theorems": [
    "Fenris.Cg.C30_outcome",
    "Fenris.Cg.C30_terminates_within_limit",
    "Fenris.Cg.C30_outcome_is_unique",
    "Fenris.Cg.C30_ok_means_criterion_held",
    "Fenris.Cg.C30_max_iterations",
    "Fenris.Cg.C30_indefinite",
    "Fenris.Cg.C30_errors_are_passed_through"
   ],
   "note": ""
  },
  {
   "property": "C31",
   "status": "proved",
   "theorems": [
    "Fenris.Cg.C31_maintained_residual_is_true_residual",
    "Fenris.Cg.C31_ok_means_small_residual",
    "Fenris.Cg.C31_directions_conjugate_residuals_orthogonal",
    "Fenris.Cg.C31_spd_converges_within_dimension",
    "Fenris.Cg.C31_spd_verdicts",
    "Fenris.Cg.C31_energy_error_decreases"
   ],
   "note": ""
  },
  {
   "property": "C32",
   "status": "proved",
   "theorems": [
    "Fenris.Newton.C32_outcome",
    "Fenris.Newton.C32_solution_is_accumulated_steps",
    "Fenris.Newton.C32_ok_means_small_residual",
    "Fenris.Newton.C32_limit_means_large_residual",
    "Fenris.Newton.C32_errors_are_passed_through",
    "Fenris.Newton.C32_terminates_within_limit",
    "Fenris.Newton.C32_plain_step_is_faithful",
    "Fenris.Newton.C32_affine_converges_in_one_step"
   ],
   "note": ""
  },
  {
   "property": "C33",
   "status": "proved",
   "theorems": [
    "Fenris.Newton.C33_first_acceptable_step",
    "Fenris.Newton.C33_success",
    "Fenris.Newton.C33_failure",
    "Fenris.Newton.C33_backtracking_is_faithful"
   ],
   "note": ""
  },
  {
   "property": "C34",
   "status": "proved",
   "theorems": [
    "Fenris.Calculus.C34_gradient_is_central_difference",
    "Fenris.Calculus.C34_jacobian_is_central_difference",
    "Fenris.Calculus.C34_approximate_jacobian_agrees",
    "Fenris.Calculus.C34_gradient_exact_for_quadratics",
    "Fenris.Calculus.C34_jacobian_exact_for_quadratics",
    "Fenris.Calculus.C34_gradient_is_consistent"
   ],
   "note": ""
  },
  {
   "property": "C35",
   "status": "proved",
   "theorems": [
    "Fenris.C35_basis_sums_to_one",
    "Fenris.C35_gradients_sum_to_zero"
   ],
   "note": ""
  },
  {
   "property": "C36",
   "status": "proved",
   "theorems": [
    "Fenris.C36_basis_is_nodal",
    "Fenris.C36_interpolant_takes_nodal_values"
   ],
   "note": ""
  },
  {
   "property": "C37",
   "status": "proved",
   "theorems": [
    "Fenris.C37_gradient_is_formal_derivative",
    "Fenris.C37_gradient_is_real_derivative"
   ],
   "note": ""
  },
  {
   "property": "C38",
   "status": "proved",
   "theorems": [
    "Fenris.C38_simplex_elements_reproduce_polynomials",
    "Fenris.C38_tensor_elements_reproduce_polynomials",
    "Fenris.C38_serendipity_element_reproduces_polynomials",
    "Fenris.C38_serendipity_covers_total_degree_two",
    "Fenris.C38_jacobian_is_derivative_of_map",
    "Fenris.C38_segment_jacobian",
    "Fenris.C38_map_sends_reference_vertices_to_vertices",
    "Fenris.C38_higher_order_geometry_is_linear_geometry"
   ],
   "note": ""
  },
  {
   "property": "C39",
   "status": "proved",
   "theorems": [
    "Fenris.C39_trace_depends_on_face_nodes",
    "Fenris.C39_interpolants_agree_on_shared_face"
   ],
   "note": ""
  },
  {
   "property": "C40",
   "status": "proved",
   "theorems": [
    "Fenris.Quadrature.C40_univariate_exact",
    "Fenris.Quadrature.C40_univariate_total_weight",
    "Fenris.Quadrature.C40_univariate_points_inside",
    "Fenris.Quadrature.C40_univariate_weights_sign",
    "Fenris.Quadrature.C40_triangle_exact",
    "Fenris.Quadrature.C40_triangle_panics",
    "Fenris.Quadrature.C40_triangle_points_inside",
    "Fenris.Quadrature.C40_triangle_weights_sign",
    "Fenris.Quadrature.C40_triangle_total_weight"
   ],
   "note": ""
  },
  {
   "property": "C41",
   "status": "proved",
   "theorems": [
    "Fenris.Quadrature.C41_quadrilateral_product",
    "Fenris.Quadrature.C41_hexahedron_product",
    "Fenris.Quadrature.C41_quadrilateral_entries",
    "Fenris.Quadrature.C41_hexahedron_entries",
    "Fenris.Quadrature.C41_quadrilateral_exact",
    "Fenris.Quadrature.C41_hexahedron_exact",
    "Fenris.Quadrature.C41_gauss_exact"
   ],
   "note": ""
  },
  {
   "property": "C42",
   "status": "proved",
   "theorems": [
    "Fenris.Quadrature.C42_legendre_exists_unique",
    "Fenris.Quadrature.C42_legendre",
    "Fenris.Quadrature.C42_gauss_panics",
    "Fenris.Quadrature.C42_gauss_symmetric",
    "Fenris.Quadrature.C42_gauss_points_converged",
    "Fenris.Quadrature.C42_gauss_weights_positive",
    "Fenris.Quadrature.C42_gauss_exact",
    "Fenris.Quadrature.C42_lobatto",
    "Fenris.Quadrature.C42_lobatto_missing",
    "Fenris.Quadrature.C42_legendre_roots",
    "Fenris.Quadrature.C42_gauss_of_roots",
    "Fenris.Quadrature.C42_gauss_converges"
   ],
   "note": ""
  },
  {
   "property": "C43",
   "status": "proved",
   "theorems": [
    "Fenris.Polyquad.C43_select_minimum",
    "Fenris.Polyquad.C43_no_rule",
    "Fenris.Polyquad.C43_build_succeeds",
    "Fenris.Polyquad.C43_selected_rule_is_balanced"
   ],
   "note": ""
  },
  {
   "property": "C44",
   "status": "proved",
   "theorems": [
    "Fenris.Polyquad.C44_every_text_has_layout",
    "Fenris.Polyquad.C44_parse2d_ok",
    "Fenris.Polyquad.C44_parse3d_ok",
    "Fenris.Polyquad.C44_parse2d_error",
    "Fenris.Polyquad.C44_parse3d_error",
    "Fenris.Polyquad.C44_roundtrip2d",
    "Fenris.Polyquad.C44_roundtrip3d"
   ],
   "note": ""
  },
  {
   "property": "C45",
   "status": "proved",
   "theorems": [
    "Fenris.Geometry.Aabb.C45_new",
    "Fenris.Geometry.Aabb.C45_enclose",
    "Fenris.Geometry.Aabb.C45_from_points",
    "Fenris.Geometry.Aabb.C45_contains_point",
    "Fenris.Geometry.Aabb.C45_intersects",
    "Fenris.Geometry.Aabb.C45_grow",
    "Fenris.Geometry.Aabb.C45_scale",
    "Fenris.Geometry.Aabb.C45_corners"
   ],
   "note": ""
  },
  {
   "property": "C46",
   "status": "proved",
   "theorems": [
    "Fenris.Geometry.Aabb.C46_closest_point",
    "Fenris.Geometry.Aabb.C46_closest_point_unique",
    "Fenris.Geometry.Aabb.C46_dist2",
    "Fenris.Geometry.Aabb.C46_furthest_point"
   ],
   "note": ""
  },
  {
   "property": "C47",
   "status": "proved",
   "theorems": [
    "Fenris.Geometry.C47_project_point",
    "Fenris.Geometry.C47_closest_point",
    "Fenris.Geometry.C47_midpoint",
    "Fenris.Geometry.C47_half_space",
    "Fenris.Geometry.C47_lines_parallel",
    "Fenris.Geometry.C47_lines_meet",
    "Fenris.Geometry.C47_line_intersect",
    "Fenris.Geometry.C47_segments_meet",
    "Fenris.Geometry.C47_segments_parallel",
    "Fenris.Geometry.C47_overlapping_segments_not_reported",
    "Fenris.Geometry.C47_half_plane_none",
    "Fenris.Geometry.C47_half_plane_some",
    "Fenris.Geometry.C47_half_plane",
    "Fenris.Geometry.C47_line_plane",
    "Fenris.Geometry.C47_segment_plane",
    "Fenris.Geometry.C47_closest_to_plane"
   ],
   "note": ""
  },
  {
   "property": "C48",
   "status": "partial",
   "theorems": [
    "Fenris.Geometry.C48_line_disk",
    "Fenris.Geometry.C48_segment_disk_partial",
    "Fenris.Geometry.C48_intersect_disk_partial",
    "Fenris.Geometry.C48_disjoint_segment_reported",
    "Fenris.Geometry.C48_degenerate_segment"
   ],
   "note": "Proved for segments of positive length that meet the disk, or for which nothing is reported. The rest is false of the code: C48_disjoint_segment_reported, and a segment of length zero."
  },
  {
   "property": "C49",
   "status": "proved",
   "theorems": [
    "Fenris.Geometry.C49_clip",
    "Fenris.Geometry.C49_clip_vertices",
    "Fenris.Geometry.C49_intersect_polygon",
    "Fenris.Geometry.C49_contains_point",
    "Fenris.Geometry.C49_intersect_strict",
    "Fenris.Geometry.C49_intersect_segment",
    "Fenris.Geometry.C49_intersect_empty",
    "Fenris.Geometry.C49_empty_contains",
    "Fenris.Geometry.C49_collinear_segments",
    "Fenris.Geometry.C49_clip_space"
   ],
   "note": ""
  },
  {
   "property": "C50",
   "status": "proved",
   "theorems": [
    "Fenris.Geometry.C50_signed_area",
    "Fenris.Geometry.C50_rotate",
    "Fenris.Geometry.C50_reverse",
    "Fenris.Geometry.C50_translate",
    "Fenris.Geometry.C50_fan_at_point",
    "Fenris.Geometry.C50_fan",
    "Fenris.Geometry.C50_convex_triangulate",
    "Fenris.Geometry.C50_fan_orientation",
    "Fenris.Geometry.C50_fan_partition",
    "Fenris.Geometry.C50_area_vector"
   ],
   "note": ""
  },
  {
   "property": "C51",
   "status": "proved",
   "theorems": [
    "Fenris.Geometry.C51_signed_distance",
    "Fenris.Geometry.C51_distance",
    "Fenris.Geometry.C51_triangle_basics"
   ],
   "note": ""
  },
  {
   "property": "C52",
   "status": "partial",
   "theorems": [
    "Fenris.Geometry.C52_concave_corner_never_found",
    "Fenris.Geometry.C52_signed_areas",
    "Fenris.Geometry.C52_area_partial",
    "Fenris.Geometry.C52_convex_partial",
    "Fenris.Geometry.C52_concave_area_wrong"
   ],
   "note": "Proved for quadrilaterals whose two triangles do not have opposite orientations, in particular for all convex ones. The rest is false of the code: concave_corner never finds a corner."
  },
  {
   "property": "C53",
   "status": "partial",
   "theorems": [
    "Fenris.Geometry.C53_closest_edge",
    "Fenris.Geometry.C53_convex_signed_distance",
    "Fenris.Geometry.C53_convex_distance",
    "Fenris.Geometry.C53_segment_total",
    "Fenris.Geometry.C53_no_crossing_partial",
    "Fenris.Geometry.C53_true_sound",
    "Fenris.Geometry.C53_crossing_not_reported"
   ],
   "note": "Proved for strictly convex counter-clockwise polygons when no edge is reported as crossed. False of the code when an edge is crossed: C53_crossing_not_reported. Not treated: polygons that are not convex."
  },
  {
   "property": "C54",
   "status": "proved",
   "theorems": [
    "Fenris.Index.C54_closest_element",
    "Fenris.Index.C54_triangle_mesh_2d",
    "Fenris.Index.C54_triangle_mesh_3d",
    "Fenris.Index.C54_tetrahedron_mesh"
   ],
   "note": ""
  },
  {
   "property": "C55",
   "status": "proved",
   "theorems": [
    "Fenris.Interpolate.C55_values_agree",
    "Fenris.Interpolate.C55_gradients_agree",
    "Fenris.Interpolate.C55_direct_value",
    "Fenris.Interpolate.C55_direct_gradient",
    "Fenris.Interpolate.C55_builds",
    "Fenris.Interpolate.C55_parallel_agrees",
    "Fenris.Interpolate.C55_empty_space_panics",
    "Fenris.Interpolate.C55_compressed_checks",
    "Fenris.Interpolate.C55_compressed_values"
   ],
   "note": ""
  },
  {
   "property": "C56",
   "status": "partial",
   "theorems": [
    "Fenris.Solid.C56_linear_elastic",
    "Fenris.Solid.C56_stvk",
    "Fenris.Solid.C56_neo_hookean_finite_partial",
    "Fenris.Solid.C56_neo_hookean_partial",
    "Fenris.Solid.C56_undeformed",
    "Fenris.Solid.C56_undeformed_neo_hookean_partial",
    "Fenris.Solid.C56_neo_hookean_one_dimension"
   ],
   "note": "The Neo-Hookean theorems hold in two and three dimensions. In dimension one the statement is false of the code: C56_neo_hookean_one_dimension."
  },
  {
   "property": "C57",
   "status": "proved",
   "theorems": [
    "Fenris.Solid.C57_linear_elastic",
    "Fenris.Solid.C57_stvk",
    "Fenris.Solid.C57_neo_hookean",
    "Fenris.Solid.C57_batch_contraction",
    "Fenris.Solid.C57_batch_elastic_stvk",
    "Fenris.Solid.C57_batch_neo_hookean",
    "Fenris.Solid.C57_batch_displacement",
    "Fenris.Solid.C57_neo_hookean_batch_panics",
    "Fenris.Solid.C57_operator_symmetric",
    "Fenris.Solid.C57_operator_batch"
   ],
   "note": ""
  },
  {
   "property": "C58",
   "status": "partial",
   "theorems": [
    "Fenris.Solid.C58_log_det_F_partial",
    "Fenris.Solid.C58_one_dimension_wrong"
   ],
   "note": "Proved in two and three dimensions. In dimension one the statement is false of the code: C58_one_dimension_wrong."
  },
  {
   "property": "C59",
   "status": "proved",
   "theorems": [
    "Fenris.Solid.C59_lame_parameters",
    "Fenris.Solid.C59_lame_parameters_bijective",
    "Fenris.Solid.C59_deformation_gradient",
    "Fenris.Solid.C59_displacement_methods"
   ],
   "note": ""
  },
  {
   "property": "C60",
   "status": "partial",
   "theorems": [
    "Fenris.Io.C60_load",
    "Fenris.Io.C60_accepted_files_load",
    "Fenris.Io.C60_no_panic",
    "Fenris.Io.C60_in_bounds_partial",
    "Fenris.Io.C60_tags_are_not_checked",
    "Fenris.Io.C60_too_many_nodes_panic",
    "Fenris.Io.C60_gmsh_node_order"
   ],
   "note": "Indices are in bounds if no tag exceeds the number of nodes. The full statement is false of the code: C60_tags_are_not_checked."
  },
  {
   "property": "C61",
   "status": "partial",
   "theorems": [
    "Fenris.Io.C61_node_order_partial",
    "Fenris.Io.C61_quad9_has_too_many_nodes",
    "Fenris.Io.C61_decodes",
    "Fenris.Io.C61_large_index_is_an_error",
    "Fenris.Io.C61_vector_attributes",
    "Fenris.Io.C61_scalar_attributes"
   ],
   "note": "The node order is proved for all element kinds but Quad9, for which it is false of the code: C61_quad9_has_too_many_nodes."
  },
  {
   "property": "C62",
   "status": "proved",
   "theorems": [
    "Fenris.Poly.C62_from_poly_data",
    "Fenris.Poly.C62_face_cell_connectivity",
    "Fenris.Poly.C62_boundary_faces",
    "Fenris.Poly.C62_dedup_faces",
    "Fenris.Poly.C62_dedup_is_by_vertex_sets",
    "Fenris.Poly.C62_dedup_idempotent",
    "Fenris.Poly.C62_concatenate"
   ],
   "note": ""
  },
  {
   "property": "C63",
   "status": "proved",
   "theorems": [
    "Fenris.Poly.C63_split_edges",
    "Fenris.Poly.C63_split_edges_n"
   ],
   "note": ""
  },
  {
   "property": "C64",
   "status": "proved",
   "theorems": [
    "Fenris.Poly.C64_triangulate",
    "Fenris.Poly.C64_conforming",
    "Fenris.Poly.C64_cell_volume",
    "Fenris.Poly.C64_compute_volume",
    "Fenris.Poly.C64_volume_of_sub_mesh_wrong"
   ],
   "note": ""
  },
  {
   "property": "C65",
   "status": "proved",
   "theorems": [
    "Fenris.GeomUtil.C65_shift_equality",
    "Fenris.GeomUtil.C65_index_power_items",
    "Fenris.GeomUtil.C65_index_power_enumerates"
   ],
   "note": ""
  },
  {
   "property": "C66",
   "status": "proved",
   "theorems": [
    "Fenris.Integrate.C66_volume_form",
    "Fenris.Integrate.C66_volume_form_curve",
    "Fenris.Integrate.C66_volume_form_surface",
    "Fenris.Integrate.C66_volume_form_volume",
    "Fenris.Integrate.C66_integral_is_quadrature_sum",
    "Fenris.Integrate.C66_integral_without_solution",
    "Fenris.Integrate.C66_wrong_length_panics",
    "Fenris.Integrate.C66_integral_linear",
    "Fenris.Integrate.C66_integral_order_and_split",
    "Fenris.Integrate.C66_integral_of_one",
    "Fenris.Integrate.C66_length_of_segment",
    "Fenris.Integrate.C66_area_of_triangle",
    "Fenris.Integrate.C66_volume_of_tetrahedron",
    "Fenris.Integrate.C66_volume_integral",
    "Fenris.Integrate.C66_volume_integral_agrees",
    "Fenris.Integrate.C66_mesh_element_integral",
    "Fenris.Integrate.C66_mesh_element_volume_integral",
    "Fenris.Integrate.C66_mesh_integral",
    "Fenris.Integrate.C66_mesh_volume_integral"
   ],
   "note": ""
  },
  {
   "property": "C67",
   "status": "proved",
   "theorems": [
    "Fenris.Integrate.C67_element_l2",
    "Fenris.Integrate.C67_element_h1",
    "Fenris.Integrate.C67_element_panics",
    "Fenris.Integrate.C67_mesh_l2",
    "Fenris.Integrate.C67_mesh_h1",
    "Fenris.Integrate.C67_l2_seminorm",
    "Fenris.Integrate.C67_h1_seminorm"
   ],
   "note": ""
  },
  {
   "property": "C68",
   "status": "proved",
   "theorems": [
    "Fenris.Assembly.C68_renamed_assembly_relocates_entries"
   ],
   "note": ""
  },
  {
   "property": "C69",
   "status": "proved",
   "theorems": [
    "Fenris.Local.C69_element_matrix",
    "Fenris.Local.C69_element_vector",
    "Fenris.Local.C69_global_matrix",
    "Fenris.Local.C69_global_vector",
    "Fenris.Local.C69_global_energy"
   ],
   "note": ""
  },
  {
   "property": "C70",
   "status": "proved",
   "theorems": [
    "Fenris.Closest.C70_triangle_2d",
    "Fenris.Closest.C70_triangle_2d_inside",
    "Fenris.Closest.C70_triangle_3d",
    "Fenris.Closest.C70_triangle_3d_never_inside",
    "Fenris.Closest.C70_tetrahedron",
    "Fenris.Closest.C70_tetrahedron_inside"
   ],
   "note": ""
  },
  {
   "property": "C71",
   "status": "proved",
   "theorems": [
    "Fenris.Solid.C71_elastic_operators",
    "Fenris.Local.C71_element_vector_is_energy_gradient",
    "Fenris.Local.C71_element_matrix_is_vector_derivative",
    "Fenris.Local.C71_global_vector_is_energy_gradient",
    "Fenris.Local.C71_global_matrix_is_vector_derivative",
    "Fenris.Local.C71_laplace_operator"
   ],
   "note": ""
  },
  {
   "property": "C72",
   "status": "proved",
   "theorems": [
    "Fenris.Solid.C72_stvk_objective",
    "Fenris.Solid.C72_neo_hookean_objective",
    "Fenris.Solid.C72_linear_elastic_invariant",
    "Fenris.Solid.C72_linear_elastic_not_objective",
    "Fenris.Solid.C72_energy_nonneg"
   ],
   "note": ""
  },
  {
   "property": "C73",
   "status": "proved",
   "theorems": [
    "Fenris.Poly.C73_intersect_half_space",
    "Fenris.Poly.C73_watertight",
    "Fenris.Poly.C73_inside",
    "Fenris.Poly.C73_all_inside",
    "Fenris.Poly.C73_all_outside",
    "Fenris.Poly.C73_intersect_convex_polyhedron"
   ],
   "note": ""
  },
  {
   "property": "C74",
   "status": "partial",
   "theorems": [
    "Fenris.Geometry.C74_whole_number_partial",
    "Fenris.Geometry.C74_locally_constant_partial",
    "Fenris.Geometry.C74_outside_partial",
    "Fenris.Geometry.C74_order",
    "Fenris.Geometry.C74_orientation",
    "Fenris.Geometry.C74_tetrahedron_closed",
    "Fenris.Geometry.C74_tetrahedron_inside",
    "Fenris.Geometry.C74_inside_false"
   ],
   "note": "Proved for points that see every triangle under a solid angle of less than pi. The full statement is false of the code beyond that, since it uses atan instead of atan2."
  },
  {
   "property": "C75",
   "status": "proved",
   "theorems": [
    "Fenris.Geometry.C75_polygon_closest_point",
    "Fenris.Geometry.C75_contains_point",
    "Fenris.Geometry.C75_half_spaces",
    "Fenris.Geometry.C75_signed_distance",
    "Fenris.Geometry.C75_hexahedron_distance",
    "Fenris.Geometry.C75_tetrahedron_solid",
    "Fenris.Geometry.C75_tetrahedron_contains_point",
    "Fenris.Geometry.C75_tetrahedron_signed_distance",
    "Fenris.Geometry.C75_tetrahedron_distance",
    "Fenris.Geometry.C75_tetrahedron_volume",
    "Fenris.Geometry.C75_parallelepiped_solid",
    "Fenris.Geometry.C75_panics"
   ],
   "note": ""
  },
  {
   "property": "C76",
   "status": "proved",
   "theorems": [
    "Fenris.Workspace.C76_access",
    "Fenris.Workspace.C76_history",
    "Fenris.Workspace.C76_last",
    "Fenris.Workspace.C76_reentry",
    "Fenris.Workspace.C76_thread_local"
   ],
   "note": ""
  },
  {
   "property": "C77",
   "status": "proved",
   "theorems": [
    "Fenris.Sdf.C77_circle",
    "Fenris.Sdf.C77_circle_gradient",
    "Fenris.Sdf.C77_circle_box",
    "Fenris.Sdf.C77_union",
    "Fenris.Sdf.C77_union_gradient",
    "Fenris.Sdf.C77_union_box",
    "Fenris.Sdf.C77_box",
    "Fenris.Sdf.C77_box_box",
    "Fenris.Sdf.C77_box_gradient_upper",
    "Fenris.Sdf.C77_box_gradient_lower",
    "Fenris.Sdf.C77_box_gradient_centre",
    "Fenris.Sdf.C77_union_inside_false"
   ],
   "note": ""
  },
  {
   "property": "C78",
   "status": "proved",
   "theorems": [
    "Fenris.CsrRows.C78_rows",
    "Fenris.CsrRows.C78_write",
    "Fenris.CsrRows.C78_disjoint",
    "Fenris.CsrRows.C78_parallel",
    "Fenris.CsrRows.C78_assembled"
   ],
   "note": ""
  },
  {
   "property": "C79",
   "status": "proved",
   "theorems": [
    "Fenris.Surface.C79_gauss",
    "Fenris.Surface.C79_closed_surface",
    "Fenris.Surface.C79_closed_curve",
    "Fenris.Surface.C79_volume",
    "Fenris.Surface.C79_area",
    "Fenris.Surface.C79_tet_mesh_consistent",
    "Fenris.Surface.C79_surface_mesh",
    "Fenris.Surface.C79_winding_number",
    "Fenris.Surface.C79_disjoint_cells"
   ],
   "note": ""
  },
  {
   "property": "C80",
   "status": "proved",
   "theorems": [
    "Fenris.Poly.C80_hex_to_tets",
    "Fenris.Poly.C80_hex_volume",
    "Fenris.Poly.C80_accepts_other_cells",
    "Fenris.Poly.C80_from_mesh",
    "Fenris.Poly.C80_boundary_faces",
    "Fenris.Poly.C80_to_tets",
    "Fenris.Poly.C80_tetrahedral_cells",
    "Fenris.Poly.C80_tet_round_trip"
   ],
   "note": ""
  },
  {
   "property": "C81",
   "status": "proved",
   "theorems": [
    "Fenris.MeshUtil.C81_split_into_triangles",
    "Fenris.MeshUtil.C81_split_tiles",
    "Fenris.MeshUtil.C81_triangle_mesh_tiles",
    "Fenris.MeshUtil.C81_unit_square_triangles",
    "Fenris.MeshUtil.C81_transform_vertices",
    "Fenris.MeshUtil.C81_translate",
    "Fenris.MeshUtil.C81_translate_volume",
    "Fenris.MeshUtil.C81_translate_area",
    "Fenris.MeshUtil.C81_bounding_box"
   ],
   "note": ""
  },
  {
   "property": "C82",
   "status": "proved",
   "theorems": [
    "Fenris.VoxelSdf.C82_grid_panics",
    "Fenris.VoxelSdf.C82_grid",
    "Fenris.VoxelSdf.C82_voxelize_sdf",
    "Fenris.VoxelSdf.C82_voxels_are_close",
    "Fenris.VoxelSdf.C82_quad_mesh",
    "Fenris.VoxelSdf.C82_triangle_mesh",
    "Fenris.VoxelSdf.C82_circle_projects",
    "Fenris.VoxelSdf.C82_union_projects",
    "Fenris.VoxelSdf.C82_coarse_grid_misses_circle"
   ],
   "note": ""
  },
  {
   "property": "C83",
   "status": "proved",
   "theorems": [
    "Fenris.TetGrid.C83_zero_count",
    "Fenris.TetGrid.C83_counts",
    "Fenris.TetGrid.C83_volumes",
    "Fenris.TetGrid.C83_tiles_the_box",
    "Fenris.TetGrid.C83_unit_box",
    "Fenris.TetGrid.C83_is_tet_mesh",
    "Fenris.TetGrid.C83_surface_volume",
    "Fenris.TetGrid.C83_boundary"
   ],
   "note": ""
  },
  {
   "property": "C84",
   "status": "proved",
   "theorems": [
    "Fenris.Inverse.C84_simplices_are_affine",
    "Fenris.Inverse.C84_parallelograms_are_affine",
    "Fenris.Inverse.C84_parallelepipeds_are_affine",
    "Fenris.Inverse.C84_map",
    "Fenris.Inverse.C84_element_in_hull",
    "Fenris.Inverse.C84_diameter",
    "Fenris.Inverse.C84_affine_elements_are_inverted",
    "Fenris.Inverse.C84_round_trip",
    "Fenris.Inverse.C84_degenerate_elements_are_rejected",
    "Fenris.Inverse.C84_projection_panics",
    "Fenris.Inverse.C84_projection",
    "Fenris.Inverse.C84_affine_projection_is_closest",
    "Fenris.Inverse.C84_projection_may_not_terminate",
    "Fenris.Inverse.C84_map_may_reach_limit"
   ],
   "note": ""
  },
  {
   "property": "C85",
   "status": "proved",
   "theorems": [
    "Fenris.Rotation.C85_orthonormal_vectors",
    "Fenris.Rotation.C85_plane_tangents",
    "Fenris.Rotation.C85_plane_flipped",
    "Fenris.Rotation.C85_orient2d",
    "Fenris.Rotation.C85_cross_product_matrix",
    "Fenris.Rotation.C85_rotation_svd",
    "Fenris.Rotation.C85_apd_is_rotation",
    "Fenris.Rotation.C85_apd_keeps_polar_factor",
    "Fenris.Rotation.C85_apd_is_objective",
    "Fenris.Rotation.C85_apd_stops",
    "Fenris.Rotation.C85_apd_exact",
    "Fenris.Rotation.C85_apd_round",
    "Fenris.Rotation.C85_apd_may_not_converge",
    "Fenris.Rotation.C85_diag_left_mul"
   ],
   "note": ""
  },
  {
   "property": "C86",
   "status": "proved",
   "theorems": [
    "Fenris.EigenUtil.C86_extreme_eigenvalues",
    "Fenris.EigenUtil.C86_condition_number",
    "Fenris.EigenUtil.C86_condition_number_of_negative_matrix"
   ],
   "note": ""
  },
  {
   "property": "C87",
   "status": "proved",
   "theorems": [
    "Fenris.ShippedRules.C87_triangle",
    "Fenris.ShippedRules.C87_quadrilateral",
    "Fenris.ShippedRules.C87_tetrahedron",
    "Fenris.ShippedRules.C87_hexahedron",
    "Fenris.ShippedRules.C87_prism",
    "Fenris.ShippedRules.C87_pyramid",
    "Fenris.ShippedRules.C87_triangle_area",
    "Fenris.ShippedRules.C87_tetrahedron_volume"
   ],
   "note": ""
  },
  {
   "property": "C88",
   "status": "proved",
   "theorems": [
    "Fenris.Canonical.C88_mass_simplex",
    "Fenris.Canonical.C88_stiffness_simplex",
    "Fenris.Canonical.C88_mass_quadrilateral",
    "Fenris.Canonical.C88_mass_hexahedron",
    "Fenris.Canonical.C88_stiffness_parallel",
    "Fenris.Canonical.C88_gauss_rule",
    "Fenris.Canonical.C88_stiffness_not_exact",
    "Fenris.Canonical.C88_mass_not_exact"
   ],
   "note": ""
  },
  {
   "property": "C89",
   "status": "proved",
   "theorems": [
    "Fenris.PatchTest.C89_mesh_space",
    "Fenris.PatchTest.C89_gradient",
    "Fenris.PatchTest.C89_forces",
    "Fenris.PatchTest.C89_matrix",
    "Fenris.PatchTest.C89_patch_test",
    "Fenris.PatchTest.C89_linear_operators",
    "Fenris.PatchTest.C89_canonical_rules",
    "Fenris.PatchTest.C89_canonical_patch",
    "Fenris.PatchTest.C89_uniform_tet_mesh"
   ],
   "note": ""
  },
  {
   "property": "C90",
   "status": "proved",
   "theorems": [
    "Fenris.Buffers.C90_reading",
    "Fenris.Buffers.C90_after_both",
    "Fenris.Buffers.C90_left_over",
    "Fenris.Buffers.C90_stale_values",
    "Fenris.Buffers.C90_mixed_points",
    "Fenris.Buffers.C90_interpolate_at_points",
    "Fenris.Buffers.C90_gradient_at_points"
   ],
   "note": ""
  },
  {
   "property": "C91",
   "status": "proved",
   "theorems": [
    "Fenris.Dump.C91_global_vector",
    "Fenris.Dump.C91_affine",
    "Fenris.Dump.C91_extract",
    "Fenris.Dump.C91_extract_of_function",
    "Fenris.Dump.C91_matrix_market",
    "Fenris.Dump.C91_file_determines_matrix",
    "Fenris.Dump.C91_dense",
    "Fenris.Dump.C91_dense_without_columns",
    "Fenris.Dump.C91_connectivity",
    "Fenris.Dump.C91_connectivity_panics"
   ],
   "note": ""
  },
  {
   "property": "C92",
   "status": "proved",
   "theorems": [
    "Fenris.Lobatto.C92_available",
    "Fenris.Lobatto.C92_rules",
    "Fenris.Lobatto.C92_points_in_interval",
    "Fenris.Lobatto.C92_total_weight"
   ],
   "note": ""
  },
  {
   "property": "C93",
   "status": "proved",
   "theorems": [
    "Fenris.Index.C93_triangles",
    "Fenris.Index.C93_tetrahedra",
    "Fenris.Index.C93_triangle_gradients",
    "Fenris.Index.C93_tetrahedron_gradients",
    "Fenris.Index.C93_fixed_interpolator",
    "Fenris.Index.C93_fixed_interpolator_tetrahedra"
   ],
   "note": ""
  },
  {
   "property": "C94",
   "status": "proved",
   "theorems": [
    "Fenris.GridFaces.C94_hex_consistent",
    "Fenris.GridFaces.C94_hex_boundary",
    "Fenris.GridFaces.C94_quad_consistent",
    "Fenris.GridFaces.C94_quad_boundary",
    "Fenris.GridFaces.C94_quad_elements",
    "Fenris.GridFaces.C94_quad_patch_test",
    "Fenris.GridFaces.C94_hex_elements",
    "Fenris.GridFaces.C94_hex_patch_test"
   ],
   "note": ""
  },
  {
   "property": "C95",
   "status": "proved",
   "theorems": [
    "Fenris.CgBuffers.C95_history_independent",
    "Fenris.CgBuffers.C95_sequence",
    "Fenris.CgBuffers.C95_dense_overwrites",
    "Fenris.CgBuffers.C95_refines",
    "Fenris.CgBuffers.C95_shipped_operators",
    "Fenris.CgBuffers.C95_csr_overwrites",
    "Fenris.CgBuffers.C95_finding_nan_survives"
   ],
   "note": ""
  },
  {
   "property": "C96",
   "status": "proved",
   "theorems": [
    "Fenris.LinearProblem.C96_system_is_spd",
    "Fenris.LinearProblem.C96_definite_is_necessary",
    "Fenris.LinearProblem.C96_solve",
    "Fenris.LinearProblem.C96_poisson_setting",
    "Fenris.LinearProblem.C96_poisson_definite",
    "Fenris.LinearProblem.C96_determines",
    "Fenris.LinearProblem.C96_canonical_rules",
    "Fenris.LinearProblem.C96_mesh_problem",
    "Fenris.LinearProblem.C96_quad_mesh",
    "Fenris.LinearProblem.C96_hex_mesh",
    "Fenris.LinearProblem.C96_determines_all",
    "Fenris.LinearProblem.C96_mesh_problem_all",
    "Fenris.LinearProblem.C96_tet_mesh",
    "Fenris.Elasticity.C96_tri_mesh"
   ],
   "note": ""
  },
  {
   "property": "C97",
   "status": "proved",
   "theorems": [
    "Fenris.LinearProblem.C97_dirichlet_principle",
    "Fenris.LinearProblem.C97_prescribed_values",
    "Fenris.LinearProblem.C97_affine_solution",
    "Fenris.LinearProblem.C97_quad_mesh",
    "Fenris.LinearProblem.C97_hex_mesh",
    "Fenris.LinearProblem.C97_tet_mesh",
    "Fenris.Elasticity.C97_tri_mesh"
   ],
   "note": ""
  },
  {
   "property": "C98",
   "status": "proved",
   "theorems": [
    "Fenris.Mass.C98_element_matrix",
    "Fenris.Mass.C98_element_vector",
    "Fenris.Mass.C98_mass_form",
    "Fenris.Mass.C98_mass_is_spd",
    "Fenris.Mass.C98_isolated_node",
    "Fenris.Mass.C98_source_form",
    "Fenris.Mass.C98_components_decoupled",
    "Fenris.Mass.C98_total_mass",
    "Fenris.Mass.C98_source_of_space_function",
    "Fenris.Mass.C98_projection",
    "Fenris.Mass.C98_canonical_rules",
    "Fenris.Mass.C98_mesh_sampled",
    "Fenris.Mass.C98_mesh_mass"
   ],
   "note": ""
  },
  {
   "property": "C99",
   "status": "proved",
   "theorems": [
    "Fenris.Elasticity.C99_energy",
    "Fenris.Elasticity.C99_energy_density",
    "Fenris.Elasticity.C99_parameters",
    "Fenris.Elasticity.C99_element_rigid",
    "Fenris.Elasticity.C99_quad_mesh",
    "Fenris.Elasticity.C99_hex_mesh",
    "Fenris.Elasticity.C99_mesh_problem",
    "Fenris.Elasticity.C99_tet_mesh",
    "Fenris.Elasticity.C99_tri_mesh"
   ],
   "note": "What 'no room for a rigid motion' means for sets of nodes is characterised by fixes_plane and fixes_space in Lemmas/RigidMotion.lean."
  },
  {
   "property": "C100",
   "status": "proved",
   "theorems": [
    "Fenris.Combinators.C100_aggregate_matrix",
    "Fenris.Combinators.C100_aggregate_vector",
    "Fenris.Combinators.C100_aggregate_scalar",
    "Fenris.Combinators.C100_bodies_matrix",
    "Fenris.Combinators.C100_bodies_vector",
    "Fenris.Combinators.C100_bodies_scalar",
    "Fenris.Combinators.C100_transform_only_its_quantity",
    "Fenris.Combinators.C100_transform_matrix",
    "Fenris.Combinators.C100_scaled_matrix",
    "Fenris.Combinators.C100_transposed_matrix",
    "Fenris.Combinators.C100_semidefinite_matrix",
    "Fenris.Combinators.C100_transform_first_error"
   ],
   "note": ""
  },
  {
   "property": "C101",
   "status": "partial",
   "theorems": [
    "Fenris.SphereMesh.C101_sphere_partial",
    "Fenris.SphereMesh.C101_sphere_is_empty",
    "Fenris.SphereMesh.C101_sphere_is_flat",
    "Fenris.SphereMesh.C101_sphere_without_sweeps"
   ],
   "note": "No panic, validity and watertight cells are proved. The rest is false of the code: it keeps the wrong sides of the tangent planes. For one sweep the mesh is flat (C101_sphere_is_flat), for two or more it is empty (C101_sphere_is_empty)."
  },
  {
   "property": "C102",
   "status": "proved",
   "theorems": [
    "Fenris.Poly.C102_closed",
    "Fenris.Poly.C102_volumes",
    "Fenris.Poly.C102_cut",
    "Fenris.Poly.C102_volume_of_part_wrong"
   ],
   "note": "The caps as stored are oriented against the other faces (C102_closed, last part), so compute_volume, which needs consistent orientations, is wrong for the result: C102_volume_of_part_wrong."
  },
  {
   "property": "C103",
   "status": "proved",
   "theorems": [
    "Fenris.RefinedSpace.C103_prolong",
    "Fenris.RefinedSpace.C103_same_function",
    "Fenris.RefinedSpace.C103_energy",
    "Fenris.RefinedSpace.C103_repeat",
    "Fenris.RefinedSpace.C103_refinement_lowers_energy"
   ],
   "note": ""
  },
  {
   "property": "C104",
   "status": "proved",
   "theorems": [
    "Fenris.MaximumPrinciple.C104_maximum_principle",
    "Fenris.MaximumPrinciple.C104_solution_bounds",
    "Fenris.MaximumPrinciple.C104_triangle_mesh",
    "Fenris.MaximumPrinciple.C104_uniform_triangles",
    "Fenris.MaximumPrinciple.C104_quad_mesh",
    "Fenris.MaximumPrinciple.C104_hex_mesh",
    "Fenris.MaximumPrinciple.C104_obtuse_triangle"
   ],
   "note": ""
  },
  {
   "property": "C105",
   "status": "proved",
   "theorems": [
    "Fenris.Equilibrium.C105_virtual_work",
    "Fenris.Equilibrium.C105_forces_balance",
    "Fenris.Equilibrium.C105_stvk_realises",
    "Fenris.Equilibrium.C105_stress_symmetric",
    "Fenris.Equilibrium.C105_total_moment",
    "Fenris.Equilibrium.C105_moments_balance",
    "Fenris.Equilibrium.C105_linear_moments_balance",
    "Fenris.Equilibrium.C105_mesh_forces_balance",
    "Fenris.Equilibrium.C105_weight",
    "Fenris.Equilibrium.C105_supports_carry_weight",
    "Fenris.Equilibrium.C105_linear_moments_deformed"
   ],
   "note": ""
  },
  {
   "property": "C106",
   "status": "proved",
   "theorems": [
    "Fenris.Objectivity.C106_operators_compute",
    "Fenris.Objectivity.C106_forces_turn",
    "Fenris.Objectivity.C106_energy_invariant",
    "Fenris.Objectivity.C106_rigid_body_exerts_no_forces",
    "Fenris.Objectivity.C106_linear_infinitesimal",
    "Fenris.Objectivity.C106_moved_mesh_usable",
    "Fenris.Objectivity.C106_moved_problem",
    "Fenris.Objectivity.C106_moved_energy",
    "Fenris.Objectivity.C106_laplace_turns",
    "Fenris.Objectivity.C106_materials_isotropic",
    "Fenris.Objectivity.C106_solid_turns",
    "Fenris.Objectivity.C106_moved_matrix",
    "Fenris.Objectivity.C106_laplace_contraction_turns",
    "Fenris.Objectivity.C106_contractions_turn",
    "Fenris.Objectivity.C106_operators_contract",
    "Fenris.Objectivity.C106_solid_contraction_turns",
    "Fenris.Objectivity.C106_tangent_turns"
   ],
   "note": ""
  },
  {
   "property": "C107",
   "status": "proved",
   "theorems": [
    "Fenris.BestApproximation.C107_l2_projection",
    "Fenris.BestApproximation.C107_galerkin_solution",
    "Fenris.BestApproximation.C107_affine_errors_vanish"
   ],
   "note": ""
  },
  {
   "property": "C108",
   "status": "proved",
   "theorems": [
    "Fenris.MeshUtil.C108_split_surface",
    "Fenris.MeshUtil.C108_uniform_triangles",
    "Fenris.MeshUtil.C108_finding_concave_cell"
   ],
   "note": ""
  },
  {
   "property": "C109",
   "status": "proved",
   "theorems": [
    "Fenris.Elasticity.C109_affine_displacement",
    "Fenris.Elasticity.C109_quad_mesh",
    "Fenris.Elasticity.C109_tri_mesh",
    "Fenris.Elasticity.C109_hex_mesh",
    "Fenris.Elasticity.C109_tet_mesh"
   ],
   "note": ""
  },
  {
   "property": "C110",
   "status": "proved",
   "theorems": [
    "Fenris.Renumber.C110_reordered_mesh",
    "Fenris.Renumber.C110_matrix",
    "Fenris.Renumber.C110_vector",
    "Fenris.Renumber.C110_energy",
    "Fenris.Renumber.C110_values",
    "Fenris.Renumber.C110_solutions",
    "Fenris.Renumber.C110_source",
    "Fenris.Renumber.C110_mass",
    "Fenris.Renumber.C110_reorder_mesh_par"
   ],
   "note": ""
  },
  {
   "property": "C111",
   "status": "proved",
   "theorems": [
    "Fenris.Reciprocity.C111_reciprocity",
    "Fenris.Reciprocity.C111_energy",
    "Fenris.Reciprocity.C111_supports_stiffen",
    "Fenris.Reciprocity.C111_material_stiffens",
    "Fenris.Reciprocity.C111_elastic"
   ],
   "note": ""
  },
  {
   "property": "C112",
   "status": "proved",
   "theorems": [
    "Fenris.NewtonLinear.C112_affine_solution",
    "Fenris.NewtonLinear.C112_quad_mesh",
    "Fenris.NewtonLinear.C112_rough_solver",
    "Fenris.NewtonLinear.C112_rough_solver_converges",
    "Fenris.NewtonLinear.C112_rough_solver_exists",
    "Fenris.NewtonLinear.C112_forces_are_matrix_times_values",
    "Fenris.NewtonLinear.C112_newton",
    "Fenris.NewtonLinear.C112_residual_and_solver_exist"
   ],
   "note": ""
  }
 ]
}