{
 "claims": [
  {
   "property": "C01",
   "status": "proved",
   "theorems": [
    "GTMesh.Props.C01_boundary_tag",
    "GTMesh.Props.C01_tag_injective",
    "GTMesh.Props.C01_retag",
    "GTMesh.Props.C01_nat_model"
   ],
   "note": ""
  },
  {
   "property": "C02",
   "status": "proved",
   "theorems": [
    "GTMesh.Props.C02_first_two_cells",
    "GTMesh.Props.C02_refusal"
   ],
   "note": ""
  },
  {
   "property": "C03",
   "status": "proved",
   "theorems": [
    "GTMesh.Props.C03_other_cell",
    "GTMesh.Props.C03_involution",
    "GTMesh.Props.C03_swap"
   ],
   "note": ""
  },
  {
   "property": "C04",
   "status": "proved",
   "theorems": [
    "GTMesh.Props.C04_successor_map",
    "GTMesh.Props.C04_refusal",
    "GTMesh.Props.C04_get_after_set"
   ],
   "note": ""
  },
  {
   "property": "C05",
   "status": "partial",
   "theorems": [
    "GTMesh.Props.C05_swap_breaks_successors",
    "GTMesh.Props.C05_swap_partial"
   ],
   "note": "The property is false of the code: swapCellsLR leaves the successor pointers in place (C05_swap_breaks_successors). C05_swap_partial proves it when both successors agree."
  },
  {
   "property": "C06",
   "status": "proved",
   "theorems": [
    "GTMesh.Props.C06_bounded_list",
    "GTMesh.Props.C06_at",
    "GTMesh.Props.C06_at_uninitialised",
    "GTMesh.Props.C06_reserve"
   ],
   "note": ""
  },
  {
   "property": "C07",
   "status": "proved",
   "theorems": [
    "GTMesh.Props.C07_effect",
    "GTMesh.Props.C07_numbering",
    "GTMesh.Props.C07_all_sides",
    "GTMesh.Props.C07_own_cell",
    "GTMesh.Props.C07_distinct",
    "GTMesh.Props.C07_idempotent",
    "GTMesh.Props.C07_interior",
    "GTMesh.Props.C07_mesh_2d",
    "GTMesh.Props.C07_mesh_3d"
   ],
   "note": ""
  },
  {
   "property": "C08",
   "status": "partial",
   "theorems": [
    "GTMesh.Props.C08_clear_partial",
    "GTMesh.Props.C08_boundary_cells_survive",
    "GTMesh.Props.C08_witness"
   ],
   "note": "The property is false of the code: clear() leaves the boundary cells (C08_boundary_cells_survive, C08_witness). C08_clear_partial proves the rest."
  },
  {
   "property": "C09",
   "status": "proved",
   "theorems": [
    "GTMesh.Props.C09_walk_iff_chain",
    "GTMesh.Props.C09_divergence_is_real",
    "GTMesh.Props.C09_divergence_witness",
    "GTMesh.Props.C09_divergence_is_real_deep"
   ],
   "note": ""
  },
  {
   "property": "C10",
   "status": "proved",
   "theorems": [
    "GTMesh.Props.C10_apply_descending",
    "GTMesh.Props.C10_apply_transpose",
    "GTMesh.Props.C10_calls_are_incidence",
    "GTMesh.Props.C10_apply_one",
    "GTMesh.Props.C10_no_ub"
   ],
   "note": ""
  },
  {
   "property": "C11",
   "status": "proved",
   "theorems": [
    "GTMesh.Props.C11_ascending",
    "GTMesh.Props.C11_transpose"
   ],
   "note": ""
  },
  {
   "property": "C12",
   "status": "proved",
   "theorems": [
    "GTMesh.Props.C12_original",
    "GTMesh.Props.C12_same_members"
   ],
   "note": ""
  },
  {
   "property": "C13",
   "status": "proved",
   "theorems": [
    "GTMesh.Props.C13_neighborhood",
    "GTMesh.Props.C13_symmetric"
   ],
   "note": ""
  },
  {
   "property": "C14",
   "status": "proved",
   "theorems": [
    "GTMesh.Props.C14_greedy_proper"
   ],
   "note": ""
  },
  {
   "property": "C15",
   "status": "proved",
   "theorems": [
    "GTMesh.Props.C15_first_fit",
    "GTMesh.Props.C15_degree_bound"
   ],
   "note": ""
  },
  {
   "property": "C16",
   "status": "proved",
   "theorems": [
    "GTMesh.Props.C16_random_proper",
    "GTMesh.Props.C16_empty_is_ub"
   ],
   "note": ""
  },
  {
   "property": "C17",
   "status": "proved",
   "theorems": [
    "GTMesh.Props.C17_allocate",
    "GTMesh.Props.C17_construct",
    "GTMesh.Props.C17_allocate_tuple",
    "GTMesh.Props.C17_idempotent",
    "GTMesh.Props.C17_by_dim",
    "GTMesh.Props.C17_element_access",
    "GTMesh.Props.C17_write_isolated",
    "GTMesh.Props.C17_read_after_write",
    "GTMesh.Props.C17_allocate_like"
   ],
   "note": ""
  },
  {
   "property": "C18",
   "status": "proved",
   "theorems": [
    "GTMesh.Fpma.C18_load",
    "GTMesh.Fpma.C18_valid",
    "GTMesh.Fpma.C18_reserve",
    "GTMesh.Fpma.C18_sides"
   ],
   "note": ""
  },
  {
   "property": "C19",
   "status": "partial",
   "theorems": [
    "GTMesh.Fpma.C19_fpma_reserve_violated",
    "GTMesh.Fpma.C19_fpma_keeps_edges",
    "GTMesh.Fpma.C19_fpma_violated",
    "GTMesh.Vtk.C19_vtk2_partial",
    "GTMesh.Vtk.C19_vtk2_violated",
    "GTMesh.Vtk.C19_types_survive",
    "GTMesh.Vtk.C19_vtk3_partial",
    "GTMesh.Vtk.C19_vtk3_violated"
   ],
   "note": "False of the code: the FPMA reader appends to the edges that are there (C19_fpma_keeps_edges, C19_fpma_violated), so that with a static reserve it refuses a second file whose polygons do not fit in addition (C19_fpma_reserve_violated), the VTK readers keep boundary cells and the types of the previous file (C19_vtk2_violated, C19_vtk3_violated, C19_types_survive). C19_vtk2_partial and C19_vtk3_partial: everything else is as for a fresh mesh."
  },
  {
   "property": "C20",
   "status": "proved",
   "theorems": [
    "GTMesh.Fpma.C20_indexFace",
    "GTMesh.Fpma.C20_vertices",
    "GTMesh.Fpma.C20_stuck",
    "GTMesh.Fpma.C20_open_face_diverges"
   ],
   "note": ""
  },
  {
   "property": "C21",
   "status": "partial",
   "theorems": [
    "GTMesh.Vtk.C21_polygons_partial",
    "GTMesh.Fpma.C21_round_trip_partial",
    "GTMesh.C21_printed_partial",
    "GTMesh.C21_digits_violated"
   ],
   "note": "Everything but the positions is proved without condition; the positions are the printed ones and the same as before exactly when they have at most six digits (C21_printed_partial). False of the code otherwise (C21_digits_violated)."
  },
  {
   "property": "C22",
   "status": "proved",
   "theorems": [
    "GTMesh.Vtk.C22_load",
    "GTMesh.Vtk.C22_valid",
    "GTMesh.Vtk.C22_three_cells"
   ],
   "note": ""
  },
  {
   "property": "C23",
   "status": "proved",
   "theorems": [
    "GTMesh.C23_printed",
    "GTMesh.Vtk.C23_indexCell",
    "GTMesh.Vtk.C23_vertices",
    "GTMesh.Vtk.C23_round_trip",
    "GTMesh.Vtk.C23_reader"
   ],
   "note": ""
  },
  {
   "property": "C24",
   "status": "proved",
   "theorems": [
    "GTMesh.Vtk.C24_templates",
    "GTMesh.Vtk.C24_closed"
   ],
   "note": ""
  },
  {
   "property": "C25",
   "status": "proved",
   "theorems": [
    "GTMesh.Vtk.C25_load",
    "GTMesh.Vtk.C25_shared",
    "GTMesh.Vtk.C25_valid",
    "GTMesh.Vtk.C25_unknown"
   ],
   "note": ""
  },
  {
   "property": "C26",
   "status": "partial",
   "theorems": [
    "GTMesh.Vtk.C26_codes",
    "GTMesh.Vtk.C26_read_write",
    "GTMesh.Vtk.C26_write_unknown",
    "GTMesh.Vtk.C26_unknown_violated"
   ],
   "note": "The first half is proved (C26_codes, C26_read_write). The second is false of the code: unknown codes are accepted (C26_unknown_violated), the exception object is constructed but not thrown."
  },
  {
   "property": "C27",
   "status": "proved",
   "theorems": [
    "GTMesh.Vtk.C27_base_violated",
    "GTMesh.Vtk.C27_export",
    "GTMesh.Vtk.C27_column"
   ],
   "note": ""
  },
  {
   "property": "C28",
   "status": "partial",
   "theorems": [
    "GTMesh.Vtk.C28_2d",
    "GTMesh.Vtk.C28_3d_partial",
    "GTMesh.Vtk.C28_int_overflow"
   ],
   "note": "False of the 3D writer from 2^31 integers on, the sum is kept in an int (C28_int_overflow). Proved below that bound for any history of the writer (C28_3d_partial), and without a bound in 2D (C28_2d)."
  },
  {
   "property": "C29",
   "status": "partial",
   "theorems": [
    "GTMesh.Props.C29_vtk2_partial",
    "GTMesh.Props.C29_vtk3_partial",
    "GTMesh.Props.C29_fpma_partial",
    "GTMesh.Props.C29_signature_sees",
    "GTMesh.Props.C29_signature_blind",
    "GTMesh.Props.C29_vtk3_stale",
    "GTMesh.Props.C29_violated",
    "GTMesh.Props.C29_types_violated",
    "GTMesh.Props.C29_zero_signature",
    "GTMesh.Props.C29_uninitialised2",
    "GTMesh.Props.C29_uninitialised_fpma",
    "GTMesh.Props.C29_vtk2_exceptions_partial",
    "GTMesh.Props.C29_fpma_exceptions_partial",
    "GTMesh.Props.C29_vtk3_exceptions_partial",
    "GTMesh.Props.C29_exception_2d_violated",
    "GTMesh.Props.C29_exception_3d_violated",
    "GTMesh.Props.C29_exception_fpma_violated"
   ],
   "note": "False of the code: the signature is blind to the faces and types (C29_signature_blind, C29_violated, C29_types_violated, C29_vtk3_stale) and lastHash is 0 or not initialised (C29_zero_signature, C29_uninitialised2, C29_uninitialised_fpma). The partial theorems prove it for every history without a collision of signatures in a row; the _exceptions_partial theorems also for histories in which the writer or the stream throws and the caller goes on. False of the code when a mesh that cannot be indexed is written in between: the stored signature is kept and the index is not (C29_exception_2d_violated, C29_exception_3d_violated, C29_exception_fpma_violated)."
  },
  {
   "property": "C30",
   "status": "proved",
   "theorems": [
    "GTMesh.Ser.C30_round_trip",
    "GTMesh.Ser.C30_prefix_free"
   ],
   "note": ""
  },
  {
   "property": "C31",
   "status": "proved",
   "theorems": [
    "GTMesh.Ser.C31_in_order",
    "GTMesh.Ser.C31_append_stable"
   ],
   "note": ""
  },
  {
   "property": "C32",
   "status": "proved",
   "theorems": [
    "GTMesh.Ser.C32_restart",
    "GTMesh.Ser.C32_first",
    "GTMesh.Ser.C32_second_pass",
    "GTMesh.Ser.C32_clear"
   ],
   "note": ""
  },
  {
   "property": "C33",
   "status": "partial",
   "theorems": [
    "GTMesh.Ser.C33_set_union",
    "GTMesh.Ser.C33_merges",
    "GTMesh.Ser.C33_map_keeps_old",
    "GTMesh.Ser.C33_replaces_partial"
   ],
   "note": "False for sets and maps (C33_merges, C33_set_union, C33_map_keeps_old say what happens). C33_replaces_partial proves it for every type without sets and maps."
  },
  {
   "property": "C34",
   "status": "partial",
   "theorems": [
    "GTMesh.Ser.C34_truncated_is_ub",
    "GTMesh.Ser.C34_never_throws",
    "GTMesh.Ser.C34_empty_read_ub",
    "GTMesh.Ser.C34_long_array_ub",
    "GTMesh.Ser.C34_written_partial"
   ],
   "note": "False of the code: no read is bounds-checked (C34_truncated_is_ub, C34_never_throws, C34_empty_read_ub, C34_long_array_ub). C34_written_partial: reading what was written stays inside."
  },
  {
   "property": "C35",
   "status": "partial",
   "theorems": [
    "GTMesh.Props.C35_componentwise",
    "GTMesh.Props.C35_vector_space",
    "GTMesh.Props.C35_scalar_product",
    "GTMesh.Props.C35_compare",
    "GTMesh.Props.C35_compound_partial",
    "GTMesh.Props.C35_self_factor_violated",
    "GTMesh.Props.C35_integer_divisor_violated",
    "GTMesh.Props.C35_initializer_list"
   ],
   "note": "False in two corners: v *= v[i] (C35_self_factor_violated) and v / k with an integer k (C35_integer_divisor_violated). Everything else is proved for every dimension, in exact arithmetic."
  },
  {
   "property": "C36",
   "status": "proved",
   "theorems": [
    "GTMesh.Props.C36_vector_product"
   ],
   "note": ""
  },
  {
   "property": "C37",
   "status": "proved",
   "theorems": [
    "GTMesh.Props.C37_orthogonal",
    "GTMesh.Props.C37_normalized",
    "GTMesh.Props.C37_side",
    "GTMesh.Props.C37_volume",
    "GTMesh.Props.C37_empty"
   ],
   "note": ""
  },
  {
   "property": "C38",
   "status": "proved",
   "theorems": [
    "GTMesh.Props.C38_centers",
    "GTMesh.Props.C38_affine",
    "GTMesh.Props.C38_translation",
    "GTMesh.Props.C38_convex",
    "GTMesh.Props.C38_half_space",
    "GTMesh.Props.C38_tessellated"
   ],
   "note": "Exact arithmetic, every dimension. For METHOD_TESSELLATED: C38_tessellated (center of gravity of the triangles of a face)."
  },
  {
   "property": "C39",
   "status": "proved",
   "theorems": [
    "GTMesh.Props.C39_convex_2d",
    "GTMesh.Props.C39_convex_3d",
    "GTMesh.Props.C39_convex_mesh",
    "GTMesh.Props.C39_measures_2d",
    "GTMesh.Props.C39_shoelace",
    "GTMesh.Props.C39_measures_3d",
    "GTMesh.Props.C39_planar_face",
    "GTMesh.Props.C39_volume",
    "GTMesh.Props.C39_nonneg_2d",
    "GTMesh.Props.C39_nonneg_3d",
    "GTMesh.Props.C39_rigid_2d",
    "GTMesh.Props.C39_rigid_3d",
    "GTMesh.Props.C39_translation_3d",
    "GTMesh.Props.C39_translation_2d",
    "GTMesh.Props.C39_measures_high",
    "GTMesh.Props.C39_measures_high_of_centers",
    "GTMesh.Props.C39_nonneg_high",
    "GTMesh.Props.C39_simplices"
   ],
   "note": "Exact arithmetic. C39_measures_*: the formulas; C39_shoelace, C39_convex_2d, C39_planar_face, C39_volume, C39_convex_3d: they are the area and the volume; C39_nonneg_*, C39_rigid_*: signs, rigid motions. C39_measures_high, C39_simplices: dimensions above 3 (the formula; the volume for meshes of simplices). C39_convex_mesh: a whole mesh of convex polyhedra."
  },
  {
   "property": "C40",
   "status": "partial",
   "theorems": [
    "GTMesh.Props.C40_normals_2d",
    "GTMesh.Props.C40_reversal_2d",
    "GTMesh.Props.C40_normals_3d",
    "GTMesh.Props.C40_left_to_right",
    "GTMesh.Props.C40_tessellated",
    "GTMesh.Props.C40_tessellated_planar",
    "GTMesh.Props.C40_high_dimension_partial"
   ],
   "note": "Proved in 2D and 3D, in exact arithmetic. False of the code above dimension 3: the normal points to the left cell (C40_high_dimension_partial)."
  },
  {
   "property": "C41",
   "status": "partial",
   "theorems": [
    "GTMesh.Props.C41_distance",
    "GTMesh.Props.C41_distances",
    "GTMesh.Props.C41_nonneg",
    "GTMesh.Props.C41_symmetric",
    "GTMesh.Props.C41_missing_throws",
    "GTMesh.Props.C41_difference",
    "GTMesh.Props.C41_left_missing",
    "GTMesh.Props.C41_antisymmetric_partial",
    "GTMesh.Props.C41_length",
    "GTMesh.Props.C41_differences"
   ],
   "note": "The distance is proved. The difference keeps its sign under the exchange of left and right when a side is missing (C41_antisymmetric_partial, C41_left_missing): false of the code there."
  },
  {
   "property": "C42",
   "status": "proved",
   "theorems": [
    "GTMesh.Props.C42_left",
    "GTMesh.Props.C42_reversal",
    "GTMesh.Props.C42_translation",
    "GTMesh.Props.C42_mesh",
    "GTMesh.Props.C42_left_3d",
    "GTMesh.Props.C42_orientations",
    "GTMesh.Props.C42_polygon"
   ],
   "note": ""
  },
  {
   "property": "C43",
   "status": "proved",
   "theorems": [
    "GTMesh.Props.C43_class_selector",
    "GTMesh.Props.C43_dimension_pos",
    "GTMesh.Props.C43_select_traits",
    "GTMesh.Props.C43_constexpr_for_up",
    "GTMesh.Props.C43_constexpr_for",
    "GTMesh.Props.C43_constexpr_for_down",
    "GTMesh.Props.C43_constexpr_for_zero_step"
   ],
   "note": ""
  },
  {
   "property": "C44",
   "status": "partial",
   "theorems": [
    "GTMesh.TA.C44_plus",
    "GTMesh.TA.C44_times",
    "GTMesh.TA.C44_minus_partial",
    "GTMesh.TA.C44_minus_temporary_violated",
    "GTMesh.TA.C44_scale_partial",
    "GTMesh.TA.C44_divide",
    "GTMesh.TA.C44_power_partial",
    "GTMesh.TA.C44_power_of_real_violated",
    "GTMesh.TA.C44_self_factor_violated",
    "GTMesh.TA.C44_function",
    "GTMesh.TA.C44_negate",
    "GTMesh.TA.C44_sum",
    "GTMesh.TA.C44_max_min_partial",
    "GTMesh.TA.C44_empty_array_violated"
   ],
   "note": "Proved for sums, products, negation, functions, aggregation (C44_plus, C44_times, C44_divide, C44_function, C44_negate, C44_sum). False of the code: a - temporary has no return statement (C44_minus_temporary_violated), pow(number, object) uses the object as base (C44_power_of_real_violated), v *= v.x reads the changed factor (C44_self_factor_violated), max and min of an empty array are 0 (C44_empty_array_violated); the _partial theorems prove the rest. Conversions between number types are not modelled."
  },
  {
   "property": "C45",
   "status": "partial",
   "theorems": [
    "GTMesh.Props.C45_names_collide",
    "GTMesh.Props.C45_vertices_unnamed",
    "GTMesh.Props.C45_overflow",
    "GTMesh.Props.C45_name_partial",
    "GTMesh.Props.C45_unique_partial"
   ],
   "note": "False of the code: generated names collide, the vertices have no name and the character arithmetic overflows (C45_names_collide, C45_vertices_unnamed, C45_overflow). The partial theorems give the range in which names are right and unique."
  },
  {
   "property": "C46",
   "status": "partial",
   "theorems": [
    "GTMesh.FileFormat.C46_write",
    "GTMesh.FileFormat.C46_no_dot",
    "GTMesh.FileFormat.C46_not_opened",
    "GTMesh.FileFormat.C46_other_extension_violated",
    "GTMesh.FileFormat.C46_load_partial",
    "GTMesh.FileFormat.C46_load_which",
    "GTMesh.FileFormat.C46_load_other",
    "GTMesh.FileFormat.C46_load_violated",
    "GTMesh.FileFormat.C46_write_load"
   ],
   "note": "Writing is proved for every path (C46_write, C46_no_dot, C46_not_opened). False of the code otherwise: another extension is silently accepted, and empties the file when a writer is given (C46_other_extension_violated); load looks for the extension anywhere in the path (C46_load_violated), C46_load_partial and C46_write_load prove the cases in which it is right."
  },
  {
   "property": "C47",
   "status": "partial",
   "theorems": [
    "GTMesh.JsonLog.C47_log_partial",
    "GTMesh.JsonLog.C47_created_partial",
    "GTMesh.JsonLog.C47_unused",
    "GTMesh.JsonLog.C47_text_violated",
    "GTMesh.JsonLog.C47_backslash_violated",
    "GTMesh.JsonLog.C47_path_violated",
    "GTMesh.JsonLog.C47_pair_violated",
    "GTMesh.JsonLog.C47_create_again_violated",
    "GTMesh.JsonLog.C47_destroy_violated"
   ],
   "note": "Proved for every sequence of calls with finite numbers, texts without quotes and backslashes, text keys, any names, and paths without a backslash among the first two characters (C47_log_partial, C47_created_partial, C47_unused). False of the code otherwise: C47_text_violated, C47_backslash_violated, C47_path_violated, C47_pair_violated, C47_create_again_violated, C47_destroy_violated."
  },
  {
   "property": "C48",
   "status": "partial",
   "theorems": [
    "GTMesh.C48_digits_violated",
    "GTMesh.Vtk.C48_2d",
    "GTMesh.Vtk.C48_3d",
    "GTMesh.Vtk.C48_empty_throws",
    "GTMesh.Vtk.C48_other_sizes_violated",
    "GTMesh.Vtk.C48_title_violated"
   ],
   "note": "Proved in 2D (C48_2d) and 3D with any mixture of split cells (C48_3d), up to printing and parsing of single numbers, for columns that are numbers or arrays of the dimension of the mesh. False of the code for other arrays (C48_other_sizes_violated) and for titles that mention a column (C48_title_violated: 0 is read silently); an empty container throws (C48_empty_throws); numbers with more than six digits change (C48_digits_violated)."
  },
  {
   "property": "C49",
   "status": "partial",
   "theorems": [
    "GTMesh.Ser.C49_file_round_trip",
    "GTMesh.Ser.C49_save_reports",
    "GTMesh.Ser.C49_load_missing_silent",
    "GTMesh.Ser.C49_load_keeps_cursor"
   ],
   "note": "Proved for loading into a new serializer; false otherwise (C49_load_missing_silent, C49_load_keeps_cursor)."
  },
  {
   "property": "C50",
   "status": "partial",
   "theorems": [
    "GTMesh.Ser.C50_interleaved_ub",
    "GTMesh.Ser.C50_interleaved_partial"
   ],
   "note": "False when the buffer grows (C50_interleaved_ub); C50_interleaved_partial proves it within the capacity."
  },
  {
   "property": "C51",
   "status": "partial",
   "theorems": [
    "GTMesh.C51_printed_partial",
    "GTMesh.C51_digits_violated",
    "GTMesh.Vtk.C51_vertices",
    "GTMesh.Vtk.C51_round_trip_partial",
    "GTMesh.Vtk.C51_solids_partial",
    "GTMesh.Vtk.C51_valid_partial",
    "GTMesh.Vtk.C51_apart_partial",
    "GTMesh.Vtk.C51_close_centers_violated",
    "GTMesh.Vtk.C51_small_mesh_violated"
   ],
   "note": "For meshes whose cells are all solids the format knows everything but the positions is proved without condition (C51_solids_partial, C51_printed_partial); the positions are printed with six digits (C51_digits_violated). With split cells it needs centers with different texts (C51_round_trip_partial, C51_valid_partial); C51_apart_partial: more than 10^-6 apart in a coordinate is enough. False of the code otherwise, the writer identifies points by std::to_string (C51_close_centers_violated, C51_small_mesh_violated)."
  },
  {
   "property": "C52",
   "status": "partial",
   "theorems": [
    "GTMesh.Vtk.C52_keywords",
    "GTMesh.Vtk.C52_missing_sections_violated"
   ],
   "note": "The keywords are proved checked in every text (C52_keywords). False of the code for missing sections: a text that ends after the keywords is read as an empty mesh without an error, and the types of the previous file stay (C52_missing_sections_violated)."
  },
  {
   "property": "C53",
   "status": "partial",
   "theorems": [
    "GTMesh.Vtk.C53_vtk_to_fpma_partial",
    "GTMesh.Vtk.C53_fpma_to_vtk_partial",
    "GTMesh.C53_printed_partial",
    "GTMesh.C53_digits_violated",
    "GTMesh.Vtk.C53_same_centers_violated"
   ],
   "note": "VTK to FPMA is proved (C53_vtk_to_fpma_partial) but for coordinates with more than six digits (C53_printed_partial, C53_digits_violated). FPMA to VTK needs centers with different texts (C53_fpma_to_vtk_partial); false of the code otherwise (C53_same_centers_violated)."
  },
  {
   "property": "C54",
   "status": "partial",
   "theorems": [
    "GTMesh.Props.C54_distances",
    "GTMesh.Props.C54_differences",
    "GTMesh.Props.C54_left_violated",
    "GTMesh.Props.C54_centers"
   ],
   "note": "Proved for the centers and the distances, and for the differences when every face has a left cell. False of the code for the difference of a face without a left cell: the sign changes (C54_left_violated)."
  },
  {
   "property": "C55",
   "status": "proved",
   "theorems": [
    "GTMesh.Props.C55_balance",
    "GTMesh.Props.C55_balance_open",
    "GTMesh.Vtk.C55_balance_vtk2",
    "GTMesh.Vtk.C55_balance_vtk3",
    "GTMesh.Props.C55_closed_2d",
    "GTMesh.Props.C55_outer_2d",
    "GTMesh.Props.C55_closed_3d",
    "GTMesh.Props.C55_convex_3d",
    "GTMesh.Vtk.C55_directions",
    "GTMesh.Vtk.C55_vtk2",
    "GTMesh.Fpma.C55_balance_fpma",
    "GTMesh.Props.C55_convex_mesh",
    "GTMesh.Props.C55_vtk3",
    "GTMesh.Props.C55_fpma"
   ],
   "note": ""
  },
  {
   "property": "C56",
   "status": "partial",
   "theorems": [
    "GTMesh.Props.C56_base_partial",
    "GTMesh.Props.C56_first_edge",
    "GTMesh.Props.C56_tetrahedra_partial",
    "GTMesh.Props.C56_inverted_tetrahedron"
   ],
   "note": "Proved for the left cell of the base face, and for the right cell when the first edge of the face has the orientation true. False of the code otherwise: the solid is exported inside out (C56_inverted_tetrahedron); the exact condition is in C56_base_partial and C56_first_edge. The base of a wedge gets the same sense as the other solids."
  },
  {
   "property": "C57",
   "status": "partial",
   "theorems": [
    "GTMesh.Fpma.C57_fpma_violated",
    "GTMesh.Vtk.C57_vtk_points_violated",
    "GTMesh.Vtk.C57_vtk_cells_violated",
    "GTMesh.Vtk.C57_vtk_types_violated",
    "GTMesh.Vtk.C57_vtk_counts_violated",
    "GTMesh.Vtk.C57_vtk2_accepts_violated",
    "GTMesh.Vtk.C57_vtk_keywords_partial",
    "GTMesh.Vtk.C57_data_violated",
    "GTMesh.Vtk.C57_data_empty_violated",
    "GTMesh.Vtk.C57_data_short_violated"
   ],
   "note": "False of the code: no reader looks at the state of its stream. C57_fpma_violated: every proper prefix of the tokens of an accepted FPMA file is undefined behaviour. C57_vtk_points_violated, C57_vtk_cells_violated, C57_vtk_types_violated: a VTK text cut among points, cells or types is read without an error, with the exact result; C57_data_short_violated: the same for data; C57_vtk_counts_violated: undefined behaviour in front of a count; C57_vtk2_accepts_violated: after the keywords the 2D reader refuses no text without cell types. C57_data_violated, C57_data_empty_violated: data columns. The part that holds, a cut inside the keywords is refused, is C57_vtk_keywords_partial."
  },
  {
   "property": "C58",
   "status": "partial",
   "theorems": [
    "GTMesh.HtmlLog.C58_log_partial",
    "GTMesh.HtmlLog.C58_created_partial",
    "GTMesh.HtmlLog.C58_unused",
    "GTMesh.HtmlLog.C58_name_violated",
    "GTMesh.HtmlLog.C58_text_violated",
    "GTMesh.HtmlLog.C58_backslash_violated",
    "GTMesh.HtmlLog.C58_no_place_violated",
    "GTMesh.HtmlLog.C58_script_violated",
    "GTMesh.HtmlLog.C58_create_again_violated",
    "GTMesh.HtmlLog.C58_destroy_violated"
   ],
   "note": "C58_log_partial and C58_created_partial hold for calls with a place whose names have no quote or backslash and whose values need no escape. Otherwise false of the code: C58_name_violated, C58_backslash_violated, C58_text_violated, C58_script_violated, C58_no_place_violated, C58_create_again_violated, C58_destroy_violated."
  },
  {
   "property": "C59",
   "status": "proved",
   "theorems": [
    "GTMesh.C59_number",
    "GTMesh.C59_exact",
    "GTMesh.C59_again",
    "GTMesh.C59_fpma",
    "GTMesh.C59_vtk2",
    "GTMesh.C59_vtk3"
   ],
   "note": ""
  },
  {
   "property": "C60",
   "status": "partial",
   "theorems": [
    "GTMesh.ConsoleLog.C60_log",
    "GTMesh.ConsoleLog.C60_append",
    "GTMesh.ConsoleLog.C60_colors",
    "GTMesh.ConsoleLog.C60_palette",
    "GTMesh.ConsoleLog.C60_reset_partial",
    "GTMesh.ConsoleLog.C60_reset_violated",
    "GTMesh.ConsoleLog.C60_stdio_violated",
    "GTMesh.ConsoleLog.C60_stdio_integers_partial",
    "GTMesh.ConsoleLog.C60_stdio_unsigned_violated"
   ],
   "note": "The log of the stream variant is proved for all settings and calls (C60_log, C60_append, C60_colors). False of the code: reset (C60_reset_violated; C60_reset_partial is the rest), the place in DBGVAR_STDIO (C60_stdio_violated), unsigned int in the printf variant (C60_stdio_unsigned_violated; C60_stdio_integers_partial: the other integers)."
  },
  {
   "property": "C61",
   "status": "proved",
   "theorems": [
    "GTMesh.DebugMacros.C61_dbgvar",
    "GTMesh.DebugMacros.C61_dbgvar_console",
    "GTMesh.Traits.C61_for_each",
    "GTMesh.Traits.C61_for_each_many",
    "GTMesh.Traits.C61_for_each_parity",
    "GTMesh.Traits.C61_attribute_trait",
    "GTMesh.Traits.C61_named_trait",
    "GTMesh.Traits.C61_custom_trait",
    "GTMesh.Traits.C61_odd",
    "GTMesh.Traits.C61_make_traits",
    "GTMesh.Traits.C61_other_class",
    "GTMesh.Traits.C61_member",
    "GTMesh.Traits.C61_get_set",
    "GTMesh.Traits.C61_get_ref",
    "GTMesh.Traits.C61_out_of_range",
    "GTMesh.Traits.C61_apply",
    "GTMesh.Traits.C61_get",
    "GTMesh.Traits.C61_get_distinct",
    "GTMesh.Traits.C61_get_assign"
   ],
   "note": "Names are assumed not to be macros themselves and to begin with no digit. Types are represented by the expressions they are the decltype of."
  },
  {
   "property": "C62",
   "status": "partial",
   "theorems": [
    "GTMesh.HtmlScript.C62_text",
    "GTMesh.HtmlScript.C62_browser",
    "GTMesh.HtmlScript.C62_browser_show_all",
    "GTMesh.HtmlScript.C62_show_all",
    "GTMesh.HtmlScript.C62_rows_partial",
    "GTMesh.HtmlScript.C62_groups_partial",
    "GTMesh.HtmlScript.C62_mixed_partial",
    "GTMesh.HtmlScript.C62_edit",
    "GTMesh.HtmlScript.C62_no_filter_violated",
    "GTMesh.HtmlScript.C62_any_name_violated",
    "GTMesh.HtmlScript.C62_mixed_violated",
    "GTMesh.HtmlScript.C62_order_violated",
    "GTMesh.HtmlScript.C62_add_filter_violated",
    "GTMesh.HtmlScript.C62_empty_line_violated",
    "GTMesh.HtmlScript.C62_table_partial",
    "GTMesh.HtmlScript.C62_tag_violated",
    "GTMesh.HtmlScript.C62_log_partial"
   ],
   "note": "How JavaScript compares a value with the content of a field is a parameter. Entities are not decoded by the reader of the table."
  },
  {
   "property": "C63",
   "status": "partial",
   "theorems": [
    "GTMesh.Export.C63_plain",
    "GTMesh.Export.C63_text",
    "GTMesh.Export.C63_pair",
    "GTMesh.Export.C63_tuple",
    "GTMesh.Export.C63_custom",
    "GTMesh.Export.C63_iterable",
    "GTMesh.Export.C63_indexable",
    "GTMesh.Export.C63_members",
    "GTMesh.Export.C63_put",
    "GTMesh.Export.C63_any",
    "GTMesh.Export.C63_any_stdio",
    "GTMesh.Export.C63_bound",
    "GTMesh.Export.C63_bound_stdio",
    "GTMesh.Export.C63_nested",
    "GTMesh.Export.C63_json",
    "GTMesh.Export.C63_stdio_partial",
    "GTMesh.Export.C63_stdio_bound_partial",
    "GTMesh.Export.C63_char_array_violated",
    "GTMesh.Export.C63_char_array_stdio_violated",
    "GTMesh.Export.C63_byte_violated",
    "GTMesh.Export.C63_unsigned_violated",
    "GTMesh.Export.C63_class_stdio_violated",
    "GTMesh.Export.C63_nested_violated"
   ],
   "note": "A class with both size and getSize, enums and pointers other than texts are not modelled. printf is the same for the types listed in sameStdio."
  },
  {
   "property": "C64",
   "status": "partial",
   "theorems": [
    "GTMesh.BSer.C64_roundtrip",
    "GTMesh.BSer.C64_compiles",
    "GTMesh.BSer.C64_full",
    "GTMesh.BSer.C64_bound_bytes",
    "GTMesh.BSer.C64_bound",
    "GTMesh.BSer.C64_bound_elements",
    "GTMesh.BSer.C64_set_keeps_violated",
    "GTMesh.BSer.C64_array_size_violated",
    "GTMesh.BSer.C64_bound_set_violated",
    "GTMesh.BSer.C64_secondary_violated",
    "GTMesh.BSer.C64_pair_violated",
    "GTMesh.BSer.C64_simple_container_violated"
   ],
   "note": "Proved for objects, vectors, arrays, sets, maps, pairs, tuples and binders in any nesting; that bound traits count for the classes of attributes is violated (C64_secondary_violated, C64_pair_violated), sets and maps with bound traits do not compile (C64_bound_set_violated) and keep their elements when read into (C64_set_keeps_violated), a shorter array is overrun (C64_array_size_violated)."
  },
  {
   "property": "C65",
   "status": "partial",
   "theorems": [
    "GTMesh.ConsoleLog.C65_pieces",
    "GTMesh.ConsoleLog.C65_console_violated",
    "GTMesh.Singleton.C65_one_at_a_time",
    "GTMesh.Singleton.C65_after_first",
    "GTMesh.Singleton.C65_warm",
    "GTMesh.Singleton.C65_every_schedule_partial",
    "GTMesh.Singleton.C65_overlap_violated"
   ],
   "note": "Steps are indivisible and seen by all threads at once. Proved for calls that do not overlap (C65_one_at_a_time) and for every schedule after a first call (C65_after_first, C65_warm); in every schedule nothing is destroyed twice and exactly one object remains (C65_every_schedule_partial). False of the code when the first calls overlap (C65_overlap_violated) and of the console log (C65_console_violated)."
  },
  {
   "property": "C66",
   "status": "partial",
   "theorems": [
    "GTMesh.AbsOverload.C66_abs_partial",
    "GTMesh.AbsOverload.C66_math_h",
    "GTMesh.AbsOverload.C66_real_violated",
    "GTMesh.AbsOverload.C66_endless_violated",
    "GTMesh.AbsOverload.C66_unsigned_violated",
    "GTMesh.AbsOverload.C66_namespace_violated",
    "GTMesh.AbsOverload.C66_smallest_violated"
   ],
   "note": "C66_abs_partial: right for the types of the visible library functions, and for attributes of small types. False of the code for all other types (C66_real_violated, C66_endless_violated, C66_unsigned_violated, C66_namespace_violated, C66_smallest_violated). Which functions of the library are visible is that of the GNU library."
  },
  {
   "property": "C67",
   "status": "partial",
   "theorems": [
    "GTMesh.DebugSwitch.C67_same_partial",
    "GTMesh.DebugSwitch.C67_meaning_partial",
    "GTMesh.DebugSwitch.C67_else_violated",
    "GTMesh.DebugSwitch.C67_try_else_violated",
    "GTMesh.DebugSwitch.C67_try_branch_violated",
    "GTMesh.DebugSwitch.C67_exception_violated",
    "GTMesh.DebugSwitch.C67_effect_violated",
    "GTMesh.DebugSwitch.C67_undefined_violated"
   ],
   "note": "C67_same_partial: true when no then-branch in front of an else ends with an if, DBGVARCOND or DBGTRY, the stdio and csv macros are not used, and DBGTRY raises no standard exception. Otherwise false of the code: C67_else_violated, C67_try_else_violated, C67_try_branch_violated, C67_exception_violated, C67_effect_violated, C67_undefined_violated."
  },
  {
   "property": "C68",
   "status": "proved",
   "theorems": [
    "GTMesh.Props.C68_fpma",
    "GTMesh.Props.C68_vtk_2d",
    "GTMesh.Props.C68_vtk_3d",
    "GTMesh.Props.C68_topology",
    "GTMesh.Props.C68_centers",
    "GTMesh.Props.C68_centers_tessellated",
    "GTMesh.Props.C68_measures_2d",
    "GTMesh.Props.C68_measures_3d",
    "GTMesh.Props.C68_measures_high",
    "GTMesh.Props.C68_normals_2d",
    "GTMesh.Props.C68_normals_3d",
    "GTMesh.Props.C68_normals_high"
   ],
   "note": "The bound on cells (and their indices) is the one the types impose: boundary indices start at 2^63. The distances between centers are meant to change, see C54. The writers keep an index between two writes (C29): here both exports are by a writer in the same state."
  },
  {
   "property": "C69",
   "status": "proved",
   "theorems": [
    "GTMesh.Props.C69_vtk_2d",
    "GTMesh.Props.C69_vtk_3d",
    "GTMesh.Props.C69_fpma"
   ],
   "note": "Files in which three cells share a face do not give a mesh (C22, C25); FPMA needs a new mesh (C19_fpma_violated)."
  },
  {
   "property": "C70",
   "status": "proved",
   "theorems": [
    "GTMesh.Props.C70_vtk_3d",
    "GTMesh.Props.C70_fpma",
    "GTMesh.Props.C70_vtk_2d",
    "GTMesh.Props.C70_tetrahedra"
   ],
   "note": "Exact arithmetic (real numbers, as in C38-C40). FPMA: the faces have at least three different vertices and belong to cells."
  },
  {
   "property": "C71",
   "status": "proved",
   "theorems": [
    "GTMesh.Props.C71_nearest",
    "GTMesh.Props.C71_scalar_product",
    "GTMesh.Props.C71_norm",
    "GTMesh.Props.C71_lengths",
    "GTMesh.Props.C71_distances",
    "GTMesh.Props.C71_centers",
    "GTMesh.Props.C71_areas",
    "GTMesh.Props.C71_polygon",
    "GTMesh.Props.C71_face_areas",
    "GTMesh.Props.C71_volumes",
    "GTMesh.Props.C71_normals_2d",
    "GTMesh.Props.C71_normals_3d"
   ],
   "note": "Standard model of floating point arithmetic: no overflow or underflow, each operation rounds once to the same type. Default methods of the centers, measures and normals; measures and normals in dimensions 2 and 3."
  },
  {
   "property": "C72",
   "status": "proved",
   "theorems": [
    "GTMesh.Props.C72_exists",
    "GTMesh.Props.C72_valid",
    "GTMesh.Props.C72_apply_one",
    "GTMesh.Props.C72_boundary",
    "GTMesh.Props.C72_connections",
    "GTMesh.Props.C72_neighbors",
    "GTMesh.Props.C72_exists_centers",
    "GTMesh.Props.C72_coloring",
    "GTMesh.Props.C72_coloring_violated",
    "GTMesh.Props.C72_centers",
    "GTMesh.Props.C72_centers_tessellated",
    "GTMesh.Props.C72_set_centers",
    "GTMesh.Props.C72_measures_2d",
    "GTMesh.Props.C72_measures_3d",
    "GTMesh.Props.C72_normals_2d",
    "GTMesh.Props.C72_normals_3d",
    "GTMesh.Props.C72_normal_tessellated",
    "GTMesh.Props.C72_distances",
    "GTMesh.Props.C72_differences",
    "GTMesh.Props.C72_orientation",
    "GTMesh.Props.C72_measures_high",
    "GTMesh.Props.C72_normal_high"
   ],
   "note": "The colors depend on the numbers (C72_coloring_violated): a strip of four cells needs two or three colors. Boundary cells keep their numbers; setupBoundaryCells, which numbers them by the faces, and files are not part of the theorems."
  },
  {
   "property": "C73",
   "status": "proved",
   "theorems": [
    "GTMesh.Props.C73_divergence_2d",
    "GTMesh.Props.C73_gradient_2d",
    "GTMesh.Props.C73_vtk_3d",
    "GTMesh.Props.C73_fpma",
    "GTMesh.Props.C73_triangle",
    "GTMesh.Props.C73_parallelogram",
    "GTMesh.Props.C73_tetrahedra",
    "GTMesh.Props.C73_violated_3d",
    "GTMesh.Vtk.C73_vtk_2d"
   ],
   "note": "Exact arithmetic (real numbers). False for faces with another center of gravity (C73_violated_3d: a trapezoid)."
  },
  {
   "property": "C74",
   "status": "proved",
   "theorems": [
    "GTMesh.Props.C74_vtk_2d",
    "GTMesh.Props.C74_fpma",
    "GTMesh.Props.C74_vtk_3d",
    "GTMesh.Props.C74_vtk_2d_file",
    "GTMesh.Props.C74_fpma_file"
   ],
   "note": "Exact arithmetic and numbers that survive the text. No convexity is needed. In 3D the faces must be flat and the mean of the vertices of a face may not be on the line of one of its sides. Face normals are in C40 only: their direction changes with the order of the two cells of a face."
  },
  {
   "property": "C75",
   "status": "partial",
   "theorems": [
    "GTMesh.Props.C75_own_value_partial",
    "GTMesh.Props.C75_last_array",
    "GTMesh.Props.C75_violated",
    "GTMesh.Props.C75_shrink_violated"
   ],
   "note": "False in general (C75_violated, C75_shrink_violated). C75_own_value_partial says exactly when: the behaviour is undefined if and only if the array of the entry is moved or cut below the entry and a later array grows; otherwise the result is that of C17."
  },
  {
   "property": "C76",
   "status": "partial",
   "theorems": [
    "GTMesh.Vtk.C76_2d_partial",
    "GTMesh.Vtk.C76_same_name_violated",
    "GTMesh.Vtk.C76_reader_violated",
    "GTMesh.Vtk.C76_reader",
    "GTMesh.Vtk.C76_3d_partial"
   ],
   "note": "C76_2d_partial, C76_3d_partial: every array whose columns have other names than those of the arrays in front of it is read back (with numbers printed and parsed, C48). Otherwise false of the code (C76_same_name_violated), and reading into a container with several arrays with traits does not compile (C76_reader_violated, C76_reader)."
  },
  {
   "property": "C77",
   "status": "proved",
   "theorems": [
    "GTMesh.Props.C77_measures_2d",
    "GTMesh.Props.C77_measures_3d",
    "GTMesh.Props.C77_measures_high",
    "GTMesh.Props.C77_normals_3d",
    "GTMesh.Props.C77_normals_tessellated",
    "GTMesh.Props.C77_normals_high",
    "GTMesh.Props.C77_normals_2d",
    "GTMesh.Props.C77_distances",
    "GTMesh.Props.C77_differences",
    "GTMesh.Props.C77_orientation_2d",
    "GTMesh.Props.C77_orientation_3d",
    "GTMesh.Props.C77_centers",
    "GTMesh.Props.C77_recomputed_2d",
    "GTMesh.Props.C77_recomputed_3d",
    "GTMesh.Props.C77_recomputed_distances",
    "GTMesh.Props.C77_rotation_or_reflection"
   ],
   "note": "With real numbers. C77_recomputed_2d/_3d/_distances for valid meshes: the vertices are mapped and everything is computed again. The other theorems: any mesh with any centers, which are mapped as well. Centers: C77_centers (any affine map)."
  },
  {
   "property": "C78",
   "status": "proved",
   "theorems": [
    "GTMesh.Props.C78_no_race",
    "GTMesh.Props.C78_schedules",
    "GTMesh.Props.C78_terminates",
    "GTMesh.Props.C78_phases",
    "GTMesh.Props.C78_accumulate",
    "GTMesh.Props.C78_accumulate_possible",
    "GTMesh.Props.C78_lost_update_violated"
   ],
   "note": "The colors and the connections are those of the library; the parallel loop is code of its user. Single reads and writes are indivisible. C78_lost_update_violated: without the colors a contribution can be lost."
  },
  {
   "property": "C79",
   "status": "partial",
   "theorems": [
    "GTMesh.JsonLog.C79_json_prefix",
    "GTMesh.JsonLog.C79_json_kept_partial",
    "GTMesh.JsonLog.C79_json_lost_violated",
    "GTMesh.HtmlLog.C79_html_prefix",
    "GTMesh.HtmlLog.C79_html_kept_partial",
    "GTMesh.HtmlLog.C79_html_lost_violated"
   ],
   "note": "Proved: the prefix for both logs, and that a returned call without a place keeps all records of the JSON log. C79_json_lost_violated, C79_html_lost_violated: after any number of calls with a place the file may be any beginning of the text, and empty. Not modelled: the file before it is opened and failures of the disk."
  },
  {
   "property": "C80",
   "status": "partial",
   "theorems": [
    "GTMesh.Fpma.C80_text",
    "GTMesh.Fpma.C80_cut_violated",
    "GTMesh.Fpma.C80_other_mesh_violated"
   ],
   "note": "Proved: C80_text, the characters and the numbers agree for every mesh that can be written. C80_cut_violated gives the result for every beginning of the file of a valid mesh: the same mesh behind the last number, undefined behaviour in front of it, another mesh without an error within its digits; C80_other_mesh_violated: this happens whenever the last face number has two digits. Missing: that it is refused (false). A word that is not a number stops the reading in the model."
  },
  {
   "property": "C81",
   "status": "partial",
   "theorems": [
    "GTMesh.Fpma.C81_accepted_partial",
    "GTMesh.Fpma.C81_shown_partial",
    "GTMesh.Fpma.C81_not_a_mesh_violated",
    "GTMesh.Fpma.C81_vertex_violated"
   ],
   "note": "Proved: C81_accepted_partial says for every complete file whether it is accepted, and with which exception it is refused; C81_shown_partial, which of the accepted files are read as the cells they list. C81_not_a_mesh_violated and C81_vertex_violated: the claim is false for repeated faces, a third cell of a face and missing vertices. Missing: that those are refused (false)."
  },
  {
   "property": "C82",
   "status": "partial",
   "theorems": [
    "GTMesh.Vtk.C82_accepted2_partial",
    "GTMesh.Vtk.C82_accepted3_partial",
    "GTMesh.Vtk.C82_shown2_partial",
    "GTMesh.Vtk.C82_shown3_partial",
    "GTMesh.Vtk.C82_three2_violated",
    "GTMesh.Vtk.C82_three3_violated",
    "GTMesh.Vtk.C82_vertex_violated"
   ],
   "note": "Proved: C82_accepted2_partial and C82_accepted3_partial say for every complete file whether it is accepted; C82_shown2_partial and C82_shown3_partial, which files of polygons or solids are read as the cells they list: those without a third cell of a side or face. C82_three2_violated, C82_three3_violated, C82_vertex_violated: the claim is false otherwise. Missing: that such files are refused (false)."
  },
  {
   "property": "C83",
   "status": "partial",
   "theorems": [
    "GTMesh.Vtk.C83_keywords_partial",
    "GTMesh.Vtk.C83_reload2_partial",
    "GTMesh.Vtk.C83_reload3_partial",
    "GTMesh.Vtk.C83_vtk2_partial",
    "GTMesh.Vtk.C83_vtk3_types_partial",
    "GTMesh.Vtk.C83_unfinished_violated",
    "GTMesh.Vtk.C83_full_vtk3_violated",
    "GTMesh.Fpma.C83_fpma_violated",
    "GTMesh.Fpma.C83_full_fpma_violated",
    "GTMesh.Fpma.C83_full_stays_violated"
   ],
   "note": "Proved: a text without the VTK keywords leaves the mesh as it was (C83_keywords_partial); after any failed load of a VTK file, complete or not, a later load gives what it gives without it (C83_reload2_partial, C83_reload3_partial); when only the types do not fit, the mesh is the one of the file (C83_vtk2_partial, C83_vtk3_types_partial). C83_unfinished_violated, C83_fpma_violated, C83_full_vtk3_violated, C83_full_fpma_violated and C83_full_stays_violated: the claim is false otherwise, with what is left then. Missing: that the mesh is kept (false)."
  },
  {
   "property": "C84",
   "status": "partial",
   "theorems": [
    "GTMesh.Vtk.C84_text2",
    "GTMesh.Vtk.C84_text3",
    "GTMesh.Vtk.C84_round_trip2",
    "GTMesh.Vtk.C84_round_trip3_partial",
    "GTMesh.Vtk.C84_name_violated"
   ],
   "note": "Proved: for a name of one line of at most 1024 characters the characters are read as the tokens, with each coordinate as its text says (C84_text2, C84_text3), so C23 and C51 hold of the characters (C84_round_trip2, C84_round_trip3_partial). C84_name_violated: any other name gives a file that both readers refuse. Missing: that every name can be read (false)."
  },
  {
   "property": "C85",
   "status": "partial",
   "theorems": [
    "GTMesh.Props.C85_current3_partial",
    "GTMesh.Props.C85_current2_partial",
    "GTMesh.Props.C85_same_elements3_partial",
    "GTMesh.Props.C85_same_elements2_partial",
    "GTMesh.Props.C85_same_file_vtk3_partial",
    "GTMesh.Props.C85_same_file_fpma_partial",
    "GTMesh.Props.C85_vtk2_violated",
    "GTMesh.Props.C85_vtk2_stale_violated",
    "GTMesh.Props.C85_failed_violated",
    "GTMesh.Props.C85_fpma_violated",
    "GTMesh.C85_padding_violated",
    "GTMesh.C85_reserve_violated",
    "GTMesh.C85_same_file_violated"
   ],
   "note": "Proved for every history in which a 3D load that returned, a write or updateSignature was called and the elements were changed by nothing else since (C85_current3_partial, C85_current2_partial, and equal content gives equal signatures: C85_same_elements3_partial, C85_same_elements2_partial); two 3D VTK loads of a file agree whatever was there before (C85_same_file_vtk3_partial), two FPMA loads when the edges, faces and cells were the same (C85_same_file_fpma_partial). False otherwise: the 2D reader leaves the signature as it was (C85_vtk2_violated, C85_vtk2_stale_violated), a failed load too (C85_failed_violated), and FPMA edges accumulate (C85_fpma_violated). The hash functions of the model see the members of the elements. The code hashes their memory: with the bytes that belong to no member held fixed the theorems above apply as they are (RawHasher.within is a Hasher), without that any mesh with a cell that has such bytes has two signatures (C85_padding_violated), as has a 3D mesh with a face of fewer edges than the static reserve (C85_reserve_violated), and two new meshes that load one file can get different ones (C85_same_file_violated)."
  },
  {
   "property": "C86",
   "status": "partial",
   "theorems": [
    "GTMesh.Fpma.C86_fpma_partial",
    "GTMesh.Fpma.C86_fpma_violated",
    "GTMesh.Vtk.C86_vtk2_partial",
    "GTMesh.Vtk.C86_vtk2_violated",
    "GTMesh.Vtk.C86_vtk3"
   ],
   "note": "Proved for every text read by the 3D VTK reader (C86_vtk3), for complete FPMA files in which every cell has a face (C86_fpma_partial) and complete 2D VTK files in which every cell has a vertex (C86_vtk2_partial), whatever else they contain. False of an accepted file with an empty cell: its boundary element is whatever the memory contained (C86_fpma_violated, C86_vtk2_violated). Other members, and texts for FPMA and 2D that are cut or malformed, are not covered."
  },
  {
   "property": "C87",
   "status": "partial",
   "theorems": [
    "GTMesh.Props.C87_same_partial",
    "GTMesh.Props.C87_observable_violated",
    "GTMesh.Props.C87_never_empty_violated"
   ],
   "note": "C87_same_partial: every history without undefined behaviour gives the same results with and without a reserve as long as there is place, single entries are those of the list, and back, empty and the loop backwards are called on a full (non-empty) list. C87_observable_violated: after such a history every other call that is defined for the vector differs, for some content of the memory; C87_never_empty_violated. Missing: the equality for those calls (false)."
  },
  {
   "property": "C88",
   "status": "partial",
   "theorems": [
    "GTMesh.Props.C88_moves_partial",
    "GTMesh.Props.C88_braces_violated",
    "GTMesh.Props.C88_number_violated"
   ],
   "note": "C88_moves_partial: every sequence of assignments to coordinates and of +=, -=, *=, /= gives the coordinates it says and keeps the index (a factor that is a coordinate of the vertex itself: C35_self_factor_violated). False of v = {\u2026}, which is undefined behaviour for every list (C88_braces_violated), and of v = number, which changes the index (C88_number_violated)."
  },
  {
   "property": "C89",
   "status": "partial",
   "theorems": [
    "GTMesh.Ser.C89_complete_values_partial",
    "GTMesh.Ser.C89_other_values_violated",
    "GTMesh.Ser.C89_within_violated",
    "GTMesh.Ser.C89_empty_violated",
    "GTMesh.Ser.C89_not_reported_violated",
    "GTMesh.Ser.C89_all_or_nothing_partial"
   ],
   "note": "Proved for every type and every cut: the values that are completely in the file are read as they were written (C89_complete_values_partial); a call that has not begun leaves the old file, one that wrote all bytes the new content (C89_all_or_nothing_partial). False otherwise: values that were lost are replaced by copies of the first ones (C89_other_values_violated), or reading them is undefined behaviour (C89_within_violated, C89_empty_violated), and saveToFile reports nothing (C89_not_reported_violated). Bytes that reach the file out of order are not modelled."
  },
  {
   "property": "C90",
   "status": "partial",
   "theorems": [
    "GTMesh.Ser.C90_round_trip_partial",
    "GTMesh.Ser.C90_same_sizes_partial",
    "GTMesh.Ser.C90_other_mesh_violated",
    "GTMesh.Ser.C90_other_dimensions_violated",
    "GTMesh.Ser.C90_tuple_partial",
    "GTMesh.Ser.C90_one_type_partial"
   ],
   "note": "Proved for every container whose values are of one serializable type, read into a container of the same type with any content without sets and maps in it (C90_round_trip_partial), and for meshes with as many elements every element then has the entry that was written (C90_same_sizes_partial). False otherwise: reading data of a smaller mesh leaves elements without an entry (C90_other_mesh_violated), and data for other dimensions is accepted (C90_other_dimensions_violated). Containers with a type for each array (std::tuple) are read back as well (C90_tuple_partial), and exchange data with those of one type (C90_one_type_partial). Arrays of bool (which cannot be read) are not covered."
  },
  {
   "property": "C91",
   "status": "partial",
   "theorems": [
    "GTMesh.Ser.C91_copy_partial",
    "GTMesh.Ser.C91_reset_partial",
    "GTMesh.Ser.C91_move_partial",
    "GTMesh.Ser.C91_copy_violated",
    "GTMesh.Ser.C91_moved_from_violated",
    "GTMesh.Ser.C91_clear_partial"
   ],
   "note": "Proved for every sequence of reads: copies of a serializer that was not read from (C91_copy_partial), copies behind resetIterator (C91_reset_partial), the object a serializer was moved to (C91_move_partial), and objects that are cleared first (C91_clear_partial). False otherwise: after one value was read every read from a copy is undefined behaviour (C91_copy_violated), as is reading a serializer that was moved away and written again (C91_moved_from_violated)."
  }
 ]
}