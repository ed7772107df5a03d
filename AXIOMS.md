# Axioms of the theorems in MANIFEST.json

Output of `#print axioms`, written by tools/axioms.py.

| property | theorem | axioms |
|---|---|---|
| C01 | GTMesh.Props.C01_boundary_tag | propext, Classical.choice, Quot.sound |
| C01 | GTMesh.Props.C01_tag_injective | propext, Classical.choice, Quot.sound |
| C01 | GTMesh.Props.C01_retag | propext, Classical.choice, Quot.sound |
| C01 | GTMesh.Props.C01_nat_model | propext, Classical.choice, Quot.sound |
| C02 | GTMesh.Props.C02_first_two_cells | propext, Quot.sound |
| C02 | GTMesh.Props.C02_refusal | propext, Quot.sound |
| C03 | GTMesh.Props.C03_other_cell | propext |
| C03 | GTMesh.Props.C03_involution | propext |
| C03 | GTMesh.Props.C03_swap | propext |
| C04 | GTMesh.Props.C04_successor_map | propext, Quot.sound |
| C04 | GTMesh.Props.C04_refusal | propext, Quot.sound |
| C04 | GTMesh.Props.C04_get_after_set | propext, Classical.choice, Quot.sound |
| C05 | GTMesh.Props.C05_swap_breaks_successors | none |
| C05 | GTMesh.Props.C05_swap_partial | propext, Classical.choice, Quot.sound |
| C06 | GTMesh.Props.C06_bounded_list | propext, Quot.sound |
| C06 | GTMesh.Props.C06_at | propext, Quot.sound |
| C06 | GTMesh.Props.C06_at_uninitialised | propext |
| C06 | GTMesh.Props.C06_reserve | propext, Quot.sound |
| C07 | GTMesh.Props.C07_effect | propext, Classical.choice, Quot.sound |
| C07 | GTMesh.Props.C07_numbering | propext, Classical.choice, Quot.sound |
| C07 | GTMesh.Props.C07_all_sides | propext, Classical.choice, Quot.sound |
| C07 | GTMesh.Props.C07_own_cell | propext, Classical.choice, Quot.sound |
| C07 | GTMesh.Props.C07_distinct | propext, Classical.choice, Quot.sound |
| C07 | GTMesh.Props.C07_idempotent | propext, Classical.choice, Quot.sound |
| C07 | GTMesh.Props.C07_interior | propext, Classical.choice, Quot.sound |
| C07 | GTMesh.Props.C07_mesh_2d | propext, Classical.choice, Quot.sound |
| C07 | GTMesh.Props.C07_mesh_3d | propext, Classical.choice, Quot.sound |
| C08 | GTMesh.Props.C08_clear_partial | propext |
| C08 | GTMesh.Props.C08_boundary_cells_survive | none |
| C08 | GTMesh.Props.C08_witness | propext |
| C09 | GTMesh.Props.C09_walk_iff_chain | propext, Classical.choice, Quot.sound |
| C09 | GTMesh.Props.C09_divergence_is_real | propext, Classical.choice, Quot.sound |
| C09 | GTMesh.Props.C09_divergence_witness | propext, Classical.choice, Quot.sound |
| C09 | GTMesh.Props.C09_divergence_is_real_deep | propext, Classical.choice, Quot.sound |
| C10 | GTMesh.Props.C10_apply_descending | propext, Classical.choice, Quot.sound |
| C10 | GTMesh.Props.C10_apply_transpose | propext, Classical.choice, Quot.sound |
| C10 | GTMesh.Props.C10_calls_are_incidence | propext, Classical.choice, Quot.sound |
| C10 | GTMesh.Props.C10_apply_one | propext, Classical.choice, Quot.sound |
| C10 | GTMesh.Props.C10_no_ub | propext, Classical.choice, Quot.sound |
| C11 | GTMesh.Props.C11_ascending | propext, Classical.choice, Quot.sound |
| C11 | GTMesh.Props.C11_transpose | propext, Classical.choice, Quot.sound |
| C12 | GTMesh.Props.C12_original | propext, Classical.choice, Quot.sound |
| C12 | GTMesh.Props.C12_same_members | propext, Classical.choice, Quot.sound |
| C13 | GTMesh.Props.C13_neighborhood | propext, Classical.choice, Quot.sound |
| C13 | GTMesh.Props.C13_symmetric | propext, Classical.choice, Quot.sound |
| C14 | GTMesh.Props.C14_greedy_proper | propext, Classical.choice, Quot.sound |
| C15 | GTMesh.Props.C15_first_fit | propext, Classical.choice, Quot.sound |
| C15 | GTMesh.Props.C15_degree_bound | propext, Classical.choice, Quot.sound |
| C16 | GTMesh.Props.C16_random_proper | propext, Classical.choice, Quot.sound |
| C16 | GTMesh.Props.C16_empty_is_ub | propext, Classical.choice, Quot.sound |
| C17 | GTMesh.Props.C17_allocate | propext, Quot.sound |
| C17 | GTMesh.Props.C17_construct | propext |
| C17 | GTMesh.Props.C17_allocate_tuple | propext, Classical.choice, Quot.sound |
| C17 | GTMesh.Props.C17_idempotent | propext, Quot.sound |
| C17 | GTMesh.Props.C17_by_dim | propext, Quot.sound |
| C17 | GTMesh.Props.C17_element_access | propext |
| C17 | GTMesh.Props.C17_write_isolated | propext, Classical.choice, Quot.sound |
| C17 | GTMesh.Props.C17_read_after_write | propext, Classical.choice, Quot.sound |
| C17 | GTMesh.Props.C17_allocate_like | propext, Quot.sound |
| C18 | GTMesh.Fpma.C18_load | propext, Classical.choice, Quot.sound |
| C18 | GTMesh.Fpma.C18_valid | propext, Classical.choice, Quot.sound |
| C18 | GTMesh.Fpma.C18_reserve | propext, Classical.choice, Quot.sound |
| C18 | GTMesh.Fpma.C18_sides | propext, Classical.choice, Quot.sound |
| C19 | GTMesh.Fpma.C19_fpma_reserve_violated | propext, Classical.choice, Quot.sound |
| C19 | GTMesh.Fpma.C19_fpma_keeps_edges | propext |
| C19 | GTMesh.Fpma.C19_fpma_violated | propext |
| C19 | GTMesh.Vtk.C19_vtk2_partial | propext |
| C19 | GTMesh.Vtk.C19_vtk2_violated | propext |
| C19 | GTMesh.Vtk.C19_types_survive | propext |
| C19 | GTMesh.Vtk.C19_vtk3_partial | propext |
| C19 | GTMesh.Vtk.C19_vtk3_violated | propext |
| C20 | GTMesh.Fpma.C20_indexFace | propext, Classical.choice, Quot.sound |
| C20 | GTMesh.Fpma.C20_vertices | propext, Classical.choice, Quot.sound |
| C20 | GTMesh.Fpma.C20_stuck | propext |
| C20 | GTMesh.Fpma.C20_open_face_diverges | propext |
| C21 | GTMesh.Vtk.C21_polygons_partial | propext, Classical.choice, Quot.sound |
| C21 | GTMesh.Fpma.C21_round_trip_partial | propext, Classical.choice, Quot.sound |
| C21 | GTMesh.C21_printed_partial | propext, Classical.choice, Quot.sound |
| C21 | GTMesh.C21_digits_violated | propext, Classical.choice, Quot.sound |
| C22 | GTMesh.Vtk.C22_load | propext, Classical.choice, Quot.sound |
| C22 | GTMesh.Vtk.C22_valid | propext, Classical.choice, Quot.sound |
| C22 | GTMesh.Vtk.C22_three_cells | propext |
| C23 | GTMesh.C23_printed | propext, Classical.choice, Quot.sound |
| C23 | GTMesh.Vtk.C23_indexCell | propext, Classical.choice, Quot.sound |
| C23 | GTMesh.Vtk.C23_vertices | propext, Classical.choice, Quot.sound |
| C23 | GTMesh.Vtk.C23_round_trip | propext, Classical.choice, Quot.sound |
| C23 | GTMesh.Vtk.C23_reader | propext, Classical.choice, Quot.sound |
| C24 | GTMesh.Vtk.C24_templates | propext, Classical.choice, Quot.sound |
| C24 | GTMesh.Vtk.C24_closed | propext, Classical.choice, Quot.sound |
| C25 | GTMesh.Vtk.C25_load | propext, Classical.choice, Quot.sound |
| C25 | GTMesh.Vtk.C25_shared | propext, Classical.choice, Quot.sound |
| C25 | GTMesh.Vtk.C25_valid | propext, Classical.choice, Quot.sound |
| C25 | GTMesh.Vtk.C25_unknown | propext, Classical.choice, Quot.sound |
| C26 | GTMesh.Vtk.C26_codes | none |
| C26 | GTMesh.Vtk.C26_read_write | propext |
| C26 | GTMesh.Vtk.C26_write_unknown | propext, Quot.sound |
| C26 | GTMesh.Vtk.C26_unknown_violated | propext, Classical.choice, Quot.sound |
| C27 | GTMesh.Vtk.C27_base_violated | propext, Classical.choice, Quot.sound |
| C27 | GTMesh.Vtk.C27_export | propext, Classical.choice, Quot.sound |
| C27 | GTMesh.Vtk.C27_column | propext, Classical.choice, Quot.sound |
| C28 | GTMesh.Vtk.C28_2d | propext, Quot.sound |
| C28 | GTMesh.Vtk.C28_3d_partial | propext, Classical.choice, Quot.sound |
| C28 | GTMesh.Vtk.C28_int_overflow | propext, Quot.sound |
| C29 | GTMesh.Props.C29_vtk2_partial | propext, Classical.choice, Quot.sound |
| C29 | GTMesh.Props.C29_vtk3_partial | propext, Quot.sound |
| C29 | GTMesh.Props.C29_fpma_partial | propext, Classical.choice, Quot.sound |
| C29 | GTMesh.Props.C29_signature_sees | propext, Quot.sound |
| C29 | GTMesh.Props.C29_signature_blind | propext, Quot.sound |
| C29 | GTMesh.Props.C29_vtk3_stale | propext, Quot.sound |
| C29 | GTMesh.Props.C29_violated | propext, Classical.choice, Quot.sound |
| C29 | GTMesh.Props.C29_types_violated | propext, Classical.choice, Quot.sound |
| C29 | GTMesh.Props.C29_zero_signature | propext, Quot.sound |
| C29 | GTMesh.Props.C29_uninitialised2 | propext, Quot.sound |
| C29 | GTMesh.Props.C29_uninitialised_fpma | propext, Quot.sound |
| C29 | GTMesh.Props.C29_vtk2_exceptions_partial | propext, Classical.choice, Quot.sound |
| C29 | GTMesh.Props.C29_fpma_exceptions_partial | propext, Classical.choice, Quot.sound |
| C29 | GTMesh.Props.C29_vtk3_exceptions_partial | propext, Classical.choice, Quot.sound |
| C29 | GTMesh.Props.C29_exception_2d_violated | propext, Classical.choice, Quot.sound |
| C29 | GTMesh.Props.C29_exception_3d_violated | propext, Classical.choice, Quot.sound |
| C29 | GTMesh.Props.C29_exception_fpma_violated | propext, Classical.choice, Quot.sound |
| C30 | GTMesh.Ser.C30_round_trip | propext, Classical.choice, Quot.sound |
| C30 | GTMesh.Ser.C30_prefix_free | propext, Classical.choice, Quot.sound |
| C31 | GTMesh.Ser.C31_in_order | propext, Classical.choice, Quot.sound |
| C31 | GTMesh.Ser.C31_append_stable | propext, Classical.choice, Quot.sound |
| C32 | GTMesh.Ser.C32_restart | propext, Quot.sound |
| C32 | GTMesh.Ser.C32_first | propext, Classical.choice, Quot.sound |
| C32 | GTMesh.Ser.C32_second_pass | propext, Classical.choice, Quot.sound |
| C32 | GTMesh.Ser.C32_clear | propext, Classical.choice, Quot.sound |
| C33 | GTMesh.Ser.C33_set_union | propext, Classical.choice, Quot.sound |
| C33 | GTMesh.Ser.C33_merges | propext, Classical.choice, Quot.sound |
| C33 | GTMesh.Ser.C33_map_keeps_old | propext, Classical.choice, Quot.sound |
| C33 | GTMesh.Ser.C33_replaces_partial | propext, Classical.choice, Quot.sound |
| C34 | GTMesh.Ser.C34_truncated_is_ub | propext, Classical.choice, Quot.sound |
| C34 | GTMesh.Ser.C34_never_throws | propext, Quot.sound |
| C34 | GTMesh.Ser.C34_empty_read_ub | propext, Quot.sound |
| C34 | GTMesh.Ser.C34_long_array_ub | propext, Quot.sound |
| C34 | GTMesh.Ser.C34_written_partial | propext, Classical.choice, Quot.sound |
| C35 | GTMesh.Props.C35_componentwise | propext, Quot.sound |
| C35 | GTMesh.Props.C35_vector_space | propext, Classical.choice, Quot.sound |
| C35 | GTMesh.Props.C35_scalar_product | propext, Classical.choice, Quot.sound |
| C35 | GTMesh.Props.C35_compare | propext, Classical.choice, Quot.sound |
| C35 | GTMesh.Props.C35_compound_partial | propext, Classical.choice, Quot.sound |
| C35 | GTMesh.Props.C35_self_factor_violated | propext, Classical.choice, Quot.sound |
| C35 | GTMesh.Props.C35_integer_divisor_violated | propext, Classical.choice, Quot.sound |
| C35 | GTMesh.Props.C35_initializer_list | propext, Classical.choice, Quot.sound |
| C36 | GTMesh.Props.C36_vector_product | propext, Classical.choice, Quot.sound |
| C37 | GTMesh.Props.C37_orthogonal | propext, Classical.choice, Quot.sound |
| C37 | GTMesh.Props.C37_normalized | propext, Classical.choice, Quot.sound |
| C37 | GTMesh.Props.C37_side | propext, Classical.choice, Quot.sound |
| C37 | GTMesh.Props.C37_volume | propext, Classical.choice, Quot.sound |
| C37 | GTMesh.Props.C37_empty | propext, Classical.choice, Quot.sound |
| C38 | GTMesh.Props.C38_centers | propext, Classical.choice, Quot.sound |
| C38 | GTMesh.Props.C38_affine | propext, Classical.choice, Quot.sound |
| C38 | GTMesh.Props.C38_translation | propext, Classical.choice, Quot.sound |
| C38 | GTMesh.Props.C38_convex | propext, Classical.choice, Quot.sound |
| C38 | GTMesh.Props.C38_half_space | propext, Classical.choice, Quot.sound |
| C38 | GTMesh.Props.C38_tessellated | propext, Classical.choice, Quot.sound |
| C39 | GTMesh.Props.C39_convex_2d | propext, Classical.choice, Quot.sound |
| C39 | GTMesh.Props.C39_convex_3d | propext, Classical.choice, Quot.sound |
| C39 | GTMesh.Props.C39_convex_mesh | propext, Classical.choice, Quot.sound |
| C39 | GTMesh.Props.C39_measures_2d | propext, Classical.choice, Quot.sound |
| C39 | GTMesh.Props.C39_shoelace | propext, Classical.choice, Quot.sound |
| C39 | GTMesh.Props.C39_measures_3d | propext, Classical.choice, Quot.sound |
| C39 | GTMesh.Props.C39_planar_face | propext, Classical.choice, Quot.sound |
| C39 | GTMesh.Props.C39_volume | propext, Classical.choice, Quot.sound |
| C39 | GTMesh.Props.C39_nonneg_2d | propext, Classical.choice, Quot.sound |
| C39 | GTMesh.Props.C39_nonneg_3d | propext, Classical.choice, Quot.sound |
| C39 | GTMesh.Props.C39_rigid_2d | propext, Classical.choice, Quot.sound |
| C39 | GTMesh.Props.C39_rigid_3d | propext, Classical.choice, Quot.sound |
| C39 | GTMesh.Props.C39_translation_3d | propext, Classical.choice, Quot.sound |
| C39 | GTMesh.Props.C39_translation_2d | propext, Classical.choice, Quot.sound |
| C39 | GTMesh.Props.C39_measures_high | propext, Classical.choice, Quot.sound |
| C39 | GTMesh.Props.C39_measures_high_of_centers | propext, Classical.choice, Quot.sound |
| C39 | GTMesh.Props.C39_nonneg_high | propext, Classical.choice, Quot.sound |
| C39 | GTMesh.Props.C39_simplices | propext, Classical.choice, Quot.sound |
| C40 | GTMesh.Props.C40_normals_2d | propext, Classical.choice, Quot.sound |
| C40 | GTMesh.Props.C40_reversal_2d | propext, Classical.choice, Quot.sound |
| C40 | GTMesh.Props.C40_normals_3d | propext, Classical.choice, Quot.sound |
| C40 | GTMesh.Props.C40_left_to_right | propext, Classical.choice, Quot.sound |
| C40 | GTMesh.Props.C40_tessellated | propext, Classical.choice, Quot.sound |
| C40 | GTMesh.Props.C40_tessellated_planar | propext, Classical.choice, Quot.sound |
| C40 | GTMesh.Props.C40_high_dimension_partial | propext, Classical.choice, Quot.sound |
| C41 | GTMesh.Props.C41_distance | propext, Classical.choice, Quot.sound |
| C41 | GTMesh.Props.C41_distances | propext, Classical.choice, Quot.sound |
| C41 | GTMesh.Props.C41_nonneg | propext, Classical.choice, Quot.sound |
| C41 | GTMesh.Props.C41_symmetric | propext, Classical.choice, Quot.sound |
| C41 | GTMesh.Props.C41_missing_throws | propext, Classical.choice, Quot.sound |
| C41 | GTMesh.Props.C41_difference | propext, Classical.choice, Quot.sound |
| C41 | GTMesh.Props.C41_left_missing | propext, Quot.sound |
| C41 | GTMesh.Props.C41_antisymmetric_partial | propext, Classical.choice, Quot.sound |
| C41 | GTMesh.Props.C41_length | propext, Classical.choice, Quot.sound |
| C41 | GTMesh.Props.C41_differences | propext, Classical.choice, Quot.sound |
| C42 | GTMesh.Props.C42_left | propext, Classical.choice, Quot.sound |
| C42 | GTMesh.Props.C42_reversal | propext, Classical.choice, Quot.sound |
| C42 | GTMesh.Props.C42_translation | propext, Classical.choice, Quot.sound |
| C42 | GTMesh.Props.C42_mesh | propext, Classical.choice, Quot.sound |
| C42 | GTMesh.Props.C42_left_3d | propext, Classical.choice, Quot.sound |
| C42 | GTMesh.Props.C42_orientations | propext, Classical.choice, Quot.sound |
| C42 | GTMesh.Props.C42_polygon | propext, Classical.choice, Quot.sound |
| C43 | GTMesh.Props.C43_class_selector | propext, Quot.sound |
| C43 | GTMesh.Props.C43_dimension_pos | propext, Quot.sound |
| C43 | GTMesh.Props.C43_select_traits | propext, Quot.sound |
| C43 | GTMesh.Props.C43_constexpr_for_up | propext, Quot.sound |
| C43 | GTMesh.Props.C43_constexpr_for | propext, Quot.sound |
| C43 | GTMesh.Props.C43_constexpr_for_down | propext, Quot.sound |
| C43 | GTMesh.Props.C43_constexpr_for_zero_step | propext, Quot.sound |
| C44 | GTMesh.TA.C44_plus | propext, Quot.sound |
| C44 | GTMesh.TA.C44_times | propext, Quot.sound |
| C44 | GTMesh.TA.C44_minus_partial | propext, Quot.sound |
| C44 | GTMesh.TA.C44_minus_temporary_violated | propext, Quot.sound |
| C44 | GTMesh.TA.C44_scale_partial | propext, Quot.sound |
| C44 | GTMesh.TA.C44_divide | propext, Quot.sound |
| C44 | GTMesh.TA.C44_power_partial | propext, Quot.sound |
| C44 | GTMesh.TA.C44_power_of_real_violated | propext, Quot.sound |
| C44 | GTMesh.TA.C44_self_factor_violated | propext |
| C44 | GTMesh.TA.C44_function | propext, Quot.sound |
| C44 | GTMesh.TA.C44_negate | propext, Quot.sound |
| C44 | GTMesh.TA.C44_sum | propext, Quot.sound |
| C44 | GTMesh.TA.C44_max_min_partial | propext, Quot.sound |
| C44 | GTMesh.TA.C44_empty_array_violated | propext |
| C45 | GTMesh.Props.C45_names_collide | none |
| C45 | GTMesh.Props.C45_vertices_unnamed | none |
| C45 | GTMesh.Props.C45_overflow | propext |
| C45 | GTMesh.Props.C45_name_partial | propext |
| C45 | GTMesh.Props.C45_unique_partial | propext |
| C46 | GTMesh.FileFormat.C46_write | propext, Quot.sound |
| C46 | GTMesh.FileFormat.C46_no_dot | propext |
| C46 | GTMesh.FileFormat.C46_not_opened | propext, Quot.sound |
| C46 | GTMesh.FileFormat.C46_other_extension_violated | propext, Quot.sound |
| C46 | GTMesh.FileFormat.C46_load_partial | propext, Quot.sound |
| C46 | GTMesh.FileFormat.C46_load_which | propext, Quot.sound |
| C46 | GTMesh.FileFormat.C46_load_other | propext, Quot.sound |
| C46 | GTMesh.FileFormat.C46_load_violated | propext, Classical.choice, Quot.sound |
| C46 | GTMesh.FileFormat.C46_write_load | propext, Quot.sound |
| C47 | GTMesh.JsonLog.C47_log_partial | propext, Classical.choice, Quot.sound |
| C47 | GTMesh.JsonLog.C47_created_partial | propext, Classical.choice, Quot.sound |
| C47 | GTMesh.JsonLog.C47_unused | propext, Classical.choice, Quot.sound |
| C47 | GTMesh.JsonLog.C47_text_violated | propext, Classical.choice, Quot.sound |
| C47 | GTMesh.JsonLog.C47_backslash_violated | propext |
| C47 | GTMesh.JsonLog.C47_path_violated | propext, Classical.choice, Quot.sound |
| C47 | GTMesh.JsonLog.C47_pair_violated | propext, Classical.choice, Quot.sound |
| C47 | GTMesh.JsonLog.C47_create_again_violated | propext, Classical.choice, Quot.sound |
| C47 | GTMesh.JsonLog.C47_destroy_violated | propext, Classical.choice, Quot.sound |
| C48 | GTMesh.C48_digits_violated | propext, Classical.choice, Quot.sound |
| C48 | GTMesh.Vtk.C48_2d | propext, Classical.choice, Quot.sound |
| C48 | GTMesh.Vtk.C48_3d | propext, Classical.choice, Quot.sound |
| C48 | GTMesh.Vtk.C48_empty_throws | propext |
| C48 | GTMesh.Vtk.C48_other_sizes_violated | propext, Classical.choice, Quot.sound |
| C48 | GTMesh.Vtk.C48_title_violated | propext, Classical.choice, Quot.sound |
| C49 | GTMesh.Ser.C49_file_round_trip | propext, Classical.choice, Quot.sound |
| C49 | GTMesh.Ser.C49_save_reports | none |
| C49 | GTMesh.Ser.C49_load_missing_silent | propext |
| C49 | GTMesh.Ser.C49_load_keeps_cursor | propext, Quot.sound |
| C50 | GTMesh.Ser.C50_interleaved_ub | propext, Quot.sound |
| C50 | GTMesh.Ser.C50_interleaved_partial | propext, Classical.choice, Quot.sound |
| C51 | GTMesh.C51_printed_partial | propext, Classical.choice, Quot.sound |
| C51 | GTMesh.C51_digits_violated | propext, Classical.choice, Quot.sound |
| C51 | GTMesh.Vtk.C51_vertices | propext, Classical.choice, Quot.sound |
| C51 | GTMesh.Vtk.C51_round_trip_partial | propext, Classical.choice, Quot.sound |
| C51 | GTMesh.Vtk.C51_solids_partial | propext, Classical.choice, Quot.sound |
| C51 | GTMesh.Vtk.C51_valid_partial | propext, Classical.choice, Quot.sound |
| C51 | GTMesh.Vtk.C51_apart_partial | propext, Classical.choice, Quot.sound |
| C51 | GTMesh.Vtk.C51_close_centers_violated | propext, Classical.choice, Quot.sound |
| C51 | GTMesh.Vtk.C51_small_mesh_violated | propext, Classical.choice, Quot.sound |
| C52 | GTMesh.Vtk.C52_keywords | propext, Quot.sound |
| C52 | GTMesh.Vtk.C52_missing_sections_violated | propext, Quot.sound |
| C53 | GTMesh.Vtk.C53_vtk_to_fpma_partial | propext, Classical.choice, Quot.sound |
| C53 | GTMesh.Vtk.C53_fpma_to_vtk_partial | propext, Classical.choice, Quot.sound |
| C53 | GTMesh.C53_printed_partial | propext, Classical.choice, Quot.sound |
| C53 | GTMesh.C53_digits_violated | propext, Classical.choice, Quot.sound |
| C53 | GTMesh.Vtk.C53_same_centers_violated | propext, Classical.choice, Quot.sound |
| C54 | GTMesh.Props.C54_distances | propext, Classical.choice, Quot.sound |
| C54 | GTMesh.Props.C54_differences | propext, Classical.choice, Quot.sound |
| C54 | GTMesh.Props.C54_left_violated | propext, Classical.choice, Quot.sound |
| C54 | GTMesh.Props.C54_centers | propext, Classical.choice, Quot.sound |
| C55 | GTMesh.Props.C55_balance | propext, Classical.choice, Quot.sound |
| C55 | GTMesh.Props.C55_balance_open | propext, Classical.choice, Quot.sound |
| C55 | GTMesh.Vtk.C55_balance_vtk2 | propext, Classical.choice, Quot.sound |
| C55 | GTMesh.Vtk.C55_balance_vtk3 | propext, Classical.choice, Quot.sound |
| C55 | GTMesh.Props.C55_closed_2d | propext, Classical.choice, Quot.sound |
| C55 | GTMesh.Props.C55_outer_2d | propext, Classical.choice, Quot.sound |
| C55 | GTMesh.Props.C55_closed_3d | propext, Classical.choice, Quot.sound |
| C55 | GTMesh.Props.C55_convex_3d | propext, Classical.choice, Quot.sound |
| C55 | GTMesh.Vtk.C55_directions | propext, Classical.choice, Quot.sound |
| C55 | GTMesh.Vtk.C55_vtk2 | propext, Classical.choice, Quot.sound |
| C55 | GTMesh.Fpma.C55_balance_fpma | propext, Classical.choice, Quot.sound |
| C55 | GTMesh.Props.C55_convex_mesh | propext, Classical.choice, Quot.sound |
| C55 | GTMesh.Props.C55_vtk3 | propext, Classical.choice, Quot.sound |
| C55 | GTMesh.Props.C55_fpma | propext, Classical.choice, Quot.sound |
| C56 | GTMesh.Props.C56_base_partial | propext, Classical.choice, Quot.sound |
| C56 | GTMesh.Props.C56_first_edge | propext, Classical.choice, Quot.sound |
| C56 | GTMesh.Props.C56_tetrahedra_partial | propext, Classical.choice, Quot.sound |
| C56 | GTMesh.Props.C56_inverted_tetrahedron | propext, Classical.choice, Quot.sound |
| C57 | GTMesh.Fpma.C57_fpma_violated | propext, Quot.sound |
| C57 | GTMesh.Vtk.C57_vtk_points_violated | propext, Classical.choice, Quot.sound |
| C57 | GTMesh.Vtk.C57_vtk_cells_violated | propext, Classical.choice, Quot.sound |
| C57 | GTMesh.Vtk.C57_vtk_types_violated | propext, Quot.sound |
| C57 | GTMesh.Vtk.C57_vtk_counts_violated | propext, Quot.sound |
| C57 | GTMesh.Vtk.C57_vtk2_accepts_violated | propext, Classical.choice, Quot.sound |
| C57 | GTMesh.Vtk.C57_vtk_keywords_partial | propext, Quot.sound |
| C57 | GTMesh.Vtk.C57_data_violated | propext, Classical.choice, Quot.sound |
| C57 | GTMesh.Vtk.C57_data_empty_violated | propext, Classical.choice, Quot.sound |
| C57 | GTMesh.Vtk.C57_data_short_violated | propext, Classical.choice, Quot.sound |
| C58 | GTMesh.HtmlLog.C58_log_partial | propext, Classical.choice, Quot.sound |
| C58 | GTMesh.HtmlLog.C58_created_partial | propext, Classical.choice, Quot.sound |
| C58 | GTMesh.HtmlLog.C58_unused | propext, Classical.choice, Quot.sound |
| C58 | GTMesh.HtmlLog.C58_name_violated | propext, Classical.choice, Quot.sound |
| C58 | GTMesh.HtmlLog.C58_text_violated | propext, Classical.choice, Quot.sound |
| C58 | GTMesh.HtmlLog.C58_backslash_violated | propext, Classical.choice, Quot.sound |
| C58 | GTMesh.HtmlLog.C58_no_place_violated | propext, Classical.choice, Quot.sound |
| C58 | GTMesh.HtmlLog.C58_script_violated | propext, Classical.choice, Quot.sound |
| C58 | GTMesh.HtmlLog.C58_create_again_violated | propext, Classical.choice, Quot.sound |
| C58 | GTMesh.HtmlLog.C58_destroy_violated | propext, Classical.choice, Quot.sound |
| C59 | GTMesh.C59_number | propext, Classical.choice, Quot.sound |
| C59 | GTMesh.C59_exact | propext, Classical.choice, Quot.sound |
| C59 | GTMesh.C59_again | propext, Classical.choice, Quot.sound |
| C59 | GTMesh.C59_fpma | propext |
| C59 | GTMesh.C59_vtk2 | propext, Quot.sound |
| C59 | GTMesh.C59_vtk3 | propext, Quot.sound |
| C60 | GTMesh.ConsoleLog.C60_log | propext, Classical.choice, Quot.sound |
| C60 | GTMesh.ConsoleLog.C60_append | propext, Quot.sound |
| C60 | GTMesh.ConsoleLog.C60_colors | propext, Classical.choice, Quot.sound |
| C60 | GTMesh.ConsoleLog.C60_palette | propext, Classical.choice, Quot.sound |
| C60 | GTMesh.ConsoleLog.C60_reset_partial | none |
| C60 | GTMesh.ConsoleLog.C60_reset_violated | propext |
| C60 | GTMesh.ConsoleLog.C60_stdio_violated | propext, Classical.choice, Quot.sound |
| C60 | GTMesh.ConsoleLog.C60_stdio_integers_partial | propext, Classical.choice, Quot.sound |
| C60 | GTMesh.ConsoleLog.C60_stdio_unsigned_violated | propext, Classical.choice, Quot.sound |
| C61 | GTMesh.DebugMacros.C61_dbgvar | propext, Classical.choice, Quot.sound |
| C61 | GTMesh.DebugMacros.C61_dbgvar_console | propext, Classical.choice, Quot.sound |
| C61 | GTMesh.Traits.C61_for_each | propext, Quot.sound |
| C61 | GTMesh.Traits.C61_for_each_many | propext, Classical.choice, Quot.sound |
| C61 | GTMesh.Traits.C61_for_each_parity | propext, Classical.choice, Quot.sound |
| C61 | GTMesh.Traits.C61_attribute_trait | propext, Classical.choice, Quot.sound |
| C61 | GTMesh.Traits.C61_named_trait | propext, Classical.choice, Quot.sound |
| C61 | GTMesh.Traits.C61_custom_trait | propext, Classical.choice, Quot.sound |
| C61 | GTMesh.Traits.C61_odd | propext, Classical.choice, Quot.sound |
| C61 | GTMesh.Traits.C61_make_traits | propext, Quot.sound |
| C61 | GTMesh.Traits.C61_other_class | propext, Quot.sound |
| C61 | GTMesh.Traits.C61_member | propext |
| C61 | GTMesh.Traits.C61_get_set | propext |
| C61 | GTMesh.Traits.C61_get_ref | propext |
| C61 | GTMesh.Traits.C61_out_of_range | propext |
| C61 | GTMesh.Traits.C61_apply | propext, Quot.sound |
| C61 | GTMesh.Traits.C61_get | propext, Quot.sound |
| C61 | GTMesh.Traits.C61_get_distinct | propext, Quot.sound |
| C61 | GTMesh.Traits.C61_get_assign | propext, Quot.sound |
| C62 | GTMesh.HtmlScript.C62_text | propext, Classical.choice, Quot.sound |
| C62 | GTMesh.HtmlScript.C62_browser | propext, Classical.choice, Quot.sound |
| C62 | GTMesh.HtmlScript.C62_browser_show_all | propext, Classical.choice, Quot.sound |
| C62 | GTMesh.HtmlScript.C62_show_all | propext, Quot.sound |
| C62 | GTMesh.HtmlScript.C62_rows_partial | propext, Quot.sound |
| C62 | GTMesh.HtmlScript.C62_groups_partial | propext, Classical.choice, Quot.sound |
| C62 | GTMesh.HtmlScript.C62_mixed_partial | propext, Classical.choice, Quot.sound |
| C62 | GTMesh.HtmlScript.C62_edit | propext |
| C62 | GTMesh.HtmlScript.C62_no_filter_violated | propext, Quot.sound |
| C62 | GTMesh.HtmlScript.C62_any_name_violated | propext |
| C62 | GTMesh.HtmlScript.C62_mixed_violated | propext |
| C62 | GTMesh.HtmlScript.C62_order_violated | propext |
| C62 | GTMesh.HtmlScript.C62_add_filter_violated | propext |
| C62 | GTMesh.HtmlScript.C62_empty_line_violated | propext, Classical.choice, Quot.sound |
| C62 | GTMesh.HtmlScript.C62_table_partial | propext, Classical.choice, Quot.sound |
| C62 | GTMesh.HtmlScript.C62_tag_violated | propext, Classical.choice, Quot.sound |
| C62 | GTMesh.HtmlScript.C62_log_partial | propext, Classical.choice, Quot.sound |
| C63 | GTMesh.Export.C63_plain | propext, Classical.choice, Quot.sound |
| C63 | GTMesh.Export.C63_text | propext, Quot.sound |
| C63 | GTMesh.Export.C63_pair | propext, Classical.choice, Quot.sound |
| C63 | GTMesh.Export.C63_tuple | propext, Classical.choice, Quot.sound |
| C63 | GTMesh.Export.C63_custom | propext, Quot.sound |
| C63 | GTMesh.Export.C63_iterable | propext, Classical.choice, Quot.sound |
| C63 | GTMesh.Export.C63_indexable | propext, Classical.choice, Quot.sound |
| C63 | GTMesh.Export.C63_members | propext, Classical.choice, Quot.sound |
| C63 | GTMesh.Export.C63_put | propext, Quot.sound |
| C63 | GTMesh.Export.C63_any | propext, Quot.sound |
| C63 | GTMesh.Export.C63_any_stdio | propext, Quot.sound |
| C63 | GTMesh.Export.C63_bound | propext, Quot.sound |
| C63 | GTMesh.Export.C63_bound_stdio | propext, Quot.sound |
| C63 | GTMesh.Export.C63_nested | propext |
| C63 | GTMesh.Export.C63_json | propext, Classical.choice, Quot.sound |
| C63 | GTMesh.Export.C63_stdio_partial | propext, Classical.choice, Quot.sound |
| C63 | GTMesh.Export.C63_stdio_bound_partial | propext, Classical.choice, Quot.sound |
| C63 | GTMesh.Export.C63_char_array_violated | propext |
| C63 | GTMesh.Export.C63_char_array_stdio_violated | propext, Classical.choice, Quot.sound |
| C63 | GTMesh.Export.C63_byte_violated | propext |
| C63 | GTMesh.Export.C63_unsigned_violated | propext |
| C63 | GTMesh.Export.C63_class_stdio_violated | propext, Quot.sound |
| C63 | GTMesh.Export.C63_nested_violated | propext |
| C64 | GTMesh.BSer.C64_roundtrip | propext, Classical.choice, Quot.sound |
| C64 | GTMesh.BSer.C64_compiles | propext, Classical.choice, Quot.sound |
| C64 | GTMesh.BSer.C64_full | propext, Classical.choice, Quot.sound |
| C64 | GTMesh.BSer.C64_bound_bytes | propext, Quot.sound |
| C64 | GTMesh.BSer.C64_bound | propext, Classical.choice, Quot.sound |
| C64 | GTMesh.BSer.C64_bound_elements | propext, Quot.sound |
| C64 | GTMesh.BSer.C64_set_keeps_violated | propext, Classical.choice, Quot.sound |
| C64 | GTMesh.BSer.C64_array_size_violated | propext, Quot.sound |
| C64 | GTMesh.BSer.C64_bound_set_violated | propext, Quot.sound |
| C64 | GTMesh.BSer.C64_secondary_violated | propext, Quot.sound |
| C64 | GTMesh.BSer.C64_pair_violated | propext, Quot.sound |
| C64 | GTMesh.BSer.C64_simple_container_violated | propext, Quot.sound |
| C65 | GTMesh.ConsoleLog.C65_pieces | propext |
| C65 | GTMesh.ConsoleLog.C65_console_violated | propext, Classical.choice, Quot.sound |
| C65 | GTMesh.Singleton.C65_one_at_a_time | propext, Classical.choice, Quot.sound |
| C65 | GTMesh.Singleton.C65_after_first | propext, Quot.sound |
| C65 | GTMesh.Singleton.C65_warm | propext, Quot.sound |
| C65 | GTMesh.Singleton.C65_every_schedule_partial | propext, Quot.sound |
| C65 | GTMesh.Singleton.C65_overlap_violated | propext, Quot.sound |
| C66 | GTMesh.AbsOverload.C66_abs_partial | propext, Classical.choice, Quot.sound |
| C66 | GTMesh.AbsOverload.C66_math_h | propext, Classical.choice, Quot.sound |
| C66 | GTMesh.AbsOverload.C66_real_violated | propext, Classical.choice, Quot.sound |
| C66 | GTMesh.AbsOverload.C66_endless_violated | propext, Quot.sound |
| C66 | GTMesh.AbsOverload.C66_unsigned_violated | propext, Classical.choice, Quot.sound |
| C66 | GTMesh.AbsOverload.C66_namespace_violated | propext, Quot.sound |
| C66 | GTMesh.AbsOverload.C66_smallest_violated | propext, Quot.sound |
| C67 | GTMesh.DebugSwitch.C67_same_partial | propext, Quot.sound |
| C67 | GTMesh.DebugSwitch.C67_meaning_partial | propext, Quot.sound |
| C67 | GTMesh.DebugSwitch.C67_else_violated | propext |
| C67 | GTMesh.DebugSwitch.C67_try_else_violated | propext |
| C67 | GTMesh.DebugSwitch.C67_try_branch_violated | propext |
| C67 | GTMesh.DebugSwitch.C67_exception_violated | propext |
| C67 | GTMesh.DebugSwitch.C67_effect_violated | propext |
| C67 | GTMesh.DebugSwitch.C67_undefined_violated | propext |
| C68 | GTMesh.Props.C68_fpma | propext, Classical.choice, Quot.sound |
| C68 | GTMesh.Props.C68_vtk_2d | propext, Classical.choice, Quot.sound |
| C68 | GTMesh.Props.C68_vtk_3d | propext, Classical.choice, Quot.sound |
| C68 | GTMesh.Props.C68_topology | propext, Classical.choice, Quot.sound |
| C68 | GTMesh.Props.C68_centers | propext, Classical.choice, Quot.sound |
| C68 | GTMesh.Props.C68_centers_tessellated | propext, Classical.choice, Quot.sound |
| C68 | GTMesh.Props.C68_measures_2d | propext, Classical.choice, Quot.sound |
| C68 | GTMesh.Props.C68_measures_3d | propext, Classical.choice, Quot.sound |
| C68 | GTMesh.Props.C68_measures_high | propext, Classical.choice, Quot.sound |
| C68 | GTMesh.Props.C68_normals_2d | propext, Classical.choice, Quot.sound |
| C68 | GTMesh.Props.C68_normals_3d | propext, Classical.choice, Quot.sound |
| C68 | GTMesh.Props.C68_normals_high | propext, Classical.choice, Quot.sound |
| C69 | GTMesh.Props.C69_vtk_2d | propext, Classical.choice, Quot.sound |
| C69 | GTMesh.Props.C69_vtk_3d | propext, Classical.choice, Quot.sound |
| C69 | GTMesh.Props.C69_fpma | propext, Classical.choice, Quot.sound |
| C70 | GTMesh.Props.C70_vtk_3d | propext, Classical.choice, Quot.sound |
| C70 | GTMesh.Props.C70_fpma | propext, Classical.choice, Quot.sound |
| C70 | GTMesh.Props.C70_vtk_2d | propext, Classical.choice, Quot.sound |
| C70 | GTMesh.Props.C70_tetrahedra | propext, Classical.choice, Quot.sound |
| C71 | GTMesh.Props.C71_nearest | propext, Classical.choice, Quot.sound |
| C71 | GTMesh.Props.C71_scalar_product | propext, Classical.choice, Quot.sound |
| C71 | GTMesh.Props.C71_norm | propext, Classical.choice, Quot.sound |
| C71 | GTMesh.Props.C71_lengths | propext, Classical.choice, Quot.sound |
| C71 | GTMesh.Props.C71_distances | propext, Classical.choice, Quot.sound |
| C71 | GTMesh.Props.C71_centers | propext, Classical.choice, Quot.sound |
| C71 | GTMesh.Props.C71_areas | propext, Classical.choice, Quot.sound |
| C71 | GTMesh.Props.C71_polygon | propext, Classical.choice, Quot.sound |
| C71 | GTMesh.Props.C71_face_areas | propext, Classical.choice, Quot.sound |
| C71 | GTMesh.Props.C71_volumes | propext, Classical.choice, Quot.sound |
| C71 | GTMesh.Props.C71_normals_2d | propext, Classical.choice, Quot.sound |
| C71 | GTMesh.Props.C71_normals_3d | propext, Classical.choice, Quot.sound |
| C72 | GTMesh.Props.C72_exists | propext, Quot.sound |
| C72 | GTMesh.Props.C72_valid | propext, Classical.choice, Quot.sound |
| C72 | GTMesh.Props.C72_apply_one | propext, Classical.choice, Quot.sound |
| C72 | GTMesh.Props.C72_boundary | propext, Classical.choice, Quot.sound |
| C72 | GTMesh.Props.C72_connections | propext, Classical.choice, Quot.sound |
| C72 | GTMesh.Props.C72_neighbors | propext, Classical.choice, Quot.sound |
| C72 | GTMesh.Props.C72_exists_centers | propext, Quot.sound |
| C72 | GTMesh.Props.C72_coloring | propext, Classical.choice, Quot.sound |
| C72 | GTMesh.Props.C72_coloring_violated | propext, Classical.choice, Quot.sound |
| C72 | GTMesh.Props.C72_centers | propext, Classical.choice, Quot.sound |
| C72 | GTMesh.Props.C72_centers_tessellated | propext, Classical.choice, Quot.sound |
| C72 | GTMesh.Props.C72_set_centers | propext, Quot.sound |
| C72 | GTMesh.Props.C72_measures_2d | propext, Classical.choice, Quot.sound |
| C72 | GTMesh.Props.C72_measures_3d | propext, Classical.choice, Quot.sound |
| C72 | GTMesh.Props.C72_normals_2d | propext, Classical.choice, Quot.sound |
| C72 | GTMesh.Props.C72_normals_3d | propext, Classical.choice, Quot.sound |
| C72 | GTMesh.Props.C72_normal_tessellated | propext, Classical.choice, Quot.sound |
| C72 | GTMesh.Props.C72_distances | propext, Classical.choice, Quot.sound |
| C72 | GTMesh.Props.C72_differences | propext, Classical.choice, Quot.sound |
| C72 | GTMesh.Props.C72_orientation | propext, Classical.choice, Quot.sound |
| C72 | GTMesh.Props.C72_measures_high | propext, Classical.choice, Quot.sound |
| C72 | GTMesh.Props.C72_normal_high | propext, Quot.sound |
| C73 | GTMesh.Props.C73_divergence_2d | propext, Classical.choice, Quot.sound |
| C73 | GTMesh.Props.C73_gradient_2d | propext, Classical.choice, Quot.sound |
| C73 | GTMesh.Props.C73_vtk_3d | propext, Classical.choice, Quot.sound |
| C73 | GTMesh.Props.C73_fpma | propext, Classical.choice, Quot.sound |
| C73 | GTMesh.Props.C73_triangle | propext, Classical.choice, Quot.sound |
| C73 | GTMesh.Props.C73_parallelogram | propext, Classical.choice, Quot.sound |
| C73 | GTMesh.Props.C73_tetrahedra | propext, Classical.choice, Quot.sound |
| C73 | GTMesh.Props.C73_violated_3d | propext, Classical.choice, Quot.sound |
| C73 | GTMesh.Vtk.C73_vtk_2d | propext, Classical.choice, Quot.sound |
| C74 | GTMesh.Props.C74_vtk_2d | propext, Classical.choice, Quot.sound |
| C74 | GTMesh.Props.C74_fpma | propext, Classical.choice, Quot.sound |
| C74 | GTMesh.Props.C74_vtk_3d | propext, Classical.choice, Quot.sound |
| C74 | GTMesh.Props.C74_vtk_2d_file | propext, Classical.choice, Quot.sound |
| C74 | GTMesh.Props.C74_fpma_file | propext, Classical.choice, Quot.sound |
| C75 | GTMesh.Props.C75_own_value_partial | propext, Classical.choice, Quot.sound |
| C75 | GTMesh.Props.C75_last_array | propext, Classical.choice, Quot.sound |
| C75 | GTMesh.Props.C75_violated | propext, Classical.choice, Quot.sound |
| C75 | GTMesh.Props.C75_shrink_violated | propext, Classical.choice, Quot.sound |
| C76 | GTMesh.Vtk.C76_2d_partial | propext, Classical.choice, Quot.sound |
| C76 | GTMesh.Vtk.C76_same_name_violated | propext, Classical.choice, Quot.sound |
| C76 | GTMesh.Vtk.C76_reader_violated | propext, Classical.choice, Quot.sound |
| C76 | GTMesh.Vtk.C76_reader | propext, Classical.choice, Quot.sound |
| C76 | GTMesh.Vtk.C76_3d_partial | propext, Classical.choice, Quot.sound |
| C77 | GTMesh.Props.C77_measures_2d | propext, Classical.choice, Quot.sound |
| C77 | GTMesh.Props.C77_measures_3d | propext, Classical.choice, Quot.sound |
| C77 | GTMesh.Props.C77_measures_high | propext, Classical.choice, Quot.sound |
| C77 | GTMesh.Props.C77_normals_3d | propext, Classical.choice, Quot.sound |
| C77 | GTMesh.Props.C77_normals_tessellated | propext, Classical.choice, Quot.sound |
| C77 | GTMesh.Props.C77_normals_high | propext, Classical.choice, Quot.sound |
| C77 | GTMesh.Props.C77_normals_2d | propext, Classical.choice, Quot.sound |
| C77 | GTMesh.Props.C77_distances | propext, Classical.choice, Quot.sound |
| C77 | GTMesh.Props.C77_differences | propext, Classical.choice, Quot.sound |
| C77 | GTMesh.Props.C77_orientation_2d | propext, Classical.choice, Quot.sound |
| C77 | GTMesh.Props.C77_orientation_3d | propext, Classical.choice, Quot.sound |
| C77 | GTMesh.Props.C77_centers | propext, Classical.choice, Quot.sound |
| C77 | GTMesh.Props.C77_recomputed_2d | propext, Classical.choice, Quot.sound |
| C77 | GTMesh.Props.C77_recomputed_3d | propext, Classical.choice, Quot.sound |
| C77 | GTMesh.Props.C77_recomputed_distances | propext, Classical.choice, Quot.sound |
| C77 | GTMesh.Props.C77_rotation_or_reflection | propext, Classical.choice, Quot.sound |
| C78 | GTMesh.Props.C78_no_race | propext, Classical.choice, Quot.sound |
| C78 | GTMesh.Props.C78_schedules | propext, Classical.choice, Quot.sound |
| C78 | GTMesh.Props.C78_terminates | propext, Classical.choice, Quot.sound |
| C78 | GTMesh.Props.C78_phases | propext, Classical.choice, Quot.sound |
| C78 | GTMesh.Props.C78_accumulate | propext, Classical.choice, Quot.sound |
| C78 | GTMesh.Props.C78_accumulate_possible | propext, Classical.choice, Quot.sound |
| C78 | GTMesh.Props.C78_lost_update_violated | propext |
| C79 | GTMesh.JsonLog.C79_json_prefix | propext, Classical.choice, Quot.sound |
| C79 | GTMesh.JsonLog.C79_json_kept_partial | propext, Classical.choice, Quot.sound |
| C79 | GTMesh.JsonLog.C79_json_lost_violated | propext, Classical.choice, Quot.sound |
| C79 | GTMesh.HtmlLog.C79_html_prefix | propext, Classical.choice, Quot.sound |
| C79 | GTMesh.HtmlLog.C79_html_kept_partial | propext, Classical.choice, Quot.sound |
| C79 | GTMesh.HtmlLog.C79_html_lost_violated | propext, Classical.choice, Quot.sound |
| C80 | GTMesh.Fpma.C80_text | propext, Classical.choice, Quot.sound |
| C80 | GTMesh.Fpma.C80_cut_violated | propext, Classical.choice, Quot.sound |
| C80 | GTMesh.Fpma.C80_other_mesh_violated | propext, Classical.choice, Quot.sound |
| C81 | GTMesh.Fpma.C81_accepted_partial | propext, Classical.choice, Quot.sound |
| C81 | GTMesh.Fpma.C81_shown_partial | propext, Classical.choice, Quot.sound |
| C81 | GTMesh.Fpma.C81_not_a_mesh_violated | propext, Classical.choice, Quot.sound |
| C81 | GTMesh.Fpma.C81_vertex_violated | propext, Classical.choice, Quot.sound |
| C82 | GTMesh.Vtk.C82_accepted2_partial | propext, Classical.choice, Quot.sound |
| C82 | GTMesh.Vtk.C82_accepted3_partial | propext, Classical.choice, Quot.sound |
| C82 | GTMesh.Vtk.C82_shown2_partial | propext, Classical.choice, Quot.sound |
| C82 | GTMesh.Vtk.C82_shown3_partial | propext, Classical.choice, Quot.sound |
| C82 | GTMesh.Vtk.C82_three2_violated | propext, Classical.choice, Quot.sound |
| C82 | GTMesh.Vtk.C82_three3_violated | propext, Classical.choice, Quot.sound |
| C82 | GTMesh.Vtk.C82_vertex_violated | propext, Classical.choice, Quot.sound |
| C83 | GTMesh.Vtk.C83_keywords_partial | propext, Quot.sound |
| C83 | GTMesh.Vtk.C83_reload2_partial | propext, Classical.choice, Quot.sound |
| C83 | GTMesh.Vtk.C83_reload3_partial | propext, Quot.sound |
| C83 | GTMesh.Vtk.C83_vtk2_partial | propext, Classical.choice, Quot.sound |
| C83 | GTMesh.Vtk.C83_vtk3_types_partial | propext, Classical.choice, Quot.sound |
| C83 | GTMesh.Vtk.C83_unfinished_violated | propext, Classical.choice, Quot.sound |
| C83 | GTMesh.Vtk.C83_full_vtk3_violated | propext, Classical.choice, Quot.sound |
| C83 | GTMesh.Fpma.C83_fpma_violated | propext, Classical.choice, Quot.sound |
| C83 | GTMesh.Fpma.C83_full_fpma_violated | propext, Classical.choice, Quot.sound |
| C83 | GTMesh.Fpma.C83_full_stays_violated | propext, Classical.choice, Quot.sound |
| C84 | GTMesh.Vtk.C84_text2 | propext, Classical.choice, Quot.sound |
| C84 | GTMesh.Vtk.C84_text3 | propext, Classical.choice, Quot.sound |
| C84 | GTMesh.Vtk.C84_round_trip2 | propext, Classical.choice, Quot.sound |
| C84 | GTMesh.Vtk.C84_round_trip3_partial | propext, Classical.choice, Quot.sound |
| C84 | GTMesh.Vtk.C84_name_violated | propext, Classical.choice, Quot.sound |
| C85 | GTMesh.Props.C85_current3_partial | propext, Quot.sound |
| C85 | GTMesh.Props.C85_current2_partial | propext, Quot.sound |
| C85 | GTMesh.Props.C85_same_elements3_partial | propext, Quot.sound |
| C85 | GTMesh.Props.C85_same_elements2_partial | propext, Quot.sound |
| C85 | GTMesh.Props.C85_same_file_vtk3_partial | propext, Quot.sound |
| C85 | GTMesh.Props.C85_same_file_fpma_partial | propext, Quot.sound |
| C85 | GTMesh.Props.C85_vtk2_violated | propext |
| C85 | GTMesh.Props.C85_vtk2_stale_violated | propext, Quot.sound |
| C85 | GTMesh.Props.C85_failed_violated | propext, Quot.sound |
| C85 | GTMesh.Props.C85_fpma_violated | propext |
| C85 | GTMesh.C85_padding_violated | propext, Quot.sound |
| C85 | GTMesh.C85_reserve_violated | propext, Quot.sound |
| C85 | GTMesh.C85_same_file_violated | propext, Quot.sound |
| C86 | GTMesh.Fpma.C86_fpma_partial | propext, Classical.choice, Quot.sound |
| C86 | GTMesh.Fpma.C86_fpma_violated | propext, Classical.choice, Quot.sound |
| C86 | GTMesh.Vtk.C86_vtk2_partial | propext, Classical.choice, Quot.sound |
| C86 | GTMesh.Vtk.C86_vtk2_violated | propext, Classical.choice, Quot.sound |
| C86 | GTMesh.Vtk.C86_vtk3 | propext, Classical.choice, Quot.sound |
| C87 | GTMesh.Props.C87_same_partial | propext, Quot.sound |
| C87 | GTMesh.Props.C87_observable_violated | propext, Classical.choice, Quot.sound |
| C87 | GTMesh.Props.C87_never_empty_violated | propext, Quot.sound |
| C88 | GTMesh.Props.C88_moves_partial | propext, Classical.choice, Quot.sound |
| C88 | GTMesh.Props.C88_braces_violated | propext, Classical.choice, Quot.sound |
| C88 | GTMesh.Props.C88_number_violated | propext, Classical.choice, Quot.sound |
| C89 | GTMesh.Ser.C89_complete_values_partial | propext, Classical.choice, Quot.sound |
| C89 | GTMesh.Ser.C89_other_values_violated | propext, Classical.choice, Quot.sound |
| C89 | GTMesh.Ser.C89_within_violated | propext, Classical.choice, Quot.sound |
| C89 | GTMesh.Ser.C89_empty_violated | propext, Classical.choice, Quot.sound |
| C89 | GTMesh.Ser.C89_not_reported_violated | propext |
| C89 | GTMesh.Ser.C89_all_or_nothing_partial | propext |
| C90 | GTMesh.Ser.C90_round_trip_partial | propext, Classical.choice, Quot.sound |
| C90 | GTMesh.Ser.C90_same_sizes_partial | propext, Classical.choice, Quot.sound |
| C90 | GTMesh.Ser.C90_other_mesh_violated | propext, Classical.choice, Quot.sound |
| C90 | GTMesh.Ser.C90_other_dimensions_violated | propext, Classical.choice, Quot.sound |
| C90 | GTMesh.Ser.C90_tuple_partial | propext, Classical.choice, Quot.sound |
| C90 | GTMesh.Ser.C90_one_type_partial | propext, Classical.choice, Quot.sound |
| C91 | GTMesh.Ser.C91_copy_partial | propext, Quot.sound |
| C91 | GTMesh.Ser.C91_reset_partial | propext, Quot.sound |
| C91 | GTMesh.Ser.C91_move_partial | propext, Quot.sound |
| C91 | GTMesh.Ser.C91_copy_violated | propext, Quot.sound |
| C91 | GTMesh.Ser.C91_moved_from_violated | propext, Quot.sound |
| C91 | GTMesh.Ser.C91_clear_partial | propext, Classical.choice, Quot.sound |
