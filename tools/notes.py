NOTES={
'C05':('partial','The property is false of the code: swapCellsLR leaves the successor pointers in place (C05_swap_breaks_successors). C05_swap_partial proves it when both successors agree.'),
'C08':('partial','The property is false of the code: clear() leaves the boundary cells (C08_boundary_cells_survive, C08_witness). C08_clear_partial proves the rest.'),

'C33':('partial','False for sets and maps (C33_merges, C33_set_union, C33_map_keeps_old say what happens). C33_replaces_partial proves it for every type without sets and maps.'),
'C34':('partial','False of the code: no read is bounds-checked (C34_truncated_is_ub, C34_never_throws, C34_empty_read_ub, C34_long_array_ub). C34_written_partial: reading what was written stays inside.'),
'C45':('partial','False of the code: generated names collide, the vertices have no name and the character arithmetic overflows (C45_names_collide, C45_vertices_unnamed, C45_overflow). The partial theorems give the range in which names are right and unique.'),
'C49':('partial','Proved for loading into a new serializer; false otherwise (C49_load_missing_silent, C49_load_keeps_cursor).'),
'C50':('partial','False when the buffer grows (C50_interleaved_ub); C50_interleaved_partial proves it within the capacity.'),
'C19':('partial','False of the code: the FPMA reader appends to the edges that are there (C19_fpma_keeps_edges, C19_fpma_violated), so that with a static reserve it refuses a second file whose polygons do not fit in addition (C19_fpma_reserve_violated), the VTK readers keep boundary cells and the types of the previous file (C19_vtk2_violated, C19_vtk3_violated, C19_types_survive). C19_vtk2_partial and C19_vtk3_partial: everything else is as for a fresh mesh.'),
'C26':('partial','The first half is proved (C26_codes, C26_read_write). The second is false of the code: unknown codes are accepted (C26_unknown_violated), the exception object is constructed but not thrown.'),
'C28':('partial','False of the 3D writer from 2^31 integers on, the sum is kept in an int (C28_int_overflow). Proved below that bound for any history of the writer (C28_3d_partial), and without a bound in 2D (C28_2d).'),
'C29':('partial','False of the code: the signature is blind to the faces and types (C29_signature_blind, C29_violated, C29_types_violated, C29_vtk3_stale) and lastHash is 0 or not initialised (C29_zero_signature, C29_uninitialised2, C29_uninitialised_fpma). The partial theorems prove it for every history without a collision of signatures in a row; the _exceptions_partial theorems also for histories in which the writer or the stream throws and the caller goes on. False of the code when a mesh that cannot be indexed is written in between: the stored signature is kept and the index is not (C29_exception_2d_violated, C29_exception_3d_violated, C29_exception_fpma_violated).'),
'C35':('partial','False in two corners: v *= v[i] (C35_self_factor_violated) and v / k with an integer k (C35_integer_divisor_violated). Everything else is proved for every dimension, in exact arithmetic.'),

'C38':('proved','Exact arithmetic, every dimension. For METHOD_TESSELLATED: C38_tessellated (center of gravity of the triangles of a face).'),
'C39':('proved','Exact arithmetic. C39_measures_*: the formulas; C39_shoelace, C39_convex_2d, C39_planar_face, C39_volume, C39_convex_3d: they are the area and the volume; C39_nonneg_*, C39_rigid_*: signs, rigid motions. C39_measures_high, C39_simplices: dimensions above 3 (the formula; the volume for meshes of simplices). C39_convex_mesh: a whole mesh of convex polyhedra.'),
'C40':('partial','Proved in 2D and 3D, in exact arithmetic. False of the code above dimension 3: the normal points to the left cell (C40_high_dimension_partial).'),
'C41':('partial','The distance is proved. The difference keeps its sign under the exchange of left and right when a side is missing (C41_antisymmetric_partial, C41_left_missing): false of the code there.'),
'C44':('partial','Proved for sums, products, negation, functions, aggregation (C44_plus, C44_times, C44_divide, C44_function, C44_negate, C44_sum). False of the code: a - temporary has no return statement (C44_minus_temporary_violated), pow(number, object) uses the object as base (C44_power_of_real_violated), v *= v.x reads the changed factor (C44_self_factor_violated), max and min of an empty array are 0 (C44_empty_array_violated); the _partial theorems prove the rest. Conversions between number types are not modelled.'),
'C46':('partial','Writing is proved for every path (C46_write, C46_no_dot, C46_not_opened). False of the code otherwise: another extension is silently accepted, and empties the file when a writer is given (C46_other_extension_violated); load looks for the extension anywhere in the path (C46_load_violated), C46_load_partial and C46_write_load prove the cases in which it is right.'),
'C47':('partial','Proved for every sequence of calls with finite numbers, texts without quotes and backslashes, text keys, any names, and paths without a backslash among the first two characters (C47_log_partial, C47_created_partial, C47_unused). False of the code otherwise: C47_text_violated, C47_backslash_violated, C47_path_violated, C47_pair_violated, C47_create_again_violated, C47_destroy_violated.'),
'C48':('partial','Proved in 2D (C48_2d) and 3D with any mixture of split cells (C48_3d), up to printing and parsing of single numbers, for columns that are numbers or arrays of the dimension of the mesh. False of the code for other arrays (C48_other_sizes_violated) and for titles that mention a column (C48_title_violated: 0 is read silently); an empty container throws (C48_empty_throws); numbers with more than six digits change (C48_digits_violated).'),
'C54':('partial','Proved for the centers and the distances, and for the differences when every face has a left cell. False of the code for the difference of a face without a left cell: the sign changes (C54_left_violated).'),
'C58':('partial','C58_log_partial and C58_created_partial hold for calls with a place whose names have no quote or backslash and whose values need no escape. Otherwise false of the code: C58_name_violated, C58_backslash_violated, C58_text_violated, C58_script_violated, C58_no_place_violated, C58_create_again_violated, C58_destroy_violated.'),
'C57':('partial','False of the code: no reader looks at the state of its stream. C57_fpma_violated: every proper prefix of the tokens of an accepted FPMA file is undefined behaviour. C57_vtk_points_violated, C57_vtk_cells_violated, C57_vtk_types_violated: a VTK text cut among points, cells or types is read without an error, with the exact result; C57_data_short_violated: the same for data; C57_vtk_counts_violated: undefined behaviour in front of a count; C57_vtk2_accepts_violated: after the keywords the 2D reader refuses no text without cell types. C57_data_violated, C57_data_empty_violated: data columns. The part that holds, a cut inside the keywords is refused, is C57_vtk_keywords_partial.'),
'C56':('partial','Proved for the left cell of the base face, and for the right cell when the first edge of the face has the orientation true. False of the code otherwise: the solid is exported inside out (C56_inverted_tetrahedron); the exact condition is in C56_base_partial and C56_first_edge. The base of a wedge gets the same sense as the other solids.'),
'C52':('partial','The keywords are proved checked in every text (C52_keywords). False of the code for missing sections: a text that ends after the keywords is read as an empty mesh without an error, and the types of the previous file stay (C52_missing_sections_violated).'),
'C21':('partial','Everything but the positions is proved without condition; the positions are the printed ones and the same as before exactly when they have at most six digits (C21_printed_partial). False of the code otherwise (C21_digits_violated).'),
'C51':('partial','For meshes whose cells are all solids the format knows everything but the positions is proved without condition (C51_solids_partial, C51_printed_partial); the positions are printed with six digits (C51_digits_violated). With split cells it needs centers with different texts (C51_round_trip_partial, C51_valid_partial); C51_apart_partial: more than 10^-6 apart in a coordinate is enough. False of the code otherwise, the writer identifies points by std::to_string (C51_close_centers_violated, C51_small_mesh_violated).'),
'C53':('partial','VTK to FPMA is proved (C53_vtk_to_fpma_partial) but for coordinates with more than six digits (C53_printed_partial, C53_digits_violated). FPMA to VTK needs centers with different texts (C53_fpma_to_vtk_partial); false of the code otherwise (C53_same_centers_violated).'),
'C60':('partial','The log of the stream variant is proved for all settings and calls (C60_log, C60_append, C60_colors). False of the code: reset (C60_reset_violated; C60_reset_partial is the rest), the place in DBGVAR_STDIO (C60_stdio_violated), unsigned int in the printf variant (C60_stdio_unsigned_violated; C60_stdio_integers_partial: the other integers).'),
'C61':('proved','Names are assumed not to be macros themselves and to begin with no digit. Types are represented by the expressions they are the decltype of.'),
'C62':('partial','How JavaScript compares a value with the content of a field is a parameter. Entities are not decoded by the reader of the table.'),
'C63':('partial','A class with both size and getSize, enums and pointers other than texts are not modelled. printf is the same for the types listed in sameStdio.'),
'C64':('partial','Proved for objects, vectors, arrays, sets, maps, pairs, tuples and binders in any nesting; that bound traits count for the classes of attributes is violated (C64_secondary_violated, C64_pair_violated), sets and maps with bound traits do not compile (C64_bound_set_violated) and keep their elements when read into (C64_set_keeps_violated), a shorter array is overrun (C64_array_size_violated).'),
'C65':('partial','Steps are indivisible and seen by all threads at once. Proved for calls that do not overlap (C65_one_at_a_time) and for every schedule after a first call (C65_after_first, C65_warm); in every schedule nothing is destroyed twice and exactly one object remains (C65_every_schedule_partial). False of the code when the first calls overlap (C65_overlap_violated) and of the console log (C65_console_violated).'),
'C66':('partial','C66_abs_partial: right for the types of the visible library functions, and for attributes of small types. False of the code for all other types (C66_real_violated, C66_endless_violated, C66_unsigned_violated, C66_namespace_violated, C66_smallest_violated). Which functions of the library are visible is that of the GNU library.'),
'C67':('partial','C67_same_partial: true when no then-branch in front of an else ends with an if, DBGVARCOND or DBGTRY, the stdio and csv macros are not used, and DBGTRY raises no standard exception. Otherwise false of the code: C67_else_violated, C67_try_else_violated, C67_try_branch_violated, C67_exception_violated, C67_effect_violated, C67_undefined_violated.'),
'C68':('proved','The bound on cells (and their indices) is the one the types impose: boundary indices start at 2^63. The distances between centers are meant to change, see C54. The writers keep an index between two writes (C29): here both exports are by a writer in the same state.'),
'C69':('proved','Files in which three cells share a face do not give a mesh (C22, C25); FPMA needs a new mesh (C19_fpma_violated).'),
'C70':('proved','Exact arithmetic (real numbers, as in C38-C40). FPMA: the faces have at least three different vertices and belong to cells.'),
'C71':('proved','Standard model of floating point arithmetic: no overflow or underflow, each operation rounds once to the same type. Default methods of the centers, measures and normals; measures and normals in dimensions 2 and 3.'),
'C72':('proved','The colors depend on the numbers (C72_coloring_violated): a strip of four cells needs two or three colors. Boundary cells keep their numbers; setupBoundaryCells, which numbers them by the faces, and files are not part of the theorems.'),
'C73':('proved','Exact arithmetic (real numbers). False for faces with another center of gravity (C73_violated_3d: a trapezoid).'),
'C74':('proved','Exact arithmetic and numbers that survive the text. No convexity is needed. In 3D the faces must be flat and the mean of the vertices of a face may not be on the line of one of its sides. Face normals are in C40 only: their direction changes with the order of the two cells of a face.'),
'C75':('partial','False in general (C75_violated, C75_shrink_violated). C75_own_value_partial says exactly when: the behaviour is undefined if and only if the array of the entry is moved or cut below the entry and a later array grows; otherwise the result is that of C17.'),
'C76':('partial','C76_2d_partial, C76_3d_partial: every array whose columns have other names than those of the arrays in front of it is read back (with numbers printed and parsed, C48). Otherwise false of the code (C76_same_name_violated), and reading into a container with several arrays with traits does not compile (C76_reader_violated, C76_reader).'),
'C77':('proved','With real numbers. C77_recomputed_2d/_3d/_distances for valid meshes: the vertices are mapped and everything is computed again. The other theorems: any mesh with any centers, which are mapped as well. Centers: C77_centers (any affine map).'),
'C78':('proved','The colors and the connections are those of the library; the parallel loop is code of its user. Single reads and writes are indivisible. C78_lost_update_violated: without the colors a contribution can be lost.'),
'C79':('partial','Proved: the prefix for both logs, and that a returned call without a place keeps all records of the JSON log. C79_json_lost_violated, C79_html_lost_violated: after any number of calls with a place the file may be any beginning of the text, and empty. Not modelled: the file before it is opened and failures of the disk.'),
'C80':('partial','Proved: C80_text, the characters and the numbers agree for every mesh that can be written. C80_cut_violated gives the result for every beginning of the file of a valid mesh: the same mesh behind the last number, undefined behaviour in front of it, another mesh without an error within its digits; C80_other_mesh_violated: this happens whenever the last face number has two digits. Missing: that it is refused (false). A word that is not a number stops the reading in the model.'),
'C81':('partial','Proved: C81_accepted_partial says for every complete file whether it is accepted, and with which exception it is refused; C81_shown_partial, which of the accepted files are read as the cells they list. C81_not_a_mesh_violated and C81_vertex_violated: the claim is false for repeated faces, a third cell of a face and missing vertices. Missing: that those are refused (false).'),
'C82':('partial','Proved: C82_accepted2_partial and C82_accepted3_partial say for every complete file whether it is accepted; C82_shown2_partial and C82_shown3_partial, which files of polygons or solids are read as the cells they list: those without a third cell of a side or face. C82_three2_violated, C82_three3_violated, C82_vertex_violated: the claim is false otherwise. Missing: that such files are refused (false).'),
'C83':('partial','Proved: a text without the VTK keywords leaves the mesh as it was (C83_keywords_partial); after any failed load of a VTK file, complete or not, a later load gives what it gives without it (C83_reload2_partial, C83_reload3_partial); when only the types do not fit, the mesh is the one of the file (C83_vtk2_partial, C83_vtk3_types_partial). C83_unfinished_violated, C83_fpma_violated, C83_full_vtk3_violated, C83_full_fpma_violated and C83_full_stays_violated: the claim is false otherwise, with what is left then. Missing: that the mesh is kept (false).'),
'C84':('partial','Proved: for a name of one line of at most 1024 characters the characters are read as the tokens, with each coordinate as its text says (C84_text2, C84_text3), so C23 and C51 hold of the characters (C84_round_trip2, C84_round_trip3_partial). C84_name_violated: any other name gives a file that both readers refuse. Missing: that every name can be read (false).'),
'C85':('partial','Proved for every history in which a 3D load that returned, a write or updateSignature was called and the elements were changed by nothing else since (C85_current3_partial, C85_current2_partial, and equal content gives equal signatures: C85_same_elements3_partial, C85_same_elements2_partial); two 3D VTK loads of a file agree whatever was there before (C85_same_file_vtk3_partial), two FPMA loads when the edges, faces and cells were the same (C85_same_file_fpma_partial). False otherwise: the 2D reader leaves the signature as it was (C85_vtk2_violated, C85_vtk2_stale_violated), a failed load too (C85_failed_violated), and FPMA edges accumulate (C85_fpma_violated). The hash functions of the model see the members of the elements. The code hashes their memory: with the bytes that belong to no member held fixed the theorems above apply as they are (RawHasher.within is a Hasher), without that any mesh with a cell that has such bytes has two signatures (C85_padding_violated), as has a 3D mesh with a face of fewer edges than the static reserve (C85_reserve_violated), and two new meshes that load one file can get different ones (C85_same_file_violated).'),
'C86':('partial','Proved for every text read by the 3D VTK reader (C86_vtk3), for complete FPMA files in which every cell has a face (C86_fpma_partial) and complete 2D VTK files in which every cell has a vertex (C86_vtk2_partial), whatever else they contain. False of an accepted file with an empty cell: its boundary element is whatever the memory contained (C86_fpma_violated, C86_vtk2_violated). Other members, and texts for FPMA and 2D that are cut or malformed, are not covered.'),
'C87':('partial','C87_same_partial: every history without undefined behaviour gives the same results with and without a reserve as long as there is place, single entries are those of the list, and back, empty and the loop backwards are called on a full (non-empty) list. C87_observable_violated: after such a history every other call that is defined for the vector differs, for some content of the memory; C87_never_empty_violated. Missing: the equality for those calls (false).'),
'C88':('partial','C88_moves_partial: every sequence of assignments to coordinates and of +=, -=, *=, /= gives the coordinates it says and keeps the index (a factor that is a coordinate of the vertex itself: C35_self_factor_violated). False of v = {…}, which is undefined behaviour for every list (C88_braces_violated), and of v = number, which changes the index (C88_number_violated).'),
'C89':('partial','Proved for every type and every cut: the values that are completely in the file are read as they were written (C89_complete_values_partial); a call that has not begun leaves the old file, one that wrote all bytes the new content (C89_all_or_nothing_partial). False otherwise: values that were lost are replaced by copies of the first ones (C89_other_values_violated), or reading them is undefined behaviour (C89_within_violated, C89_empty_violated), and saveToFile reports nothing (C89_not_reported_violated). Bytes that reach the file out of order are not modelled.'),
'C90':('partial','Proved for every container whose values are of one serializable type, read into a container of the same type with any content without sets and maps in it (C90_round_trip_partial), and for meshes with as many elements every element then has the entry that was written (C90_same_sizes_partial). False otherwise: reading data of a smaller mesh leaves elements without an entry (C90_other_mesh_violated), and data for other dimensions is accepted (C90_other_dimensions_violated). Containers with a type for each array (std::tuple) are read back as well (C90_tuple_partial), and exchange data with those of one type (C90_one_type_partial). Arrays of bool (which cannot be read) are not covered.'),
'C91':('partial','Proved for every sequence of reads: copies of a serializer that was not read from (C91_copy_partial), copies behind resetIterator (C91_reset_partial), the object a serializer was moved to (C91_move_partial), and objects that are cleared first (C91_clear_partial). False otherwise: after one value was read every read from a copy is undefined behaviour (C91_copy_violated), as is reading a serializer that was moved away and written again (C91_moved_from_violated).'),
}
