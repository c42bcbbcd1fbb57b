{
 "claims": [
  {
   "property": "C01",
   "status": "proved",
   "theorems": [
    "Quarch.C01_line_by_line",
    "Quarch.C01_concat"
   ],
   "note": "Beside the listed theorems, spec_C01_text_is_lines about the specification only."
  },
  {
   "property": "C02",
   "status": "proved",
   "theorems": [
    "Quarch.C02_abort_iff"
   ],
   "note": ""
  },
  {
   "property": "C03",
   "status": "proved",
   "theorems": [
    "Quarch.C03_property_line",
    "Quarch.C03_first_line"
   ],
   "note": ""
  },
  {
   "property": "C04",
   "status": "proved",
   "theorems": [
    "Quarch.C04_round_trip",
    "Quarch.C04_print_then_load"
   ],
   "note": ""
  },
  {
   "property": "C05",
   "status": "proved",
   "theorems": [
    "Quarch.C05_legal_loads",
    "Quarch.C05_first_illegal_token",
    "Quarch.C05_first_bad_face",
    "Quarch.C05_structure_never_aborts"
   ],
   "note": "Beside the listed theorems, spec_C05_cases about the specification only."
  },
  {
   "property": "C06",
   "status": "proved",
   "theorems": [
    "Quarch.C06_junk_has_no_effect",
    "Quarch.C06_text",
    "Quarch.C06_text_ends"
   ],
   "note": ""
  },
  {
   "property": "C07",
   "status": "proved",
   "theorems": [
    "Quarch.C07_last_value_wins"
   ],
   "note": ""
  },
  {
   "property": "C08",
   "status": "proved",
   "theorems": [
    "Quarch.C08_truncated_loads",
    "Quarch.C08_cut_between_entities"
   ],
   "note": ""
  },
  {
   "property": "C09",
   "status": "proved",
   "theorems": [
    "Quarch.C09_loads_iff_grammar",
    "Quarch.C09_entity_count"
   ],
   "note": ""
  },
  {
   "property": "C10",
   "status": "proved",
   "theorems": [
    "Quarch.C10_face_round_trip"
   ],
   "note": ""
  },
  {
   "property": "C11",
   "status": "proved",
   "theorems": [
    "Quarch.C11_succeeds_iff",
    "Quarch.C11_error_iff",
    "Quarch.C11_abort_iff",
    "Quarch.C11_outcomes"
   ],
   "note": "Beside the listed theorems, spec_C11_every_line about the specification only."
  },
  {
   "property": "C12",
   "status": "proved",
   "theorems": [
    "Quarch.C12_loads_case_insensitive",
    "Quarch.C12_face_case_insensitive",
    "Quarch.C12_maps_case_insensitive"
   ],
   "note": "C12_loads_case_insensitive is about whole loads from the text, C12_face_case_insensitive and C12_maps_case_insensitive about single lines and lists of tokens. Which characters have the same lower-case form is a parameter of the model."
  },
  {
   "property": "C13",
   "status": "proved",
   "theorems": [
    "Quarch.C13_aborts_iff_empty"
   ],
   "note": ""
  },
  {
   "property": "C14",
   "status": "proved",
   "theorems": [
    "Quarch.C14_reports_one_sided_lines",
    "Quarch.C14_all_occurrences"
   ],
   "note": ""
  },
  {
   "property": "C15",
   "status": "proved",
   "theorems": [
    "Quarch.C15_keeps_longest_common"
   ],
   "note": ""
  },
  {
   "property": "C16",
   "status": "partial",
   "theorems": [
    "Quarch.C16_self_diff_not_empty",
    "Quarch.C16_self_diff_partial"
   ],
   "note": "False of the code: the last line of each file is left out of the common part (C16_self_diff_not_empty). Proved instead: the exact result of comparing a file with itself."
  },
  {
   "property": "C17",
   "status": "proved",
   "theorems": [
    "Quarch.C17_aborts_unless_one_worldspawn",
    "Quarch.C17_worldspawn_first"
   ],
   "note": ""
  },
  {
   "property": "C18",
   "status": "proved",
   "theorems": [
    "Quarch.C18_split_by_texture",
    "Quarch.C18_nothing_lost"
   ],
   "note": "Beside the listed theorems, spec_C18_both_layers_iff_no_faces about the specification only."
  },
  {
   "property": "C19",
   "status": "proved",
   "theorems": [
    "Quarch.C19_fan",
    "Quarch.C19_indices_valid_all_used",
    "Quarch.C19_whole_map"
   ],
   "note": ""
  },
  {
   "property": "C20",
   "status": "proved",
   "theorems": [
    "Quarch.C20_corners_distinct_complete",
    "Quarch.C20_exact_corners"
   ],
   "note": ""
  },
  {
   "property": "C21",
   "status": "proved",
   "theorems": [
    "Quarch.C21_geometry_exists",
    "Quarch.C21_corners_on_face_inside_brush",
    "Quarch.C21_whole_map"
   ],
   "note": "Over the real numbers, for faces with three points not on a line. C21_geometry_exists shows that geometry is always built, so the statement is not vacuous; C20_exact_corners gives the corner set exactly."
  },
  {
   "property": "C22",
   "status": "proved",
   "theorems": [
    "Quarch.C22_corner_of_face",
    "Quarch.C22_corner_of_all_three"
   ],
   "note": "Over the real numbers, non-degenerate faces."
  },
  {
   "property": "C23",
   "status": "proved",
   "theorems": [
    "Quarch.C23_order_independent",
    "Quarch.C23_success",
    "Quarch.C23_exact_order_independent"
   ],
   "note": "Beside the listed theorems, spec_C23_found_points about the specification only."
  },
  {
   "property": "C24",
   "status": "proved",
   "theorems": [
    "Quarch.C24_winding",
    "Quarch.C24_exact_winding"
   ],
   "note": "C114 shows that in single precision the comparison is consistent for every brush of moderate size."
  },
  {
   "property": "C25",
   "status": "proved",
   "theorems": [
    "Quarch.C25_all_triples_clockwise",
    "Quarch.C25_fan_same_direction",
    "Quarch.C25_exact_corners_convex"
   ],
   "note": "Over the real numbers, non-degenerate faces."
  },
  {
   "property": "C26",
   "status": "proved",
   "theorems": [
    "Quarch.C26_face_center",
    "Quarch.C26_brush_center",
    "Quarch.C26_entity_center"
   ],
   "note": "Over the real numbers."
  },
  {
   "property": "C27",
   "status": "proved",
   "theorems": [
    "Quarch.C27_origin",
    "Quarch.C27_brushes_do_not_matter"
   ],
   "note": "Beside the listed theorems, spec_C27_every_string about the specification only."
  },
  {
   "property": "C28",
   "status": "proved",
   "theorems": [
    "Quarch.C28_translation",
    "Quarch.C28_center",
    "Quarch.C28_indices"
   ],
   "note": "Over the real numbers, non-degenerate faces."
  },
  {
   "property": "C29",
   "status": "proved",
   "theorems": [
    "Quarch.C29_flat",
    "Quarch.C29_phong"
   ],
   "note": "Over the real numbers. spec_C29_angle (about the specification only) gives the meaning of the angle."
  },
  {
   "property": "C30",
   "status": "proved",
   "theorems": [
    "Quarch.C30_valve",
    "Quarch.C30_valve_tile",
    "Quarch.C30_standard"
   ],
   "note": "Over the real numbers. Beside the listed theorems, spec_C30_projected_unique about the specification only."
  },
  {
   "property": "C31",
   "status": "proved",
   "theorems": [
    "Quarch.C31_uv_and_color"
   ],
   "note": ""
  },
  {
   "property": "C32",
   "status": "partial",
   "theorems": [
    "Quarch.C32_aborts_iff",
    "Quarch.C32_valve_partial",
    "Quarch.C32_no_direction_aborts",
    "Quarch.C32_collinear_aborts",
    "Quarch.C32_good_faces_partial",
    "Quarch.C32_equal_points_abort"
   ],
   "note": "False of the code: in any arithmetic following the NaN rules of IEEE 754 a face with standard texture layout and collinear points always aborts (C32_no_direction_aborts, C32_collinear_aborts; C32_equal_points_abort in IEEE single precision). Proved: the exact condition for an abort in any arithmetic (C32_aborts_iff), that maps whose faces all use the Valve layout never abort (C32_valve_partial), and that with rounding maps whose standard-layout faces are of moderate size and not nearly collinear never abort (C32_good_faces_partial)."
  },
  {
   "property": "C33",
   "status": "proved",
   "theorems": [
    "Quarch.C33_surfaces_well_formed"
   ],
   "note": ""
  },
  {
   "property": "C34",
   "status": "proved",
   "theorems": [
    "Quarch.C34_triangles_kept",
    "Quarch.C34_succeeds"
   ],
   "note": ""
  },
  {
   "property": "C35",
   "status": "partial",
   "theorems": [
    "Quarch.C35_attributes_partial",
    "Quarch.C35_redirect_partial",
    "Quarch.C35_distinct_partial",
    "Quarch.C35_attributes_can_change"
   ],
   "note": "False of the code: merging redirects to the first vertex at the same position (C35_attributes_can_change). Proved: what happens in general (C35_redirect_partial: a corner loses its attributes only if a vertex equal in all of them comes before it, and then gets those of the first one at the same position); it holds if vertices at the same position have equal attributes, and if no two vertices are equal in all attributes (C35_distinct_partial)."
  },
  {
   "property": "C36",
   "status": "proved",
   "theorems": [
    "Quarch.C36_no_duplicates"
   ],
   "note": ""
  },
  {
   "property": "C37",
   "status": "proved",
   "theorems": [
    "Quarch.C37_one_surface_per_texture"
   ],
   "note": ""
  },
  {
   "property": "C38",
   "status": "partial",
   "theorems": [
    "Quarch.C38_blacklisted_not_rendered_partial",
    "Quarch.C38_unknown_texture_is_rendered"
   ],
   "note": "False of the code for blacklisted textures that are not in the texture table (C38_unknown_texture_is_rendered). Proved for known textures."
  },
  {
   "property": "C39",
   "status": "proved",
   "theorems": [
    "Quarch.C39_nothing_lost"
   ],
   "note": ""
  },
  {
   "property": "C40",
   "status": "proved",
   "theorems": [
    "Quarch.C40_convex"
   ],
   "note": ""
  },
  {
   "property": "C41",
   "status": "proved",
   "theorems": [
    "Quarch.C41_concave"
   ],
   "note": ""
  },
  {
   "property": "C42",
   "status": "proved",
   "theorems": [
    "Quarch.C42_children_follow_definition",
    "Quarch.C42_brush_definition"
   ],
   "note": ""
  },
  {
   "property": "C43",
   "status": "proved",
   "theorems": [
    "Quarch.C43_from_first_definition"
   ],
   "note": ""
  },
  {
   "property": "C44",
   "status": "proved",
   "theorems": [
    "Quarch.C44_top_level"
   ],
   "note": ""
  },
  {
   "property": "C45",
   "status": "proved",
   "theorems": [
    "Quarch.C45_groups_nest"
   ],
   "note": ""
  },
  {
   "property": "C46",
   "status": "partial",
   "theorems": [
    "Quarch.C46_terminates_partial",
    "Quarch.C46_unique_ids_partial",
    "Quarch.C46_loop_aborts",
    "Quarch.C46_group_loop"
   ],
   "note": "False of the code: a group inside a group of the same id makes the recursion endless (C46_group_loop, and C46_loop_aborts for every map with such a loop). Proved: it ends for every map without a reachable loop, in particular if ids are unique."
  },
  {
   "property": "C47",
   "status": "proved",
   "theorems": [
    "Quarch.C47_every_entity_once"
   ],
   "note": ""
  },
  {
   "property": "C48",
   "status": "proved",
   "theorems": [
    "Quarch.C48_world_position"
   ],
   "note": ""
  },
  {
   "property": "C49",
   "status": "partial",
   "theorems": [
    "Quarch.C49_names",
    "Quarch.C49_internal",
    "Quarch.C49_values_partial",
    "Quarch.C49_flags_are_choices"
   ],
   "note": "False of the code for flags, which are delivered as choices (C49_flags_are_choices). Proved for all other kinds, and for which names are present."
  },
  {
   "property": "C50",
   "status": "proved",
   "theorems": [
    "Quarch.C50_aborts_iff"
   ],
   "note": ""
  },
  {
   "property": "C51",
   "status": "proved",
   "theorems": [
    "Quarch.C51_layer_node"
   ],
   "note": ""
  },
  {
   "property": "C52",
   "status": "partial",
   "theorems": [
    "Quarch.C52_results_partial",
    "Quarch.C52_one_layer_partial",
    "Quarch.C52_deterministic_partial",
    "Quarch.C52_order_matters"
   ],
   "note": "False of the code: the order of layer nodes depends on the hash map (C52_order_matters). Proved: nothing else does (C52_deterministic_partial); the possible results are exactly those with the same worldspawn and entity nodes and the at most two layer nodes in any order (C52_results_partial); and the order does not matter unless there are exactly one layer definition for water and exactly one for slime (C52_one_layer_partial)."
  },
  {
   "property": "C53",
   "status": "proved",
   "theorems": [
    "Quarch.C53_error_iff",
    "Quarch.C53_no_classname",
    "Quarch.C53_names",
    "Quarch.C53_reached"
   ],
   "note": ""
  },
  {
   "property": "C54",
   "status": "proved",
   "theorems": [
    "Quarch.C54_reads_what_is_stored",
    "Quarch.C54_round_trip"
   ],
   "note": "Beside the listed theorems, spec_C54_read_back_unique about the specification only."
  },
  {
   "property": "C55",
   "status": "proved",
   "theorems": [
    "Quarch.C55_only_stored_data",
    "Quarch.C55_missing_data_is_error",
    "Quarch.C55_every_truncation"
   ],
   "note": ""
  },
  {
   "property": "C56",
   "status": "partial",
   "theorems": [
    "Quarch.C56_levels_partial",
    "Quarch.C56_more_levels_abort"
   ],
   "note": "False of the code for more than one level: the slices [size0..size1] start after their end, so reading aborts for every well-formed file with a texture that is not empty (C56_more_levels_abort). Proved: whenever reading succeeds exactly the requested levels are returned; one level always works (C54)."
  },
  {
   "property": "C57",
   "status": "proved",
   "theorems": [
    "Quarch.C57_directory_selection"
   ],
   "note": ""
  },
  {
   "property": "C58",
   "status": "proved",
   "theorems": [
    "Quarch.C58_first_bad_entry",
    "Quarch.C58_bad_header",
    "Quarch.C58_first_bad_texture",
    "Quarch.C58_first_bad_palette"
   ],
   "note": ""
  },
  {
   "property": "C59",
   "status": "proved",
   "theorems": [
    "Quarch.C59_schedule_independent"
   ],
   "note": ""
  },
  {
   "property": "C60",
   "status": "proved",
   "theorems": [
    "Quarch.C60_palette_file"
   ],
   "note": ""
  },
  {
   "property": "C61",
   "status": "proved",
   "theorems": [
    "Quarch.C61_rgb"
   ],
   "note": ""
  },
  {
   "property": "C62",
   "status": "proved",
   "theorems": [
    "Quarch.C62_same_or_overflow",
    "Quarch.C62_same_without_overflow",
    "Quarch.C62_directory_overflow_aborts",
    "Quarch.C62_texture_overflow_aborts",
    "Quarch.C62_palette_overflow_aborts"
   ],
   "note": ""
  },
  {
   "property": "C63",
   "status": "proved",
   "theorems": [
    "Quarch.C63_bad_levels",
    "Quarch.C63_bad_magic"
   ],
   "note": ""
  },
  {
   "property": "C64",
   "status": "proved",
   "theorems": [
    "Quarch.C64_visual",
    "Quarch.C64_collision",
    "Quarch.C64_class",
    "Quarch.C64_kinds",
    "Quarch.C64_values"
   ],
   "note": ""
  },
  {
   "property": "C65",
   "status": "proved",
   "theorems": [
    "Quarch.C65_entity",
    "Quarch.C65_game_data",
    "Quarch.C65_append",
    "Quarch.C65_aborts_iff",
    "Quarch.C65_property",
    "Quarch.C65_definition",
    "Quarch.C65_file"
   ],
   "note": ""
  },
  {
   "property": "C66",
   "status": "proved",
   "theorems": [
    "Quarch.C66_file",
    "Quarch.C66_entity",
    "Quarch.C66_equals_sign_needed",
    "Quarch.C66_quotes_needed",
    "Quarch.C66_property"
   ],
   "note": "Proved under the provisos; C66_equals_sign_needed and C66_quotes_needed show that they cannot be dropped."
  },
  {
   "property": "C67",
   "status": "partial",
   "theorems": [
    "Quarch.C67_exact",
    "Quarch.C67_joined_partial",
    "Quarch.C67_fails"
   ],
   "note": "False of the code for lists starting with an empty name (C67_fails). Proved otherwise, and the exact text for every list (C67_exact)."
  },
  {
   "property": "C68",
   "status": "proved",
   "theorems": [
    "Quarch.C68_rows",
    "Quarch.C68_too_many"
   ],
   "note": "Beside the listed theorems, spec_C68_sum about the specification only."
  },
  {
   "property": "C69",
   "status": "proved",
   "theorems": [
    "Quarch.C69_text",
    "Quarch.C69_aborts_iff"
   ],
   "note": ""
  },
  {
   "property": "C70",
   "status": "proved",
   "theorems": [
    "Quarch.C70_color_text",
    "Quarch.C70_monotone"
   ],
   "note": "Over the real numbers."
  },
  {
   "property": "C71",
   "status": "partial",
   "theorems": [
    "Quarch.C71_shown",
    "Quarch.C71_loaded_partial",
    "Quarch.C71_choices_exact",
    "Quarch.C71_choices_fail",
    "Quarch.C71_flags_fail",
    "Quarch.C71_flags_number",
    "Quarch.C71_color_exact",
    "Quarch.C71_color_fails"
   ],
   "note": "False of the code for colours (printed as 0..255, loaded unscaled: C71_color_fails), for choices with numeric values (loaded as the value, not the index: C71_choices_fail) and for flags (loaded as choices: C71_flags_fail). Proved for all other kinds, with the exact result for the failing ones."
  },
  {
   "property": "C72",
   "status": "proved",
   "theorems": [
    "Quarch.C72_face_spoiled",
    "Quarch.C72_entity_spoiled"
   ],
   "note": "For any arithmetic following the NaN rules; withNaN_rules shows that every arithmetic extended by a NaN does."
  },
  {
   "property": "C73",
   "status": "proved",
   "theorems": [
    "Quarch.C73_valve",
    "Quarch.C73_standard"
   ],
   "note": "Over the real numbers, non-degenerate faces."
  },
  {
   "property": "C74",
   "status": "partial",
   "theorems": [
    "Quarch.C74_valve_tangent_partial",
    "Quarch.C74_valve_bitangent_partial",
    "Quarch.C74_unrotated_tangent_partial",
    "Quarch.C74_unrotated_bitangent_partial",
    "Quarch.C74_axis_aligned_rotated",
    "Quarch.C74_valve_along_partial",
    "Quarch.C74_half_turns_partial",
    "Quarch.C74_reversed",
    "Quarch.C74_rotation_iff",
    "Quarch.C74_rotated_fails"
   ],
   "note": "False of the code for rotated faces in standard layout: tangents.rs turns the tangent the other way than uvs.rs turns the coordinates (C74_rotated_fails, exact change in C74_axis_aligned_rotated; C74_reversed: along the second axis of the projection u falls by as much as it should grow). C74_rotation_iff: u grows along the tangent for all faces with a given rotation exactly if it is a number of half turns. Proved for Valve layout and for unrotated standard layout; by how much u changes: C74_valve_along_partial, C74_half_turns_partial."
  },
  {
   "property": "C75",
   "status": "proved",
   "theorems": [
    "Quarch.C75_which_tokens",
    "Quarch.C75_leads",
    "Quarch.C75_newest",
    "Quarch.C75_last_occurrence"
   ],
   "note": ""
  },
  {
   "property": "C76",
   "status": "proved",
   "theorems": [
    "Quarch.C76_encoding",
    "Quarch.C76_read_what_was_written",
    "Quarch.C76_utf8_only",
    "Quarch.C76_not_text_is_an_error",
    "Quarch.C76_text_file",
    "Quarch.C76_save_then_read",
    "Quarch.C76_save_fails"
   ],
   "note": "The file is given by its bytes or is unreadable; writing by whether it succeeds. C76_encoding identifies the UTF-8 encoding of the specification with the one of the Lean library."
  },
  {
   "property": "C77",
   "status": "proved",
   "theorems": [
    "Quarch.C77_byte_order_mark",
    "Quarch.C77_indented_line",
    "Quarch.C77_marked_map_refused"
   ],
   "note": "Describes what the code does; a byte order mark or indentation is silently harmful."
  },
  {
   "property": "C78",
   "status": "proved",
   "theorems": [
    "Quarch.C78_watertight",
    "Quarch.C78_once"
   ],
   "note": "Over the real numbers, for brushes meeting the stated conditions (ProperBrush); the unit cube is shown to meet them."
  },
  {
   "property": "C79",
   "status": "proved",
   "theorems": [
    "Quarch.C79_hull_is_brush"
   ],
   "note": "Over the real numbers, for brushes meeting the conditions of C78 (ProperBrush); the unit cube is shown to meet them."
  },
  {
   "property": "C80",
   "status": "proved",
   "theorems": [
    "Quarch.C80_concave_closed",
    "Quarch.C80_visual_closed"
   ],
   "note": "Over the real numbers, for entities whose brushes all meet the conditions of C78. The visible part needs that nothing is blacklisted: a blacklisted face leaves a hole by design."
  },
  {
   "property": "C81",
   "status": "proved",
   "theorems": [
    "Quarch.C81_corner_inside",
    "Quarch.C81_corner_on_planes"
   ],
   "note": "For every arithmetic with the rounding rules of Spec.Rounding; Proofs/F32.lean proves that IEEE 754 binary32 (Spec/F32.lean) follows them. That glam composes dot, cross and normalize from these operations in the stated order is an assumption: the source of glam was not available. Both usual ways to normalize are covered."
  },
  {
   "property": "C82",
   "status": "proved",
   "theorems": [
    "Quarch.C82_equal_iff",
    "Quarch.C82_equivalence",
    "Quarch.C82_hash"
   ],
   "note": "The hasher is an arbitrary function of the class name and the state, as str's Hash feeds it."
  },
  {
   "property": "C83",
   "status": "proved",
   "theorems": [
    "Quarch.C83_face_center",
    "Quarch.C83_brush_center",
    "Quarch.C83_entity_center"
   ],
   "note": "For every arithmetic with the rounding rules of Spec.Rounding, which IEEE 754 binary32 follows (Proofs/F32.lean)."
  },
  {
   "property": "C84",
   "status": "proved",
   "theorems": [
    "Quarch.C84_flat",
    "Quarch.C84_smooth"
   ],
   "note": "For every arithmetic with the rounding rules of Spec.Rounding, which IEEE 754 binary32 follows (Proofs/F32.lean). Which neighbours pass the angle test is not described, because cos and its argument are not part of the rounding rules; C29 describes it in exact arithmetic."
  },
  {
   "property": "C85",
   "status": "proved",
   "theorems": [
    "Quarch.C85_covers",
    "Quarch.C85_no_overlap",
    "Quarch.C85_boundary"
   ],
   "note": "Exact arithmetic; ProperBrush excludes brushes at the borderline of the program's tolerances."
  },
  {
   "property": "C86",
   "status": "proved",
   "theorems": [
    "Quarch.C86_position"
   ],
   "note": "For every arithmetic with the rounding rules of Spec.Rounding, which IEEE 754 binary32 follows (Proofs/F32.lean). C48 is the exact version."
  },
  {
   "property": "C87",
   "status": "proved",
   "theorems": [
    "Quarch.C87_triangles",
    "Quarch.C87_picture",
    "Quarch.C87_everything"
   ],
   "note": "C87_triangles holds for every arithmetic with lawful equality; C87_picture and C87_everything for exact real arithmetic and proper brushes (bounded, with an inner point). End to end from the map text: DrawnExamples.lean runs a cube map through tokenizer, parser, geometry and scene."
  },
  {
   "property": "C88",
   "status": "proved",
   "theorems": [
    "Quarch.C88_convex",
    "Quarch.C88_concave",
    "Quarch.C88_filled",
    "Quarch.C88_covered"
   ],
   "note": "C88_convex and C88_concave hold for every arithmetic with lawful equality; C88_filled and C88_covered for exact real arithmetic and proper brushes. Points are the values stored in the shapes, not multiplied by node transforms. Brushes without any plane are left out of the second half of C88_convex."
  },
  {
   "property": "C89",
   "status": "proved",
   "theorems": [
    "Quarch.C89_report",
    "Quarch.C89_error_iff",
    "Quarch.C89_abort_iff",
    "Quarch.C89_same_result",
    "Quarch.C89_plain_text",
    "Quarch.C89_hidden"
   ],
   "note": "Output.lean models the derived Debug implementations and the formatting machinery of the standard library they use. Which characters the library shows unescaped (and two details that changed between versions) is a parameter; the theorems hold for every choice. A failing write to stdout (println! aborts) is not modelled. Beside the listed theorems, spec_C89_report_unambiguous about the specification only."
  },
  {
   "property": "C90",
   "status": "proved",
   "theorems": [
    "Quarch.C90_face",
    "Quarch.C90_brush",
    "Quarch.C90_map",
    "Quarch.C90_wound"
   ],
   "note": "Spec.F32 is IEEE binary32 with round to nearest even; whether glam divides by the length or multiplies with its reciprocal is a parameter, both are covered. C90_wound assumes of atan2 only that angles in different quadrants compare the right way (QuadrantAtan2, for directions at least 2^-22 away from the axes)."
  },
  {
   "property": "C91",
   "status": "proved",
   "theorems": [
    "Quarch.C91_text",
    "Quarch.C91_picture",
    "Quarch.C91_map",
    "Quarch.C91_loads"
   ],
   "note": "C91_text: reading; C91_picture: what is drawn, by C87 and C90; C91_map: from the text to the picture, given a successful load; C91_loads: the same with the conditions for loading (C92). Assumes that a decimal number of at most 64 characters is read as the nearest single-precision number (class DecimalText) and that atan2 orders quadrants (class QuadrantAtan2); both are shown to be satisfiable together."
  },
  {
   "property": "C92",
   "status": "proved",
   "theorems": [
    "Quarch.C92_text",
    "Quarch.C92_needs",
    "Quarch.C92_enough",
    "Quarch.C92_loads_iff"
   ],
   "note": "C92_text: the entities of a text are exactly those it lists (grammar, words, numbers), independently of the reading functions; C92_needs: every successful load meets the conditions, for any stack; C92_enough: the conditions suffice with stack for one call per entity; C92_loads_iff: both."
  },
  {
   "property": "C93",
   "status": "proved",
   "theorems": [
    "Quarch.C93_shapes",
    "Quarch.C93_filled",
    "Quarch.C93_covered",
    "Quarch.C93_loads"
   ],
   "note": "C93_shapes: points and centre of convex shapes, and that each such brush has one; C93_filled: the union of the hulls; C93_covered: the triangles of concave shapes; C93_loads: from the text on, with the conditions for loading. C93_covered and C93_loads assume QuadrantAtan2, C93_loads also DecimalText (see C91)."
  },
  {
   "property": "C94",
   "status": "proved",
   "theorems": [
    "Quarch.C94_same_result",
    "Quarch.C94_printed",
    "Quarch.C94_warned_iff",
    "Quarch.C94_unknown_iff",
    "Quarch.C94_stages"
   ],
   "note": "C94_same_result: the load with its output ends like the load of the other properties; C94_printed: all lines of a load that succeeds, in order; C94_warned_iff and C94_unknown_iff: exactly which classnames are named on the two outputs; C94_stages: the lines of a load that fails. C94_printed, C94_warned_iff and C94_unknown_iff assume LawfulEq (as C18, C51). Lines written by the WAD reader are the subject of C95."
  },
  {
   "property": "C95",
   "status": "proved",
   "theorems": [
    "Quarch.C95_same_result",
    "Quarch.C95_conversion",
    "Quarch.C95_printed",
    "Quarch.C95_failed"
   ],
   "note": "C95_same_result: the reader with its output returns what the reader of C54-C63 returns; C95_printed: all lines of a read that succeeds; C95_failed: all lines of a read that returns an error, with the reason; spec_C95_told_unique: an entry can be read back from its line; C95_conversion: the line of into_rgb. Reads that abort are covered by C95_same_result only. Beside the listed theorems, spec_C95_told_unique about the specification only."
  },
  {
   "property": "C96",
   "status": "proved",
   "theorems": [
    "Quarch.C96_aborts_iff",
    "Quarch.C96_line_aborts",
    "Quarch.C96_grid_iff",
    "Quarch.C96_loads_iff",
    "Quarch.C96_thin_aborts"
   ],
   "note": "C96_aborts_iff: exactly when; spec_C96_no_direction and C96_line_aborts: points on a line; spec_C96_direction: points not on a line; C96_grid_iff, spec_C96_faces_iff and C96_loads_iff: maps on a grid; C96_thin_aborts: the limit on the distance cannot be dropped. C32 says what holds for other arithmetic. Beside the listed theorems, spec_C96_no_direction, spec_C96_direction and spec_C96_faces_iff about the specification only."
  },
  {
   "property": "C97",
   "status": "proved",
   "theorems": [
    "Quarch.C97_entity",
    "Quarch.C97_world",
    "Quarch.C97_removed",
    "Quarch.C97_added",
    "Quarch.C97_cut_out"
   ],
   "note": "C97_entity: one entity in two maps; C97_world: worldspawn and layers; C97_removed: without one entity; C97_added: with one more; spec_C97_joined and C97_cut_out: the same on texts. Beside the listed theorems, spec_C97_joined about the specification only."
  },
  {
   "property": "C98",
   "status": "proved",
   "theorems": [
    "Quarch.C98_only_what_is_used",
    "Quarch.C98_unused"
   ],
   "note": "C98_only_what_is_used: agreement on what is mentioned; C98_unused: additions that are not."
  },
  {
   "property": "C99",
   "status": "proved",
   "theorems": [
    "Quarch.C99_hide_faces"
   ],
   "note": "C99_hide_faces compares the two scenes through Spec.bare, which drops surfaces by texture."
  },
  {
   "property": "C100",
   "status": "proved",
   "theorems": [
    "Quarch.C100_texturing"
   ],
   "note": "C100_texturing compares the two scenes through Spec.unseen, which drops visual nodes. It assumes Spec.NaturalSort: the sort looks at elements only through the comparison, which holds of sort_by since it is generic in the element type."
  },
  {
   "property": "C101",
   "status": "proved",
   "theorems": [
    "Quarch.C101_moved"
   ],
   "note": "Stated over the reals: with floats a moved map is rounded differently. Spec.MovedBy says which maps are moved, Spec.Shifted which scenes are. The hypothesis Settled is needed because entities without origin and brushes are placed at zero, and faces without corners count as zero in the mean. It assumes Spec.NaturalSort, as C100 does."
  },
  {
   "property": "C102",
   "status": "proved",
   "theorems": [
    "Quarch.C102_same_triangles"
   ],
   "note": "C102_same_triangles compares visual nodes by the list of corners of their triangles, up to == on positions (0 and -0). That both maps load is a hypothesis, since faces with plain and with Valve coordinates fail differently (C92). It assumes Spec.NaturalSort, as C100 does."
  },
  {
   "property": "C103",
   "status": "proved",
   "theorems": [
    "Quarch.C103_turned"
   ],
   "note": "C103_turned compares visual nodes by the corners of their triangles, as C101 and C102 do; texture coordinates and normals are not part of it. It is about exact arithmetic only. It assumes Spec.NaturalSort."
  },
  {
   "property": "C104",
   "status": "proved",
   "theorems": [
    "Quarch.C104_reordered"
   ],
   "note": "C104_reordered compares visual nodes by the corners of their triangles; normals and texture coordinates are not part of it, since merging vertices at one place can pick those of another face (C35) and smoothing depends on the order of faces. proper_crisp shows that proper brushes meet the condition on corners. Exact arithmetic only."
  },
  {
   "property": "C105",
   "status": "proved",
   "theorems": [
    "Quarch.C105_scaled",
    "Quarch.C105_enlarged",
    "Quarch.C105_shrunk"
   ],
   "note": "C105_scaled needs clear corners of both maps, C105_enlarged of the original one only, C105_shrunk is the witness without the condition. C103 and C105 have one common proof (scene_turned). Exact arithmetic only; texture coordinates and normals are not compared."
  },
  {
   "property": "C106",
   "status": "proved",
   "theorems": [
    "Quarch.C106_locked"
   ],
   "note": "Exact arithmetic only. For faces with standard UVs the projection depends on the largest component of the normal, so their texture coordinates do not turn with the face; turned maps with such faces are covered by C103 and C105. Beside the listed theorems, spec_C106_axes and spec_C106_plain about the specification only."
  },
  {
   "property": "C107",
   "status": "proved",
   "theorems": [
    "Quarch.C107_selected",
    "Quarch.C107_together",
    "Quarch.C107_names_differ"
   ],
   "note": "C107_selected: a list against the whole file (or a longer list), pairing each texture with its directory name; C107_together: two lists; C107_names_differ: the witness for names that are not found."
  },
  {
   "property": "C108",
   "status": "partial",
   "theorems": [
    "Quarch.C108_corners_partial",
    "Quarch.C108_vanishes",
    "Quarch.C108_exact",
    "Quarch.C108_false",
    "Quarch.C108_partial"
   ],
   "note": "False of the code: C108_false, by the tetrahedron of C108_vanishes (no triangle in single precision, whatever the library functions) and C108_exact (all faces in exact arithmetic). C108_partial: all boxes on the unit grid. C108_corners_partial: all brushes, within 64 units of the origin, every face of which has three clear corners (R at most 64 times the volume spanned by the normals). Missing: larger brushes, for which the claim is false in general."
  },
  {
   "property": "C109",
   "status": "partial",
   "theorems": [
    "Quarch.C109_cracked",
    "Quarch.C109_exact",
    "Quarch.C109_false",
    "Quarch.C109_box",
    "Quarch.C109_partial"
   ],
   "note": "False of the code: C109_false, by the tetrahedron of C109_cracked (single precision, whatever the library functions) and C109_exact / spec_C109_proper (exact arithmetic). C109_partial and C109_box: all boxes on a grid with first edges along an axis. Missing: a condition for other brushes to be closed exactly; that firm brushes are closed up to 1/1000 of a unit is C119. Beside the listed theorems, spec_C109_proper about the specification only."
  },
  {
   "property": "C110",
   "status": "proved",
   "theorems": [
    "Quarch.C110_class",
    "Quarch.C110_layer",
    "Quarch.C110_zero_bytes",
    "Quarch.C110_text",
    "Quarch.C110_white"
   ],
   "note": "Follows a mutation run in which changed default values were not noticed. C110_class needs no assumption about the map or the iteration order."
  },
  {
   "property": "C111",
   "status": "proved",
   "theorems": [
    "Quarch.C111_drawn_is_solid",
    "Quarch.C111_corners",
    "Quarch.C111_solid_is_drawn",
    "Quarch.C111_inside"
   ],
   "note": "From C87 and C88; the hypotheses MeshesAre and AllMeshes are about the game data only. An example shows that without collision the conclusion fails."
  },
  {
   "property": "C112",
   "status": "proved",
   "theorems": [
    "Quarch.C112_unreachable",
    "Quarch.C112_capitals",
    "Quarch.C112_wad_sizes"
   ],
   "note": "The lower-casing of the platform is arbitrary in C112_unreachable; C112_capitals and C112_wad_sizes assume what the names NoCapitals and LowersAscii say, which the reference platform meets."
  },
  {
   "property": "C113",
   "status": "proved",
   "theorems": [
    "Quarch.C113_sizes",
    "Quarch.C113_level",
    "Quarch.C113_palette"
   ],
   "note": "Follows a mutation run in which a character read past the end of a record was not noticed. The error payload of nom is not modelled."
  },
  {
   "property": "C114",
   "status": "proved",
   "theorems": [
    "Quarch.C114_consistent",
    "Quarch.C114_winding",
    "Quarch.C114_mixed"
   ],
   "note": "Assumes of atan2 only that it gives NaN exactly if an argument is NaN. The bound 2^40 keeps intermediate results finite; above about 10^38 overflow can mix infinities and NaN. C114_mixed shows that mixtures would be inconsistent. Beside the listed theorems, spec_C114_angles about the specification only."
  },
  {
   "property": "C115",
   "status": "proved",
   "theorems": [
    "Quarch.C115_standard",
    "Quarch.C115_valve",
    "Quarch.C115_tangent",
    "Quarch.C115_valve_tangent",
    "Quarch.C115_seam"
   ],
   "note": "The model of single precision is F32 (IEEE 754 binary32, round to nearest even); the hypothesis ZeroTurn states that rotation by zero is the identity, and is met by stepLib."
  },
  {
   "property": "C116",
   "status": "proved",
   "theorems": [
    "Quarch.C116_corner",
    "Quarch.C116_count",
    "Quarch.C116_builds"
   ],
   "note": "The bound on the centre in C116_corner is a hypothesis on the result; spec_C116_found and C116_count need none. Beside the listed theorems, spec_C116_found about the specification only."
  },
  {
   "property": "C117",
   "status": "proved",
   "theorems": [
    "Quarch.C117_corners",
    "Quarch.C117_seam",
    "Quarch.C117_exact"
   ],
   "note": "Examples: a block with one edge cut off (bevel), all faces for C117_corners, and the five-cornered upper face for C117_exact. C117_seam bounds the cracks of C109 for such brushes. Beside the listed theorems, spec_C117_only_true about the specification only."
  },
  {
   "property": "C118",
   "status": "proved",
   "theorems": [
    "Quarch.C118_outline",
    "Quarch.C118_facing"
   ],
   "note": "Single-precision counterpart of C24/C25 for faces that are not boxes. The hypothesis on the arc tangent is met by arcLib (correctly rounded angle); example: five-cornered upper face of a block with one edge cut off."
  },
  {
   "property": "C119",
   "status": "proved",
   "theorems": [
    "Quarch.C119_pointed",
    "Quarch.C119_watertight",
    "Quarch.C119_once"
   ],
   "note": "Single-precision counterpart of C78. C109 shows that the corners of neighbouring faces need not be equal numbers, so some tolerance is needed. C119_pointed drops the conditions that one pair of planes meets at each corner and that corners of different faces are far apart. Example: the seven-faced block with one edge cut off satisfies all hypotheses (bevel_firm, bevel_distinct); the pyramid is pointed but not firm."
  },
  {
   "property": "C120",
   "status": "proved",
   "theorems": [
    "Quarch.C120_valve",
    "Quarch.C120_standard",
    "Quarch.C120_seam"
   ],
   "note": "Counterpart of C115 for brushes of any shape: not exact, but with a bound on the error. The class AccurateTurn is what the sine and cosine of the platform and the rotation matrix of the vector library provide; turnLib shows it can be met. Examples: all seven faces of the bevelled block, with and without texture axes; its slanted face is equally close to the x and the y axis."
  },
  {
   "property": "C121",
   "status": "proved",
   "theorems": [
    "Quarch.C121_flat",
    "Quarch.C121_smooth",
    "Quarch.C121_angle",
    "Quarch.C121_shared"
   ],
   "note": "Single-precision counterpart of C29. The class AccurateCos is what the cosine of the platform provides; cosLib shows it can be met. Examples: all seven faces of the bevelled block, flat, smooth and smooth with an angle of sixty degrees, where the slanted face takes part in the smoothing and the upper one does not."
  },
  {
   "property": "C122",
   "status": "proved",
   "theorems": [
    "Quarch.C122_valve",
    "Quarch.C122_standard"
   ],
   "note": "Single-precision counterpart of C73. The class AccurateSpin is what the sine and cosine of the platform and the quaternions of the vector library provide; spinLib shows it can be met. Examples: all seven faces of the bevelled block without texture axes, and its slanted face with texture axes."
  },
  {
   "property": "C123",
   "status": "proved",
   "theorems": [
    "Quarch.C123_picture",
    "Quarch.C123_everything",
    "Quarch.C123_loads"
   ],
   "note": "General-shape counterpart of C91 (boxes, exact) and single-precision counterpart of C87/C89 (exact arithmetic). C123_picture: face by face; C123_everything: the whole borders; C123_loads: from the text. Example: a map file with the bevelled block is read, loaded and drawn; a drawn point near the middle of the slanted face, none near the middle of the block or the edge cut off."
  },
  {
   "property": "C124",
   "status": "proved",
   "theorems": [
    "Quarch.C124_filled",
    "Quarch.C124_covered",
    "Quarch.C124_loads"
   ],
   "note": "General-shape counterpart of C93 (boxes, exact). C124_filled: convex; C124_covered: concave; C124_loads: from the text. Examples: the map file with the bevelled block with either kind of collision."
  },
  {
   "property": "C125",
   "status": "proved",
   "theorems": [
    "Quarch.C125_facing",
    "Quarch.C125_picture",
    "Quarch.C125_everything",
    "Quarch.C125_filled",
    "Quarch.C125_covered",
    "Quarch.C125_loads",
    "Quarch.C125_solid_loads"
   ],
   "note": "C123 and C124 without the requirement of three planes per corner (firm_pointed: firm brushes are pointed). C125_picture: face by face (a face without area, touching the brush in a corner only, may get slivers there, so the first half does not ask for an area); C125_everything: the whole borders; C125_filled and C125_covered: collision; C125_facing: front faces; C125_loads and C125_solid_loads: from the text. Examples: a map file with a square pyramid, at the top of which each slanted face is met by three pairs of others; it is proved not to be firm."
  },
  {
   "property": "C126",
   "status": "proved",
   "theorems": [
    "Quarch.C126_sources",
    "Quarch.C126_kept",
    "Quarch.C126_exact",
    "Quarch.C126_firm",
    "Quarch.C126_painted",
    "Quarch.C126_loads"
   ],
   "note": "C126_sources and C126_kept hold for any arithmetic with lawful equality; C126_exact for real numbers; C126_firm (what is stored), C126_painted (that it is right) and C126_loads (from the text) in single precision. The conditions are needed: C35_attributes_can_change. Examples: a map file with a bevelled block with texture coordinates in single precision, and the cube in exact arithmetic."
  },
  {
   "property": "C127",
   "status": "proved",
   "theorems": [
    "Quarch.C127_drawn",
    "Quarch.C127_solid",
    "Quarch.C127_drawn_firm",
    "Quarch.C127_solid_firm",
    "Quarch.C127_boxes",
    "Quarch.C127_loads",
    "Quarch.C127_drawn_pointed",
    "Quarch.C127_solid_pointed",
    "Quarch.C127_pointed_loads"
   ],
   "note": "C127_drawn and C127_solid in exact arithmetic; C127_boxes, C127_drawn_firm, C127_solid_firm, C127_drawn_pointed, C127_solid_pointed in single precision; C127_loads and C127_pointed_loads from the text. Without such conditions holes are possible in single precision (C109_false). Examples: the cube in exact arithmetic and in single precision, the bevelled block and the pyramid in single precision."
  },
  {
   "property": "C128",
   "status": "proved",
   "theorems": [
    "Quarch.C128_drawn",
    "Quarch.C128_normals",
    "Quarch.C128_solid",
    "Quarch.C128_drawn_firm",
    "Quarch.C128_solid_firm",
    "Quarch.C128_drawn_pointed",
    "Quarch.C128_solid_pointed"
   ],
   "note": "C128_drawn, C128_normals and C128_solid in exact arithmetic; C128_drawn_firm, C128_solid_firm, C128_drawn_pointed and C128_solid_pointed in single precision. Examples: the cube in exact arithmetic, the bevelled block and the pyramid in single precision."
  },
  {
   "property": "C129",
   "status": "proved",
   "theorems": [
    "Quarch.C129_inside",
    "Quarch.C129_volume",
    "Quarch.C129_concave",
    "Quarch.C129_measure",
    "Quarch.C129_concave_measure"
   ],
   "note": "Over the real numbers, for brushes meeting the conditions of C78 (ProperBrush). The volume of triangles is that of the tetrahedra over them, with sign (C129_volume, C129_concave); C129_measure and C129_concave_measure show that it is the Lebesgue measure of the brushes. Example: the triangles of the cube enclose the volume 1."
  },
  {
   "property": "C130",
   "status": "proved",
   "theorems": [
    "Quarch.C130_three_faces",
    "Quarch.C130_no_angle",
    "Quarch.C130_last_pair",
    "Quarch.C130_four_faces"
   ],
   "note": "Over the real numbers. The comment 'aggregate phong normals' in brush_plane/mod.rs promises more than the code does: only the last pair of planes that gives the corner counts (C130_last_pair, C130_four_faces). In single precision the sums are formed in different orders, so equal normals become normals equal up to rounding (C84)."
  },
  {
   "property": "C131",
   "status": "proved",
   "theorems": [
    "Quarch.C131_geometry",
    "Quarch.C131_exact",
    "Quarch.C131_single",
    "Quarch.C131_unique",
    "Quarch.C131_exponential"
   ],
   "note": "C131_unique and C131_geometry need only that ids are unique, not that every group leads to the top level: entities of groups that are never reached are not shown. The bound of C131_unique is attained (example: three entities, two layers, five entity nodes). C131_geometry holds in every arithmetic; C131_exact and C131_single replace the cube by the square, by C132. C131_exponential gives the text explicitly (Spec.doubling): two entities with the same id on each level."
  },
  {
   "property": "C132",
   "status": "proved",
   "theorems": [
    "Quarch.C132_any",
    "Quarch.C132_exact",
    "Quarch.C132_single"
   ],
   "note": "C132_any holds for every arithmetic (also with NaN); C132_exact for proper brushes over the reals (each side of a face lies on a plane of its own); C132_single for firm brushes in single precision, given the accuracy of atan2 used in C118/C119."
  },
  {
   "property": "C133",
   "status": "proved",
   "theorems": [
    "Quarch.C133_removed",
    "Quarch.C133_added",
    "Quarch.C133_missing_group"
   ],
   "note": "C133_removed: outcome ok is kept with the same nodes; C133_added: the converse, given that the normals of the added plain faces have a largest component (the condition of C92); C133_missing_group: the case of a group number nobody has. An entity without classname that is not reached does no harm (example), one that is reached aborts the load (C53_reached)."
  },
  {
   "property": "C134",
   "status": "proved",
   "theorems": [
    "Quarch.C134_faces",
    "Quarch.C134_center",
    "Quarch.C134_moved",
    "Quarch.C134_picture",
    "Quarch.C134_concave",
    "Quarch.C134_convex"
   ],
   "note": "C134_faces: the faces; C134_center: the centre; C134_moved: under a translation, when the other faces all have corners; C134_picture, C134_convex, C134_concave: the whole scene (points are the values stored in meshes and shapes, as in C87 and C88; several faces of a brush by repetition). C134_moved is why C101, C103 and C106 ask every face to have a corner: without it they are false (example: the unit cube with a face at x = 5 moved by 7 has its centre moved by 6). In exact arithmetic."
  },
  {
   "property": "C135",
   "status": "proved",
   "theorems": [
    "Quarch.C135_corners",
    "Quarch.C135_center",
    "Quarch.C135_picture",
    "Quarch.C135_solid"
   ],
   "note": "C135_corners and C135_center need no assumption on the brush; C135_picture and C135_solid are for proper brushes (as in C87 and C88). Each copy of a face gets its own triangles (C131_exact counts them), so a face written twice is drawn twice in the same place. In exact arithmetic."
  },
  {
   "property": "C136",
   "status": "proved",
   "theorems": [
    "Quarch.C136_face",
    "Quarch.C136_scene"
   ],
   "note": "No code between the map text and the scene checks the scale or the size. The example loads a map with a texture without width. Stated for single precision only: in exact arithmetic division by zero has no meaning. Where the vertices are does not depend on scales and sizes (C100, C102)."
  },
  {
   "property": "C137",
   "status": "proved",
   "theorems": [
    "Quarch.C137_vanishes",
    "Quarch.C137_picture",
    "Quarch.C137_convex",
    "Quarch.C137_concave"
   ],
   "note": "The cause is that three planes are taken to meet only if the determinant of their unit normals is at least 0.001; for a flat brush it is smaller for all triples (sheet_det). The example is a tetrahedron of 2 by 2 by 1/64 units next to a cube, loaded from a map. It shows that the condition of C78 and C87 on the angles between faces (ProperBrush.spread) cannot be left out. In exact arithmetic; C108_vanishes is a brush that vanishes by rounding."
  },
  {
   "property": "C138",
   "status": "proved",
   "theorems": [
    "Quarch.C138_face",
    "Quarch.C138_picture",
    "Quarch.C138_concave",
    "Quarch.C138_convex"
   ],
   "note": "In exact arithmetic. Different means given by different points (Spec.SameCut); a plane given by other points of it counts as another face. The examples load maps with a brush of three faces, next to a cube and alone."
  },
  {
   "property": "C139",
   "status": "proved",
   "theorems": [
    "Quarch.C139_vanishes",
    "Quarch.C139_picture",
    "Quarch.C139_convex",
    "Quarch.C139_concave"
   ],
   "note": "In exact arithmetic, for brushes of any number of faces. The proof shows that no point at all is behind all turned faces up to the tolerance: otherwise the ray from it through the deep point would stay in the body for ever. The example is a cube next to a cube whose faces are turned, loaded from a map."
  },
  {
   "property": "C140",
   "status": "proved",
   "theorems": [
    "Quarch.C140_brush",
    "Quarch.C140_empty"
   ],
   "note": "In exact arithmetic. Follows from C139 and from what reflections keep; all isometries that exchange left and right are covered, since each is the reflection of one axis followed by a rotation and a translation. The example is the unit cube, mirrored and moved back, loaded from a map."
  },
  {
   "property": "C141",
   "status": "proved",
   "theorems": [
    "Quarch.C141_proper",
    "Quarch.C141_scene"
   ],
   "note": "In exact arithmetic, and about the sets of points that are drawn or solid; texture coordinates, tangents, which side of a triangle is its front and the places of actors are not compared. Follows from the descriptions of the whole scene in C87 and C88 and from what reflections keep; the textures may be laid out in any way. The example is the unit cube with a lamp, mirrored to the other side of the plane x = 1."
  },
  {
   "property": "C142",
   "status": "proved",
   "theorems": [
    "Quarch.C142_triangles",
    "Quarch.C142_solid"
   ],
   "note": "The triangles in any arithmetic, corners up to `==`; the convex shapes in exact arithmetic. How many times a triangle is drawn and in which surface is not compared here (C104, C131). Follows from C87 and C88. The example has two maps with a cube and a lamp each and a map with both cubes."
  },
  {
   "property": "C143",
   "status": "proved",
   "theorems": [
    "Quarch.C143_solid",
    "Quarch.C143_drawn"
   ],
   "note": "In exact arithmetic; the parts must be proper as well as the whole, which is not a consequence: a cut very near a corner gives a part in which the tolerance of the corner test matters. The example is a box of two units cut in the middle, as map text, where what is drawn only afterwards has x = 1."
  },
  {
   "property": "C144",
   "status": "proved",
   "theorems": [
    "Quarch.C144_drawn",
    "Quarch.C144_concave"
   ],
   "note": "In exact arithmetic. Walks are curves in space with continuous coordinates. The examples are a fall into a cube, and a jump into the cube that passes nothing drawn, which shows that the walk has to be continuous."
  },
  {
   "property": "C145",
   "status": "proved",
   "theorems": [
    "Quarch.C145_drawn",
    "Quarch.C145_concave"
   ],
   "note": "In single precision, with the assumptions of C125 on `atan2` and the brushes. Distances are per coordinate. The example is a map with a pyramid and a fall into it from above."
  },
  {
   "property": "C146",
   "status": "proved",
   "theorems": [
    "Quarch.C146_solid",
    "Quarch.C146_drawn"
   ],
   "note": "In exact arithmetic; the clipped brushes must be proper too (see C143). Points that were drawn on the plane itself may or may not be drawn afterwards. The example has three boxes as map text: one behind the plane, one clipped and one removed."
  },
  {
   "property": "C147",
   "status": "proved",
   "theorems": [
    "Quarch.C147_exact",
    "Quarch.C147_surface",
    "Quarch.C147_single",
    "Quarch.C147_surface_single"
   ],
   "note": "`C147_exact` and `C147_surface` in exact arithmetic, `C147_single` and `C147_surface_single` in single precision with the assumptions of C125. Faces inside a wall may be drawn too, so what is drawn is not the same in both scenes; only the surface is. The examples are the box of C143 in one piece and in two, and the pyramid of C125 once and twice."
  },
  {
   "property": "C148",
   "status": "proved",
   "theorems": [
    "Quarch.C148_surface"
   ],
   "note": "In exact arithmetic. The surface is stated with distances only, without reference to brushes. Where brushes touch, faces inside the wall are drawn too (C143). The example has two boxes apart from each other."
  }
 ]
}