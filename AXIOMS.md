# Axioms of each property theorem

Output of `#print axioms` for every theorem in `MANIFEST.json`, grouped.

## Classical.choice, Quot.sound, propext

* `Quarch.C01_line_by_line`
* `Quarch.C01_concat`
* `Quarch.C02_abort_iff`
* `Quarch.C03_property_line`
* `Quarch.C03_first_line`
* `Quarch.C04_round_trip`
* `Quarch.C04_print_then_load`
* `Quarch.C05_legal_loads`
* `Quarch.C05_first_illegal_token`
* `Quarch.C05_first_bad_face`
* `Quarch.C05_structure_never_aborts`
* `Quarch.C06_text`
* `Quarch.C06_text_ends`
* `Quarch.C07_last_value_wins`
* `Quarch.C08_cut_between_entities`
* `Quarch.C09_loads_iff_grammar`
* `Quarch.C09_entity_count`
* `Quarch.C10_face_round_trip`
* `Quarch.C11_succeeds_iff`
* `Quarch.C11_error_iff`
* `Quarch.C11_abort_iff`
* `Quarch.C11_outcomes`
* `Quarch.C12_loads_case_insensitive`
* `Quarch.C12_face_case_insensitive`
* `Quarch.C12_maps_case_insensitive`
* `Quarch.C13_aborts_iff_empty`
* `Quarch.C14_reports_one_sided_lines`
* `Quarch.C14_all_occurrences`
* `Quarch.C15_keeps_longest_common`
* `Quarch.C16_self_diff_not_empty`
* `Quarch.C16_self_diff_partial`
* `Quarch.C17_aborts_unless_one_worldspawn`
* `Quarch.C17_worldspawn_first`
* `Quarch.C20_exact_corners`
* `Quarch.C21_geometry_exists`
* `Quarch.C21_corners_on_face_inside_brush`
* `Quarch.C21_whole_map`
* `Quarch.C22_corner_of_face`
* `Quarch.C22_corner_of_all_three`
* `Quarch.C23_exact_order_independent`
* `Quarch.C24_exact_winding`
* `Quarch.C25_all_triples_clockwise`
* `Quarch.C25_fan_same_direction`
* `Quarch.C25_exact_corners_convex`
* `Quarch.C26_face_center`
* `Quarch.C26_brush_center`
* `Quarch.C26_entity_center`
* `Quarch.C28_translation`
* `Quarch.C28_center`
* `Quarch.C28_indices`
* `Quarch.C29_flat`
* `Quarch.C29_phong`
* `Quarch.C30_valve`
* `Quarch.C30_valve_tile`
* `Quarch.C30_standard`
* `Quarch.C32_aborts_iff`
* `Quarch.C32_valve_partial`
* `Quarch.C32_no_direction_aborts`
* `Quarch.C32_collinear_aborts`
* `Quarch.C32_good_faces_partial`
* `Quarch.C32_equal_points_abort`
* `Quarch.C33_surfaces_well_formed`
* `Quarch.C34_triangles_kept`
* `Quarch.C34_succeeds`
* `Quarch.C35_attributes_partial`
* `Quarch.C35_redirect_partial`
* `Quarch.C35_distinct_partial`
* `Quarch.C36_no_duplicates`
* `Quarch.C37_one_surface_per_texture`
* `Quarch.C38_blacklisted_not_rendered_partial`
* `Quarch.C39_nothing_lost`
* `Quarch.C40_convex`
* `Quarch.C41_concave`
* `Quarch.C42_children_follow_definition`
* `Quarch.C42_brush_definition`
* `Quarch.C43_from_first_definition`
* `Quarch.C44_top_level`
* `Quarch.C45_groups_nest`
* `Quarch.C46_terminates_partial`
* `Quarch.C46_unique_ids_partial`
* `Quarch.C46_loop_aborts`
* `Quarch.C47_every_entity_once`
* `Quarch.C48_world_position`
* `Quarch.C49_names`
* `Quarch.C49_internal`
* `Quarch.C49_values_partial`
* `Quarch.C49_flags_are_choices`
* `Quarch.C50_aborts_iff`
* `Quarch.C51_layer_node`
* `Quarch.C52_results_partial`
* `Quarch.C52_one_layer_partial`
* `Quarch.C52_deterministic_partial`
* `Quarch.C53_error_iff`
* `Quarch.C53_no_classname`
* `Quarch.C53_names`
* `Quarch.C53_reached`
* `Quarch.C54_reads_what_is_stored`
* `Quarch.C54_round_trip`
* `Quarch.C55_only_stored_data`
* `Quarch.C55_missing_data_is_error`
* `Quarch.C55_every_truncation`
* `Quarch.C56_levels_partial`
* `Quarch.C56_more_levels_abort`
* `Quarch.C57_directory_selection`
* `Quarch.C58_first_bad_entry`
* `Quarch.C58_bad_header`
* `Quarch.C58_first_bad_texture`
* `Quarch.C58_first_bad_palette`
* `Quarch.C59_schedule_independent`
* `Quarch.C62_same_or_overflow`
* `Quarch.C62_same_without_overflow`
* `Quarch.C62_directory_overflow_aborts`
* `Quarch.C62_texture_overflow_aborts`
* `Quarch.C62_palette_overflow_aborts`
* `Quarch.C63_bad_magic`
* `Quarch.C64_kinds`
* `Quarch.C65_aborts_iff`
* `Quarch.C65_property`
* `Quarch.C65_definition`
* `Quarch.C65_file`
* `Quarch.C66_file`
* `Quarch.C66_entity`
* `Quarch.C66_property`
* `Quarch.C68_rows`
* `Quarch.C68_too_many`
* `Quarch.C69_text`
* `Quarch.C69_aborts_iff`
* `Quarch.C70_color_text`
* `Quarch.C70_monotone`
* `Quarch.C71_shown`
* `Quarch.C71_loaded_partial`
* `Quarch.C71_choices_exact`
* `Quarch.C71_choices_fail`
* `Quarch.C71_flags_number`
* `Quarch.C71_color_exact`
* `Quarch.C71_color_fails`
* `Quarch.C73_valve`
* `Quarch.C73_standard`
* `Quarch.C74_valve_tangent_partial`
* `Quarch.C74_valve_bitangent_partial`
* `Quarch.C74_unrotated_tangent_partial`
* `Quarch.C74_unrotated_bitangent_partial`
* `Quarch.C74_axis_aligned_rotated`
* `Quarch.C74_valve_along_partial`
* `Quarch.C74_half_turns_partial`
* `Quarch.C74_reversed`
* `Quarch.C74_rotation_iff`
* `Quarch.C74_rotated_fails`
* `Quarch.C75_which_tokens`
* `Quarch.C75_leads`
* `Quarch.C75_newest`
* `Quarch.C75_last_occurrence`
* `Quarch.C76_read_what_was_written`
* `Quarch.C76_utf8_only`
* `Quarch.C76_not_text_is_an_error`
* `Quarch.C76_text_file`
* `Quarch.C76_save_then_read`
* `Quarch.C77_byte_order_mark`
* `Quarch.C77_indented_line`
* `Quarch.C77_marked_map_refused`
* `Quarch.C78_watertight`
* `Quarch.C78_once`
* `Quarch.C79_hull_is_brush`
* `Quarch.C80_concave_closed`
* `Quarch.C80_visual_closed`
* `Quarch.C81_corner_inside`
* `Quarch.C81_corner_on_planes`
* `Quarch.C83_face_center`
* `Quarch.C83_brush_center`
* `Quarch.C83_entity_center`
* `Quarch.C84_flat`
* `Quarch.C84_smooth`
* `Quarch.C85_covers`
* `Quarch.C85_no_overlap`
* `Quarch.C85_boundary`
* `Quarch.C86_position`
* `Quarch.C87_triangles`
* `Quarch.C87_picture`
* `Quarch.C87_everything`
* `Quarch.C88_convex`
* `Quarch.C88_concave`
* `Quarch.C88_filled`
* `Quarch.C88_covered`
* `Quarch.C89_report`
* `Quarch.C89_error_iff`
* `Quarch.C89_abort_iff`
* `Quarch.C89_same_result`
* `Quarch.C89_hidden`
* `Quarch.C90_face`
* `Quarch.C90_brush`
* `Quarch.C90_map`
* `Quarch.C90_wound`
* `Quarch.C91_text`
* `Quarch.C91_picture`
* `Quarch.C91_map`
* `Quarch.C91_loads`
* `Quarch.C92_text`
* `Quarch.C92_needs`
* `Quarch.C92_enough`
* `Quarch.C92_loads_iff`
* `Quarch.C93_shapes`
* `Quarch.C93_filled`
* `Quarch.C93_covered`
* `Quarch.C93_loads`
* `Quarch.C94_printed`
* `Quarch.C94_warned_iff`
* `Quarch.C94_unknown_iff`
* `Quarch.C94_stages`
* `Quarch.C95_printed`
* `Quarch.C95_failed`
* `Quarch.C96_aborts_iff`
* `Quarch.C96_line_aborts`
* `Quarch.C96_grid_iff`
* `Quarch.C96_loads_iff`
* `Quarch.C96_thin_aborts`
* `Quarch.C97_entity`
* `Quarch.C97_world`
* `Quarch.C97_removed`
* `Quarch.C97_added`
* `Quarch.C97_cut_out`
* `Quarch.C98_only_what_is_used`
* `Quarch.C98_unused`
* `Quarch.C99_hide_faces`
* `Quarch.C100_texturing`
* `Quarch.C101_moved`
* `Quarch.C102_same_triangles`
* `Quarch.C103_turned`
* `Quarch.C104_reordered`
* `Quarch.C105_scaled`
* `Quarch.C105_enlarged`
* `Quarch.C105_shrunk`
* `Quarch.C106_locked`
* `Quarch.C107_selected`
* `Quarch.C107_together`
* `Quarch.C107_names_differ`
* `Quarch.C108_corners_partial`
* `Quarch.C108_vanishes`
* `Quarch.C108_exact`
* `Quarch.C108_false`
* `Quarch.C108_partial`
* `Quarch.C109_cracked`
* `Quarch.C109_exact`
* `Quarch.C109_false`
* `Quarch.C109_box`
* `Quarch.C109_partial`
* `Quarch.C110_class`
* `Quarch.C110_layer`
* `Quarch.C110_white`
* `Quarch.C111_drawn_is_solid`
* `Quarch.C111_corners`
* `Quarch.C111_solid_is_drawn`
* `Quarch.C111_inside`
* `Quarch.C112_unreachable`
* `Quarch.C112_capitals`
* `Quarch.C112_wad_sizes`
* `Quarch.C114_consistent`
* `Quarch.C114_winding`
* `Quarch.C114_mixed`
* `Quarch.C115_standard`
* `Quarch.C115_valve`
* `Quarch.C115_tangent`
* `Quarch.C115_valve_tangent`
* `Quarch.C115_seam`
* `Quarch.C116_corner`
* `Quarch.C116_count`
* `Quarch.C116_builds`
* `Quarch.C117_corners`
* `Quarch.C117_seam`
* `Quarch.C117_exact`
* `Quarch.C118_outline`
* `Quarch.C118_facing`
* `Quarch.C119_pointed`
* `Quarch.C119_watertight`
* `Quarch.C119_once`
* `Quarch.C120_valve`
* `Quarch.C120_standard`
* `Quarch.C120_seam`
* `Quarch.C121_flat`
* `Quarch.C121_smooth`
* `Quarch.C121_angle`
* `Quarch.C121_shared`
* `Quarch.C122_valve`
* `Quarch.C122_standard`
* `Quarch.C123_picture`
* `Quarch.C123_everything`
* `Quarch.C123_loads`
* `Quarch.C124_filled`
* `Quarch.C124_covered`
* `Quarch.C124_loads`
* `Quarch.C125_facing`
* `Quarch.C125_picture`
* `Quarch.C125_everything`
* `Quarch.C125_filled`
* `Quarch.C125_covered`
* `Quarch.C125_loads`
* `Quarch.C125_solid_loads`
* `Quarch.C126_sources`
* `Quarch.C126_kept`
* `Quarch.C126_exact`
* `Quarch.C126_firm`
* `Quarch.C126_painted`
* `Quarch.C126_loads`
* `Quarch.C127_drawn`
* `Quarch.C127_solid`
* `Quarch.C127_drawn_firm`
* `Quarch.C127_solid_firm`
* `Quarch.C127_boxes`
* `Quarch.C127_loads`
* `Quarch.C127_drawn_pointed`
* `Quarch.C127_solid_pointed`
* `Quarch.C127_pointed_loads`
* `Quarch.C128_drawn`
* `Quarch.C128_normals`
* `Quarch.C128_solid`
* `Quarch.C128_drawn_firm`
* `Quarch.C128_solid_firm`
* `Quarch.C128_drawn_pointed`
* `Quarch.C128_solid_pointed`
* `Quarch.C129_inside`
* `Quarch.C129_volume`
* `Quarch.C129_concave`
* `Quarch.C129_measure`
* `Quarch.C129_concave_measure`
* `Quarch.C130_three_faces`
* `Quarch.C130_no_angle`
* `Quarch.C130_last_pair`
* `Quarch.C130_four_faces`
* `Quarch.C131_geometry`
* `Quarch.C131_exact`
* `Quarch.C131_single`
* `Quarch.C131_unique`
* `Quarch.C131_exponential`
* `Quarch.C132_exact`
* `Quarch.C132_single`
* `Quarch.C133_added`
* `Quarch.C134_faces`
* `Quarch.C134_center`
* `Quarch.C134_moved`
* `Quarch.C134_picture`
* `Quarch.C134_concave`
* `Quarch.C134_convex`
* `Quarch.C135_corners`
* `Quarch.C135_center`
* `Quarch.C135_picture`
* `Quarch.C135_solid`
* `Quarch.C136_face`
* `Quarch.C136_scene`
* `Quarch.C137_vanishes`
* `Quarch.C137_picture`
* `Quarch.C137_convex`
* `Quarch.C137_concave`
* `Quarch.C138_face`
* `Quarch.C138_picture`
* `Quarch.C138_concave`
* `Quarch.C138_convex`
* `Quarch.C139_vanishes`
* `Quarch.C139_picture`
* `Quarch.C139_convex`
* `Quarch.C139_concave`
* `Quarch.C140_brush`
* `Quarch.C140_empty`
* `Quarch.C141_proper`
* `Quarch.C141_scene`
* `Quarch.C142_triangles`
* `Quarch.C142_solid`
* `Quarch.C143_solid`
* `Quarch.C143_drawn`
* `Quarch.C144_drawn`
* `Quarch.C144_concave`
* `Quarch.C145_drawn`
* `Quarch.C145_concave`
* `Quarch.C146_solid`
* `Quarch.C146_drawn`
* `Quarch.C147_exact`
* `Quarch.C147_surface`
* `Quarch.C147_single`
* `Quarch.C147_surface_single`
* `Quarch.C148_surface`

## Quot.sound, propext

* `Quarch.C06_junk_has_no_effect`
* `Quarch.C08_truncated_loads`
* `Quarch.C18_split_by_texture`
* `Quarch.C18_nothing_lost`
* `Quarch.C19_fan`
* `Quarch.C19_indices_valid_all_used`
* `Quarch.C19_whole_map`
* `Quarch.C20_corners_distinct_complete`
* `Quarch.C23_order_independent`
* `Quarch.C23_success`
* `Quarch.C24_winding`
* `Quarch.C27_origin`
* `Quarch.C27_brushes_do_not_matter`
* `Quarch.C31_uv_and_color`
* `Quarch.C35_attributes_can_change`
* `Quarch.C38_unknown_texture_is_rendered`
* `Quarch.C46_group_loop`
* `Quarch.C60_palette_file`
* `Quarch.C61_rgb`
* `Quarch.C63_bad_levels`
* `Quarch.C64_visual`
* `Quarch.C64_collision`
* `Quarch.C64_class`
* `Quarch.C64_values`
* `Quarch.C65_entity`
* `Quarch.C65_game_data`
* `Quarch.C65_append`
* `Quarch.C66_equals_sign_needed`
* `Quarch.C66_quotes_needed`
* `Quarch.C67_exact`
* `Quarch.C67_joined_partial`
* `Quarch.C67_fails`
* `Quarch.C72_face_spoiled`
* `Quarch.C72_entity_spoiled`
* `Quarch.C76_encoding`
* `Quarch.C76_save_fails`
* `Quarch.C82_equivalence`
* `Quarch.C89_plain_text`
* `Quarch.C94_same_result`
* `Quarch.C95_same_result`
* `Quarch.C110_text`
* `Quarch.C113_sizes`
* `Quarch.C132_any`
* `Quarch.C133_removed`
* `Quarch.C133_missing_group`

## propext

* `Quarch.C52_order_matters`
* `Quarch.C71_flags_fail`
* `Quarch.C82_equal_iff`
* `Quarch.C82_hash`
* `Quarch.C95_conversion`
* `Quarch.C110_zero_bytes`
* `Quarch.C113_level`
* `Quarch.C113_palette`
