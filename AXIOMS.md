# Axioms of the theorems in MANIFEST.json

Written by `tools/axioms.sh` from `#print axioms`.

| Theorem | Axioms |
|---|---|
| `PySlope.C01_material` | propext, Classical.choice, Quot.sound |
| `PySlope.C02_signs_do_not_matter` | propext, Classical.choice, Quot.sound |
| `PySlope.C03_boundary_wellformed` | propext, Classical.choice, Quot.sound |
| `PySlope.C04_angle_is_length` | propext, Classical.choice, Quot.sound |
| `PySlope.C05_rejected_unchanged_partial` | propext, Classical.choice, Quot.sound |
| `PySlope.C05_height_zero_accepted` | propext, Classical.choice, Quot.sound |
| `PySlope.C06_ground_profile` | propext, Classical.choice, Quot.sound |
| `PySlope.C06_crest_and_toe` | propext, Classical.choice, Quot.sound |
| `PySlope.C07_face_inverse` | propext, Classical.choice, Quot.sound |
| `PySlope.C08_enlarging_keeps_slope` | propext, Classical.choice, Quot.sound |
| `PySlope.C09_materials_sorted` | propext, Classical.choice, Quot.sound |
| `PySlope.C10_order_irrelevant` | propext, Classical.choice, Quot.sound |
| `PySlope.C11_batch_is_incremental` | propext, Classical.choice, Quot.sound |
| `PySlope.C12_duplicate_refused` | propext, Classical.choice, Quot.sound |
| `PySlope.C12_accepted_otherwise` | propext, Classical.choice, Quot.sound |
| `PySlope.C12_refused_still_enlarges` | propext, Classical.choice, Quot.sound |
| `PySlope.C13_remove_undoes_add_partial` | propext, Classical.choice, Quot.sound |
| `PySlope.C13_depth_zero_stays` | propext, Classical.choice, Quot.sound |
| `PySlope.C14_levels_agree_partial` | propext, Classical.choice, Quot.sound |
| `PySlope.C14_levels_stale` | propext, Classical.choice, Quot.sound |
| `PySlope.C15_loads_fit` | propext, Classical.choice, Quot.sound |
| `PySlope.C16_remove_matches_partial` | propext, Classical.choice, Quot.sound |
| `PySlope.C16_neighbours_stay` | propext, Classical.choice, Quot.sound |
| `PySlope.C17_max_after_set_partial` | propext, Classical.choice, Quot.sound |
| `PySlope.C17_max_is_greatest_partial` | propext, Classical.choice, Quot.sound |
| `PySlope.C17_max_not_a_number` | propext, Classical.choice, Quot.sound |
| `PySlope.C18_loads_in_place` | propext, Classical.choice, Quot.sound |
| `PySlope.C19_water_level_partial` | propext, Classical.choice, Quot.sound |
| `PySlope.C19_water_stale` | propext, Classical.choice, Quot.sound |
| `PySlope.C20_water_factor` | propext, Classical.choice, Quot.sound |
| `PySlope.C21_options_in_range` | propext, Classical.choice, Quot.sound |
| `PySlope.C22_limits_ordered` | propext, Classical.choice, Quot.sound |
| `PySlope.C23_no_stale_results` | propext, Classical.choice, Quot.sound |
| `PySlope.C23_getters` | propext, Classical.choice, Quot.sound |
| `PySlope.C24_results_partial` | propext, Classical.choice, Quot.sound |
| `PySlope.C24_max_fos_zero` | propext, Classical.choice, Quot.sound |
| `PySlope.C25_analysing_twice` | propext, Quot.sound |
| `PySlope.C25_configuration_untouched` | propext, Quot.sound |
| `PySlope.C26_individual_only` | propext, Quot.sound |
| `PySlope.C26_search_otherwise` | propext, Quot.sound |
| `PySlope.C27_failed_analysis_partial` | propext, Quot.sound |
| `PySlope.C27_failed_analysis_leaves_results` | propext, Classical.choice, Quot.sound |
| `PySlope.C28_search_size` | propext, Classical.choice, Quot.sound |
| `PySlope.C29_zero_division` | propext, Classical.choice, Quot.sound |
| `PySlope.C29_thirteen_loads` | propext, Classical.choice, Quot.sound |
| `PySlope.C30_points_partial` | propext, Classical.choice, Quot.sound |
| `PySlope.C30_entry_left_of_model` | propext, Classical.choice, Quot.sound |
| `PySlope.C31_through_both` | propext, Classical.choice, Quot.sound |
| `PySlope.C31_radii` | propext, Classical.choice, Quot.sound |
| `PySlope.C31_some_plane` | propext, Classical.choice, Quot.sound |
| `PySlope.C32_end_points_partial` | propext, Classical.choice, Quot.sound |
| `PySlope.C32_stale_end_points` | propext, Classical.choice, Quot.sound |
| `PySlope.C33_circle_line_exact` | propext, Classical.choice, Quot.sound |
| `PySlope.C34_ordered_and_apart` | propext, Classical.choice, Quot.sound |
| `PySlope.C35_slices_tile` | propext, Classical.choice, Quot.sound |
| `PySlope.C36_udl_conserved` | propext, Classical.choice, Quot.sound |
| `PySlope.C36_slice_loads` | propext, Classical.choice, Quot.sound |
| `PySlope.C36_C37_total_weight` | propext, Classical.choice, Quot.sound |
| `PySlope.C37_line_load_once` | propext, Classical.choice, Quot.sound |
| `PySlope.C38_weight_of_the_soil` | propext, Classical.choice, Quot.sound |
| `PySlope.C38_weight_laws` | propext, Classical.choice, Quot.sound |
| `PySlope.C39_strength_at_the_base` | propext, Classical.choice, Quot.sound |
| `PySlope.C40_nonneg_partial` | propext, Classical.choice, Quot.sound |
| `PySlope.C40_negative` | propext, Classical.choice, Quot.sound |
| `PySlope.C41_converged_or_out_of_turns` | propext, Classical.choice, Quot.sound |
| `PySlope.C42_scale_free` | propext, Classical.choice, Quot.sound |
| `PySlope.C42_history` | propext, Classical.choice, Quot.sound |
| `PySlope.C43_water_never_raises_partial` | propext, Classical.choice, Quot.sound |
| `PySlope.C43_water_can_raise` | propext, Classical.choice, Quot.sound |
| `PySlope.C44_cohesion_never_lowers` | propext, Classical.choice, Quot.sound |
| `PySlope.C45_converges` | propext, Classical.choice, Quot.sound |
| `PySlope.C46_no_materials` | propext, Classical.choice, Quot.sound |
| `PySlope.C47_set_dynamic_offset` | propext, Classical.choice, Quot.sound |
| `PySlope.C47_only_dynamic_loads_move` | propext, Classical.choice, Quot.sound |
| `PySlope.C48_bounded` | propext, Classical.choice, Quot.sound |
| `PySlope.C49_return_codes_partial` | propext, Classical.choice, Quot.sound |
| `PySlope.C49_not_farthest` | propext, Classical.choice, Quot.sound |
| `PySlope.C50_static_continuous_partial` | propext, Classical.choice, Quot.sound |
| `PySlope.C50_continuous_raises` | propext, Classical.choice, Quot.sound |
| `PySlope.C50_violated` | propext, Classical.choice, Quot.sound |
| `PySlope.C51_decimal_partial` | propext, Classical.choice, Quot.sound |
| `PySlope.C51_decimal_raises` | propext, Classical.choice, Quot.sound |
| `PySlope.C51_violated` | propext, Classical.choice, Quot.sound |
| `PySlope.C52_violated` | propext, Classical.choice, Quot.sound |
| `PySlope.C52_margin_partial` | propext, Classical.choice, Quot.sound |
| `PySlope.C52_exact_partial` | propext, Classical.choice, Quot.sound |
| `PySlope.C53_auto_factor_partial` | propext, Classical.choice, Quot.sound |
| `PySlope.C53_factor_stale` | propext, Classical.choice, Quot.sound |
| `PySlope.C54_single_limit_partial` | propext, Classical.choice, Quot.sound |
| `PySlope.C54_right_x_left_alone_raises` | propext, Classical.choice, Quot.sound |
| `PySlope.C55_ordinary_formula` | propext, Classical.choice, Quot.sound |
| `PySlope.C56_no_friction` | propext, Classical.choice, Quot.sound |
| `PySlope.C57_limits_kept_partial` | propext, Classical.choice, Quot.sound |
| `PySlope.C57_limits_lost` | propext, Classical.choice, Quot.sound |
| `PySlope.C58_completes_partial` | propext, Classical.choice, Quot.sound |
| `PySlope.C58_zero_division` | propext, Classical.choice, Quot.sound |
| `PySlope.C59_offsets_in_range` | propext, Classical.choice, Quot.sound |
| `PySlope.C60_all_planes` | propext, Classical.choice, Quot.sound |
| `PySlope.C60_complete` | propext, Classical.choice, Quot.sound |
| `PySlope.C60_left_to_right` | propext, Classical.choice, Quot.sound |
| `PySlope.C60_critical` | propext, Classical.choice, Quot.sound |
| `PySlope.C60_critical_complete` | propext, Classical.choice, Quot.sound |
| `PySlope.C61_colour_partial` | propext, Classical.choice, Quot.sound |
| `PySlope.C61_negative_raises` | propext, Classical.choice, Quot.sound |
| `PySlope.C62_plot_ends_partial` | propext, Classical.choice, Quot.sound |
| `PySlope.C62_raises_after_remove` | propext, Classical.choice, Quot.sound |
| `PySlope.C62_raises_after_shrink` | propext, Classical.choice, Quot.sound |
| `PySlope.C63_layers_tile_partial` | propext, Classical.choice, Quot.sound |
| `PySlope.C63_flat` | propext, Classical.choice, Quot.sound |
| `PySlope.C64_slopes_independent` | propext, Classical.choice, Quot.sound |
| `PySlope.C65_shared_partial` | propext, Classical.choice, Quot.sound |
| `PySlope.C65_shared_violated` | propext, Classical.choice, Quot.sound |
| `PySlope.C66_references_as_copies` | propext, Classical.choice, Quot.sound |
| `PySlope.C67_objects_keep_values` | propext, Classical.choice, Quot.sound |
| `PySlope.C68_web_normal` | propext, Classical.choice, Quot.sound |
| `PySlope.C69_web_dynamic_partial` | propext, Classical.choice, Quot.sound |
| `PySlope.C69_continuous` | propext, Classical.choice, Quot.sound |
| `PySlope.C69_never_found` | propext, Classical.choice, Quot.sound |
| `PySlope.C69_offset_not_shown` | propext, Classical.choice, Quot.sound |
| `PySlope.C70_analysis_ends` | propext, Classical.choice, Quot.sound |
| `PySlope.C70_negative_centre` | propext, Classical.choice, Quot.sound |
| `PySlope.C71_web_answers_partial` | propext, Classical.choice, Quot.sound |
| `PySlope.C71_default_materials` | propext, Classical.choice, Quot.sound |
| `PySlope.C72_result_is_bishop` | propext, Classical.choice, Quot.sound |
| `PySlope.C73_far_pairs_partial` | propext, Classical.choice, Quot.sound |
| `PySlope.C73_reported_closer` | propext, Classical.choice, Quot.sound |
| `PySlope.C74_slip_circle_has_fos` | propext, Classical.choice, Quot.sound |
| `PySlope.C75_search_is_all_pairs` | propext, Classical.choice, Quot.sound |
| `PySlope.C76_all_planes` | propext, Classical.choice, Quot.sound |
| `PySlope.C77_page` | propext, Classical.choice, Quot.sound |
| `PySlope.C77_form` | propext, Quot.sound |
| `PySlope.C77_reset` | propext, Quot.sound |
| `PySlope.C77_accepted_form` | propext, Classical.choice, Quot.sound |
| `PySlope.C78_report` | propext, Classical.choice, Quot.sound |
| `PySlope.C78_no_report` | propext, Quot.sound |
| `PySlope.C79_water_line` | propext, Classical.choice, Quot.sound |
| `PySlope.C80_crest_to_face` | propext, Classical.choice, Quot.sound |
| `PySlope.C81_steep_pair` | propext, Classical.choice, Quot.sound |
| `PySlope.C81_steep_search` | propext, Classical.choice, Quot.sound |
| `PySlope.C82_critical_drawn_partial` | propext, Classical.choice, Quot.sound |
| `PySlope.C82_flat_not_drawn` | propext, Classical.choice, Quot.sound |
| `PySlope.C83_alike` | propext, Classical.choice, Quot.sound |
| `PySlope.C83_split_layer` | propext, Classical.choice, Quot.sound |
| `PySlope.C83_split_pressure` | propext, Classical.choice, Quot.sound |
| `PySlope.C83_split_length` | propext, Classical.choice, Quot.sound |
| `PySlope.C84_loads_drawn` | propext, Classical.choice, Quot.sound |
| `PySlope.C85_limits_drawn` | propext, Classical.choice, Quot.sound |
| `PySlope.C86_material_table` | propext, Classical.choice, Quot.sound |
| `PySlope.C87_no_stale_results` | propext, Quot.sound |
| `PySlope.C87_options_in_range` | propext, Quot.sound |
| `PySlope.C87_dynamic_bounded` | propext, Classical.choice, Quot.sound |
| `PySlope.C88_page_lines` | propext, Classical.choice, Quot.sound |
| `PySlope.C88_default_slope` | propext, Classical.choice, Quot.sound |
| `PySlope.C89_sound` | propext, Classical.choice, Quot.sound |
| `PySlope.C89_returns` | propext, Classical.choice, Quot.sound |
| `PySlope.C90_ends` | propext, Classical.choice, Quot.sound |
| `PySlope.C90_numbers_partial` | propext, Classical.choice, Quot.sound |
| `PySlope.C90_min_is_nan` | propext, Classical.choice, Quot.sound |
| `PySlope.C90_min_is_not_least` | propext, Classical.choice, Quot.sound |
| `PySlope.C91_model_size` | propext, Classical.choice, Quot.sound |
| `PySlope.C91_analysis` | propext, Classical.choice, Quot.sound |
| `PySlope.C92_nan_objects` | propext, Classical.choice, Quot.sound |
| `PySlope.C92_nan_slope` | propext, Classical.choice, Quot.sound |
| `PySlope.C92_nan_water` | propext, Classical.choice, Quot.sound |
| `PySlope.C92_nan_magnitude` | propext, Classical.choice, Quot.sound |
| `PySlope.C92_nan_max_fos` | propext, Classical.choice, Quot.sound |
| `PySlope.C92_nan_cohesion` | propext, Classical.choice, Quot.sound |
| `PySlope.C92_nan_reported` | propext, Classical.choice, Quot.sound |
| `PySlope.C92_numbers_partial` | propext, Classical.choice, Quot.sound |
| `PySlope.C93_ordinary_partial` | propext, Classical.choice, Quot.sound |
| `PySlope.C93_no_tension_partial` | propext, Classical.choice, Quot.sound |
| `PySlope.C93_friction_lowers` | propext, Classical.choice, Quot.sound |
| `PySlope.C94_water_no_matter` | propext, Classical.choice, Quot.sound |
| `PySlope.C94_set_water_table` | propext, Classical.choice, Quot.sound |
| `PySlope.C95_cohesion_clay` | propext, Classical.choice, Quot.sound |
| `PySlope.C96_clay_partial` | propext, Classical.choice, Quot.sound |
| `PySlope.C96_clay_found_partial` | propext, Classical.choice, Quot.sound |
| `PySlope.C96_load_raises` | propext, Classical.choice, Quot.sound |
| `PySlope.C97_results` | propext, Classical.choice, Quot.sound |
| `PySlope.C97_not_negative` | propext, Classical.choice, Quot.sound |
| `PySlope.C97_reported` | propext, Classical.choice, Quot.sound |
| `PySlope.C98_only_the_mass` | propext, Classical.choice, Quot.sound |
| `PySlope.C98_analysis` | propext, Classical.choice, Quot.sound |
| `PySlope.C98_load_off_the_mass` | propext, Classical.choice, Quot.sound |
| `PySlope.C98_line_load_off_the_mass` | propext, Classical.choice, Quot.sound |
| `PySlope.C98_water_below_the_mass` | propext, Classical.choice, Quot.sound |
| `PySlope.C98_material_below_the_mass` | propext, Classical.choice, Quot.sound |
| `PySlope.C99_more_circles` | propext, Classical.choice, Quot.sound |
| `PySlope.C99_order` | propext, Classical.choice, Quot.sound |
| `PySlope.C100_higher_water_raises` | propext, Classical.choice, Quot.sound |
| `PySlope.C100_ordinary_partial` | propext, Classical.choice, Quot.sound |
| `PySlope.C100_bishop_partial` | propext, Classical.choice, Quot.sound |
| `PySlope.C101_bishop` | propext, Classical.choice, Quot.sound |
| `PySlope.C101_ordinary` | propext, Classical.choice, Quot.sound |
| `PySlope.C101_reported` | propext, Classical.choice, Quot.sound |
| `PySlope.C102_strength_times` | propext, Classical.choice, Quot.sound |
| `PySlope.C102_divided_by_itself` | propext, Classical.choice, Quot.sound |
| `PySlope.C103_below_ordinary` | propext, Classical.choice, Quot.sound |
| `PySlope.C103_sand_partial` | propext, Classical.choice, Quot.sound |
| `PySlope.C103_reported_partial` | propext, Classical.choice, Quot.sound |
| `PySlope.C104_not_within_tolerance` | propext, Classical.choice, Quot.sound |
| `PySlope.C104_between_partial` | propext, Classical.choice, Quot.sound |
| `PySlope.C104_reported_partial` | propext, Classical.choice, Quot.sound |
| `PySlope.C104_close_partial` | propext, Classical.choice, Quot.sound |
| `PySlope.C105_safe_at_the_crest_only` | propext, Classical.choice, Quot.sound |
| `PySlope.C105_off_the_mass_partial` | propext, Classical.choice, Quot.sound |
| `PySlope.C105_both_off_partial` | propext, Classical.choice, Quot.sound |
| `PySlope.C105_reported_partial` | propext, Classical.choice, Quot.sound |
| `PySlope.C106_cohesion_lowers_reported` | propext, Classical.choice, Quot.sound |
| `PySlope.C106_small_tolerance_partial` | propext, Classical.choice, Quot.sound |
| `PySlope.C106_drop_partial` | propext, Classical.choice, Quot.sound |
| `PySlope.C107_note_partial` | propext, Classical.choice, Quot.sound |
| `PySlope.C107_legend` | propext, Classical.choice, Quot.sound |
| `PySlope.C107_colours_in_legend` | propext, Classical.choice, Quot.sound |
| `PySlope.C107_same_colour_partial` | propext, Classical.choice, Quot.sound |
| `PySlope.C107_two_colours` | propext, Classical.choice, Quot.sound |
| `PySlope.C108_printed` | propext, Classical.choice, Quot.sound |
| `PySlope.C109_ordinary_dry` | propext, Classical.choice, Quot.sound |
| `PySlope.C109_bishop_dry` | propext, Classical.choice, Quot.sound |
| `PySlope.C109_rise_partial` | propext, Classical.choice, Quot.sound |
| `PySlope.C109_clay` | propext, Classical.choice, Quot.sound |
| `PySlope.C109_sand` | propext, Classical.choice, Quot.sound |
| `PySlope.C109_ordinary_sand` | propext, Classical.choice, Quot.sound |
| `PySlope.C109_heavier_raises_reported` | propext, Classical.choice, Quot.sound |
| `PySlope.C110_ordinary` | propext, Classical.choice, Quot.sound |
| `PySlope.C110_given_ends` | propext, Classical.choice, Quot.sound |
| `PySlope.C110_circle` | propext, Classical.choice, Quot.sound |
| `PySlope.C110_report` | propext, Classical.choice, Quot.sound |
| `PySlope.C110_one_circle` | propext, Classical.choice, Quot.sound |
| `PySlope.C110_double` | propext, Classical.choice, Quot.sound |
| `PySlope.C110_tie` | propext, Classical.choice, Quot.sound |
| `PySlope.C111_program` | propext, Classical.choice, Quot.sound |
| `PySlope.C111_material` | propext, Classical.choice, Quot.sound |
| `PySlope.C112_search` | propext, Classical.choice, Quot.sound |
| `PySlope.C113_order_irrelevant` | propext, Classical.choice, Quot.sound |
| `PySlope.C113_batch_is_incremental` | propext, Classical.choice, Quot.sound |
| `PySlope.C113_distinct_depths` | propext, Classical.choice, Quot.sound |
| `PySlope.C113_remove_material` | propext, Classical.choice, Quot.sound |
| `PySlope.C113_loads_added` | propext, Classical.choice, Quot.sound |
| `PySlope.C113_line_loads_added` | propext, Classical.choice, Quot.sound |
| `PySlope.C113_remove_loads` | propext, Classical.choice, Quot.sound |
| `PySlope.C114_driving` | propext, Classical.choice, Quot.sound |
| `PySlope.C114_ordinary` | propext, Classical.choice, Quot.sound |
| `PySlope.C114_bishop` | propext, Classical.choice, Quot.sound |
| `PySlope.C114_clay` | propext, Classical.choice, Quot.sound |
| `PySlope.C115_program_partial` | propext, Classical.choice, Quot.sound |
| `PySlope.C115_search_partial` | propext, Classical.choice, Quot.sound |
| `PySlope.C115_dynamic_partial` | propext, Classical.choice, Quot.sound |
| `PySlope.C115_jump` | propext, Classical.choice, Quot.sound |
| `PySlope.C116_dynamic` | propext, Classical.choice, Quot.sound |
| `PySlope.C117_version` | propext, Classical.choice, Quot.sound |
| `PySlope.C117_report` | propext, Classical.choice, Quot.sound |
| `PySlope.C118_no_git` | propext, Classical.choice, Quot.sound |
| `PySlope.C118_import_partial` | propext, Classical.choice, Quot.sound |
| `PySlope.C118_date_raises` | propext, Classical.choice, Quot.sound |
| `PySlope.C118_blank_date_raises` | propext, Classical.choice, Quot.sound |
| `PySlope.C118_count_raises` | propext, Classical.choice, Quot.sound |
| `PySlope.C118_encoding_raises` | propext, Classical.choice, Quot.sound |
| `PySlope.C119_identifies` | propext, Classical.choice, Quot.sound |
| `PySlope.C119_plus_collides` | propext, Classical.choice, Quot.sound |
| `PySlope.C120_archive` | propext, Classical.choice, Quot.sound |
| `PySlope.C121_udls_partial` | propext, Classical.choice, Quot.sound |
| `PySlope.C121_lls_partial` | propext, Classical.choice, Quot.sound |
| `PySlope.C121_water` | propext, Classical.choice, Quot.sound |
| `PySlope.C121_limits` | propext, Classical.choice, Quot.sound |
| `PySlope.C121_planes` | propext, Classical.choice, Quot.sound |
| `PySlope.C121_far_load` | propext, Classical.choice, Quot.sound |
| `PySlope.C121_udls_far_partial` | propext, Classical.choice, Quot.sound |
| `PySlope.C121_lls_far_partial` | propext, Classical.choice, Quot.sound |
| `PySlope.C122_raise_changes_nothing_partial` | propext, Classical.choice, Quot.sound |
| `PySlope.C122_materials_partial` | propext, Classical.choice, Quot.sound |
| `PySlope.C122_boundary_options_partial` | propext, Classical.choice, Quot.sound |
| `PySlope.C122_materials_violated` | propext, Classical.choice, Quot.sound |
| `PySlope.C122_boundary_options_violated` | propext, Classical.choice, Quot.sound |
| `PySlope.C123_no_dynamic_loads_partial` | propext, Classical.choice, Quot.sound |
| `PySlope.C123_loads_left_elsewhere` | propext, Classical.choice, Quot.sound |
| `PySlope.C124_same_ground_partial` | propext, Classical.choice, Quot.sound |
| `PySlope.C124_crest_moves` | propext, Classical.choice, Quot.sound |
| `PySlope.C124_ground_moves` | propext, Classical.choice, Quot.sound |
| `PySlope.C125_only_its_own` | propext, Classical.choice, Quot.sound |
| `PySlope.C125_history` | propext, Classical.choice, Quot.sound |
| `PySlope.C126_any_order` | propext, Classical.choice, Quot.sound |
| `PySlope.C126_new_slope` | propext, Classical.choice, Quot.sound |
| `PySlope.C126_same_safety_partial` | propext, Classical.choice, Quot.sound |
| `PySlope.C126_order_matters` | propext, Classical.choice, Quot.sound |
| `PySlope.C127_twice_partial` | propext, Classical.choice, Quot.sound |
| `PySlope.C127_remove_again` | propext, Classical.choice, Quot.sound |
| `PySlope.C128_udls_split` | propext, Classical.choice, Quot.sound |
| `PySlope.C128_lls_split` | propext, Classical.choice, Quot.sound |
| `PySlope.C128_udls_one_by_one` | propext, Classical.choice, Quot.sound |
| `PySlope.C128_lls_one_by_one` | propext, Classical.choice, Quot.sound |
| `PySlope.C128_udls_order` | propext, Classical.choice, Quot.sound |
| `PySlope.C128_lls_order` | propext, Classical.choice, Quot.sound |
| `PySlope.C128_udls_any_order` | propext, Classical.choice, Quot.sound |
| `PySlope.C128_lls_any_order` | propext, Classical.choice, Quot.sound |
| `PySlope.C129_last_counts` | propext, Classical.choice, Quot.sound |
| `PySlope.C130_no_trace` | propext, Classical.choice, Quot.sound |
| `PySlope.C130_no_trace_analysed` | propext, Classical.choice, Quot.sound |
| `PySlope.C131_bound` | propext, Classical.choice, Quot.sound |
| `PySlope.C131_any_arithmetic` | propext, Quot.sound |
| `PySlope.C131_min` | propext, Classical.choice, Quot.sound |
| `PySlope.C132_answers` | propext, Classical.choice, Quot.sound |
| `PySlope.C132_analysis` | propext, Classical.choice, Quot.sound |
