{
 "claims": [
  {
   "property": "C01",
   "status": "proved",
   "theorems": [
    "PySlope.C01_material"
   ],
   "note": ""
  },
  {
   "property": "C02",
   "status": "proved",
   "theorems": [
    "PySlope.C02_signs_do_not_matter"
   ],
   "note": ""
  },
  {
   "property": "C03",
   "status": "proved",
   "theorems": [
    "PySlope.C03_boundary_wellformed"
   ],
   "note": ""
  },
  {
   "property": "C04",
   "status": "proved",
   "theorems": [
    "PySlope.C04_angle_is_length"
   ],
   "note": ""
  },
  {
   "property": "C05",
   "status": "partial",
   "theorems": [
    "PySlope.C05_rejected_unchanged_partial",
    "PySlope.C05_height_zero_accepted"
   ],
   "note": "violated by the code at height 0, which is accepted; every input the code rejects leaves the slope unchanged, and the accepted set is characterised exactly"
  },
  {
   "property": "C06",
   "status": "proved",
   "theorems": [
    "PySlope.C06_ground_profile",
    "PySlope.C06_crest_and_toe"
   ],
   "note": ""
  },
  {
   "property": "C07",
   "status": "proved",
   "theorems": [
    "PySlope.C07_face_inverse"
   ],
   "note": "for positive height; at height 0 the face is flat and has no inverse"
  },
  {
   "property": "C08",
   "status": "proved",
   "theorems": [
    "PySlope.C08_enlarging_keeps_slope"
   ],
   "note": ""
  },
  {
   "property": "C09",
   "status": "proved",
   "theorems": [
    "PySlope.C09_materials_sorted"
   ],
   "note": ""
  },
  {
   "property": "C10",
   "status": "proved",
   "theorems": [
    "PySlope.C10_order_irrelevant"
   ],
   "note": ""
  },
  {
   "property": "C11",
   "status": "proved",
   "theorems": [
    "PySlope.C11_batch_is_incremental"
   ],
   "note": ""
  },
  {
   "property": "C12",
   "status": "proved",
   "theorems": [
    "PySlope.C12_duplicate_refused",
    "PySlope.C12_accepted_otherwise",
    "PySlope.C12_refused_still_enlarges"
   ],
   "note": "the last theorem is a side finding: a refused call may still enlarge the model"
  },
  {
   "property": "C13",
   "status": "partial",
   "theorems": [
    "PySlope.C13_remove_undoes_add_partial",
    "PySlope.C13_depth_zero_stays"
   ],
   "note": "violated by the code at depth 0; holds at every other depth"
  },
  {
   "property": "C14",
   "status": "partial",
   "theorems": [
    "PySlope.C14_levels_agree_partial",
    "PySlope.C14_levels_stale"
   ],
   "note": "violated by the code when a later call changes the crest level; holds otherwise"
  },
  {
   "property": "C15",
   "status": "proved",
   "theorems": [
    "PySlope.C15_loads_fit"
   ],
   "note": ""
  },
  {
   "property": "C16",
   "status": "partial",
   "theorems": [
    "PySlope.C16_remove_matches_partial",
    "PySlope.C16_neighbours_stay"
   ],
   "note": "violated by the code when two neighbouring loads match: one stays; exact otherwise, and never removes a load that does not match"
  },
  {
   "property": "C17",
   "status": "partial",
   "theorems": [
    "PySlope.C17_max_after_set_partial",
    "PySlope.C17_max_is_greatest_partial",
    "PySlope.C17_max_not_a_number"
   ],
   "note": "violated by every remove_udls that leaves a load; holds after set_udls, and over all histories a recorded number is the greatest magnitude"
  },
  {
   "property": "C18",
   "status": "proved",
   "theorems": [
    "PySlope.C18_loads_in_place"
   ],
   "note": ""
  },
  {
   "property": "C19",
   "status": "partial",
   "theorems": [
    "PySlope.C19_water_level_partial",
    "PySlope.C19_water_stale"
   ],
   "note": "violated by the code when a later call changes the crest level; holds otherwise"
  },
  {
   "property": "C20",
   "status": "proved",
   "theorems": [
    "PySlope.C20_water_factor"
   ],
   "note": ""
  },
  {
   "property": "C21",
   "status": "proved",
   "theorems": [
    "PySlope.C21_options_in_range"
   ],
   "note": ""
  },
  {
   "property": "C22",
   "status": "proved",
   "theorems": [
    "PySlope.C22_limits_ordered"
   ],
   "note": ""
  },
  {
   "property": "C23",
   "status": "proved",
   "theorems": [
    "PySlope.C23_no_stale_results",
    "PySlope.C23_getters"
   ],
   "note": "For every history of valid calls from the constructor in which no analysis raised."
  },
  {
   "property": "C24",
   "status": "partial",
   "theorems": [
    "PySlope.C24_results_partial",
    "PySlope.C24_max_fos_zero"
   ],
   "note": "Proved for max_fos absent or not zero. With max_fos = 0 the limit is ignored: C24_max_fos_zero shows it with a concrete reachable object."
  },
  {
   "property": "C25",
   "status": "proved",
   "theorems": [
    "PySlope.C25_analysing_twice",
    "PySlope.C25_configuration_untouched"
   ],
   "note": "Also for analyses that raise, and for two different values of max_fos."
  },
  {
   "property": "C26",
   "status": "proved",
   "theorems": [
    "PySlope.C26_individual_only",
    "PySlope.C26_search_otherwise"
   ],
   "note": ""
  },
  {
   "property": "C27",
   "status": "partial",
   "theorems": [
    "PySlope.C27_failed_analysis_partial",
    "PySlope.C27_failed_analysis_leaves_results"
   ],
   "note": "The code violates it: C27_failed_analysis_leaves_results is a concrete history. The partial theorem says exactly what a failed analysis leaves."
  },
  {
   "property": "C28",
   "status": "proved",
   "theorems": [
    "PySlope.C28_search_size"
   ],
   "note": ""
  },
  {
   "property": "C29",
   "status": "proved",
   "theorems": [
    "PySlope.C29_zero_division",
    "PySlope.C29_thirteen_loads"
   ],
   "note": "Exact condition for the entry points; for the whole search when no load reaches over the crest. C29_thirteen_loads: it happens with 13 line loads and default options."
  },
  {
   "property": "C30",
   "status": "partial",
   "theorems": [
    "PySlope.C30_points_partial",
    "PySlope.C30_entry_left_of_model"
   ],
   "note": "The code violates it for the points next to loads: C30_entry_left_of_model. All other points respect the limits."
  },
  {
   "property": "C31",
   "status": "proved",
   "theorems": [
    "PySlope.C31_through_both",
    "PySlope.C31_radii",
    "PySlope.C31_some_plane"
   ],
   "note": "Also for later circles as long as the recorded end points are the chosen points."
  },
  {
   "property": "C32",
   "status": "partial",
   "theorems": [
    "PySlope.C32_end_points_partial",
    "PySlope.C32_stale_end_points"
   ],
   "note": "The code violates it when the boundary changes after an individual plane was added: C32_stale_end_points. Holds for searched planes in every reachable state and for individual planes while the ground stays."
  },
  {
   "property": "C33",
   "status": "proved",
   "theorems": [
    "PySlope.C33_circle_line_exact"
   ],
   "note": ""
  },
  {
   "property": "C34",
   "status": "proved",
   "theorems": [
    "PySlope.C34_ordered_and_apart"
   ],
   "note": ""
  },
  {
   "property": "C35",
   "status": "proved",
   "theorems": [
    "PySlope.C35_slices_tile"
   ],
   "note": ""
  },
  {
   "property": "C36",
   "status": "proved",
   "theorems": [
    "PySlope.C36_udl_conserved",
    "PySlope.C36_slice_loads",
    "PySlope.C36_C37_total_weight"
   ],
   "note": ""
  },
  {
   "property": "C37",
   "status": "proved",
   "theorems": [
    "PySlope.C37_line_load_once",
    "PySlope.C36_slice_loads",
    "PySlope.C36_C37_total_weight"
   ],
   "note": "The span is taken half-open: a line load exactly at its right end is over no slice, as in the code."
  },
  {
   "property": "C38",
   "status": "proved",
   "theorems": [
    "PySlope.C38_weight_of_the_soil",
    "PySlope.C38_weight_laws"
   ],
   "note": ""
  },
  {
   "property": "C39",
   "status": "proved",
   "theorems": [
    "PySlope.C39_strength_at_the_base"
   ],
   "note": ""
  },
  {
   "property": "C40",
   "status": "partial",
   "theorems": [
    "PySlope.C40_nonneg_partial",
    "PySlope.C40_negative"
   ],
   "note": "The property fails: with max_iterations 0 and a friction angle above 90 degrees a negative value is reported. Proved with max_iterations >= 1 or friction angles up to 90."
  },
  {
   "property": "C41",
   "status": "proved",
   "theorems": [
    "PySlope.C41_converged_or_out_of_turns"
   ],
   "note": "With Bishop's equation and the slices stated independently in Spec/Method.lean."
  },
  {
   "property": "C42",
   "status": "proved",
   "theorems": [
    "PySlope.C42_scale_free",
    "PySlope.C42_history"
   ],
   "note": "The whole analysis, not only one circle; C42_history is about whole sequences of public calls, including the dynamic analysis."
  },
  {
   "property": "C43",
   "status": "partial",
   "theorems": [
    "PySlope.C43_water_never_raises_partial",
    "PySlope.C43_water_can_raise"
   ],
   "note": "The property fails for friction angles above 90 degrees, which are accepted. Proved for angles up to 90."
  },
  {
   "property": "C44",
   "status": "proved",
   "theorems": [
    "PySlope.C44_cohesion_never_lowers"
   ],
   "note": ""
  },
  {
   "property": "C45",
   "status": "proved",
   "theorems": [
    "PySlope.C45_converges"
   ],
   "note": ""
  },
  {
   "property": "C46",
   "status": "proved",
   "theorems": [
    "PySlope.C46_no_materials"
   ],
   "note": ""
  },
  {
   "property": "C47",
   "status": "proved",
   "theorems": [
    "PySlope.C47_set_dynamic_offset",
    "PySlope.C47_only_dynamic_loads_move"
   ],
   "note": ""
  },
  {
   "property": "C48",
   "status": "proved",
   "theorems": [
    "PySlope.C48_bounded"
   ],
   "note": ""
  },
  {
   "property": "C49",
   "status": "partial",
   "theorems": [
    "PySlope.C49_return_codes_partial",
    "PySlope.C49_not_farthest"
   ],
   "note": "False of the code: 1 is returned although a greater offset, on the model, is safe (C49_not_farthest)."
  },
  {
   "property": "C50",
   "status": "partial",
   "theorems": [
    "PySlope.C50_static_continuous_partial",
    "PySlope.C50_continuous_raises",
    "PySlope.C50_violated"
   ],
   "note": "False of the code: a dynamic load without a length always raises TypeError."
  },
  {
   "property": "C51",
   "status": "partial",
   "theorems": [
    "PySlope.C51_decimal_partial",
    "PySlope.C51_decimal_raises",
    "PySlope.C51_violated"
   ],
   "note": "False of the code: with a Decimal the loop always raises TypeError."
  },
  {
   "property": "C52",
   "status": "partial",
   "theorems": [
    "PySlope.C52_violated",
    "PySlope.C52_margin_partial",
    "PySlope.C52_exact_partial"
   ],
   "note": "violated: on every IEEE machine Slope(height=1, length=2.73) raises; it holds when the right limit is a little inside the model, and in exact arithmetic"
  },
  {
   "property": "C53",
   "status": "partial",
   "theorems": [
    "PySlope.C53_auto_factor_partial",
    "PySlope.C53_factor_stale"
   ],
   "note": "violated by the code when a later call changes the angle; holds otherwise"
  },
  {
   "property": "C54",
   "status": "partial",
   "theorems": [
    "PySlope.C54_single_limit_partial",
    "PySlope.C54_right_x_left_alone_raises"
   ],
   "note": "violated by the code for right_x_left, which always raises alone; holds for the other three"
  },
  {
   "property": "C55",
   "status": "proved",
   "theorems": [
    "PySlope.C55_ordinary_formula"
   ],
   "note": "An equivalence, with the slices of Spec/Method.lean."
  },
  {
   "property": "C56",
   "status": "proved",
   "theorems": [
    "PySlope.C56_no_friction"
   ],
   "note": ""
  },
  {
   "property": "C57",
   "status": "partial",
   "theorems": [
    "PySlope.C57_limits_kept_partial",
    "PySlope.C57_limits_lost"
   ],
   "note": "False of the code: a call that raises the minimum size of the model drops the limits."
  },
  {
   "property": "C58",
   "status": "partial",
   "theorems": [
    "PySlope.C58_completes_partial",
    "PySlope.C58_zero_division"
   ],
   "note": "False of the code when the factor of safety at the crest is the critical value: ZeroDivisionError."
  },
  {
   "property": "C59",
   "status": "proved",
   "theorems": [
    "PySlope.C59_offsets_in_range"
   ],
   "note": ""
  },
  {
   "property": "C60",
   "status": "proved",
   "theorems": [
    "PySlope.C60_all_planes",
    "PySlope.C60_complete",
    "PySlope.C60_left_to_right",
    "PySlope.C60_critical",
    "PySlope.C60_critical_complete"
   ],
   "note": ""
  },
  {
   "property": "C61",
   "status": "partial",
   "theorems": [
    "PySlope.C61_colour_partial",
    "PySlope.C61_negative_raises"
   ],
   "note": "False of the code for negative factors of safety: KeyError. Exact for all others."
  },
  {
   "property": "C62",
   "status": "partial",
   "theorems": [
    "PySlope.C62_plot_ends_partial",
    "PySlope.C62_raises_after_remove",
    "PySlope.C62_raises_after_shrink"
   ],
   "note": "False of the code after remove_udls leaves a load, and when layer levels are stale."
  },
  {
   "property": "C63",
   "status": "partial",
   "theorems": [
    "PySlope.C63_layers_tile_partial",
    "PySlope.C63_flat",
    "PySlope.C14_levels_stale"
   ],
   "note": "Proved when the layer levels agree with the crest; a flat slope with one layer of depth 0 is drawn too small."
  },
  {
   "property": "C64",
   "status": "proved",
   "theorems": [
    "PySlope.C64_slopes_independent"
   ],
   "note": ""
  },
  {
   "property": "C65",
   "status": "partial",
   "theorems": [
    "PySlope.C65_shared_partial",
    "PySlope.C65_shared_violated"
   ],
   "note": "violated: set_materials on one slope moves the shared layer of another above its ground, and plot_boundary of the other raises; values and order of the objects are kept"
  },
  {
   "property": "C66",
   "status": "proved",
   "theorems": [
    "PySlope.C66_references_as_copies"
   ],
   "note": ""
  },
  {
   "property": "C67",
   "status": "proved",
   "theorems": [
    "PySlope.C67_objects_keep_values"
   ],
   "note": ""
  },
  {
   "property": "C68",
   "status": "proved",
   "theorems": [
    "PySlope.C68_web_normal"
   ],
   "note": ""
  },
  {
   "property": "C69",
   "status": "partial",
   "theorems": [
    "PySlope.C69_web_dynamic_partial",
    "PySlope.C69_continuous",
    "PySlope.C69_never_found",
    "PySlope.C69_offset_not_shown"
   ],
   "note": "violated: with a continuous dynamic load the page shows a normal analysis; when the analysis would find an offset the page shows the greatest one; C69_offset_not_shown is a form for which this happens"
  },
  {
   "property": "C70",
   "status": "proved",
   "theorems": [
    "PySlope.C70_analysis_ends",
    "PySlope.C70_negative_centre"
   ],
   "note": "the second theorem shows that a condition of the first is needed"
  },
  {
   "property": "C71",
   "status": "partial",
   "theorems": [
    "PySlope.C71_web_answers_partial",
    "PySlope.C71_default_materials"
   ],
   "note": "violated: two material forms left as they are raise; with friction the analysis may end in arithmetic without a value; an exact condition otherwise, for normal and dynamic analyses, with and without limits"
  },
  {
   "property": "C72",
   "status": "proved",
   "theorems": [
    "PySlope.C72_result_is_bishop"
   ],
   "note": "End points of planes added before a change of the boundary are the violation of C32."
  },
  {
   "property": "C73",
   "status": "partial",
   "theorems": [
    "PySlope.C73_far_pairs_partial",
    "PySlope.C73_reported_closer"
   ],
   "note": "violated by the code: only the entry and exit points are that far apart, the end points reported with a circle may be closer"
  },
  {
   "property": "C74",
   "status": "proved",
   "theorems": [
    "PySlope.C74_slip_circle_has_fos"
   ],
   "note": ""
  },
  {
   "property": "C75",
   "status": "proved",
   "theorems": [
    "PySlope.C75_search_is_all_pairs"
   ],
   "note": ""
  },
  {
   "property": "C76",
   "status": "proved",
   "theorems": [
    "PySlope.C76_all_planes"
   ],
   "note": ""
  },
  {
   "property": "C77",
   "status": "proved",
   "theorems": [
    "PySlope.C77_page",
    "PySlope.C77_form",
    "PySlope.C77_reset",
    "PySlope.C77_accepted_form"
   ],
   "note": "what is stored is taken to be what is read"
  },
  {
   "property": "C78",
   "status": "proved",
   "theorems": [
    "PySlope.C78_report",
    "PySlope.C78_no_report"
   ],
   "note": "what is stored is taken to be what is read"
  },
  {
   "property": "C79",
   "status": "proved",
   "theorems": [
    "PySlope.C79_water_line"
   ],
   "note": ""
  },
  {
   "property": "C80",
   "status": "proved",
   "theorems": [
    "PySlope.C80_crest_to_face"
   ],
   "note": ""
  },
  {
   "property": "C81",
   "status": "proved",
   "theorems": [
    "PySlope.C81_steep_pair",
    "PySlope.C81_steep_search"
   ],
   "note": ""
  },
  {
   "property": "C82",
   "status": "partial",
   "theorems": [
    "PySlope.C82_critical_drawn_partial",
    "PySlope.C82_flat_not_drawn"
   ],
   "note": "violated by the code: no sampled point of a flat circle is kept and plot_critical raises IndexError; it holds when the arc reaches a little more than one degree of its circle under its left end"
  },
  {
   "property": "C83",
   "status": "proved",
   "theorems": [
    "PySlope.C83_alike",
    "PySlope.C83_split_layer",
    "PySlope.C83_split_pressure",
    "PySlope.C83_split_length"
   ],
   "note": "an automatic search samples one more entry point for each load, so its circles, not their values, depend on the number of loads"
  },
  {
   "property": "C84",
   "status": "proved",
   "theorems": [
    "PySlope.C84_loads_drawn"
   ],
   "note": "hypothesis on Python's str: the text of a magnitude is decimal digits with or without a point, or an exponent form for values under 0.0001 or large integers"
  },
  {
   "property": "C85",
   "status": "proved",
   "theorems": [
    "PySlope.C85_limits_drawn"
   ],
   "note": ""
  },
  {
   "property": "C86",
   "status": "proved",
   "theorems": [
    "PySlope.C86_material_table"
   ],
   "note": ""
  },
  {
   "property": "C87",
   "status": "proved",
   "theorems": [
    "PySlope.C87_no_stale_results",
    "PySlope.C87_options_in_range",
    "PySlope.C87_dynamic_bounded",
    "PySlope.C25_analysing_twice",
    "PySlope.C25_configuration_untouched",
    "PySlope.C26_individual_only",
    "PySlope.C26_search_otherwise",
    "PySlope.C27_failed_analysis_partial"
   ],
   "note": "theorems over any type of numbers with the operations the code uses, no law assumed; infinities and NaN make the model stop where the code may go on"
  },
  {
   "property": "C88",
   "status": "proved",
   "theorems": [
    "PySlope.C88_page_lines",
    "PySlope.C88_default_slope"
   ],
   "note": ""
  },
  {
   "property": "C89",
   "status": "proved",
   "theorems": [
    "PySlope.C89_sound",
    "PySlope.C89_returns"
   ],
   "note": ""
  },
  {
   "property": "C90",
   "status": "partial",
   "theorems": [
    "PySlope.C90_ends",
    "PySlope.C90_numbers_partial",
    "PySlope.C90_min_is_nan",
    "PySlope.C90_min_is_not_least"
   ],
   "note": "the analysis ends; violated: a circle in ground without strength is reported with NaN, get_min_FOS can be NaN, and with max_fos it can be a factor of safety that is not the least; it holds when no analysed circle comes to 0 in Bishop's iteration"
  },
  {
   "property": "C91",
   "status": "proved",
   "theorems": [
    "PySlope.C91_model_size",
    "PySlope.C91_analysis"
   ],
   "note": "for circles added one by one; the circles of the automatic search depend on the size of the model"
  },
  {
   "property": "C92",
   "status": "partial",
   "theorems": [
    "PySlope.C92_nan_objects",
    "PySlope.C92_nan_slope",
    "PySlope.C92_nan_water",
    "PySlope.C92_nan_magnitude",
    "PySlope.C92_nan_max_fos",
    "PySlope.C92_nan_cohesion",
    "PySlope.C92_nan_reported",
    "PySlope.C92_numbers_partial"
   ],
   "note": "violated: no check refuses NaN; depths, magnitudes and max_fos that are NaN are silently ignored or empty the results, and a cohesion NaN is reported as the factor of safety NaN. It holds that objects and slopes made with numbers hold numbers"
  },
  {
   "property": "C93",
   "status": "partial",
   "theorems": [
    "PySlope.C93_ordinary_partial",
    "PySlope.C93_no_tension_partial",
    "PySlope.C93_friction_lowers"
   ],
   "note": "violated: in a steep cohesive cut 30 degrees of friction lower the reported factor of safety. It holds for the ordinary method, and for Bishop's equation where bases dip to the toe and none is in tension"
  },
  {
   "property": "C94",
   "status": "proved",
   "theorems": [
    "PySlope.C94_water_no_matter",
    "PySlope.C94_set_water_table"
   ],
   "note": "for a water table at or below the crest"
  },
  {
   "property": "C95",
   "status": "proved",
   "theorems": [
    "PySlope.C95_cohesion_clay"
   ],
   "note": "for a water table at or below the crest"
  },
  {
   "property": "C96",
   "status": "partial",
   "theorems": [
    "PySlope.C96_clay_partial",
    "PySlope.C96_clay_found_partial",
    "PySlope.C96_load_raises"
   ],
   "note": "violated: on a circle whose centre is left of the crest a line load of 1 kN/m raises the reported factor of safety. It holds in ground without friction for circles whose centre is right of the crest by half the width of a slice"
  },
  {
   "property": "C97",
   "status": "proved",
   "theorems": [
    "PySlope.C97_results",
    "PySlope.C97_not_negative",
    "PySlope.C97_reported"
   ],
   "note": "the model read at doubles with infinities and NaN, on every machine that rounds to nearest"
  },
  {
   "property": "C98",
   "status": "proved",
   "theorems": [
    "PySlope.C98_only_the_mass",
    "PySlope.C98_analysis",
    "PySlope.C98_load_off_the_mass",
    "PySlope.C98_line_load_off_the_mass",
    "PySlope.C98_water_below_the_mass",
    "PySlope.C98_material_below_the_mass"
   ],
   "note": "two slopes alike over the stretch of the circle and down to its lowest point, and the calls one by one"
  },
  {
   "property": "C99",
   "status": "proved",
   "theorems": [
    "PySlope.C99_more_circles",
    "PySlope.C99_order"
   ],
   "note": "for slopes with at least one added circle; without one the automatic search is analysed instead (C26)"
  },
  {
   "property": "C100",
   "status": "partial",
   "theorems": [
    "PySlope.C100_higher_water_raises",
    "PySlope.C100_ordinary_partial",
    "PySlope.C100_bishop_partial"
   ],
   "note": "violated: raising the water from 60 cm below the crest to the crest raises the reported factor of safety of a 2 m bank, because slices that go under water get their pressure multiplied by cos\u00b2 of the slope angle; it holds as long as no slice left of the toe goes under water, or when the factor is 1"
  },
  {
   "property": "C101",
   "status": "proved",
   "theorems": [
    "PySlope.C101_bishop",
    "PySlope.C101_ordinary",
    "PySlope.C101_reported"
   ],
   "note": "for corresponding circles that meet the ground at corresponding points in both models; the reported value is for the conditions of C74, under which the analysis reports one"
  },
  {
   "property": "C102",
   "status": "proved",
   "theorems": [
    "PySlope.C102_strength_times",
    "PySlope.C102_divided_by_itself"
   ],
   "note": "on the model's own functions, every branch of them; in exact arithmetic"
  },
  {
   "property": "C103",
   "status": "partial",
   "theorems": [
    "PySlope.C103_below_ordinary",
    "PySlope.C103_sand_partial",
    "PySlope.C103_reported_partial"
   ],
   "note": "violated: in a 12 m cut with cohesion 100 and friction angle 30 the analysis reports less than the ordinary method; it holds in dry sand (no cohesion, one friction angle) for masses left of the centre"
  },
  {
   "property": "C104",
   "status": "partial",
   "theorems": [
    "PySlope.C104_not_within_tolerance",
    "PySlope.C104_between_partial",
    "PySlope.C104_reported_partial",
    "PySlope.C104_close_partial"
   ],
   "note": "violated: the iteration stops when two values differ by less than the tolerance, which says nothing of the distance to the solution; in a 12 m cut with the default tolerance 0.005 the analysis reports more than 1 where Bishop's factor is below 1, off by more than the tolerance. It holds that the reported value is between the ordinary factor and Bishop's, and that small enough tolerances with enough turns come as close as wanted"
  },
  {
   "property": "C105",
   "status": "partial",
   "theorems": [
    "PySlope.C105_safe_at_the_crest_only",
    "PySlope.C105_off_the_mass_partial",
    "PySlope.C105_both_off_partial",
    "PySlope.C105_reported_partial"
   ],
   "note": "violated: a load farther back presses on a steeper part of the circle; the dynamic analysis returns 0 for a slope that is below the critical factor with the load 1.5 m back. It holds, in ground without friction, between any position behind the crest and one farther back than the mass of every circle, also for the reported minimum, and positions behind the mass give equal outcomes in any ground"
  },
  {
   "property": "C106",
   "status": "partial",
   "theorems": [
    "PySlope.C106_cohesion_lowers_reported",
    "PySlope.C106_small_tolerance_partial",
    "PySlope.C106_drop_partial"
   ],
   "note": "violated: with the default tolerance a cohesion of 5.38 instead of 5.32 lowers the reported factor, because the iteration makes one more turn; it holds for every number of turns with a small enough tolerance, and the drop is at most the difference between the circle's ordinary and Bishop factor; without friction it holds (C95)"
  },
  {
   "property": "C107",
   "status": "partial",
   "theorems": [
    "PySlope.C107_note_partial",
    "PySlope.C107_legend",
    "PySlope.C107_colours_in_legend",
    "PySlope.C107_same_colour_partial",
    "PySlope.C107_two_colours"
   ],
   "note": "violated: plot_all_planes draws a failure of factor 1.34996 in the colour of 1.4 (rounded to 1.35, then to 1.4) and once more in the colour of 1.3; the colours are at most one tenth apart and equal unless the factor is within 0.0005 of the middle of two tenths; position, number and legend are proved"
  },
  {
   "property": "C108",
   "status": "proved",
   "theorems": [
    "PySlope.C108_printed"
   ],
   "note": "numbers from 0 to 10^16 (others are written with an exponent or a sign); str is a parameter with the hypothesis PythonStr"
  },
  {
   "property": "C109",
   "status": "partial",
   "theorems": [
    "PySlope.C109_ordinary_dry",
    "PySlope.C109_bishop_dry",
    "PySlope.C109_rise_partial",
    "PySlope.C109_clay",
    "PySlope.C109_sand",
    "PySlope.C109_ordinary_sand",
    "PySlope.C109_heavier_raises_reported"
   ],
   "note": "proved for the ordinary method, for the solution of Bishop's equation, in ground without friction or without cohesion, and for the reported value up to the difference of the methods; violated for the reported value (C109_heavier_raises_reported), since the iteration stops early"
  },
  {
   "property": "C110",
   "status": "proved",
   "theorems": [
    "PySlope.C110_ordinary",
    "PySlope.C110_given_ends",
    "PySlope.C110_circle",
    "PySlope.C110_report",
    "PySlope.C110_one_circle",
    "PySlope.C110_double",
    "PySlope.C110_tie"
   ],
   "note": "the crossings, the slices, the ordinary method and the iteration are continuous in the rounding errors; IEEE 754 arithmetic without overflow and underflow is an instance; the excluded coincidences are listed in NoTies, NoTiesBishop and NoTiesEnds, and C110_tie shows that one of them cannot be dropped; no explicit bound is given"
  },
  {
   "property": "C111",
   "status": "proved",
   "theorems": [
    "PySlope.C111_program",
    "PySlope.C111_material"
   ],
   "note": "a step from the constructor to the report; the coincidences excluded at each call are listed in NoTiesCall and NoTiesRun, those of the circles in NoTiesEnds, NoTiesChord and NoTiesBishop; the search is C112; no explicit bound is given"
  },
  {
   "property": "C112",
   "status": "proved",
   "theorems": [
    "PySlope.C112_search"
   ],
   "note": "the coincidences excluded are listed in NoTiesSearch; the default search always has one (its last exit point is the end of the model, its first entry point is the other end), so the theorem is about searches with limits; Props/RoundingSearchCase.lean works out one with five circles"
  },
  {
   "property": "C113",
   "status": "proved",
   "theorems": [
    "PySlope.C113_order_irrelevant",
    "PySlope.C113_batch_is_incremental",
    "PySlope.C113_distinct_depths",
    "PySlope.C113_remove_material",
    "PySlope.C113_loads_added",
    "PySlope.C113_line_loads_added",
    "PySlope.C113_remove_loads"
   ],
   "note": "doubles without infinities and NaN; for depth 0 and matching neighbours see C13 and C16"
  },
  {
   "property": "C114",
   "status": "proved",
   "theorems": [
    "PySlope.C114_driving",
    "PySlope.C114_ordinary",
    "PySlope.C114_bishop",
    "PySlope.C114_clay"
   ],
   "note": "the resisting sums with friction and loads are not compared; the ends have to be strictly inside the circle for the ordinary method, and Bishop's denominator away from 0"
  },
  {
   "property": "C115",
   "status": "partial",
   "theorems": [
    "PySlope.C115_program_partial",
    "PySlope.C115_search_partial",
    "PySlope.C115_dynamic_partial",
    "PySlope.C115_jump"
   ],
   "note": "violated: each slice takes the strength of the layer in which the middle of its base lies, so the result jumps when the bottom of a layer passes such a point (C115_jump: a fixed jump within every neighbourhood of one depth). Proved away from coincidences of that kind (the NoTies predicates), for added circles, for the search and for dynamic analysis"
  },
  {
   "property": "C116",
   "status": "proved",
   "theorems": [
    "PySlope.C116_dynamic"
   ],
   "note": "away from coincidences (`NoTiesDynamic`): no offset is tried twice, no factor of safety is exactly critical, exactly 0.01 from the critical one or the one before, or exactly halfway between two numbers with three decimals; `floor` is exact, as it is in IEEE arithmetic. The results may be listed in another order"
  },
  {
   "property": "C117",
   "status": "proved",
   "theorems": [
    "PySlope.C117_version",
    "PySlope.C117_report"
   ],
   "note": "ASCII digits; git run in the root directory is a function of its arguments"
  },
  {
   "property": "C118",
   "status": "partial",
   "theorems": [
    "PySlope.C118_no_git",
    "PySlope.C118_import_partial",
    "PySlope.C118_date_raises",
    "PySlope.C118_blank_date_raises",
    "PySlope.C118_count_raises",
    "PySlope.C118_encoding_raises"
   ],
   "note": "violated: the output of `git show` and of `git rev-list --count` is used without a look at whether they worked, and output that is not UTF-8 is not caught; then the import raises AttributeError, TypeError or UnicodeDecodeError. In every other case it works"
  },
  {
   "property": "C119",
   "status": "proved",
   "theorems": [
    "PySlope.C119_identifies",
    "PySlope.C119_plus_collides"
   ],
   "note": "the condition on '+' is needed: `C119_plus_collides`"
  },
  {
   "property": "C120",
   "status": "proved",
   "theorems": [
    "PySlope.C120_archive"
   ],
   "note": "names without commas, parentheses or white space at their ends, as git's rules and its output imply; ASCII digits"
  },
  {
   "property": "C121",
   "status": "partial",
   "theorems": [
    "PySlope.C121_udls_partial",
    "PySlope.C121_lls_partial",
    "PySlope.C121_water",
    "PySlope.C121_limits",
    "PySlope.C121_planes",
    "PySlope.C121_far_load",
    "PySlope.C121_udls_far_partial",
    "PySlope.C121_lls_far_partial"
   ],
   "note": "violated for loads far from the crest: the model they make longer stays longer, the ground moves and circles added by the user do not (`C121_far_load`: the analysis then lists nothing). True in every other case, for loads the slope does not have already; and for loads at any distance the loads come back and every circle keeps its outcome seen from the crest (`C121_udls_far_partial`, `C121_lls_far_partial`)"
  },
  {
   "property": "C122",
   "status": "partial",
   "theorems": [
    "PySlope.C122_raise_changes_nothing_partial",
    "PySlope.C122_materials_partial",
    "PySlope.C122_boundary_options_partial",
    "PySlope.C122_materials_violated",
    "PySlope.C122_boundary_options_violated"
   ],
   "note": "violated by set_materials, which makes the model deeper before it looks for equal depths, and by update_boundary_options, which keeps an accepted height when the length is refused; proved for every other call, for set_materials inside the model, and exactly what update_boundary_options leaves"
  },
  {
   "property": "C123",
   "status": "partial",
   "theorems": [
    "PySlope.C123_no_dynamic_loads_partial",
    "PySlope.C123_loads_left_elsewhere",
    "PySlope.C25_analysing_twice",
    "PySlope.C25_configuration_untouched",
    "PySlope.C47_only_dynamic_loads_move"
   ],
   "note": "proved for analyse_slope (C25), and for analyse_dynamic of a slope without dynamic loads; violated with dynamic loads, which stay at the last offset tried (`C123_loads_left_elsewhere`: the factor of safety reported afterwards is lower than before)"
  },
  {
   "property": "C124",
   "status": "partial",
   "theorems": [
    "PySlope.C124_same_ground_partial",
    "PySlope.C124_crest_moves",
    "PySlope.C124_ground_moves"
   ],
   "note": "proved when the model is long enough for the loads at the greatest offset; violated otherwise: `C124_crest_moves` shows that with a dynamic distributed load the crest moves in every analysis that goes beyond the crest if the crest is further than twice the slope length from the side, and `C124_ground_moves` is a slope whose dynamic analysis raises IndexError because of it"
  },
  {
   "property": "C125",
   "status": "proved",
   "theorems": [
    "PySlope.C125_only_its_own",
    "PySlope.C125_history"
   ],
   "note": "the size of the model and the limits of the search are not among the things listed: entering a load or a deep material can change them (C08, C57)"
  },
  {
   "property": "C126",
   "status": "partial",
   "theorems": [
    "PySlope.C126_any_order",
    "PySlope.C126_new_slope",
    "PySlope.C126_same_safety_partial",
    "PySlope.C126_order_matters"
   ],
   "note": "what is entered and what each call answers is proved for every order; the safety factor for a new slope whose boundary is not entered again and whose materials and water fit the model, and otherwise if after both orders layers and water are at their depths, since a boundary entered later leaves them where they were (`C126_order_matters`)"
  },
  {
   "property": "C127",
   "status": "partial",
   "theorems": [
    "PySlope.C127_twice_partial",
    "PySlope.C127_remove_again"
   ],
   "note": "missing: remove_udls and remove_lls of some loads, where the second call may take away what the first missed (`C127_remove_again`, see C16)"
  },
  {
   "property": "C128",
   "status": "proved",
   "theorems": [
    "PySlope.C128_udls_split",
    "PySlope.C128_lls_split",
    "PySlope.C128_udls_one_by_one",
    "PySlope.C128_lls_one_by_one",
    "PySlope.C128_udls_order",
    "PySlope.C128_lls_order",
    "PySlope.C128_udls_any_order",
    "PySlope.C128_lls_any_order"
   ],
   "note": "in real arithmetic, where sums do not depend on their order"
  },
  {
   "property": "C129",
   "status": "proved",
   "theorems": [
    "PySlope.C129_last_counts"
   ],
   "note": "equality of the whole state and of the answer"
  },
  {
   "property": "C130",
   "status": "proved",
   "theorems": [
    "PySlope.C130_no_trace",
    "PySlope.C130_no_trace_analysed"
   ],
   "note": "equality of the whole state, of the last answer and of all answers in between"
  },
  {
   "property": "C131",
   "status": "proved",
   "theorems": [
    "PySlope.C131_bound",
    "PySlope.C131_any_arithmetic",
    "PySlope.C131_min",
    "PySlope.C25_analysing_twice"
   ],
   "note": "a bound of 0 is taken as no bound: see C24. C131_any_arithmetic and C25_analysing_twice hold with rounding and NaN as well; that the results with a bound come first in the list, and what follows of the least, is for exact arithmetic (with NaN among the results the list is not sorted: see C90)"
  },
  {
   "property": "C132",
   "status": "proved",
   "theorems": [
    "PySlope.C132_answers",
    "PySlope.C132_analysis"
   ],
   "note": "dynamic analyses move loads, so they are not left out: see C123"
  }
 ]
}