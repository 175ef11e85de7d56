"""Writes MANIFEST.json. Every theorem named in CLAIMS must occur in lean/Verif."""
import json, re, pathlib, sys

ROOT = pathlib.Path(__file__).resolve().parent.parent

# property -> (status, [theorems], note)
CLAIMS = {
    "C01": ("proved", ["C01_material"], ""),
    "C03": ("proved", ["C03_boundary_wellformed"], ""),
    "C04": ("proved", ["C04_angle_is_length"], ""),
    "C05": ("partial", ["C05_rejected_unchanged_partial", "C05_height_zero_accepted"],
            "violated by the code at height 0, which is accepted; every input the code rejects leaves the slope unchanged, and the accepted set is characterised exactly"),
    "C06": ("proved", ["C06_ground_profile", "C06_crest_and_toe"], ""),
    "C07": ("proved", ["C07_face_inverse"], "for positive height; at height 0 the face is flat and has no inverse"),
    "C08": ("proved", ["C08_enlarging_keeps_slope"], ""),
    "C09": ("proved", ["C09_materials_sorted"], ""),
    "C10": ("proved", ["C10_order_irrelevant"], ""),
    "C11": ("proved", ["C11_batch_is_incremental"], ""),
    "C12": ("proved", ["C12_duplicate_refused", "C12_accepted_otherwise", "C12_refused_still_enlarges"],
            "the last theorem is a side finding: a refused call may still enlarge the model"),
    "C13": ("partial", ["C13_remove_undoes_add_partial", "C13_depth_zero_stays"],
            "violated by the code at depth 0; holds at every other depth"),
    "C14": ("partial", ["C14_levels_agree_partial", "C14_levels_stale"],
            "violated by the code when a later call changes the crest level; holds otherwise"),
    "C02": ("proved", ["C02_signs_do_not_matter"], ""),
    "C15": ("proved", ["C15_loads_fit"], ""),
    "C16": ("partial", ["C16_remove_matches_partial", "C16_neighbours_stay"],
            "violated by the code when two neighbouring loads match: one stays; exact otherwise, and never removes a load that does not match"),
    "C17": ("partial", ["C17_max_after_set_partial", "C17_max_is_greatest_partial", "C17_max_not_a_number"],
            "violated by every remove_udls that leaves a load; holds after set_udls, and over all histories a recorded number is the greatest magnitude"),
    "C18": ("proved", ["C18_loads_in_place"], ""),
    "C19": ("partial", ["C19_water_level_partial", "C19_water_stale"],
            "violated by the code when a later call changes the crest level; holds otherwise"),
    "C20": ("proved", ["C20_water_factor"], ""),
    "C21": ("proved", ["C21_options_in_range"], ""),
    "C22": ("proved", ["C22_limits_ordered"], ""),
    "C53": ("partial", ["C53_auto_factor_partial", "C53_factor_stale"],
            "violated by the code when a later call changes the angle; holds otherwise"),
    "C54": ("partial", ["C54_single_limit_partial", "C54_right_x_left_alone_raises"],
            "violated by the code for right_x_left, which always raises alone; holds for the other three"),
    "C23": ("proved", ["C23_no_stale_results", "C23_getters"],
        "For every history of valid calls from the constructor in which no analysis raised."),
    "C24": ("partial", ["C24_results_partial", "C24_max_fos_zero"],
        "Proved for max_fos absent or not zero. With max_fos = 0 the limit is ignored: C24_max_fos_zero shows it with a concrete reachable object."),
    "C25": ("proved", ["C25_analysing_twice", "C25_configuration_untouched"],
        "Also for analyses that raise, and for two different values of max_fos."),
    "C26": ("proved", ["C26_individual_only", "C26_search_otherwise"], ""),
    "C27": ("partial", ["C27_failed_analysis_partial", "C27_failed_analysis_leaves_results"],
        "The code violates it: C27_failed_analysis_leaves_results is a concrete history. The partial theorem says exactly what a failed analysis leaves."),
    "C28": ("proved", ["C28_search_size"], ""),
    "C29": ("proved", ["C29_zero_division", "C29_thirteen_loads"],
        "Exact condition for the entry points; for the whole search when no load reaches over the crest. C29_thirteen_loads: it happens with 13 line loads and default options."),
    "C30": ("partial", ["C30_points_partial", "C30_entry_left_of_model"],
        "The code violates it for the points next to loads: C30_entry_left_of_model. All other points respect the limits."),
    "C31": ("proved", ["C31_through_both", "C31_radii", "C31_some_plane"], "Also for later circles as long as the recorded end points are the chosen points."),
    "C32": ("partial", ["C32_end_points_partial", "C32_stale_end_points"],
        "The code violates it when the boundary changes after an individual plane was added: C32_stale_end_points. Holds for searched planes in every reachable state and for individual planes while the ground stays."),
    "C33": ("proved", ["C33_circle_line_exact"], ""),
    "C34": ("proved", ["C34_ordered_and_apart"], ""),
    "C35": ("proved", ["C35_slices_tile"], ""),
    "C36": ("proved", ["C36_udl_conserved", "C36_slice_loads", "C36_C37_total_weight"], ""),
    "C37": ("proved", ["C37_line_load_once", "C36_slice_loads", "C36_C37_total_weight"], "The span is taken half-open: a line load exactly at its right end is over no slice, as in the code."),
    "C38": ("proved", ["C38_weight_of_the_soil", "C38_weight_laws"], ""),
    "C39": ("proved", ["C39_strength_at_the_base"], ""),
    "C40": ("partial", ["C40_nonneg_partial", "C40_negative"], "The property fails: with max_iterations 0 and a friction angle above 90 degrees a negative value is reported. Proved with max_iterations >= 1 or friction angles up to 90."),
    "C41": ("proved", ["C41_converged_or_out_of_turns"], "With Bishop's equation and the slices stated independently in Spec/Method.lean."),
    "C42": ("proved", ["C42_scale_free", "C42_history"], "The whole analysis, not only one circle; C42_history is about whole sequences of public calls, including the dynamic analysis."),
    "C43": ("partial", ["C43_water_never_raises_partial", "C43_water_can_raise"], "The property fails for friction angles above 90 degrees, which are accepted. Proved for angles up to 90."),
    "C44": ("proved", ["C44_cohesion_never_lowers"], ""),
    "C45": ("proved", ["C45_converges"], ""),
    "C56": ("proved", ["C56_no_friction"], ""),
    "C46": ("proved", ["C46_no_materials"], ""),
    "C55": ("proved", ["C55_ordinary_formula"], "An equivalence, with the slices of Spec/Method.lean."),
    "C47": ("proved", ["C47_set_dynamic_offset", "C47_only_dynamic_loads_move"], ""),
    "C48": ("proved", ["C48_bounded"], ""),
    "C49": ("partial", ["C49_return_codes_partial", "C49_not_farthest"],
            "False of the code: 1 is returned although a greater offset, on the model, is safe (C49_not_farthest)."),
    "C50": ("partial", ["C50_static_continuous_partial", "C50_continuous_raises", "C50_violated"],
            "False of the code: a dynamic load without a length always raises TypeError."),
    "C51": ("partial", ["C51_decimal_partial", "C51_decimal_raises", "C51_violated"],
            "False of the code: with a Decimal the loop always raises TypeError."),
    "C57": ("partial", ["C57_limits_kept_partial", "C57_limits_lost"],
            "False of the code: a call that raises the minimum size of the model drops the limits."),
    "C58": ("partial", ["C58_completes_partial", "C58_zero_division"],
            "False of the code when the factor of safety at the crest is the critical value: ZeroDivisionError."),
    "C59": ("proved", ["C59_offsets_in_range"], ""),
    "C60": ("proved", ["C60_all_planes", "C60_complete", "C60_left_to_right", "C60_critical", "C60_critical_complete"], ""),
    "C61": ("partial", ["C61_colour_partial", "C61_negative_raises"],
            "False of the code for negative factors of safety: KeyError. Exact for all others."),
    "C62": ("partial", ["C62_plot_ends_partial", "C62_raises_after_remove", "C62_raises_after_shrink"],
            "False of the code after remove_udls leaves a load, and when layer levels are stale."),
    "C63": ("partial", ["C63_layers_tile_partial", "C63_flat", "C14_levels_stale"],
            "Proved when the layer levels agree with the crest; a flat slope with one layer of depth 0 is drawn too small."),
    "C64": ("proved", ["C64_slopes_independent"], ""),
    "C65": ("partial", ["C65_shared_partial", "C65_shared_violated"],
            "violated: set_materials on one slope moves the shared layer of another above its ground, and plot_boundary of the other raises; values and order of the objects are kept"),
    "C66": ("proved", ["C66_references_as_copies"], ""),
    "C67": ("proved", ["C67_objects_keep_values"], ""),
    "C68": ("proved", ["C68_web_normal"], ""),
    "C69": ("partial", ["C69_web_dynamic_partial", "C69_continuous", "C69_never_found", "C69_offset_not_shown"],
            "violated: with a continuous dynamic load the page shows a normal analysis; when the "
            "analysis would find an offset the page shows the greatest one; C69_offset_not_shown is a form for which this happens"),
    "C70": ("proved", ["C70_analysis_ends", "C70_negative_centre"],
            "the second theorem shows that a condition of the first is needed"),
    "C71": ("partial", ["C71_web_answers_partial", "C71_default_materials"],
            "violated: two material forms left as they are raise; with friction the analysis may "
            "end in arithmetic without a value; an exact condition otherwise, for normal and dynamic analyses, with and without limits"),
    "C72": ("proved", ["C72_result_is_bishop"], "End points of planes added before a change of the boundary are the violation of C32."),
    "C73": ("partial", ["C73_far_pairs_partial", "C73_reported_closer"],
            "violated by the code: only the entry and exit points are that far apart, the end points reported with a circle may be closer"),
    "C74": ("proved", ["C74_slip_circle_has_fos"], ""),
    "C75": ("proved", ["C75_search_is_all_pairs"], ""),
    "C76": ("proved", ["C76_all_planes"], ""),
    "C77": ("proved", ["C77_page", "C77_form", "C77_reset", "C77_accepted_form"], "what is stored is taken to be what is read"),
    "C78": ("proved", ["C78_report", "C78_no_report"], "what is stored is taken to be what is read"),
    "C79": ("proved", ["C79_water_line"], ""),
    "C80": ("proved", ["C80_crest_to_face"], ""),
    "C81": ("proved", ["C81_steep_pair", "C81_steep_search"], ""),
    "C82": ("partial", ["C82_critical_drawn_partial", "C82_flat_not_drawn"],
            "violated by the code: no sampled point of a flat circle is kept and plot_critical raises IndexError; it holds when the arc reaches a little more than one degree of its circle under its left end"),
    "C83": ("proved", ["C83_alike", "C83_split_layer", "C83_split_pressure", "C83_split_length"], "an automatic search samples one more entry point for each load, so its circles, not their values, depend on the number of loads"),
    "C84": ("proved", ["C84_loads_drawn"], "hypothesis on Python's str: the text of a magnitude is decimal digits with or without a point, or an exponent form for values under 0.0001 or large integers"),
    "C85": ("proved", ["C85_limits_drawn"], ""),
    "C86": ("proved", ["C86_material_table"], ""),
    "C87": ("proved", ["C87_no_stale_results", "C87_options_in_range", "C87_dynamic_bounded", "C25_analysing_twice",
            "C25_configuration_untouched", "C26_individual_only", "C26_search_otherwise", "C27_failed_analysis_partial"],
            "theorems over any type of numbers with the operations the code uses, no law assumed; infinities and NaN "
            "make the model stop where the code may go on"),
    "C88": ("proved", ["C88_page_lines", "C88_default_slope"], ""),
    "C89": ("proved", ["C89_sound", "C89_returns"], ""),
    "C90": ("partial", ["C90_ends", "C90_numbers_partial", "C90_min_is_nan", "C90_min_is_not_least"],
            "the analysis ends; violated: a circle in ground without strength is reported with NaN, "
            "get_min_FOS can be NaN, and with max_fos it can be a factor of safety that is not the least; "
            "it holds when no analysed circle comes to 0 in Bishop's iteration"),
    "C91": ("proved", ["C91_model_size", "C91_analysis"],
            "for circles added one by one; the circles of the automatic search depend on the size of the model"),
    "C92": ("partial", ["C92_nan_objects", "C92_nan_slope", "C92_nan_water", "C92_nan_magnitude",
                        "C92_nan_max_fos", "C92_nan_cohesion", "C92_nan_reported", "C92_numbers_partial"],
            "violated: no check refuses NaN; depths, magnitudes and max_fos that are NaN are silently ignored "
            "or empty the results, and a cohesion NaN is reported as the factor of safety NaN. It holds that "
            "objects and slopes made with numbers hold numbers"),
    "C93": ("partial", ["C93_ordinary_partial", "C93_no_tension_partial", "C93_friction_lowers"],
            "violated: in a steep cohesive cut 30 degrees of friction lower the reported factor of safety. It holds "
            "for the ordinary method, and for Bishop's equation where bases dip to the toe and none is in tension"),
    "C94": ("proved", ["C94_water_no_matter", "C94_set_water_table"],
            "for a water table at or below the crest"),
    "C95": ("proved", ["C95_cohesion_clay"], "for a water table at or below the crest"),
    "C96": ("partial", ["C96_clay_partial", "C96_clay_found_partial", "C96_load_raises"],
            "violated: on a circle whose centre is left of the crest a line load of 1 kN/m raises the reported "
            "factor of safety. It holds in ground without friction for circles whose centre is right of the crest "
            "by half the width of a slice"),
    "C97": ("proved", ["C97_results", "C97_not_negative", "C97_reported"],
            "the model read at doubles with infinities and NaN, on every machine that rounds to nearest"),
    "C98": ("proved", ["C98_only_the_mass", "C98_analysis", "C98_load_off_the_mass", "C98_line_load_off_the_mass",
                       "C98_water_below_the_mass", "C98_material_below_the_mass"],
            "two slopes alike over the stretch of the circle and down to its lowest point, and the calls one by one"),
    "C99": ("proved", ["C99_more_circles", "C99_order"],
            "for slopes with at least one added circle; without one the automatic search is analysed instead (C26)"),
    "C100": ("partial", ["C100_higher_water_raises", "C100_ordinary_partial", "C100_bishop_partial"],
             "violated: raising the water from 60 cm below the crest to the crest raises the reported factor of safety "
             "of a 2 m bank, because slices that go under water get their pressure multiplied by cos² of the slope "
             "angle; it holds as long as no slice left of the toe goes under water, or when the factor is 1"),
    "C101": ("proved", ["C101_bishop", "C101_ordinary", "C101_reported"],
             "for corresponding circles that meet the ground at corresponding points in both models; the reported value "
             "is for the conditions of C74, under which the analysis reports one"),
    "C102": ("proved", ["C102_strength_times", "C102_divided_by_itself"],
             "on the model's own functions, every branch of them; in exact arithmetic"),
    "C103": ("partial", ["C103_below_ordinary", "C103_sand_partial", "C103_reported_partial"],
             "violated: in a 12 m cut with cohesion 100 and friction angle 30 the analysis reports less than the ordinary method; it holds in dry sand (no cohesion, one friction angle) for masses left of the centre"),
    "C104": ("partial", ["C104_not_within_tolerance", "C104_between_partial", "C104_reported_partial", "C104_close_partial"],
             "violated: the iteration stops when two values differ by less than the tolerance, which says nothing of the distance to the solution; in a 12 m cut with the default tolerance 0.005 the analysis reports more than 1 where Bishop's factor is below 1, off by more than the tolerance. It holds that the reported value is between the ordinary factor and Bishop's, and that small enough tolerances with enough turns come as close as wanted"),
    "C105": ("partial", ["C105_safe_at_the_crest_only", "C105_off_the_mass_partial", "C105_both_off_partial", "C105_reported_partial"],
             "violated: a load farther back presses on a steeper part of the circle; the dynamic analysis returns 0 for a slope that is below the critical factor with the load 1.5 m back. It holds, in ground without friction, between any position behind the crest and one farther back than the mass of every circle, also for the reported minimum, and positions behind the mass give equal outcomes in any ground"),
    "C106": ("partial", ["C106_cohesion_lowers_reported", "C106_small_tolerance_partial", "C106_drop_partial"],
             "violated: with the default tolerance a cohesion of 5.38 instead of 5.32 lowers the reported factor, because the iteration makes one more turn; it holds for every number of turns with a small enough tolerance, and the drop is at most the difference between the circle's ordinary and Bishop factor; without friction it holds (C95)"),
    "C107": ("partial", ["C107_note_partial", "C107_legend", "C107_colours_in_legend", "C107_same_colour_partial", "C107_two_colours"],
             "violated: plot_all_planes draws a failure of factor 1.34996 in the colour of 1.4 (rounded to 1.35, then to 1.4) and once more in the colour of 1.3; the colours are at most one tenth apart and equal unless the factor is within 0.0005 of the middle of two tenths; position, number and legend are proved"),
    "C108": ("proved", ["C108_printed"],
             "numbers from 0 to 10^16 (others are written with an exponent or a sign); str is a parameter with the hypothesis PythonStr"),
    "C109": ("partial", ["C109_ordinary_dry", "C109_bishop_dry", "C109_rise_partial", "C109_clay", "C109_sand", "C109_ordinary_sand", "C109_heavier_raises_reported"],
             "proved for the ordinary method, for the solution of Bishop's equation, in ground without friction or without cohesion, and for the reported value up to the difference of the methods; violated for the reported value (C109_heavier_raises_reported), since the iteration stops early"),
    "C110": ("proved", ["C110_ordinary", "C110_given_ends", "C110_circle", "C110_report", "C110_one_circle", "C110_double", "C110_tie"],
             "the crossings, the slices, the ordinary method and the iteration are continuous in the rounding errors; IEEE 754 arithmetic without overflow and underflow is an instance; the excluded coincidences are listed in NoTies, NoTiesBishop and NoTiesEnds, and C110_tie shows that one of them cannot be dropped; no explicit bound is given"),
    "C111": ("proved", ["C111_program", "C111_material"],
             "a step from the constructor to the report; the coincidences excluded at each call are listed in NoTiesCall and NoTiesRun, those of the circles in NoTiesEnds, NoTiesChord and NoTiesBishop; the search is C112; no explicit bound is given"),
    "C112": ("proved", ["C112_search"],
             "the coincidences excluded are listed in NoTiesSearch; the default search always has one (its last exit point is the end of the model, its first entry point is the other end), so the theorem is about searches with limits; Props/RoundingSearchCase.lean works out one with five circles"),
    "C113": ("proved", ["C113_order_irrelevant", "C113_batch_is_incremental", "C113_distinct_depths", "C113_remove_material", "C113_loads_added", "C113_line_loads_added", "C113_remove_loads"],
             "doubles without infinities and NaN; for depth 0 and matching neighbours see C13 and C16"),
    "C114": ("proved", ["C114_driving", "C114_ordinary", "C114_bishop", "C114_clay"],
             "the resisting sums with friction and loads are not compared; the ends have to be strictly inside the circle for the ordinary method, and Bishop's denominator away from 0"),
    "C115": ("partial", ["C115_program_partial", "C115_search_partial", "C115_dynamic_partial", "C115_jump"],
             "violated: each slice takes the strength of the layer in which the middle of its base lies, so the result jumps when the bottom of a layer passes such a point (C115_jump: a fixed jump within every neighbourhood of one depth). Proved away from coincidences of that kind (the NoTies predicates), for added circles, for the search and for dynamic analysis"),
    "C116": ("proved", ["C116_dynamic"],
             "away from coincidences (`NoTiesDynamic`): no offset is tried twice, no factor of safety is exactly critical, exactly 0.01 from the critical one or the one before, or exactly halfway between two numbers with three decimals; `floor` is exact, as it is in IEEE arithmetic. The results may be listed in another order"),
    "C117": ("proved", ["C117_version", "C117_report"],
             "ASCII digits; git run in the root directory is a function of its arguments"),
    "C118": ("partial", ["C118_no_git", "C118_import_partial", "C118_date_raises", "C118_blank_date_raises", "C118_count_raises", "C118_encoding_raises"],
             "violated: the output of `git show` and of `git rev-list --count` is used without a look at whether they worked, and output that is not UTF-8 is not caught; then the import raises AttributeError, TypeError or UnicodeDecodeError. In every other case it works"),
    "C119": ("proved", ["C119_identifies", "C119_plus_collides"],
             "the condition on '+' is needed: `C119_plus_collides`"),
    "C120": ("proved", ["C120_archive"],
             "names without commas, parentheses or white space at their ends, as git's rules and its output imply; ASCII digits"),
    "C121": ("partial", ["C121_udls_partial", "C121_lls_partial", "C121_water", "C121_limits", "C121_planes", "C121_far_load", "C121_udls_far_partial", "C121_lls_far_partial"],
             "violated for loads far from the crest: the model they make longer stays longer, the ground moves and circles added by the user do not (`C121_far_load`: the analysis then lists nothing). True in every other case, for loads the slope does not have already; and for loads at any distance the loads come back and every circle keeps its outcome seen from the crest (`C121_udls_far_partial`, `C121_lls_far_partial`)"),
    "C122": ("partial", ["C122_raise_changes_nothing_partial", "C122_materials_partial", "C122_boundary_options_partial", "C122_materials_violated", "C122_boundary_options_violated"],
             "violated by set_materials, which makes the model deeper before it looks for equal depths, and by update_boundary_options, which keeps an accepted height when the length is refused; proved for every other call, for set_materials inside the model, and exactly what update_boundary_options leaves"),
    "C123": ("partial", ["C123_no_dynamic_loads_partial", "C123_loads_left_elsewhere", "C25_analysing_twice", "C25_configuration_untouched", "C47_only_dynamic_loads_move"],
             "proved for analyse_slope (C25), and for analyse_dynamic of a slope without dynamic loads; violated with dynamic loads, which stay at the last offset tried (`C123_loads_left_elsewhere`: the factor of safety reported afterwards is lower than before)"),
    "C124": ("partial", ["C124_same_ground_partial", "C124_crest_moves", "C124_ground_moves"],
             "proved when the model is long enough for the loads at the greatest offset; violated otherwise: `C124_crest_moves` shows that with a dynamic distributed load the crest moves in every analysis that goes beyond the crest if the crest is further than twice the slope length from the side, and `C124_ground_moves` is a slope whose dynamic analysis raises IndexError because of it"),
    "C125": ("proved", ["C125_only_its_own", "C125_history"],
             "the size of the model and the limits of the search are not among the things listed: entering a load or a deep material can change them (C08, C57)"),
    "C126": ("partial", ["C126_any_order", "C126_new_slope", "C126_same_safety_partial", "C126_order_matters"],
             "what is entered and what each call answers is proved for every order; the safety factor for a new slope whose boundary is not entered again and whose materials and water fit the model, and otherwise if after both orders layers and water are at their depths, since a boundary entered later leaves them where they were (`C126_order_matters`)"),
    "C127": ("partial", ["C127_twice_partial", "C127_remove_again"],
             "missing: remove_udls and remove_lls of some loads, where the second call may take away what the first missed (`C127_remove_again`, see C16)"),
    "C128": ("proved", ["C128_udls_split", "C128_lls_split", "C128_udls_one_by_one", "C128_lls_one_by_one", "C128_udls_order", "C128_lls_order", "C128_udls_any_order", "C128_lls_any_order"],
             "in real arithmetic, where sums do not depend on their order"),
    "C129": ("proved", ["C129_last_counts"],
             "equality of the whole state and of the answer"),
    "C130": ("proved", ["C130_no_trace", "C130_no_trace_analysed"],
             "equality of the whole state, of the last answer and of all answers in between"),
    "C131": ("proved", ["C131_bound", "C131_any_arithmetic", "C131_min", "C25_analysing_twice"],
             "a bound of 0 is taken as no bound: see C24. C131_any_arithmetic and C25_analysing_twice hold with rounding and NaN as well; that the results with a bound come first in the list, and what follows of the least, is for exact arithmetic (with NaN among the results the list is not sorted: see C90)"),
    "C132": ("proved", ["C132_answers", "C132_analysis"],
             "dynamic analyses move loads, so they are not left out: see C123"),
    "C52": ("partial", ["C52_violated", "C52_margin_partial", "C52_exact_partial"],
            "violated: on every IEEE machine Slope(height=1, length=2.73) raises; it holds when the "
            "right limit is a little inside the model, and in exact arithmetic"),
}

def main():
    src = "\n".join(p.read_text() for p in (ROOT / "lean/Verif").rglob("*.lean"))
    names = set(re.findall(r"^theorem\s+(\S+)", src, re.M))
    ids = [json.loads(l)["id"] for l in open(ROOT / "properties.jsonl")]
    out, bad = [], []
    for i in ids:
        status, thms, note = CLAIMS.get(i, ("partial", [], "nothing proved yet"))
        bad += [t for t in thms if t not in names]
        out.append(dict(property=i, status=status,
                        theorems=["PySlope." + t for t in thms], note=note))
    if bad:
        sys.exit("unknown theorems: " + ", ".join(bad))
    json.dump({"claims": out}, open(ROOT / "MANIFEST.json", "w"), indent=1)

main()
