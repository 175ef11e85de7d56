{"id": "C01", "title": "Material accepts exactly the documented values and normalises them", "statement": "Material(uw, phi, c, d) succeeds exactly when uw is a number in [1,50], phi a number >= 0, c and d plain numbers and name/color strings or None; otherwise it raises. The object then has cohesion |c|, depth |d| and tan(phi) of the given angle.", "quantifier": "every combination of argument values and kinds (number, number subclass, None, other)", "why_tests_cant": "the accepted set is a product of infinite domains", "anchors": ["pyslope/pyslope.py:Material", "pyslope/data_validation.py:assert_range"]}
{"id": "C02", "title": "Loads do not depend on the sign of their inputs", "statement": "Udl and LineLoad built from m,o,l and from values with any signs flipped are the same load, with non-negative magnitude and offset; a length of 0 or None means continuous.", "quantifier": "all numbers and all sign choices", "why_tests_cant": "infinite domain", "anchors": ["pyslope/pyslope.py:Udl", "pyslope/pyslope.py:LineLoad"]}
{"id": "C03", "title": "Accepted boundary gives a well-formed model", "statement": "After an accepted set_external_boundary the model is at least the requested minimum in both directions, the slope is centred, crest and toe differ by exactly (length, -height), and everything lies in the model box.", "quantifier": "every height, angle, length and minimum dimensions", "why_tests_cant": "continuum of geometries", "anchors": ["pyslope/pyslope.py:Slope.set_external_boundary"]}
{"id": "C04", "title": "Angle and length describe the same slope", "statement": "A slope given by an angle in (0,90) has gradient tan(angle) (when the length is not clamped to 0.001), and giving the resulting length instead yields the same model.", "quantifier": "every height and angle", "why_tests_cant": "continuum", "anchors": ["pyslope/pyslope.py:Slope.set_external_boundary"]}
{"id": "C05", "title": "Rejected boundary raises and changes nothing", "statement": "Boundary inputs outside the documented range raise ValueError and leave the slope unchanged.", "quantifier": "every state and every invalid input", "why_tests_cant": "every reachable state", "anchors": ["pyslope/pyslope.py:Slope.set_external_boundary", "pyslope/data_validation.py:assert_strictly_positive_number"]}
{"id": "C06", "title": "Ground surface is a well-defined non-increasing profile", "statement": "get_external_y_intersection(x) is a number exactly for x in [0, L], never increases with x, equals crest level left of the crest and toe level right of the toe.", "quantifier": "every reachable slope, every x", "why_tests_cant": "continuum of x", "anchors": ["pyslope/pyslope.py:Slope.get_external_y_intersection"]}
{"id": "C07", "title": "x and y intersections are inverse on the face", "statement": "On the slope face, x of y of x is x and y of x of y is y.", "quantifier": "every reachable slope, every point of the face", "why_tests_cant": "continuum", "anchors": ["pyslope/pyslope.py:Slope.get_external_x_intersection", "pyslope/pyslope.py:Slope.get_external_y_intersection"]}
{"id": "C08", "title": "Enlarging the model keeps the slope relative to its crest", "statement": "update_boundary_options keeps height, length and gradient, and every load keeps its distance from the crest unless it is cut by the model edge.", "quantifier": "every state and option values", "why_tests_cant": "all states", "anchors": ["pyslope/pyslope.py:Slope.update_boundary_options"]}
{"id": "C09", "title": "Materials are always sorted with distinct depths", "statement": "After any sequence of API calls, including ones that raise, the materials are strictly increasing in depth.", "quantifier": "every history of calls", "why_tests_cant": "unbounded histories", "anchors": ["pyslope/pyslope.py:Slope.set_materials", "pyslope/pyslope.py:Slope.remove_material"]}
{"id": "C10", "title": "Order of materials does not matter", "statement": "set_materials with the arguments in any order gives the same layers.", "quantifier": "every list of materials and every permutation", "why_tests_cant": "n! orders of unbounded lists", "anchors": ["pyslope/pyslope.py:Slope.set_materials"]}
{"id": "C11", "title": "Adding materials together or one at a time is the same", "statement": "set_materials(a, b) and set_materials(a); set_materials(b) give the same layers.", "quantifier": "all lists of materials", "why_tests_cant": "unbounded lists", "anchors": ["pyslope/pyslope.py:Slope.set_materials"]}
{"id": "C12", "title": "Duplicate depth is refused", "statement": "Giving a depth that is already used, or twice, raises ValueError and the list of materials is unchanged.", "quantifier": "every state and list", "why_tests_cant": "unbounded", "anchors": ["pyslope/pyslope.py:Slope.set_materials"]}
{"id": "C13", "title": "Removing a material undoes adding it", "statement": "After adding a material with a new depth and removing it, the remaining materials are those from before.", "quantifier": "every state and material", "why_tests_cant": "unbounded", "anchors": ["pyslope/pyslope.py:Slope.remove_material"]}
{"id": "C14", "title": "Layer levels agree with the crest", "statement": "Each layer bottom is at crest level minus its depth, and the model is deep enough for every layer.", "quantifier": "every history of calls", "why_tests_cant": "a later call can invalidate it", "anchors": ["pyslope/pyslope.py:Slope.set_materials", "pyslope/pyslope.py:Slope.update_boundary_options"]}
{"id": "C15", "title": "Loads fit in the model", "statement": "After set_udls / set_lls every load added lies on the ground left of the crest, inside the model.", "quantifier": "every state and list of loads", "why_tests_cant": "unbounded", "anchors": ["pyslope/pyslope.py:Slope.set_udls", "pyslope/pyslope.py:Slope.set_lls"]}
{"id": "C16", "title": "Removing loads removes all that match and nothing else", "statement": "remove_udls(u) / remove_lls(l) leaves exactly the loads that do not match.", "quantifier": "every list of loads", "why_tests_cant": "mutation during iteration depends on positions", "anchors": ["pyslope/pyslope.py:Slope.remove_udls", "pyslope/pyslope.py:Slope.remove_lls"]}
{"id": "C17", "title": "Load bookkeeping stays usable after a removal", "statement": "After remove_udls the slope can still be plotted: the recorded maximum is a number.", "quantifier": "every history", "why_tests_cant": "history-dependent attribute type", "anchors": ["pyslope/pyslope.py:Slope.remove_udls", "pyslope/pyslope.py:Slope._plot_udl"]}
{"id": "C18", "title": "Load positions always agree with the geometry", "statement": "In every reachable state each load is where its offset and length put it relative to the current crest.", "quantifier": "every history", "why_tests_cant": "unbounded histories", "anchors": ["pyslope/pyslope.py:Slope._update_udl_coordinates", "pyslope/pyslope.py:Slope._update_ll_coordinates"]}
{"id": "C19", "title": "Water level agrees with the requested depth", "statement": "The water level is crest level minus the depth last set (not below 0), in every reachable state.", "quantifier": "every history", "why_tests_cant": "a later call can invalidate it", "anchors": ["pyslope/pyslope.py:Slope.set_water_table"]}
{"id": "C20", "title": "Water factor is between 0 and 1", "statement": "The factor on water pressure is in [0,1] in every reachable state; automatic means cos^2 of the slope angle.", "quantifier": "every history", "why_tests_cant": "unbounded histories", "anchors": ["pyslope/pyslope.py:Slope.update_water_analysis_options"]}
{"id": "C21", "title": "Slices and iterations stay in range", "statement": "Slices is in [10,500] and iterations in [500,100000] in every reachable state.", "quantifier": "every history", "why_tests_cant": "unbounded histories", "anchors": ["pyslope/pyslope.py:Slope.update_analysis_options"]}
{"id": "C22", "title": "Search limits are always ordered", "statement": "0 <= l1 < l2 <= crest <= l3 < l4 <= L in every reachable state; limits out of order raise ValueError and change nothing.", "quantifier": "every history and every limit values", "why_tests_cant": "unbounded histories", "anchors": ["pyslope/pyslope.py:Slope.set_analysis_limits"]}
{"id": "C23", "title": "No stale results", "statement": "After any history in which analyses did not raise, the stored results are empty or are those of analysing the present configuration.", "quantifier": "every history", "why_tests_cant": "unbounded histories", "anchors": ["pyslope/pyslope.py:Slope._reset_results", "pyslope/pyslope.py:Slope.analyse_slope"]}
{"id": "C24", "title": "Results are sorted, complete and filtered", "statement": "After a successful analysis the results are sorted by factor of safety, contain every analysed plane that has one, at most max_fos when given, and get_min_FOS is the least.", "quantifier": "every configuration", "why_tests_cant": "every set of planes", "anchors": ["pyslope/pyslope.py:Slope.analyse_slope", "pyslope/pyslope.py:Slope.get_min_FOS"]}
{"id": "C25", "title": "Analysing twice gives the same results", "statement": "A second analyse_slope with the same arguments leaves the same results and does not touch the configuration.", "quantifier": "every configuration", "why_tests_cant": "all configurations", "anchors": ["pyslope/pyslope.py:Slope.analyse_slope"]}
{"id": "C26", "title": "Individual planes are exclusive", "statement": "When individual planes exist exactly those are analysed; otherwise the search planes are.", "quantifier": "every configuration", "why_tests_cant": "all configurations", "anchors": ["pyslope/pyslope.py:Slope.analyse_slope"]}
{"id": "C27", "title": "A failed analysis leaves no results", "statement": "If analyse_slope raises, no result of it can be read.", "quantifier": "every configuration where it raises", "why_tests_cant": "crash points", "anchors": ["pyslope/pyslope.py:Slope.analyse_slope"]}
{"id": "C28", "title": "Search size", "statement": "The search tries at least the requested number of candidates before loads are taken off and the counting loop ends.", "quantifier": "every iterations value", "why_tests_cant": "all values", "anchors": ["pyslope/pyslope.py:Slope._set_entry_exit_planes"]}
{"id": "C29", "title": "Exactly when the search divides by zero", "statement": "Generating the entry points raises ZeroDivisionError exactly when the number of loads is one less than the number of top points.", "quantifier": "every configuration", "why_tests_cant": "all combinations of loads and iterations", "anchors": ["pyslope/pyslope.py:Slope._set_entry_exit_planes"]}
{"id": "C30", "title": "Search points respect the limits", "statement": "Entry points lie in [l1,l2] and exit points in [l3,l4].", "quantifier": "every configuration", "why_tests_cant": "all configurations", "anchors": ["pyslope/pyslope.py:Slope._set_entry_exit_planes"]}
{"id": "C31", "title": "Generated circles pass through the chosen points", "statement": "The first circle tried for an entry and an exit point passes through both.", "quantifier": "every pair of points and number of circles", "why_tests_cant": "continuum", "anchors": ["pyslope/pyslope.py:Slope._generate_planes", "pyslope/utilities.py:circle_centre"]}
{"id": "C32", "title": "Recorded end points are on the circle and on the ground", "statement": "Both end points of every plane lie on its circle and on the ground surface.", "quantifier": "every configuration and circle", "why_tests_cant": "continuum", "anchors": ["pyslope/pyslope.py:Slope._get_circle_external_intersection"]}
{"id": "C33", "title": "Circle-line intersection is exact", "statement": "cirle_line_intersection returns exactly the common points of circle and line.", "quantifier": "every circle and non-degenerate line", "why_tests_cant": "continuum", "anchors": ["pyslope/utilities.py:cirle_line_intersection"]}
{"id": "C34", "title": "End points are ordered and apart", "statement": "Intersections come from left to right and neighbours are more than 0.01 apart.", "quantifier": "every circle", "why_tests_cant": "continuum", "anchors": ["pyslope/pyslope.py:Slope._get_circle_external_intersection"]}
{"id": "C35", "title": "Slices tile the failure mass", "statement": "The slices are contiguous, equal in width, and cover exactly the span between the end points.", "quantifier": "every span and number of slices", "why_tests_cant": "all slice counts", "anchors": ["pyslope/pyslope.py:Slope._analyse_circular_failure_bishop"]}
{"id": "C36", "title": "Distributed load is conserved", "statement": "The load given to the slices is magnitude times the length of the load over the span.", "quantifier": "every load, span and number of slices", "why_tests_cant": "all positions", "anchors": ["pyslope/pyslope.py:Slope._analyse_circular_failure_bishop"]}
{"id": "C37", "title": "A line load counts once", "statement": "A line load over the span is given to exactly one slice, and one outside it to none.", "quantifier": "every load, span and number of slices", "why_tests_cant": "all positions including slice edges", "anchors": ["pyslope/pyslope.py:Slope._analyse_circular_failure_bishop"]}
{"id": "C38", "title": "Slice weight is the weight of the soil", "statement": "The weight of a slice is width times the unit weight summed over its height; it is non-negative, additive in height and does not change when a layer is split.", "quantifier": "every layering and slice", "why_tests_cant": "unbounded layers", "anchors": ["pyslope/pyslope.py:Slope._calculate_strip_weights"]}
{"id": "C39", "title": "Strength comes from the layer at the base", "statement": "A slice takes the strength of the uppermost layer whose bottom is below its base, else the last.", "quantifier": "every layering and base level", "why_tests_cant": "unbounded layers", "anchors": ["pyslope/pyslope.py:Slope._get_material_at_depth"]}
{"id": "C40", "title": "Factors of safety are never negative", "statement": "Every factor of safety reported is >= 0.", "quantifier": "every configuration and circle", "why_tests_cant": "The value depends on every slice of every circle of a continuum of configurations.", "anchors": ["pyslope/pyslope.py:Slope._analyse_circular_failure_bishop"]}
{"id": "C41", "title": "Bishop result is converged or out of turns", "statement": "A reported value differs from the previous iterate by less than the tolerance, or max_iterations were used.", "quantifier": "every circle, tolerance and number of turns", "why_tests_cant": "Must hold after any number of turns, for a continuum of circles and tolerances.", "anchors": ["pyslope/pyslope.py:Slope._analyse_circular_failure_bishop"]}
{"id": "C42", "title": "Dry factor of safety is scale free", "statement": "Without water, multiplying unit weights, cohesions and loads by k > 0 leaves every factor of safety, the planes found and the result of the analysis unchanged.", "quantifier": "every configuration and factor", "why_tests_cant": "A relation between two runs, for a continuum of configurations and factors.", "anchors": ["pyslope/pyslope.py:Slope._analyse_circular_failure_bishop"]}
{"id": "C43", "title": "Water never increases the ordinary factor of safety", "statement": "Adding a water table does not raise the ordinary-method factor of safety of any circle.", "quantifier": "every configuration and water level", "why_tests_cant": "A relation between two runs, for a continuum of configurations and water levels.", "anchors": ["pyslope/pyslope.py:Slope._analyse_circular_failure_ordinary"]}
{"id": "C44", "title": "Cohesion never lowers the factor of safety", "statement": "Raising cohesion does not lower the ordinary-method factor of safety, nor, on circles whose bases dip to the toe, the solution of Bishop's equation.", "quantifier": "every configuration", "why_tests_cant": "Must hold for every pair of configurations, circle and pair of end points.", "anchors": ["pyslope/pyslope.py:Slope._analyse_circular_failure_ordinary"]}
{"id": "C45", "title": "Bishop iteration converges on simple circles", "statement": "When every slice base of a circle dips towards the toe, no material is lighter than water, no friction angle exceeds 90 degrees and the ordinary value is not 0, Bishop's iteration goes one way and converges to a solution of Bishop's equation (its only positive solution if it has one), and for every tolerance enough turns make the code report a settled value.", "quantifier": "every such configuration, circle, tolerance and number of turns", "why_tests_cant": "The number of turns is unbounded and the circles form a continuum.", "anchors": ["pyslope/pyslope.py:Slope._analyse_circular_failure_bishop"]}
{"id": "C46", "title": "No materials, no factor of safety", "statement": "With no material, no circle gets a factor of safety, an analysis that completes drops every plane, and get_min_FOS then raises IndexError.", "quantifier": "every configuration without materials", "why_tests_cant": "Must hold for every sequence of calls that sets no material, and every circle.", "anchors": ["pyslope/pyslope.py:Slope.analyse_slope"]}
{"id": "C47", "title": "Dynamic analysis moves only dynamic loads", "statement": "Moving the dynamic loads keeps every load with its order, size and kind; only the offset of dynamic loads changes, each load is where its offset puts it, and ground, water and options are untouched. A dynamic analysis, however it ends, leaves the loads as they were or with the dynamic ones at one common offset.", "quantifier": "every reachable slope, every offset, every critical value, every outcome including exceptions", "why_tests_cant": "The loads are removed and added again one by one in lists of any length, up to twelve times, and an exception can come at any of those points; a test sees one list and one outcome.", "anchors": ["pyslope/pyslope.py:Slope._set_dynamic_offset"]}
{"id": "C48", "title": "Dynamic analysis is bounded", "statement": "A dynamic analysis makes at most 12 attempts; what it records are the attempts made, each offset with its last factor of safety. If it raises, the attempts before the exception are recorded.", "quantifier": "every reachable slope, every critical value, every outcome", "why_tests_cant": "How many turns the loop takes depends on the factors of safety met; no sample of slopes bounds it for all of them.", "anchors": ["pyslope/pyslope.py:Slope.analyse_dynamic"]}
{"id": "C49", "title": "Dynamic return codes are right", "statement": "Return 0 means safe with loads at the crest; 1 means unsafe with loads farthest away.", "quantifier": "every configuration", "why_tests_cant": "The return value depends on factors of safety at offsets that depend on the geometry; a test cannot show that no slope is misreported.", "anchors": ["pyslope/pyslope.py:Slope.analyse_dynamic"]}
{"id": "C50", "title": "Dynamic analysis accepts continuous loads", "statement": "A dynamic load without length can be analysed.", "quantifier": "every configuration with such a load", "why_tests_cant": "A claim about every slope with such a load and every critical value; a test tries a few.", "anchors": ["pyslope/pyslope.py:Slope.analyse_dynamic"]}
{"id": "C51", "title": "Dynamic analysis works with the web form's number type", "statement": "A Decimal critical factor of safety gives the same results as a float.", "quantifier": "every configuration reaching the loop", "why_tests_cant": "Whether the loop is reached depends on the factors of safety; tests with floats never see the other number type.", "anchors": ["pyslope/pyslope.py:Slope.analyse_dynamic", "slope/views.py:create_slope"]}
{"id": "C52", "title": "Default search runs in double precision", "statement": "On a computer with IEEE double arithmetic, analyse_slope on a newly constructed slope with a material does not raise, whatever the height and the length or angle.", "quantifier": "every height, length and angle; every machine whose + - * / and sqrt round to nearest, ties to even, whatever its trigonometric library", "why_tests_cant": "whether the last exit point falls outside the model depends on the last bit of the inputs", "anchors": ["pyslope/pyslope.py:Slope._set_entry_exit_planes"]}
{"id": "C53", "title": "Automatic water factor follows the slope", "statement": "As long as the factor on water pressure is automatic it is cos^2 of the current slope angle.", "quantifier": "every history of calls that does not set the factor by hand", "why_tests_cant": "The factor is computed once and the geometry can change later through many calls; only an invariant over all histories says whether it stays right.", "anchors": ["pyslope/pyslope.py:Slope.update_water_analysis_options", "pyslope/pyslope.py:Slope.set_external_boundary"]}
{"id": "C54", "title": "A limit given alone is honoured", "statement": "set_analysis_limits with any one of its four arguments, in order with the present limits, sets that limit and keeps the other three.", "quantifier": "every reachable state and every value in order", "why_tests_cant": "Each argument has its own validation path and the result depends on the limits already set.", "anchors": ["pyslope/pyslope.py:Slope.set_analysis_limits"]}
{"id": "C55", "title": "The ordinary method is Fellenius' formula", "statement": "Between two end points the ordinary method gives a number exactly when centre and radius are admissible, the end points are apart, every slice lies over the circle, there is a material, the water is within the model and the driving sum is positive; the number is then sum(c b/cos + max(0, W cos - u b/cos) tan phi) / sum(W sin) over the slices.", "quantifier": "every reachable configuration, circle and pair of end points", "why_tests_cant": "The equality is between two computations over a continuum of inputs and an unbounded number of slices, layers and loads.", "anchors": ["pyslope/pyslope.py:Slope._analyse_circular_failure_ordinary"]}
{"id": "C56", "title": "Without friction both methods agree", "statement": "When every material has friction angle 0, the value reported by Bishop's method for a circle is the one of the ordinary method, whatever the tolerance and the number of turns.", "quantifier": "every reachable configuration without friction, every circle, tolerance and number of turns", "why_tests_cant": "Must hold for a continuum of configurations and any number of turns.", "anchors": ["pyslope/pyslope.py:Slope._analyse_circular_failure_bishop", "pyslope/pyslope.py:Slope._analyse_circular_failure_ordinary"]}
{"id": "C57", "title": "Analysis limits stay in force", "statement": "Limits set with set_analysis_limits stay until the user changes the limits, the boundary or the boundary options.", "quantifier": "every reachable slope and every other call", "why_tests_cant": "Any of the other calls, with any arguments and in any order, could drop the limits; it shows only in the planes searched later.", "anchors": ["pyslope/pyslope.py:Slope.set_analysis_limits", "pyslope/pyslope.py:Slope.set_lls", "pyslope/pyslope.py:Slope.set_udls", "pyslope/pyslope.py:Slope.set_materials", "pyslope/pyslope.py:Slope.analyse_dynamic"]}
{"id": "C58", "title": "Dynamic analysis completes", "statement": "If the slope can be analysed with the loads at every offset from the crest to the greatest one, analyse_dynamic returns without an exception.", "quantifier": "every reachable slope and every critical value", "why_tests_cant": "The interpolation divides by differences of factors of safety and of offsets; that none is ever zero must be shown for all values met on the way.", "anchors": ["pyslope/pyslope.py:Slope.analyse_dynamic"]}
{"id": "C59", "title": "Dynamic offsets stay between the crest and the greatest offset", "statement": "Every offset tried and recorded by a dynamic analysis lies between 0 and the greatest offset.", "quantifier": "every reachable slope, every critical value, every outcome", "why_tests_cant": "Each offset is interpolated from earlier factors of safety, so the range is an invariant of a loop over unknown values.", "anchors": ["pyslope/pyslope.py:Slope.analyse_dynamic"]}
{"id": "C60", "title": "The drawn slip circle is the slip circle", "statement": "The line plot_all_planes draws for a plane starts and ends at its two ends on the ground, and every point between is within half a millimetre (along each axis) of the lower half of the circle analysed; in plot_critical within one and a half millimetres.", "quantifier": "every plane, whatever its centre, radius, ends and factor of safety", "why_tests_cant": "The 90 points and their rounding depend on real centre and radius; a test sees one circle.", "anchors": ["pyslope/utilities.py:generate_circle_coordinates", "pyslope/pyslope.py:Slope.plot_all_planes", "pyslope/pyslope.py:Slope._plot_failure_plane"]}
{"id": "C61", "title": "Every reported factor of safety has its colour", "statement": "After an analysis that ended normally, plot_critical and plot_all_planes find a colour for every factor of safety: that of the factor, capped at 5, to the nearest tenth.", "quantifier": "every factor of safety", "why_tests_cant": "The colour is looked up in a table of 51 keys by a rounded real number; that the key is always there must hold for all reals.", "anchors": ["pyslope/utilities.py:COLOUR_FOS_DICT", "pyslope/pyslope.py:Slope.plot_all_planes", "pyslope/pyslope.py:Slope._plot_failure_plane"]}
{"id": "C62", "title": "plot_boundary always draws", "statement": "plot_boundary raises no exception, whatever was set, changed and removed before.", "quantifier": "every reachable slope", "why_tests_cant": "It depends on the history of calls: recorded maxima and levels may be stale.", "anchors": ["pyslope/pyslope.py:Slope.plot_boundary", "pyslope/pyslope.py:Slope.remove_udls", "pyslope/pyslope.py:Slope.get_external_x_intersection"]}
{"id": "C63", "title": "The drawn layers tile the ground", "statement": "plot_boundary draws one outline for each material, in the ground, between the levels where the layer begins and ends, and the outlines together have the area of the ground.", "quantifier": "every reachable slope with materials", "why_tests_cant": "Any number of layers at any depths, crossing the face and the toe level in any way.", "anchors": ["pyslope/pyslope.py:Slope.plot_boundary"]}
{"id": "C64", "title": "Slopes that share no objects are independent", "statement": "In a program that gives no load and no material to two slopes, a call on one slope, whether it returns or raises, changes nothing that any other slope has: geometry, loads with their positions, layers with their levels, options, results.", "quantifier": "every program with any number of slopes, loads and materials, every history of calls on them", "why_tests_cant": "Interleavings of calls on any number of slopes are unbounded, and the calls write into the objects the user passed in.", "anchors": ["pyslope/pyslope.py:Slope.set_udls", "pyslope/pyslope.py:Slope.set_materials", "pyslope/pyslope.py:Slope._update_udl_coordinates"]}
{"id": "C65", "title": "Loads and materials may be reused for several slopes", "statement": "Giving the same Udl, LineLoad or Material to two slopes leaves each slope with what it had: a call on one does not change the results or the drawing of the other.", "quantifier": "every program with several slopes and shared objects", "why_tests_cant": "Depends on which objects are shared and on the order of the calls.", "anchors": ["pyslope/pyslope.py:Slope.set_materials", "pyslope/pyslope.py:Slope.set_udls", "pyslope/pyslope.py:Slope.set_lls"]}
{"id": "C66", "title": "Objects passed by reference behave as copies", "statement": "In a program that gives no object to two slopes, every call does and returns what it would if the slope had copied the loads and materials it was given.", "quantifier": "every such program and every history of calls, with repeated and removed objects", "why_tests_cant": "The slope stores the caller's objects and writes coordinates, levels and offsets into them; the same object may be in the list twice.", "anchors": ["pyslope/pyslope.py:Slope.set_udls", "pyslope/pyslope.py:Slope.set_materials", "pyslope/pyslope.py:Slope.analyse_dynamic"]}
{"id": "C67", "title": "A slope keeps the values of the objects it is given", "statement": "No call, returning or raising, changes the unit weight, friction angle, cohesion, depth, name or chosen colour of a material, nor the magnitude, length, colour or kind of a load. Only a dynamic analysis changes an offset, and only of a dynamic load that the slope holds.", "quantifier": "every call, every state of the objects, however they are shared", "why_tests_cant": "A dynamic analysis removes, changes and adds the loads again a number of times that depends on the factors of safety, and may raise at any of them.", "anchors": ["pyslope/pyslope.py:Slope.analyse_dynamic", "pyslope/pyslope.py:Slope._set_dynamic_offset", "pyslope/pyslope.py:Slope.set_materials"]}
{"id": "C68", "title": "The web page analyses the slope that was entered", "statement": "For a normal analysis the slope shown is the one entered: height, face length or angle, slices, iterations, one material per material form with its bottom at the depth entered below the crest, the water table, every load of non-zero magnitude at its offset, and the limits; and the results shown are those of an analysis of that slope.", "quantifier": "every content of the forms that passes their checks, with any number of materials and loads", "why_tests_cant": "The forms hold any number of materials and loads in any order, each of which may enlarge the model under what was entered before.", "anchors": ["slope/views.py:create_slope", "slope/forms.py", "slope/models.py"]}
{"id": "C69", "title": "The web page's dynamic analysis shows the offset it searched for", "statement": "For a dynamic analysis the slope shown is the one entered, with the dynamic loads moved to the smallest offset found to give the critical factor of safety (to the crest if that is safe, to the greatest offset if none is), and the results are those of that slope.", "quantifier": "every content of the forms that passes their checks and every critical factor of safety", "why_tests_cant": "Where the loads end up depends on the factors of safety and on which step raises.", "anchors": ["slope/views.py:create_slope", "pyslope/pyslope.py:Slope.analyse_dynamic"]}
{"id": "C70", "title": "An analysis ends without an exception", "statement": "analyse_slope returns, with a factor of safety or none for every circle tried, unless the arithmetic itself has no value (a square root or division outside its domain, where numpy goes on with NaN or infinity).", "quantifier": "every state reachable by calls, with individual planes whose centre and radius are not negative, water not above the crest, loads not beyond the crest, and a number of loads other than the number of entry points less one", "why_tests_cant": "Every plane of the search, every slice and every Bishop turn is a place to raise.", "anchors": ["pyslope/pyslope.py:Slope.analyse_slope", "pyslope/pyslope.py:Slope._analyse_circular_failure_bishop"]}
{"id": "C71", "title": "The web page answers every form that passes its checks", "statement": "If the forms pass their checks the page shows a result instead of failing.", "quantifier": "every content of the forms that passes their checks", "why_tests_cant": "The checks of the forms and of the library are different, and depend on all the forms together.", "anchors": ["slope/views.py:create_slope", "slope/forms.py", "slope/models.py"]}
{"id": "C72", "title": "A reported factor of safety is Bishop's for the reported circle and end points", "statement": "The end points reported with a circle are its first two crossings with the ground, and the factor of safety reported is the one Bishop's iteration gives for the slices between them, with the materials, loads, water and options the object has now.", "quantifier": "every history of calls in which no analysis raised and the boundary has not changed since the first individual plane was added", "why_tests_cant": "Ranges over histories of calls; the end points are computed when the plane is made and again when it is analysed.", "anchors": ["pyslope/pyslope.py:Slope.get_min_FOS", "pyslope/pyslope.py:Slope.get_min_FOS_circle", "pyslope/pyslope.py:Slope.get_min_FOS_end_points", "pyslope/pyslope.py:Slope._analyse_circular_failure_bishop"]}
{"id": "C73", "title": "Only failures longer than the minimum failure distance are assessed", "statement": "After update_analysis_options(MIN_FAILURE_DIST=d) every failure reported by an automatic search has end points farther apart than d, and every pair of an entry and an exit point farther apart than d is assessed.", "quantifier": "every reachable state without individual planes, every pair of an entry and an exit point and every circle through them", "why_tests_cant": "Ranges over all slopes, options and circles; a circle through two far points may come out of the ground between them.", "anchors": ["pyslope/pyslope.py:Slope.update_analysis_options", "pyslope/pyslope.py:Slope._set_entry_exit_planes", "pyslope/pyslope.py:Slope._generate_planes"]}
{"id": "C74", "title": "A circle that cuts off a mass of soil gets a factor of safety", "statement": "If a circle crosses the ground in two points, is under the ground between the first two crossings and left of its centre there, and the ground has strength, then adding it with add_single_circular_plane and analysing gives a positive factor of safety, the one of Bishop's iteration, which get_min_FOS, get_min_FOS_circle and get_min_FOS_end_points return.", "quantifier": "every reachable state, every circle of that kind and every maximum factor of safety", "why_tests_cant": "Ranges over circles, layers, loads, water and options; the iteration could divide by zero or lose its sign in any slice.", "anchors": ["pyslope/pyslope.py:Slope.add_single_circular_plane", "pyslope/pyslope.py:Slope.analyse_slope", "pyslope/pyslope.py:Slope._analyse_circular_failure_bishop"]}
{"id": "C75", "title": "The automatic search is the sum of its pairs", "statement": "An automatic search gives the same results in the same order as adding the circles of every pair of an entry and an exit point farther apart than the minimum failure distance with add_single_entry_exit_plane, in the order of the search, and analysing those.", "quantifier": "every reachable state without individual planes whose entry points are in the model, and every maximum factor of safety", "why_tests_cant": "Relates two ways through the API on every slope and every set of options.", "anchors": ["pyslope/pyslope.py:Slope.analyse_slope", "pyslope/pyslope.py:Slope._set_entry_exit_planes", "pyslope/pyslope.py:Slope.add_single_entry_exit_plane"]}
{"id": "C76", "title": "Which planes plot_all_planes draws", "statement": "After an analysis plot_all_planes(max_fos) draws exactly the failures reported with a factor of safety below max_fos (all, if no maximum is given), each once, in the colour of its own factor of safety, the most critical last. If one of them has a factor of safety below -0.05 it raises KeyError, and if nothing is reported IndexError.", "quantifier": "every slope whose analysis ended normally and every maximum", "why_tests_cant": "Ranges over all search results; the loop that skips and reverses planes can drop, repeat or reorder any of them.", "anchors": ["pyslope/pyslope.py:Slope.plot_all_planes", "pyslope/pyslope.py:Slope._plot_failure_plane"]}
{"id": "C77", "title": "The page shows the last accepted form", "statement": "Whatever a visitor of the web application did before, the page shows the last form that was accepted since the last reset, with the planes and the plot of the slope entered in it; if there is none, the defaults with the planes and plot of the default slope. A form whose slope cannot be built, analysed or drawn changes nothing. A reset makes the next page that of a new visitor.", "quantifier": "every history of requests", "why_tests_cant": "Ranges over all histories of requests of a visitor.", "anchors": ["slope/views.py:index", "slope/views.py:reset"]}
{"id": "C78", "title": "The report is the one of the slope shown", "statement": "The pdf report is what plot_all_planes(max_fos) draws for the slope the page shows: that of the last accepted form, or the default one if a page was shown since the last reset. A visitor who was shown nothing since a reset is sent back to the page.", "quantifier": "every history of requests and every maximum factor of safety", "why_tests_cant": "Ranges over all histories; the report is made in another request than the analysis, from stored data.", "anchors": ["slope/views.py:pdf", "slope/views.py:index", "slope/views.py:reset"]}
{"id": "C79", "title": "The water table is drawn where the analysis has it", "statement": "With a water table above the bottom of the model and not above its top, plot_boundary draws a line over the whole width of the model, at every x at the lower of the water level and the ground surface; without water, or with water at the very bottom, it draws none.", "quantifier": "every reachable slope and every x in the model", "why_tests_cant": "Ranges over all geometries and all positions along the slope.", "anchors": ["pyslope/pyslope.py:Slope._plot_water", "pyslope/pyslope.py:Slope.plot_boundary"]}
{"id": "C80", "title": "Circles between a point of the crest and a point of the face", "statement": "add_single_entry_exit_plane(x, x', n) with x on the crest, x' on the face and more than 3 cm to the right adds exactly n circles. Each goes through the two ground points given, has exactly these as its end points and runs under the ground between them; their radii follow from n equally spaced offsets of the arc from the chord.", "quantifier": "every reachable slope, every such pair of positions and every n", "why_tests_cant": "Ranges over all geometries, all pairs of points and all numbers of circles.", "anchors": ["pyslope/pyslope.py:Slope.add_single_entry_exit_plane", "pyslope/pyslope.py:Slope._generate_planes"]}
{"id": "C81", "title": "Between steep pairs of points every circle gets a factor of safety", "statement": "On a slope with a material of some strength, friction angles of at most 90 degrees and water no higher than the crest, if the drop from the entry to the exit point is at least their distance across, then analyse_slope reports every one of the circles between them, with a positive factor of safety that is the value of Bishop's equation; for an automatic search whose pairs all are like that, no circle is lost.", "quantifier": "every reachable slope with such soil, every such pair of points, every number of circles", "why_tests_cant": "Ranges over all geometries, soils, loads and pairs of points; it excludes every exception and every loss of a circle.", "anchors": ["pyslope/pyslope.py:Slope.analyse_slope", "pyslope/pyslope.py:Slope.add_single_entry_exit_plane", "pyslope/pyslope.py:Slope._analyse_circular_failure_bishop"]}
{"id": "C82", "title": "A reported critical failure can be drawn", "statement": "After an analysis that reports a failure, plot_critical draws the boundary and the most critical failure, if plot_boundary draws the boundary.", "quantifier": "every slope, every analysis of it", "why_tests_cant": "Ranges over all circles an analysis can report.", "anchors": ["pyslope/pyslope.py:Slope.plot_critical", "pyslope/pyslope.py:Slope._plot_failure_plane"]}
{"id": "C83", "title": "Only the ground and the loads count, not how they were entered", "statement": "Two slopes with the same geometry, water, limits and options, the same unit weight, cohesion and friction angle at every level and the same load on every stretch of the ground give the same factor of safety on every circle and the same analysis, search and minimum, for circles added one by one or when their loads begin in the same places. In particular: entering a layer as two layers of the same soil changes no result; nor does entering a uniform load as two loads that add up to it, or as two stretches side by side, for every circle and every analysis of circles added one by one.", "quantifier": "every pair of reachable slopes, every layer and every depth at which to split it, every load and every way to split it in two, every circle", "why_tests_cant": "Ranges over all pairs of descriptions of the same slope.", "anchors": ["pyslope/pyslope.py:Slope.set_materials", "pyslope/pyslope.py:Slope.set_udls", "pyslope/pyslope.py:Slope.analyse_slope", "pyslope/pyslope.py:Slope._analyse_circular_failure_bishop", "pyslope/pyslope.py:Slope._analyse_circular_failure_ordinary"]}
{"id": "C84", "title": "The plot shows every load where it acts and says its magnitude", "statement": "A plot of the slope shows the uniform loads and then the line loads, in the order they were entered. A uniform load is one rectangle over exactly the stretch it loads, standing on the crest level, with an arrow pointing down at each of its ends; the heights of the rectangles are in proportion to the pressures and the greatest is 100 pixels. A line load is an arrow pointing down where it acts. Straight above each load is one text that says its magnitude to within a thousandth, in kPa or kN/m.", "quantifier": "every reachable slope with materials that can be plotted, every set of loads, every decimal way Python writes their magnitudes", "why_tests_cant": "Ranges over all loads and all decimal texts of their magnitudes; the number of digits shown is found by scanning the text.", "anchors": ["pyslope/pyslope.py:Slope._plot_udl", "pyslope/pyslope.py:Slope._plot_ll", "pyslope/utilities.py:draw_arrow", "pyslope/utilities.py:draw_line", "pyslope/utilities.py:draw_arrowhead", "pyslope/utilities.py:get_precision"]}
{"id": "C85", "title": "The plot marks the limits of the search on the ground", "statement": "Every mark of a limit in a plot is on the ground surface. The marks are at the outer left and the outer right limit, and at the inner two exactly when these differ; the marks at the left end of a stretch point right and those at its right end point left.", "quantifier": "every reachable slope with materials that can be plotted", "why_tests_cant": "Ranges over all geometries, histories and limits.", "anchors": ["pyslope/pyslope.py:Slope._plot_limits", "pyslope/pyslope.py:Slope.set_analysis_limits", "pyslope/pyslope.py:Slope.get_external_y_intersection"]}
{"id": "C86", "title": "The table of materials in a plot lists the layers from the top down", "statement": "With material_table a plot has a table with a row for each layer, from the shallowest to the deepest, that says its name, colour, unit weight, cohesion and friction angle as the analysis uses them. Each row is under its own line, over the next one and inside the table. Without material_table there is no table.", "quantifier": "every reachable slope with materials that can be plotted, however many layers", "why_tests_cant": "Ranges over any number of layers and every order of entering them.", "anchors": ["pyslope/pyslope.py:Slope._plot_material_table", "pyslope/pyslope.py:Slope.plot_boundary"]}
{"id": "C87", "title": "What the object remembers does not depend on how numbers are rounded", "statement": "Whatever the arithmetic does (exact, double precision, any other), as long as it stays among numbers: after a history of calls that returned, the results are empty or exactly those that analysing the object as it now is would give; analysing again gives the same results and touches nothing else; individual planes replace the search; an analysis that raises leaves what C27 says; the number of slices is always within 10 and 500 and the number of iterations within 500 and 100000; a dynamic analysis records at most 12 offsets.", "quantifier": "every arithmetic, every history of calls", "why_tests_cant": "Ranges over every way of rounding and all histories; tests run on one platform's doubles and a few histories.", "anchors": ["pyslope/pyslope.py:Slope.analyse_slope", "pyslope/pyslope.py:Slope.update_analysis_options", "pyslope/pyslope.py:Slope.analyse_dynamic", "pyslope/pyslope.py:Slope._reset_results"]}
{"id": "C88", "title": "The page draws each listed failure along its arc", "statement": "On every page of the web application every listed failure has a line that starts at its left end point, ends at its right one, goes from left to right and stays within half a millimetre of the lower half of its circle, leaving no stretch of more than a degree out. A first visit is about a slope 1 m high at 45 degrees with the default material, 10 slices, 500 iterations, no loads and no water, with factors of safety up to 5.", "quantifier": "every history of requests and every answer that is a page", "why_tests_cant": "Ranges over all histories of a visitor and all circles.", "anchors": ["slope/views.py:index"]}
{"id": "C89", "title": "A slope built from doubles is sound", "statement": "With the arithmetic Python really uses, rounded to 53 bits after every operation and whatever the mathematical library returns, every slope has a ground line that runs from the origin over the crest and the toe to the end of the model, with crest and toe in order and inside it; its length and height are the requested ones to within one rounding and it stands in the middle up to rounding; the analysis limits are in order and inside the model; every load is at the machine difference of the crest and its offset; materials are strictly ordered by depth. Setting a boundary with numbers in range, enlarging the model, adding any loads and removing the analysis limits never raise.", "quantifier": "every machine that rounds to nearest even, every way its sin, cos, tan and atan may be computed, every constructor argument and every history of public calls", "why_tests_cant": "Rounding errors depend on every bit of every input; a test covers a handful of doubles.", "anchors": ["pyslope/pyslope.py:Slope.set_external_boundary", "pyslope/pyslope.py:Slope.update_boundary_options", "pyslope/pyslope.py:Slope.set_udls", "pyslope/pyslope.py:Slope.set_lls", "pyslope/pyslope.py:Slope.set_analysis_limits", "pyslope/pyslope.py:Slope.set_materials"]}
{"id": "C90", "title": "Every reported factor of safety is a number and the least comes first", "statement": "Following the arithmetic of numpy where it divides 0 by 0: analyse_slope ends without an exception under the conditions of C70, every factor of safety it reports is a number, the reported circles are in increasing order of it, and get_min_FOS is the least of them.", "quantifier": "every reachable slope, every list of analysed circles, every max_fos and every behaviour of list.sort that Python allows when comparisons with NaN are false", "why_tests_cant": "Where NaN appears depends on slope, layers and circle, and what the sort makes of it on the whole list of results; the suite has no ground without strength.", "anchors": ["pyslope/pyslope.py:Slope.analyse_slope", "pyslope/pyslope.py:Slope._analyse_circular_failure_bishop", "pyslope/pyslope.py:Slope.get_min_FOS"]}
{"id": "C91", "title": "The size of the model does not change the factor of safety of a circle", "statement": "Two slopes with the same height, length, materials, loads, depth of water and options of the method, in models of different length and height (as update_boundary_options or a deep material makes them): a circle given by its centre from the crest, which lies between the sides of both models, is added to both by add_single_circular_plane or to neither, with the same end points from the crest, and has the same factor of safety in both; an analysis of such circles has the same outcome, the same results and the same get_min_FOS. Layers must be at their depths (C14), line loads inside both models and the water at or below the crest.", "quantifier": "every two reachable slopes with the same design, every circle both hold, every list of added circles and every max_fos", "why_tests_cant": "Ranges over all sizes of the model, all materials, loads and circles.", "anchors": ["pyslope/pyslope.py:Slope.update_boundary_options", "pyslope/pyslope.py:Slope.add_single_circular_plane", "pyslope/pyslope.py:Slope.analyse_slope", "pyslope/pyslope.py:Slope._analyse_circular_failure_bishop"]}
{"id": "C92", "title": "An argument that is NaN is refused", "statement": "A constructor or setter given NaN where it needs a number (unit weight, friction angle, cohesion, depth, magnitude, offset, length, height, angle, depth of water, max_fos) raises, as it does for text and for negative numbers; a slope whose arguments were accepted holds numbers only, and get_min_FOS is then a number.", "quantifier": "every constructor and setter, every argument that is NaN with every other argument valid, every later analysis, on every IEEE 754 machine", "why_tests_cant": "Which comparisons an argument meets and where a NaN ends up depends on all the other arguments and the whole history; the suite gives no NaN.", "anchors": ["pyslope/data_validation.py:assert_range", "pyslope/data_validation.py:assert_positive_number", "pyslope/pyslope.py:Material", "pyslope/pyslope.py:Udl", "pyslope/pyslope.py:LineLoad", "pyslope/pyslope.py:Slope", "pyslope/pyslope.py:Slope.set_water_table", "pyslope/pyslope.py:Slope.set_udls", "pyslope/pyslope.py:Slope.analyse_slope", "pyslope/pyslope.py:Slope.get_min_FOS"]}
{"id": "C93", "title": "Friction never lowers the factor of safety", "statement": "Raising friction angles below 90 degrees, everything else equal, lowers neither the factor of safety of the ordinary method on a circle nor the one analyse_slope reports for it.", "quantifier": "every two reachable slopes that differ only in friction angles, every circle and its end points", "why_tests_cant": "A comparison over all pairs of inputs; each factor is a ratio of sums over all slices at the end of an iteration.", "anchors": ["pyslope/pyslope.py:Slope._analyse_circular_failure_ordinary", "pyslope/pyslope.py:Slope._analyse_circular_failure_bishop", "pyslope/pyslope.py:Slope.analyse_slope", "pyslope/pyslope.py:Material"]}
{"id": "C94", "title": "Without friction the water table has no effect", "statement": "In ground whose materials all have friction angle 0, changing or removing a water table at or below the crest changes neither the result of either method on any circle, nor what analyse_slope does, nor the planes it ranks, nor get_min_FOS.", "quantifier": "every two reachable slopes without friction that differ only in water, every circle, every end points, every max_fos", "why_tests_cant": "An equality of whole analyses over all pairs of inputs: every slice of every circle of the search and every pass of the iteration.", "anchors": ["pyslope/pyslope.py:Slope.set_water_table", "pyslope/pyslope.py:Slope._analyse_circular_failure_ordinary", "pyslope/pyslope.py:Slope._analyse_circular_failure_bishop", "pyslope/pyslope.py:Slope.analyse_slope", "pyslope/pyslope.py:Slope.get_min_FOS"]}
{"id": "C95", "title": "In clay, raising cohesions never lowers what is reported", "statement": "In ground without friction, raising cohesions lowers neither the factor of safety reported for any plane nor get_min_FOS, and the planes reported are the same.", "quantifier": "every two reachable slopes without friction that differ only in cohesions that do not fall, every analysis that ends", "why_tests_cant": "A comparison of two whole searches over all pairs of inputs, whose results are ranked differently.", "anchors": ["pyslope/pyslope.py:Slope.set_materials", "pyslope/pyslope.py:Slope.analyse_slope", "pyslope/pyslope.py:Slope._analyse_circular_failure_bishop", "pyslope/pyslope.py:Slope.get_min_FOS"]}
{"id": "C96", "title": "A load on the crest never raises the factor of safety", "statement": "Adding loads to the ground behind the crest, everything else equal, does not raise the factor of safety of a circle, and does not take it away.", "quantifier": "every two reachable slopes of which one has at least the load of the other on every stretch of the ground, every circle", "why_tests_cant": "A comparison over all pairs of inputs; whether a load drives or holds depends on the circle.", "anchors": ["pyslope/pyslope.py:Slope.set_udls", "pyslope/pyslope.py:Slope.set_lls", "pyslope/pyslope.py:Slope._analyse_circular_failure_ordinary", "pyslope/pyslope.py:Slope._analyse_circular_failure_bishop", "pyslope/pyslope.py:Slope.analyse_slope"]}
{"id": "C97", "title": "In floating point the results are still the wanted circles in increasing order, and none is negative", "statement": "After analyse_slope returned in double precision, if no circle has the factor of safety NaN and max_fos is absent or not equal to 0, the results are exactly the candidates with a factor of safety not above max_fos, each as often as it was tried, in increasing order; get_min_FOS, get_min_FOS_circle and get_min_FOS_end_points are those of one whose factor of safety is the least of all candidates, and raise IndexError when there are no results. With at least one iteration allowed every reported factor of safety is NaN or at least 0.", "quantifier": "every slope of doubles, infinities and NaN included, every machine that rounds to nearest with any library functions, every max_fos", "why_tests_cant": "Rounding errors, infinities and NaN depend on the data; a test shows the order of the results for a few runs.", "anchors": ["pyslope/pyslope.py:analyse_slope", "pyslope/pyslope.py:_analyse_circular_failure_bishop", "pyslope/pyslope.py:get_min_FOS", "pyslope/pyslope.py:get_min_FOS_circle", "pyslope/pyslope.py:get_min_FOS_end_points"]}
{"id": "C98", "title": "Only what is in and on the sliding mass counts", "statement": "The factor of safety of a circle depends, besides the shape of the slope and the options, only on the soil from the lowest point of the circle up, on the loads between its two ends and on the water above its lowest point. In particular, when the model is large enough already, none of these changes the outcome of Bishop's method on a circle: set_udls with a load beyond either end of it, set_lls with a load not between its ends, set_water_table with a level not above its lowest point where there was no water above it before, set_materials with a deeper material below layers that reach below it. An analysis of circles added one by one then has the same outcome, results and least factor of safety.", "quantifier": "every slope any history of calls can reach whose water is not above the crest, every circle, every load, level or material as described", "why_tests_cant": "A test compares one load or one level with one circle; independence must hold for all of them and for every slice.", "anchors": ["pyslope/pyslope.py:_analyse_circular_failure_bishop", "pyslope/pyslope.py:_analyse_circular_failure_ordinary", "pyslope/pyslope.py:set_udls", "pyslope/pyslope.py:set_lls", "pyslope/pyslope.py:set_water_table", "pyslope/pyslope.py:set_materials", "pyslope/pyslope.py:analyse_slope"]}
{"id": "C99", "title": "More circles never raise the least factor of safety, and their order does not matter", "statement": "On a slope that has circles added one by one, adding further ones with add_single_circular_plane or add_single_entry_exit_plane, with any analyses in between, never loses a result: if analyse_slope then returns it would have returned before, everything it reported before it reports again, each circle as often and with the same factor of safety, and get_min_FOS is not greater than before. Adding the same circles in another order gives the same results, except for the order of equal factors, and the same get_min_FOS; the analysis returns for one order exactly when it does for the other.", "quantifier": "every slope, every sequence of added circles, pairs and analyses, every permutation, every max_fos", "why_tests_cant": "A test adds a few circles in a few orders; the claim is about every sequence, including calls that raise.", "anchors": ["pyslope/pyslope.py:add_single_circular_plane", "pyslope/pyslope.py:add_single_entry_exit_plane", "pyslope/pyslope.py:analyse_slope", "pyslope/pyslope.py:get_min_FOS"]}
{"id": "C100", "title": "A higher water table never raises the factor of safety", "statement": "With set_water_table at a smaller depth (a higher water table) and everything else the same, no circle gets a greater factor of safety.", "quantifier": "every slope, every two accepted depths, every circle, the ordinary and Bishop's method", "why_tests_cant": "A relation between two runs for a continuum of depths, circles and slopes; it fails only where the water passes the ground of a slice.", "anchors": ["pyslope/pyslope.py:set_water_table", "pyslope/pyslope.py:update_water_analysis_options", "pyslope/pyslope.py:_analyse_circular_failure_ordinary", "pyslope/pyslope.py:_analyse_circular_failure_bishop"]}
{"id": "C101", "title": "The factor of safety does not depend on the scale", "statement": "Multiply every length by k > 0 (height, length, depths of layers and water, positions and widths of loads, measured from the crest, centre and radius of the circle), cohesions and distributed loads by k and line loads by k squared, and keep unit weights, friction angles and the analysis options: the corresponding circle gets the same factor of safety, from the ordinary method and from the analysis, although the model around the slope has another shape. This is what makes results independent of the unit of length.", "quantifier": "every k > 0, every slope with any layers, loads and water table, every circle", "why_tests_cant": "A relation between two runs over a continuum of scales, slopes and circles; a length compared with a fixed number in the wrong place breaks it only at some scales.", "anchors": ["pyslope/pyslope.py:_analyse_circular_failure_ordinary", "pyslope/pyslope.py:_analyse_circular_failure_bishop", "pyslope/pyslope.py:analyse_slope", "pyslope/pyslope.py:get_min_FOS", "pyslope/pyslope.py:add_single_circular_plane"]}
{"id": "C102", "title": "The factor of safety is the number by which the strengths can be divided", "statement": "If the cohesions and the tangents of the friction angles of all materials are multiplied by k > 0 (and the tolerance, which is absolute, with them), every factor of safety is multiplied by k: the ordinary method on every circle, and the whole list an analysis reports, with max_fos multiplied too; the analysis raises exactly when it did. So dividing all strengths by get_min_FOS leaves a slope whose get_min_FOS is exactly 1, which is what a factor of safety means.", "quantifier": "every slope with any layers, loads and water table, every k > 0, every circle, every max_fos", "why_tests_cant": "A relation between two runs for a continuum of strengths and every search; a single comparison with a fixed number in the iteration would break it only for some factors.", "anchors": ["pyslope/pyslope.py:_analyse_circular_failure_ordinary", "pyslope/pyslope.py:_analyse_circular_failure_bishop", "pyslope/pyslope.py:analyse_slope", "pyslope/pyslope.py:get_min_FOS", "pyslope/pyslope.py:update_analysis_options"]}
{"id": "C103", "title": "Bishop's factor of safety is not below the ordinary method's", "statement": "The ordinary method is known to be on the safe side, and the analysis starts Bishop's iteration from it: the reported factor of safety of a circle is not below what the ordinary method gives for the same circle and end points.", "quantifier": "every slope, every circle, every reported result", "why_tests_cant": "A relation between the two methods over a continuum of slopes, soils and circles; on textbook examples it always holds.", "anchors": ["pyslope/pyslope.py:_analyse_circular_failure_ordinary", "pyslope/pyslope.py:_analyse_circular_failure_bishop", "pyslope/pyslope.py:analyse_slope"]}
{"id": "C104", "title": "The reported factor of safety is within the tolerance of Bishop's", "statement": "update_analysis_options(tolerance=…) sets the accuracy of Bishop's iteration: the factor of safety reported for a circle differs from the solution of Bishop's equation for that circle by at most the tolerance.", "quantifier": "every slope, every circle, every tolerance and number of turns", "why_tests_cant": "The rate of convergence depends on the circle and the soil; a test compares with a reference value on a few circles where the iteration converges fast.", "anchors": ["pyslope/pyslope.py:_analyse_circular_failure_bishop", "pyslope/pyslope.py:update_analysis_options", "pyslope/pyslope.py:analyse_slope"]}
{"id": "C105", "title": "Moving the loads away from the crest does not lower the factor of safety", "statement": "A slope that analyse_dynamic calls safe with the dynamic loads at the crest (it returns 0) is safe with them at any greater distance: the farther the loads are from the crest, the higher the factor of safety.", "quantifier": "every slope, every circle, every pair of positions of the dynamic loads", "why_tests_cant": "The effect of a load depends on where it is relative to each circle; a test moves one load on one slope.", "anchors": ["pyslope/pyslope.py:analyse_dynamic", "pyslope/pyslope.py:_set_dynamic_offset", "pyslope/pyslope.py:_analyse_circular_failure_bishop"]}
{"id": "C106", "title": "Raising the cohesion never lowers the reported factor of safety", "statement": "With cohesions raised and everything else the same, analyse_slope does not report a lower factor of safety for a circle.", "quantifier": "every two slopes that differ in cohesions only, every circle, every tolerance and number of turns", "why_tests_cant": "The number of turns of the iteration changes at single values of the cohesion; a test that compares a few values does not meet them.", "anchors": ["pyslope/pyslope.py:_analyse_circular_failure_bishop", "pyslope/pyslope.py:analyse_slope", "pyslope/pyslope.py:update_analysis_options"]}
{"id": "C107", "title": "The plots say the factor of safety that is reported", "statement": "Beside the critical failure plot_critical writes get_min_FOS() to three digits, at the centre get_min_FOS_circle() gives, in the colour of its line. The legend has one box for each tenth from 0 to 5 in order, with the numbers 0 to 5, and every colour used is in it. In one figure a failure has one colour.", "quantifier": "every slope whose critical failure is drawn, every limit on the factors of safety shown", "why_tests_cant": "The colours differ only for factors of safety within 0.0005 of the middle of two tenths, after two roundings; a test on given slopes does not meet them.", "anchors": ["pyslope/pyslope.py:_plot_annotate_FOS", "pyslope/pyslope.py:_plot_FOS_legend", "pyslope/pyslope.py:_plot_failure_plane", "pyslope/pyslope.py:plot_all_planes"]}
{"id": "C108", "title": "The printed dynamic results are the positions tried", "statement": "After analyse_dynamic, print_dynamic_results prints one line for each offset tried and no other, with the offset and the factor of safety found there, both to three digits, in at least five characters.", "quantifier": "every slope, critical value and course of the dynamic analysis; every Python str of numbers that writes digits, a point and digits", "why_tests_cant": "How many positions are tried, and how many characters their numbers have, depends on the slope.", "anchors": ["pyslope/pyslope.py:print_dynamic_results", "pyslope/pyslope.py:get_dynamic_results", "pyslope/pyslope.py:analyse_dynamic"]}
{"id": "C109", "title": "Heavier ground is not safer", "statement": "In dry ground, multiplying the unit weights of all materials and the magnitudes of all loads by the same factor k of at least 1 does not raise the factor of safety; without friction it divides it by k exactly; without cohesion it changes nothing.", "quantifier": "every slope any history of public calls reaches, every factor k, every circle", "why_tests_cant": "The claim compares two analyses for every configuration and every factor.", "anchors": ["pyslope/pyslope.py:_analyse_circular_failure_ordinary", "pyslope/pyslope.py:_analyse_circular_failure_bishop", "pyslope/pyslope.py:_calculate_strip_weights", "pyslope/pyslope.py:analyse_slope"]}
{"id": "C110", "title": "Rounding errors do not change the factor of safety noticeably", "statement": "Away from coincidences (a circle that just touches a ground line or goes through a corner, a slice base exactly on a layer boundary, a line load exactly on a slice edge, ...), the factor of safety of a circle computed with rounding errors, on a configuration off by rounding errors, exists and is as close to the exact one as one likes if the errors are small enough. At a coincidence an arbitrarily small error can change it by a fixed amount.", "quantifier": "every slope any history of public calls reaches, every circle, every accuracy wanted, every arithmetic with errors small enough, every configuration close enough", "why_tests_cant": "A test runs with one arithmetic on one configuration and has no exact value to compare with.", "anchors": ["pyslope/pyslope.py:_analyse_circular_failure_ordinary", "pyslope/pyslope.py:_analyse_circular_failure_bishop", "pyslope/pyslope.py:_get_circle_external_intersection", "pyslope/utilities.py:cirle_line_intersection"]}
{"id": "C111", "title": "Rounding errors do not change what a program reports noticeably", "statement": "Take a program that makes a slope, calls set_external_boundary, update_boundary_options, set_materials, set_udls, set_lls, set_water_table, update_water_analysis_options, update_analysis_options, set_analysis_limits, add_single_circular_plane, add_single_entry_exit_plane and the remove calls in any order, and then analyse_slope and get_min_FOS. Away from coincidences, with errors small enough in the arithmetic and in the numbers of the program, no call that did not raise raises, and get_min_FOS is as close as one likes to what exact arithmetic gives. The same holds for the numbers of a Material.", "quantifier": "every program of these calls whose exact run meets no coincidence, every accuracy wanted, every arithmetic with errors small enough, every set of arguments close enough", "why_tests_cant": "A test runs with one arithmetic; it has no exact value to compare with and cannot show that errors do not build up over every history of calls.", "anchors": ["pyslope/pyslope.py:set_external_boundary", "pyslope/pyslope.py:set_materials", "pyslope/pyslope.py:set_udls", "pyslope/pyslope.py:set_lls", "pyslope/pyslope.py:set_water_table", "pyslope/pyslope.py:set_analysis_limits", "pyslope/pyslope.py:add_single_circular_plane", "pyslope/pyslope.py:add_single_entry_exit_plane", "pyslope/pyslope.py:analyse_slope", "pyslope/pyslope.py:get_min_FOS"]}
{"id": "C112", "title": "Rounding errors do not change what a search reports noticeably", "statement": "Take a program as in C111 that adds no circles, so that analyse_slope makes the search. If no exit point is at the end of the model, no entry point is above an exit point, no pair of them is exactly as far apart as the least length of a failure, and no circle tried meets a coincidence, then with errors small enough in the arithmetic and in the numbers of the program, no call that did not raise raises, and get_min_FOS is as close as one likes to what exact arithmetic gives.", "quantifier": "every such program and search, every accuracy wanted, every arithmetic with errors small enough, every set of arguments close enough", "why_tests_cant": "A test runs with one arithmetic and has no exact value to compare with; whether errors change which of thousands of circles are kept cannot be seen from a run.", "anchors": ["pyslope/pyslope.py:analyse_slope", "pyslope/pyslope.py:set_analysis_limits", "pyslope/pyslope.py:update_analysis_options", "pyslope/pyslope.py:get_min_FOS"]}
{"id": "C113", "title": "In double precision lists of materials and loads are kept exactly", "statement": "In double precision, after any calls: set_materials with its arguments in any order, or in two calls instead of one, leaves the same object to the last bit; it raises ValueError and keeps the materials when a depth is given twice or already used, and otherwise holds those given and those it had, from the top down. remove_material takes away exactly the material of a depth that is not 0. set_udls and set_lls return, keep the loads there were and add those given whose magnitude is not 0, in order; set_udls records the greatest magnitude. remove_udls and remove_lls keep every load that matches none of those given, and remove every match unless two neighbours match.", "quantifier": "every slope of doubles any history of public calls reaches, every machine that rounds to nearest with any library functions, every list of materials and loads", "why_tests_cant": "Rounding could make the result depend on the order or the number of calls for some numbers only; a test tries a few.", "anchors": ["pyslope/pyslope.py:set_materials", "pyslope/pyslope.py:remove_material", "pyslope/pyslope.py:set_udls", "pyslope/pyslope.py:remove_udls", "pyslope/pyslope.py:set_lls", "pyslope/pyslope.py:remove_lls", "pyslope/pyslope.py:update_boundary_options"]}
{"id": "C114", "title": "Slicing is an approximation with an error proportional to the width of a slice", "statement": "The driving sum of the slices differs from the moment of the sliding mass and of the loads on it about the centre (over the radius) by at most the width of a slice times the total variation of that moment per metre, plus half that width times the loads over the radius. Without loads, the resisting sum of the ordinary method and of Bishop's equation differs from the integral over the circle by at most the width of a slice times the total variation of the integrand, which is finite. In clay of one cohesion, with any loads and water, the resisting sum is never more than the cohesion times the length of the arc.", "quantifier": "every reachable configuration, number of slices, layering, water table, circle and pair of ends", "why_tests_cant": "the exact integral is not what the program computes, and the bound is over all circles, layerings and numbers of slices", "anchors": ["pyslope/pyslope.py:Slope._analyse_circular_failure_ordinary"]}
{"id": "C115", "title": "A small change of what is entered changes the reported factor of safety only slightly", "statement": "For every tolerance there is a size of change such that, if every number given to the constructor, to the configuring calls and to the calls that add circles is changed by no more than that size, the same calls return and the factor of safety that is reported changes by no more than the tolerance.", "quantifier": "every proper slope, history of configuring calls, added circles or search, tolerance, and every change of all the numbers at once", "why_tests_cant": "continuity is a statement about all changes smaller than some size, at every configuration", "anchors": ["pyslope/pyslope.py:set_external_boundary", "pyslope/pyslope.py:set_materials", "pyslope/pyslope.py:set_udls", "pyslope/pyslope.py:set_lls", "pyslope/pyslope.py:set_water_table", "pyslope/pyslope.py:set_analysis_limits", "pyslope/pyslope.py:add_single_circular_plane", "pyslope/pyslope.py:add_single_entry_exit_plane", "pyslope/pyslope.py:analyse_slope", "pyslope/pyslope.py:get_min_FOS"]}
{"id": "C116", "title": "A dynamic analysis run with rounding errors finds what exact arithmetic finds", "statement": "Take a slope configured by any calls, with circles added or searched for, and a critical factor of safety, such that nothing coincides exactly in the calls and in the dynamic analysis. Then for every tolerance there is a size of error such that the same program, run with numbers and an arithmetic wrong by no more than that size, does not raise, returns the same code and finds the same offsets and factors of safety up to the tolerance.", "quantifier": "every proper slope, history of configuring calls, critical factor of safety and tolerance, and every arithmetic and all entered numbers with small enough errors", "why_tests_cant": "the search for the offset branches up to ten times on computed factors of safety and divides by their differences; that rounding never changes the path away from coincidences is about all inputs and all arithmetics", "anchors": ["pyslope/pyslope.py:set_external_boundary", "pyslope/pyslope.py:set_materials", "pyslope/pyslope.py:set_udls", "pyslope/pyslope.py:set_lls", "pyslope/pyslope.py:set_water_table", "pyslope/pyslope.py:set_analysis_limits", "pyslope/pyslope.py:add_single_circular_plane", "pyslope/pyslope.py:add_single_entry_exit_plane", "pyslope/pyslope.py:analyse_slope", "pyslope/pyslope.py:get_min_FOS", "pyslope/pyslope.py:analyse_dynamic", "pyslope/pyslope.py:_set_dynamic_offset"]}
{"id": "C117", "title": "The version reported on import is that of the source tree", "statement": "In a git checkout, pyslope.__version__ is the nearest tag when the tree is clean and exactly at it, and otherwise the tag, '+' ('.' if the tag has a '+'), the number of commits since, '.g' and the abbreviated commit, with '.dirty' when files were changed; with no tag it is '0+untagged.' with the number of all commits. get_versions reports the full commit and the dirty flag of the same tree.", "quantifier": "every tag name (hyphens, digits and signs included), number of commits, commit, dirty flag, branch, platform", "why_tests_cant": "The tag is read back from one line of text by a regular expression; tags may contain the very separators that line uses, and their number has no bound.", "anchors": ["pyslope/_version.py:get_versions", "pyslope/_version.py:git_pieces_from_vcs", "pyslope/_version.py:run_command", "pyslope/_version.py:render", "pyslope/_version.py:render_pep440", "pyslope/_version.py:plus_or_dot", "pyslope/__init__.py:__version__"]}
{"id": "C118", "title": "Importing the package does not fail because of git", "statement": "import pyslope succeeds and gives a non-empty version whatever git does: not installed, refused, not a repository, no commit yet, a description that cannot be read.", "quantifier": "every behaviour of the operating system and of git, command by command", "why_tests_cant": "Each of up to seven commands can fail in its own way; tests run on machines where git works.", "anchors": ["pyslope/_version.py:get_versions", "pyslope/_version.py:git_pieces_from_vcs", "pyslope/_version.py:run_command", "pyslope/_version.py:render", "pyslope/__init__.py:__version__"]}
{"id": "C119", "title": "The version identifies the source tree", "statement": "If two checkouts whose tags hold no '+' report the same version, they have the same tag, the same number of commits after it, the same answer to whether files were changed and, away from a clean tag, the same abbreviated commit.", "quantifier": "every pair of source trees", "why_tests_cant": "It is about all pairs of trees.", "anchors": ["pyslope/_version.py:get_versions", "pyslope/_version.py:render_pep440", "pyslope/_version.py:plus_or_dot", "pyslope/__init__.py:__version__"]}
{"id": "C120", "title": "The version of a downloaded archive is one of its tags", "statement": "In an archive made by git of a commit with at least one tag that begins with a digit, the version is such a tag of that commit, the first of them in dictionary order; the commit reported is the archived one, and git is not asked.", "quantifier": "every list of names on the commit, every date and commit, every behaviour of git", "why_tests_cant": "A commit can have any number of names in any order, with any text in them.", "anchors": ["pyslope/_version.py:git_versions_from_keywords", "pyslope/_version.py:get_versions", "pyslope/_version.py:get_keywords", "pyslope/__init__.py:__version__"]}
{"id": "C121", "title": "Taking something away again leaves things as they were", "statement": "Putting loads on a slope and taking the same loads off again (remove_udls, remove_lls), setting and removing a water table, setting and removing analysis limits, and adding and removing circles leave a slope on which every circle has the same factor of safety as before and analyse_slope lists the same planes.", "quantifier": "every reachable slope, every list of loads with repetitions, every depth, limits and circle, accepted or not", "why_tests_cant": "It compares whole analyses before and after for every list of loads; the removal loop changes the list it iterates over.", "anchors": ["pyslope/pyslope.py:Slope.set_udls", "pyslope/pyslope.py:Slope.remove_udls", "pyslope/pyslope.py:Slope.set_lls", "pyslope/pyslope.py:Slope.remove_lls", "pyslope/pyslope.py:Slope.set_water_table", "pyslope/pyslope.py:Slope.remove_water_table", "pyslope/pyslope.py:Slope.set_analysis_limits", "pyslope/pyslope.py:Slope.remove_analysis_limits", "pyslope/pyslope.py:Slope.remove_individual_planes", "pyslope/pyslope.py:Slope.update_boundary_options"]}
{"id": "C122", "title": "A call that raises changes nothing", "statement": "When a call that enters something into a slope or takes something out raises an exception, the slope is exactly as it was before the call, results included.", "quantifier": "every reachable slope and every call of a public method that sets or removes something, with any arguments", "why_tests_cant": "It ranges over every state and every refused combination of arguments; the methods assign some attributes before they check other arguments.", "anchors": ["pyslope/pyslope.py:Slope.set_external_boundary", "pyslope/pyslope.py:Slope.set_water_table", "pyslope/pyslope.py:Slope.set_udls", "pyslope/pyslope.py:Slope.set_lls", "pyslope/pyslope.py:Slope.set_materials", "pyslope/pyslope.py:Slope.update_water_analysis_options", "pyslope/pyslope.py:Slope.update_boundary_options", "pyslope/pyslope.py:Slope.set_analysis_limits", "pyslope/pyslope.py:Slope.add_single_entry_exit_plane", "pyslope/pyslope.py:Slope.add_single_circular_plane"]}
{"id": "C123", "title": "An analysis leaves the slope as it found it", "statement": "analyse_slope and analyse_dynamic only compute: afterwards the loads are where they were, and analysing the slope again reports what it would have reported before.", "quantifier": "every reachable slope, every critical factor of safety and every way the analysis can end", "why_tests_cant": "It compares the behaviour of the slope before and after for every slope; a dynamic analysis removes and re-enters the loads up to twelve times.", "anchors": ["pyslope/pyslope.py:Slope.analyse_slope", "pyslope/pyslope.py:Slope.analyse_dynamic", "pyslope/pyslope.py:Slope._set_dynamic_offset"]}
{"id": "C124", "title": "A dynamic analysis tries every position of the loads on the same ground", "statement": "While analyse_dynamic moves the loads, the slope stays where it is in its model: crest, toe, boundary, size of the model and analysis limits are the same for every offset tried and afterwards.", "quantifier": "every reachable slope, every set of loads, every critical factor of safety and every way the analysis can end", "why_tests_cant": "Whether the model is enlarged in the middle of the analysis depends on the loads, the greatest offset and the size of the model together; a test sees a few combinations.", "anchors": ["pyslope/pyslope.py:Slope.analyse_dynamic", "pyslope/pyslope.py:Slope._set_dynamic_offset", "pyslope/pyslope.py:Slope.set_udls", "pyslope/pyslope.py:Slope.set_lls", "pyslope/pyslope.py:Slope.update_boundary_options"]}
{"id": "C125", "title": "A call changes only what it is about", "statement": "Of what the user has entered (slope, materials, distributed loads, line loads, depth of the water table, water factor, analysis options, own circles) a call changes only what it is about by its name, whether or not it raises; a dynamic analysis changes nothing but the loads, and analyse_slope nothing.", "quantifier": "every reachable slope, every call with any arguments, every history of calls, every outcome", "why_tests_cant": "Calls with large loads or deep materials rebuild the whole ground inside other calls; that nothing else is lost or altered on the way must be shown for all states and arguments.", "anchors": ["pyslope/pyslope.py:Slope.set_external_boundary", "pyslope/pyslope.py:Slope.set_water_table", "pyslope/pyslope.py:Slope.set_udls", "pyslope/pyslope.py:Slope.set_lls", "pyslope/pyslope.py:Slope.set_materials", "pyslope/pyslope.py:Slope.update_water_analysis_options", "pyslope/pyslope.py:Slope.update_analysis_options", "pyslope/pyslope.py:Slope.update_boundary_options", "pyslope/pyslope.py:Slope.set_analysis_limits", "pyslope/pyslope.py:Slope.analyse_slope", "pyslope/pyslope.py:Slope.analyse_dynamic"]}
{"id": "C126", "title": "The order in which different things are entered does not matter", "statement": "Entering the slope, the materials, the loads, the water table, the water factor and the options (each by any of its calls, no two calls about the same thing) in any order leaves the same things entered, every call answers the same in every order, and a circle given from the crest has the same safety factor.", "quantifier": "every reachable slope, every list of entry calls about different things with any arguments, every permutation of it, every circle", "why_tests_cant": "The number of orders grows factorially and the calls change the ground under each other; the claim is about all lists and all permutations.", "anchors": ["pyslope/pyslope.py:Slope.set_external_boundary", "pyslope/pyslope.py:Slope.set_water_table", "pyslope/pyslope.py:Slope.set_udls", "pyslope/pyslope.py:Slope.remove_udls", "pyslope/pyslope.py:Slope.set_lls", "pyslope/pyslope.py:Slope.remove_lls", "pyslope/pyslope.py:Slope.set_materials", "pyslope/pyslope.py:Slope.remove_material", "pyslope/pyslope.py:Slope.update_water_analysis_options", "pyslope/pyslope.py:Slope.update_analysis_options", "pyslope/pyslope.py:Slope.update_boundary_options"]}
{"id": "C127", "title": "A setting made twice is as if made once", "statement": "A call that sets something (boundary, boundary options, water table, water factor, analysis options, limits of the search) or takes something away, or an analysis, when repeated with the same arguments changes nothing more and has the same answer, whether it returned or raised.", "quantifier": "every reachable slope, every such call, all arguments", "why_tests_cant": "The second call starts from the state the first left, and clamps, defaults and partial updates before an exception make it different from the first; the claim is about all states and arguments.", "anchors": ["pyslope/pyslope.py:Slope.set_external_boundary", "pyslope/pyslope.py:Slope.update_boundary_options", "pyslope/pyslope.py:Slope.set_water_table", "pyslope/pyslope.py:Slope.remove_water_table", "pyslope/pyslope.py:Slope.update_water_analysis_options", "pyslope/pyslope.py:Slope.update_analysis_options", "pyslope/pyslope.py:Slope.set_analysis_limits", "pyslope/pyslope.py:Slope.remove_analysis_limits", "pyslope/pyslope.py:Slope.remove_material", "pyslope/pyslope.py:Slope.remove_udls", "pyslope/pyslope.py:Slope.remove_lls", "pyslope/pyslope.py:Slope.remove_individual_planes", "pyslope/pyslope.py:Slope.analyse_slope"]}
{"id": "C128", "title": "Loads act the same together, one at a time or in any order", "statement": "Loads given in one call of set_udls or set_lls leave exactly the slope that the same loads given in several calls, one after the other, leave. Given in another order they leave the same slope but for the order they are listed in: every circle has the same factor of safety by either method, an analysis (automatic or of circles added one by one) succeeds for both orders or for neither, and it finds the same circles, the same list of factors of safety and the same least one.", "quantifier": "every reachable slope, every list of constructed loads and of arguments that are no load, every way to cut it in two or into single loads, every permutation, every circle, every limit on the factors kept", "why_tests_cant": "A load may lengthen the model, which moves the crest and with it every load, the limits and the points where the search starts; the claim is about lists of any length and all their permutations.", "anchors": ["pyslope/pyslope.py:Slope.set_udls", "pyslope/pyslope.py:Slope._update_udl_coordinates", "pyslope/pyslope.py:Slope.set_lls", "pyslope/pyslope.py:Slope._update_ll_coordinates", "pyslope/pyslope.py:Slope.update_boundary_options", "pyslope/pyslope.py:Slope._set_entry_exit_planes", "pyslope/pyslope.py:Slope.analyse_slope", "pyslope/pyslope.py:Slope.get_min_FOS"]}
{"id": "C129", "title": "The last setting counts", "statement": "When a call that sets something succeeds, the slope is the same as if a call just before it that set nothing but the same things had not been made, whether that one succeeded or raised. It holds of the boundary, the boundary options, the water table, the water factor, the analysis options and the limits of the search, each possibly given in part. A number of slices or of iterations or a least size given as 0 counts as not given.", "quantifier": "every reachable slope, every pair of calls of one kind of which the second gives whatever the first gives, all arguments", "why_tests_cant": "The second call starts from the state the first left, and values clamped to it, limits checked against each other and updates made before an exception could leave a trace; the claim is about all states and all pairs of arguments.", "anchors": ["pyslope/pyslope.py:Slope.set_external_boundary", "pyslope/pyslope.py:Slope.update_boundary_options", "pyslope/pyslope.py:Slope.set_water_table", "pyslope/pyslope.py:Slope.remove_water_table", "pyslope/pyslope.py:Slope.update_water_analysis_options", "pyslope/pyslope.py:Slope.update_analysis_options", "pyslope/pyslope.py:Slope.set_analysis_limits", "pyslope/pyslope.py:Slope.remove_analysis_limits"]}
{"id": "C130", "title": "A setting overridden later leaves no trace", "statement": "Setting the water table, the water factor or the analysis options changes nothing about the other calls: whatever calls that are not analyses are made after it, each raises or succeeds as it would have without it, and once a later successful call sets the same again, the slope is the same as if the first setting had never been made. If ordinary analyses are made in between as well, the next analysis after the later setting raises the same exception or ends as it would have, and if it ends, it leaves the same slope with the same results.", "quantifier": "every reachable slope, every setting of the water table, the water factor or the analysis options, every list of calls that are not analyses made after it, every successful later setting that gives whatever the first gave", "why_tests_cant": "Any of the calls in between might read the setting and keep something computed from it; the claim is about all lists of calls, of any length, from all states.", "anchors": ["pyslope/pyslope.py:Slope.set_water_table", "pyslope/pyslope.py:Slope.remove_water_table", "pyslope/pyslope.py:Slope.update_water_analysis_options", "pyslope/pyslope.py:Slope.update_analysis_options", "pyslope/pyslope.py:Slope.set_external_boundary", "pyslope/pyslope.py:Slope.update_boundary_options", "pyslope/pyslope.py:Slope.set_udls", "pyslope/pyslope.py:Slope.set_lls", "pyslope/pyslope.py:Slope.set_materials", "pyslope/pyslope.py:Slope.set_analysis_limits", "pyslope/pyslope.py:Slope.add_single_entry_exit_plane", "pyslope/pyslope.py:Slope.add_single_circular_plane"]}
{"id": "C131", "title": "A bound on the factor of safety only cuts the list of results short", "statement": "An analysis with max_fos other than 0 raises or ends as the analysis without it does. If it ends, its results are the beginning of the list of results without the bound: exactly those not above the bound, in the same order. In any arithmetic they are those of the list that compare as not above the bound, in the same order. The least factor of safety, its circle and its end points are the same if it does not exceed the bound, and otherwise there is none. The bound of an earlier analysis, whether that ended or raised, leaves no trace in a later one, in any arithmetic.", "quantifier": "every slope, every bound other than 0, every pair of bounds of an earlier and a later analysis; in exact arithmetic except where it says any arithmetic", "why_tests_cant": "It compares two runs over all slopes and bounds, including ties among the results and bounds equal to one of them.", "anchors": ["pyslope/pyslope.py:Slope.analyse_slope", "pyslope/pyslope.py:Slope.get_min_FOS", "pyslope/pyslope.py:Slope.get_min_FOS_circle", "pyslope/pyslope.py:Slope.get_min_FOS_end_points"]}
{"id": "C132", "title": "Analyses made along the way make no difference", "statement": "Leaving all calls of analyse_slope out of a history, whether they ended or raised, changes neither what the other calls of the history do, success or the exception, nor an analysis at the end of it: that raises the same exception or ends as without them, and if it ends, it does so with the same results and the same slope.", "quantifier": "every reachable slope, every list of calls but dynamic analyses, every bound of the analyses", "why_tests_cant": "An analysis writes its results into the slope and into the circles entered one by one, and any later call might read them; the claim is about all histories of any length with analyses anywhere in them.", "anchors": ["pyslope/pyslope.py:Slope.analyse_slope", "pyslope/pyslope.py:Slope.set_external_boundary", "pyslope/pyslope.py:Slope.update_boundary_options", "pyslope/pyslope.py:Slope.set_udls", "pyslope/pyslope.py:Slope.remove_udls", "pyslope/pyslope.py:Slope.set_lls", "pyslope/pyslope.py:Slope.remove_lls", "pyslope/pyslope.py:Slope.set_materials", "pyslope/pyslope.py:Slope.remove_material", "pyslope/pyslope.py:Slope.set_water_table", "pyslope/pyslope.py:Slope.update_analysis_options", "pyslope/pyslope.py:Slope.set_analysis_limits", "pyslope/pyslope.py:Slope.add_single_entry_exit_plane", "pyslope/pyslope.py:Slope.add_single_circular_plane", "pyslope/pyslope.py:Slope.remove_individual_planes"]}
