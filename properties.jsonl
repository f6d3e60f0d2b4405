{"id": "C01", "title": "Fuzzy threshold truth values are probabilities", "statement": "For every data value, every threshold and every accepted pair of fuzzy bounds, and for each of the four comparison operators, if Threshold produces a truth value then it lies in [0, 1].", "quantifier": "all rational data values, thresholds, fuzzy bounds accepted by the constructor, and all four comparison operators", "why_tests_cant": "the input is a continuum of (value, threshold, lower, upper) quadruples with several clipped branches; tests sample a handful", "anchors": ["improver/threshold.py:Threshold._calculate_truth_value", "improver/utilities/rescale.py:rescale"]}
{"id": "C02", "title": "Threshold truth value is monotone in the data, in the direction of the operator", "statement": "For gt/ge, a larger data value never gets a smaller truth value; for lt/le, never a larger one. For a fixed data value and fuzzy factor, raising a threshold never raises an exceedance probability.", "quantifier": "all pairs of data values, all thresholds/bounds, all operators", "why_tests_cant": "relational (two-run) property over a continuum", "anchors": ["improver/threshold.py:Threshold._calculate_truth_value", "improver/threshold.py:Threshold._generate_fuzzy_bounds"]}
{"id": "C03", "title": "Threshold truth value anchors", "statement": "With fuzzy bounds lower < thr < upper, an above-type threshold gives exactly 0 at and below lower, 1/2 at thr and 1 at and above upper, with linear interpolation between; a below-type threshold gives one minus that. With lower = upper the truth value is exactly the indicator of the comparison.", "quantifier": "all thresholds, bounds, data values", "why_tests_cant": "exact piecewise-linear characterisation over a continuum", "anchors": ["improver/threshold.py:Threshold._calculate_truth_value", "improver/utilities/rescale.py:rescale"]}
{"id": "C04", "title": "Realization-collapsed thresholding is the mean over the unmasked members", "statement": "Thresholding with realization collapse yields, at each point, the arithmetic mean of the truth values of exactly those realizations which are unmasked there; the output is masked at a point if and only if every realization is masked there; unmasked results lie in [0,1] and do not depend on the order of realizations.", "quantifier": "any number of realizations, any masks, any data", "why_tests_cant": "unbounded number of realizations and mask patterns", "anchors": ["improver/threshold.py:Threshold.process"]}
{"id": "C05", "title": "Threshold constructor validity", "statement": "The Threshold constructor rejects a fuzzy factor outside (0,1), a fuzzy factor with a zero threshold, a fuzzy factor together with configured bounds, and configured bounds that do not bracket their threshold; every plugin it does accept has, for each threshold, bounds with lower <= thr <= upper, and lower < thr < upper when a fuzzy factor is given (including for negative thresholds).", "quantifier": "all lists of thresholds, fuzzy factors and bounds", "why_tests_cant": "negative/zero thresholds and unbounded lists; the case split is on signs of reals", "anchors": ["improver/threshold.py:Threshold.__init__", "improver/threshold.py:Threshold._generate_fuzzy_bounds", "improver/threshold.py:Threshold._check_fuzzy_bounds"]}
{"id": "C06", "title": "Threshold plugin is reusable", "statement": "The outcome of calling a Threshold plugin on an input depends only on its constructor arguments and that input, not on which cubes were processed by the same plugin object before.", "quantifier": "all sequences of calls to process on one plugin", "why_tests_cant": "quantifies over call histories", "anchors": ["improver/threshold.py:Threshold.process"]}
{"id": "C07", "title": "Inverting a probability cube is an involution and reaches the requested inequality", "statement": "Inverting the probabilities of a cube twice gives back the original probabilities, inequality and name direction; to_threshold_inequality always returns a cube whose inequality is of the requested kind (above/below), leaves a cube already of that kind untouched, and is idempotent; the inverse of each inequality is its logical complement.", "quantifier": "all probability values and all four inequalities, both targets", "why_tests_cant": "round-trip over all data values", "anchors": ["improver/utilities/probability_manipulation.py:invert_probabilities", "improver/utilities/probability_manipulation.py:to_threshold_inequality", "improver/utilities/probability_manipulation.py:comparison_operator_dict"]}
{"id": "C08", "title": "Between-threshold probabilities are consistent", "statement": "For a probability cube whose probabilities vary monotonically with threshold in the direction given by its inequality, the probability of occurrence between any two available thresholds is in [0,1], adjacent intervals add up to the enclosing interval, and above/below forms of the same distribution give the same answer; a range whose thresholds are not available is rejected.", "quantifier": "all threshold lists, probabilities and requested ranges", "why_tests_cant": "unbounded threshold lists and ranges", "anchors": ["improver/between_thresholds.py:OccurrenceBetweenThresholds"]}
{"id": "C09", "title": "Ensemble reordering preserves the calibrated values", "statement": "At every grid point, the set of values (with multiplicity) in the reordered ensemble equals the set of values of the calibrated percentiles there, whatever the raw ensemble values, ties, tie-breaking random numbers or random_ordering setting.", "quantifier": "any number of members, any raw values with ties, any random numbers", "why_tests_cant": "all permutations and tie patterns for unbounded ensemble sizes", "anchors": ["improver/ensemble_copula_coupling/ensemble_copula_coupling.py:EnsembleReordering.rank_ecc", "improver/utilities/indexing_operations.py:choose"]}
{"id": "C10", "title": "Ensemble reordering transfers the raw rank order", "statement": "If the calibrated percentiles are ascending, then whenever raw member i is below raw member j at a point, reordered member i is at most reordered member j; where raw members tie the order is that of the random tie-break, and a point's result is independent of the random numbers when raw values there are distinct.", "quantifier": "any ensemble size, any raw values, any random tie-break numbers", "why_tests_cant": "relational property over all orderings", "anchors": ["improver/ensemble_copula_coupling/ensemble_copula_coupling.py:EnsembleReordering.rank_ecc"]}
{"id": "C11", "title": "Recycling raw realizations", "statement": "When the number of percentiles differs from the number of raw members, the extended raw ensemble has exactly one member per percentile, its k-th member holds the data of raw member k mod n, and realization numbers are consecutive starting from the first raw realization number.", "quantifier": "all ensemble and percentile counts", "why_tests_cant": "unbounded sizes", "anchors": ["improver/ensemble_copula_coupling/ensemble_copula_coupling.py:EnsembleReordering._recycle_raw_ensemble_realizations"]}
{"id": "C12", "title": "Default percentile sets are evenly spaced and rebadgeable", "statement": "choose_set_of_percentiles(n) returns n strictly increasing percentiles strictly between 0 and 100, symmetric about 50, that partition (0,100) equally; such a set is always accepted by RebadgePercentilesAsRealizations, and rebadging assigns realization numbers 0..n-1 without changing or reordering data.", "quantifier": "all n >= 1", "why_tests_cant": "all n", "anchors": ["improver/ensemble_copula_coupling/utilities.py:choose_set_of_percentiles", "improver/ensemble_copula_coupling/ensemble_copula_coupling.py:RebadgePercentilesAsRealizations"]}
{"id": "C13", "title": "Resampled percentiles are ordered and bounded", "statement": "Resampling percentiles of a forecast whose percentile values are ascending yields values that are non-decreasing in the requested percentile, never outside the distribution's bounds (expanded to the data when ecc_bounds_warning is set), and equal to the input at percentiles already present.", "quantifier": "all forecasts, percentile lists, requested percentiles and bounds", "why_tests_cant": "continuum of inputs, list lengths unbounded", "anchors": ["improver/ensemble_copula_coupling/ensemble_copula_coupling.py:ResamplePercentiles", "improver/ensemble_copula_coupling/numba_utilities.py:fast_interp_same_x"]}
{"id": "C14", "title": "Percentiles from probabilities are ordered and bounded", "statement": "Converting threshold probabilities to percentiles yields values non-decreasing in percentile and within the ECC bounds (or thresholds); thresholds outside the bounds are rejected unless ecc_bounds_warning, and data for which the probability of non-exceedance at a threshold equals the percentile (strictly increasing CDF) returns that threshold.", "quantifier": "all CDFs, thresholds, percentiles", "why_tests_cant": "continuum of inputs, list lengths unbounded", "anchors": ["improver/ensemble_copula_coupling/ensemble_copula_coupling.py:ConvertProbabilitiesToPercentiles", "improver/ensemble_copula_coupling/numba_utilities.py:fast_interp_same_y"]}
{"id": "C15", "title": "The stateful row interpolation equals pointwise interpolation", "statement": "The single-pass interpolation used for many rows (which reuses the bracketing index and slope between consecutive abscissae) returns at each requested point the same value as interpolating that point on its own, for ordered and unordered requests, and it agrees with the reference (slow) implementation whenever the abscissae are strictly increasing and separated by at least 1e-15.", "quantifier": "all request lists, all ascending abscissa lists", "why_tests_cant": "loop-carried state over unbounded lists", "anchors": ["improver/ensemble_copula_coupling/numba_utilities.py:fast_interp_same_y", "improver/ensemble_copula_coupling/numba_utilities.py:fast_interp_same_x", "improver/ensemble_copula_coupling/utilities.py:slow_interp_same_y"]}
{"id": "C16", "title": "Truncated-normal parameter conversion is reusable", "statement": "The percentiles or probabilities computed by a ConvertLocationAndScaleParameters plugin for given location and scale depend only on the constructor arguments and that location and scale, not on earlier calls.", "quantifier": "all call histories", "why_tests_cant": "quantifies over call histories", "anchors": ["improver/ensemble_copula_coupling/ensemble_copula_coupling.py:ConvertLocationAndScaleParameters._rescale_shape_parameters"]}
{"id": "C17", "title": "Ensemble reordering handles every number of validity times", "statement": "EnsembleReordering.rank_ecc reorders each validity time of a multi-time forecast.", "quantifier": "any number of times, with or without random seed", "why_tests_cant": "number of time slices is unbounded", "anchors": ["improver/ensemble_copula_coupling/ensemble_copula_coupling.py:EnsembleReordering.rank_ecc"]}
{"id": "C18", "title": "Realizations rebadged as percentiles are sorted and preserved", "statement": "Rebadging realizations as percentiles returns at each point the same multiset of values in ascending order, on strictly increasing percentiles in (0,100), for both percentile conventions.", "quantifier": "any ensemble size and data", "why_tests_cant": "unbounded size", "anchors": ["improver/ensemble_copula_coupling/ensemble_copula_coupling.py:RebadgeRealizationsAsPercentiles"]}
{"id": "C19", "title": "Expected value from probabilities", "statement": "The expected value derived from threshold probabilities lies between the lowest and highest thresholds (each extended by one epsilon), uses weights that are non-negative and sum to one, is rejected when thresholds are not increasing or the CDF not monotone, and moves monotonically: larger exceedance probabilities never give a smaller expected value.", "quantifier": "all thresholds and probability vectors", "why_tests_cant": "unbounded vectors over a continuum", "anchors": ["improver/expected_value.py:ExpectedValue.integrate_over_thresholds"]}
{"id": "C20", "title": "Weight normalisation", "statement": "Normalised weights are non-negative, sum to one and keep proportions; a negative weight or a zero sum is rejected.", "quantifier": "all weight lists", "why_tests_cant": "unbounded lists", "anchors": ["improver/blending/weights.py:WeightsUtilities.normalise_weights"]}
{"id": "C21", "title": "Default blending weights", "statement": "For every number of cycles, the linear, non-linear and triangular default weights that are accepted are non-negative and sum to one; linear weights change by a constant step, non-linear weights decay by the constant ratio cval (in reverse order when inverse_ordering), and triangular weights vanish outside the window, peak at the midpoint and decrease with distance from it.", "quantifier": "all counts, y0/yn values, cval in (0,1], midpoints and widths", "why_tests_cant": "all n and parameters", "anchors": ["improver/blending/weights.py:ChooseDefaultWeightsLinear", "improver/blending/weights.py:ChooseDefaultWeightsNonLinear", "improver/blending/weights.py:ChooseDefaultWeightsTriangular"]}
{"id": "C22", "title": "Weighted blending is a convex combination", "statement": "A weighted blend of fields lies at each point between the smallest and largest contributing (non-zero weight, unmasked) value, reproduces a field when all inputs are equal, and does not depend on the order in which the inputs are listed.", "quantifier": "any number of inputs, values, non-negative weights with positive sum", "why_tests_cant": "unbounded inputs, all orders", "anchors": ["improver/blending/weighted_blend.py:WeightedBlendAcrossWholeDimension.weighted_mean"]}
{"id": "C23", "title": "Percentile blending yields a valid distribution", "statement": "Blending percentiles yields values non-decreasing in percentile and within the range of the input values; blending identical strictly increasing inputs with weights summing to one returns them.", "quantifier": "any number of models, percentiles, weights", "why_tests_cant": "nested interpolation and sorting over unbounded lists", "anchors": ["improver/blending/weighted_blend.py:PercentileBlendingAggregator.blend_percentiles"]}
{"id": "C24", "title": "Spatially varying weights from masks", "statement": "Weights from SpatiallyVaryingWeightsFromMask are non-negative, zero where the input is masked, never exceed one in sum, and sum to one at every point where at least one unmasked input of positive weight is outside the fuzzy zone of its own mask.", "quantifier": "all masks, weights, fuzzy lengths", "why_tests_cant": "all mask patterns", "anchors": ["improver/blending/spatial_weights.py:SpatiallyVaryingWeightsFromMask"]}
{"id": "C25", "title": "Time-lagged ensembles have unique realization numbers", "statement": "Combining ensembles from several cycles yields pairwise distinct realization numbers and retains every member exactly once; numbers already distinct are left unchanged.", "quantifier": "any number of cubes and members", "why_tests_cant": "unbounded lists", "anchors": ["improver/utilities/time_lagging.py:GenerateTimeLaggedEnsemble"]}
{"id": "C26", "title": "boxsum equals the windowed sum", "statement": "For every grid and odd box size, boxsum with zero padding returns at each point the sum of the values in the box centred there restricted to the grid; even sizes are rejected.", "quantifier": "all grid sizes, data and odd box sizes", "why_tests_cant": "unbounded sizes; index arithmetic at edges", "anchors": ["improver/utilities/neighbourhood_tools.py:boxsum", "improver/utilities/neighbourhood_tools.py:pad_boxsum"]}
{"id": "C27", "title": "Square neighbourhood mean", "statement": "Square neighbourhood processing returns at each point the mean of the valid values in the neighbourhood clipped to the grid; it lies between the minimum and maximum of the data.", "quantifier": "all grids, masks, data and radii", "why_tests_cant": "the all-zero / all-one shortcut makes behaviour depend on the whole field", "anchors": ["improver/nbhood/nbhood.py:NeighbourhoodProcessing._calculate_neighbourhood", "improver/nbhood/nbhood.py:NeighbourhoodProcessing._do_nbhood_sum"]}
{"id": "C28", "title": "Recursive filter is bounded and conserves constants", "statement": "For smoothing coefficients in [0, 0.5] and any number of iterations the recursive filter's output lies within the range of its input, leaves constant fields unchanged, is the identity for zero coefficients, and is monotone in its input.", "quantifier": "all grids, coefficients, iteration counts, edge widths", "why_tests_cant": "iterated loop over unbounded grid and iteration counts", "anchors": ["improver/nbhood/recursive_filter.py:RecursiveFilter"]}
{"id": "C29", "title": "Adding and removing a halo round-trips", "statement": "Padding a field with a halo of any width and removing a halo of the same width returns the original data; symmetric padding introduces no new values; coordinates are extended with the same spacing; grids with non-uniform spacing are rejected.", "quantifier": "all grid sizes and widths", "why_tests_cant": "unbounded sizes; slicing with zero width", "anchors": ["improver/utilities/pad_spatial.py:pad_cube_with_halo", "improver/utilities/pad_spatial.py:remove_halo_from_cube", "improver/utilities/pad_spatial.py:pad_coord"]}
{"id": "C30", "title": "Combining undersampled reliability bins", "statement": "Combining undersampled bins terminates, conserves the total observation count, forecast probability sum and forecast count, keeps the bins contiguous, and ends with every bin at or above the minimum count or with a single bin.", "quantifier": "all reliability tables and minimum counts", "why_tests_cant": "data-dependent loop of unbounded length", "anchors": ["improver/calibration/reliability_calibration.py:ManipulateReliabilityTable._combine_undersampled_bins"]}
{"id": "C31", "title": "Manipulated reliability tables have monotone observation frequency", "statement": "After manipulation, observation frequency is non-decreasing with forecast probability bin, forecast counts are conserved in total, and observation frequencies stay in [0,1].", "quantifier": "all tables with positive forecast counts", "why_tests_cant": "data-dependent direction and bin merging", "anchors": ["improver/calibration/reliability_calibration.py:ManipulateReliabilityTable._enforce_min_count_and_montonicity", "improver/calibration/reliability_calibration.py:ManipulateReliabilityTable._assume_constant_observation_frequency"]}
{"id": "C32", "title": "Reliability tables count every forecast exactly once", "statement": "Every forecast probability in [0,1] contributes to exactly one probability bin of the table, each bin's mean forecast probability lies within the bin, observation counts never exceed forecast counts, total forecast count equals the number of unmasked forecast-truth pairs, and the table does not depend on the order of the times.", "quantifier": "all bin counts, forecasts, truths, masks, number of times", "why_tests_cant": "unbounded samples; bin-edge cases", "anchors": ["improver/calibration/reliability_calibration.py:ConstructReliabilityCalibrationTables._populate_reliability_bins", "improver/calibration/reliability_calibration.py:ConstructReliabilityCalibrationTables._add_reliability_tables"]}
{"id": "C33", "title": "Reliability calibrated probabilities are valid", "statement": "Calibrated probabilities lie in [0,1], are non-decreasing in the raw probability for a table with non-decreasing observation frequency, and are monotone across thresholds in the direction of the inequality; a table with fewer than two bins leaves the forecast unchanged.", "quantifier": "all tables and forecasts", "why_tests_cant": "continuum; relational", "anchors": ["improver/calibration/reliability_calibration.py:ApplyReliabilityCalibration"]}
{"id": "C34", "title": "Aggregating reliability tables", "statement": "Aggregating tables adds them bin by bin, is insensitive to grouping, and refuses tables whose forecast reference time ranges overlap.", "quantifier": "any number of tables with any time bounds", "why_tests_cant": "unbounded number of tables and all orders", "anchors": ["improver/calibration/reliability_calibration.py:AggregateReliabilityCalibrationTables"]}
{"id": "C35", "title": "Rescale is the affine map between its ranges", "statement": "rescale maps the data range ends to the scale range ends, is affine between, never leaves the scale range when clipping, inverts under swapping of ranges when not clipping, and rejects zero-width ranges.", "quantifier": "all data and ranges", "why_tests_cant": "continuum", "anchors": ["improver/utilities/rescale.py:rescale", "improver/utilities/rescale.py:apply_double_scaling"]}
{"id": "C36", "title": "Thresholding does not alter its input cube", "statement": "Calling Threshold.process leaves the data and units of the caller's input cube unchanged.", "quantifier": "all cubes, threshold units and collapse settings", "why_tests_cant": "aliasing: whether the input or a copy is converted depends on the combination of options", "anchors": ["improver/threshold.py:Threshold.process", "improver/threshold.py:Threshold._calculate_truth_value"]}
{"id": "C37", "title": "Masking percentiles above the highest threshold", "statement": "With mask_percentiles, a requested percentile is masked exactly where the probability of not exceeding the highest threshold is at most that percentile, and the values left unmasked never exceed the highest threshold.", "quantifier": "all probability vectors, thresholds, percentiles and ECC bounds", "why_tests_cant": "continuum of probabilities and thresholds", "anchors": ["improver/ensemble_copula_coupling/ensemble_copula_coupling.py:ConvertProbabilitiesToPercentiles._probabilities_to_percentiles"]}
{"id": "C38", "title": "Configured linear blending weights", "statement": "ChooseWeightsLinear returns, for every target point, weights that are non-negative and sum to one across models, proportional to each model's configured table read by linear interpolation and held constant beyond its ends, for tables listed in ascending order.", "quantifier": "all configurations, numbers of models and target points", "why_tests_cant": "continuum of target points and unbounded tables; order of the configured lists", "anchors": ["improver/blending/weights.py:ChooseWeightsLinear"]}
{"id": "C39", "title": "Rebadging forecasts to one cycle", "statement": "Unifying cycle times gives every forecast the latest forecast reference time among the inputs (or the requested one), recomputes forecast period as validity time minus that reference time, leaves validity times and data unchanged, and is idempotent.", "quantifier": "any number of cubes with any times", "why_tests_cant": "unbounded lists and arbitrary times", "anchors": ["improver/metadata/forecast_times.py:rebadge_forecasts_as_latest_cycle", "improver/metadata/forecast_times.py:unify_cycletime"]}
{"id": "C40", "title": "Masked data do not influence recursively filtered unmasked points", "statement": "Filtering a masked cube with the recursive filter returns at every unmasked point a value that does not depend on the data under the mask, for every mask, coefficients, edge width and number of iterations.", "quantifier": "all masks, fields, coefficients, edge widths, iteration counts", "why_tests_cant": "relational over pairs of fields; leakage path needs a halo and two iterations", "anchors": ["improver/nbhood/recursive_filter.py:RecursiveFilter.process", "improver/generate_ancillaries/generate_orographic_smoothing_coefficients.py:OrographicSmoothingCoefficients.zero_masked"]}
{"id": "C41", "title": "Recursive filter leaves its coefficient cubes unchanged", "statement": "Running the recursive filter does not modify the smoothing coefficient cubes passed to it, so a later run with the same cubes gives the result it would have given first.", "quantifier": "all sequences of runs", "why_tests_cant": "history dependent", "anchors": ["improver/nbhood/recursive_filter.py:RecursiveFilter._update_coefficients_from_mask", "improver/generate_ancillaries/generate_orographic_smoothing_coefficients.py:OrographicSmoothingCoefficients.zero_masked"]}
{"id": "C42", "title": "Orographic smoothing coefficients stay in their limits", "statement": "Every generated smoothing coefficient lies between the configured minimum- and maximum-gradient coefficients (hence in [0, 0.5]) and steeper gradients never get larger coefficients when the maximum-gradient coefficient is the smaller.", "quantifier": "all orographies and limits", "why_tests_cant": "continuum of inputs", "anchors": ["improver/generate_ancillaries/generate_orographic_smoothing_coefficients.py:OrographicSmoothingCoefficients.scale_smoothing_coefficients"]}
{"id": "C43", "title": "Decision tree gives each point the category reached by walking the tree", "statement": "For any decision tree whose nodes have non-empty condition lists, valid comparators and combinations and whose two branches differ, ApplyDecisionTree gives a point category c exactly when walking the tree from the first node (go to if_true when the node's conditions hold at the point, to if_false otherwise) ends in a leaf with code c, whatever order the routes are applied in; points with no such walk stay masked. The route search terminates. (Findings: a node whose two branches are the same leaves the points that pass it masked; a tree whose start node is a leaf raises IndexError.)", "quantifier": "every decision tree, every start node, all values of the diagnostics at the point", "why_tests_cant": "the number of tree shapes is unbounded and the code never walks the tree, it evaluates inverted condition chains along each enumerated route; agreement must hold for every tree and point", "anchors": ["improver/categorical/decision_tree.py:ApplyDecisionTree.process", "improver/categorical/decision_tree.py:create_condition_chain", "improver/categorical/decision_tree.py:find_all_routes", "improver/categorical/decision_tree.py:evaluate_condition_chain", "improver/categorical/decision_tree.py:invert_condition"]}
{"id": "C44", "title": "Optional decision nodes with missing diagnostics are bypassed exactly", "statement": "When the diagnostics of optional nodes are missing, the rerouted tree gives each point the category of the walk that, at such a node, follows the branch named in if_diagnostic_missing, for any set and order of missing nodes and chains of missing nodes; no route visits a missing node. (Findings: bypassing can make a node's branches equal, leaving its points masked, and the rerouting persists on the plugin and in the caller's dictionary for later calls.)", "quantifier": "every decision tree, every set of missing optional nodes without cycles among them, every order of removal", "why_tests_cant": "rerouting composes over arbitrarily long chains of missing nodes and over the start node; tests fix one tree", "anchors": ["improver/categorical/decision_tree.py:ApplyDecisionTree.process", "improver/categorical/decision_tree.py:remove_optional_missing", "improver/categorical/decision_tree.py:update_tree_thresholds"]}
{"id": "C45", "title": "Day and night category codes", "statement": "By day categories are unchanged; by night every category with a night variant becomes that variant and all others are unchanged, for every map of night variants in which no variant itself has a variant; the map is read off the leaves of the tree. (Finding: with chained variants the outcome depends on dictionary order.)", "quantifier": "every day/night map and category", "why_tests_cant": "replacement is done in place and sequentially; the property needs every order of entries", "anchors": ["improver/categorical/utilities.py:update_daynight", "improver/categorical/utilities.py:day_night_map"]}
{"id": "C46", "title": "Diagnostic expressions of a decision tree have their usual arithmetic value", "statement": "A flat diagnostic expression of a decision tree node with operators + - * / has its usual value (products and quotients first, left to right), provided no addition is written after a subtraction. (Finding: additions are carried out before subtractions, so a - b + c evaluates to a - (b + c).)", "quantifier": "every expression, of any length, over any values", "why_tests_cant": "the evaluator rewrites the list operator by operator; equality with arithmetic must hold for every length and mixture of operators", "anchors": ["improver/categorical/decision_tree.py:ApplyDecisionTree.evaluate_extract_expression"]}
{"id": "C47", "title": "Modal category of a period", "statement": "ModalCategory counts night codes as their day codes and returns, at each point, the most frequent category of the period (the highest code in a tie) whenever some category covers at least 30% of the times; otherwise the mode after each code is replaced by the lowest code of its group that occurs at the point. The result is always a category that occurs at the point and does not depend on the order of the times.", "quantifier": "every decision tree with distinct codes and any grouping, any number of times, any codes", "why_tests_cant": "unbounded combinations of codes, ties and groups; order independence ranges over all permutations", "anchors": ["improver/categorical/modal_code.py:ModalCategory.mode_aggregator", "improver/categorical/modal_code.py:ModalCategory._group_codes", "improver/categorical/modal_code.py:ModalCategory._unify_day_and_night", "improver/categorical/modal_code.py:ModalCategory.process"]}
{"id": "C48", "title": "Accumulations are the time integral of the rates", "statement": "Given rates at regularly spaced times, in any order, Accumulation returns for each requested forecast period the trapezoidal integral of the rates over the accumulation period that ends there, with time and forecast period bounds equal to that period; without arguments it integrates over the whole series. Accumulations over adjacent periods add up, rates between lo and hi give amounts between lo and hi times the period, and irregular spacing is refused. (Findings: a period reaching back before the first rate silently yields an amount over less time; period and forecast periods found on the first call stick to the plugin.)", "quantifier": "every number of rate cubes in any order, any rates, any spacing, any list of forecast periods reached by a full period", "why_tests_cant": "sums over unboundedly many cubes and all orders of the inputs; unit tests fix one short series", "anchors": ["improver/nowcasting/accumulation.py:Accumulation.process", "improver/nowcasting/accumulation.py:Accumulation._check_inputs", "improver/nowcasting/accumulation.py:Accumulation._get_cube_subsets", "improver/nowcasting/accumulation.py:Accumulation._calculate_accumulation"]}
{"id": "C49", "title": "Combining cubes", "statement": "Combining two or more cubes gives at every point the sum, first minus the others, product, maximum, minimum or mean of the inputs, masked exactly where some input is masked; masked_add sums the unmasked inputs and is masked only where all are. Except for subtraction the order of the cubes does not matter; the mean lies between the extremes of the inputs; fewer than two cubes are refused; with minimum_realizations only realizations complete in time are used and too few are refused; a maximum over a time window needs bounds of one common length; cubes whose dimensions differ are refused (partial: the check accepts cubes with fewer dimensions, which numpy then broadcasts along the wrong axis).", "quantifier": "every number of cubes, any values and masks, any order", "why_tests_cant": "unbounded number of inputs and all permutations; unit tests combine two or three cubes", "anchors": ["improver/cube_combiner.py:CubeCombiner.process", "improver/cube_combiner.py:CubeCombiner._combine_cube_data", "improver/cube_combiner.py:masked_add", "improver/cube_combiner.py:CubeCombiner._check_dimensions_match", "improver/cube_combiner.py:Combine.process", "improver/cube_combiner.py:MaxInTimeWindow._check_input_cubes"]}
{"id": "C50", "title": "Expanded bounds are the hull of the inputs", "statement": "expand_bounds gives a scalar coordinate the smallest interval that contains the bounds (or, if none is bounded, the points) of that coordinate on all inputs, with the upper bound as its point; mixtures of bounded and unbounded inputs are refused and nothing else is; the result does not depend on the order of inputs and expanding in steps equals expanding at once.", "quantifier": "every number of input cubes with any points and bounds", "why_tests_cant": "quantifies over all lists, orders and groupings of inputs", "anchors": ["improver/utilities/cube_manipulation.py:expand_bounds"]}
{"id": "C51", "title": "Reordering dimensions moves data with its coordinates", "statement": "enforce_coordinate_ordering places the requested dimension coordinates that the cube has (\"threshold\" standing for the threshold coordinate), in the requested order, at the start (or end) of the dimensions, leaves the others in their order, and every data value keeps its coordinate values.", "quantifier": "every cube of any number of named dimensions, every list of distinct names, both anchors", "why_tests_cant": "index bookkeeping of a transposition for every rank and permutation", "anchors": ["improver/utilities/cube_manipulation.py:enforce_coordinate_ordering"]}
{"id": "C52", "title": "Filtering incomplete realizations", "statement": "filter_realizations returns exactly the input slices of the realizations that are available at every time, each once, in ascending order of realization and time, and fails when there is no such realization.", "quantifier": "every collection of realization/time slices in any order", "why_tests_cant": "all combinations of missing slices", "anchors": ["improver/utilities/cube_manipulation.py:filter_realizations"]}
{"id": "C53", "title": "Maximum over heights and the height of the maximum", "statement": "maximum_in_height gives the largest value among the levels within the inclusive bounds and fails if there is none; height_of_maximum returns a height at which the maximum is attained. (Partial: find_lowest is exchanged - with ties find_lowest=True returns the highest and find_lowest=False the lowest height.)", "quantifier": "every number of levels, any heights, values and bounds", "why_tests_cant": "ties and boundaries at arbitrary positions in arbitrarily many levels; the existing unit test passes non-empty strings as flags and so hides the exchange", "anchors": ["improver/utilities/cube_manipulation.py:maximum_in_height", "improver/utilities/cube_manipulation.py:height_of_maximum"]}
{"id": "C54", "title": "Attribute differences between cubes", "statement": "For two or more cubes compare_attributes lists for each cube exactly those of its (filtered) attributes that do not occur with the same value on all the cubes. (Finding: a single cube yields no entry at all.)", "quantifier": "every number of cubes with any attributes and any key filter", "why_tests_cant": "all combinations of attribute sets", "anchors": ["improver/utilities/cube_manipulation.py:compare_attributes", "improver/utilities/cube_manipulation.py:get_filtered_attributes"]}
{"id": "C55", "title": "Times of temporal interpolation", "statement": "TemporalInterpolation can be constructed exactly with one of interval and times, a known method and at most one period kind (linear only). The output times are strictly ascending, lie between the inputs' times and end with the final time; an interval that divides the time between the inputs gives exactly the end points of the parts, a list of times gives these times and the final time; indivisible intervals and times outside the inputs are refused. (Findings: for inputs a day or more apart the divisibility check is made modulo one day; the final times of all calls collect in the plugin's list of times, so that a call can fail on a used plugin.)", "quantifier": "every pair of input times, every interval and every list of times in any order", "why_tests_cant": "loops of unbounded length and all combinations of times; the reuse history is unbounded", "anchors": ["improver/utilities/temporal_interpolation.py:TemporalInterpolation.__init__", "improver/utilities/temporal_interpolation.py:TemporalInterpolation.construct_time_list"]}
{"id": "C56", "title": "Temporally interpolated values", "statement": "Instantaneous diagnostics are interpolated on the straight line between the inputs, hence between their values, and the output at the final time equals the second input. Period maxima (minima) never exceed (fall below) that of the whole period, are the interpolated value where that respects the limit, and cover consecutive periods from the first to the second input's time.", "quantifier": "all values, all input times and all admissible time lists", "why_tests_cant": "pointwise for all reals and for time lists of any length", "anchors": ["improver/utilities/temporal_interpolation.py:TemporalInterpolation.process", "improver/utilities/temporal_interpolation.py:TemporalInterpolation.add_bounds"]}
{"id": "C57", "title": "Temporally interpolated accumulations preserve the total", "statement": "Interpolating non-negative accumulations that are not both zero yields non-negative accumulations over consecutive periods that add up to the accumulation of the whole period; equal rates in both inputs are shared out in proportion to the length of each period. (Partial: where both inputs are zero all outputs are NaN; both input cubes are left changed to rates.)", "quantifier": "all accumulations and period lengths, all admissible time lists", "why_tests_cant": "the sum runs over a list of any length with arbitrary spacing, and rests on an exact trapezoid identity", "anchors": ["improver/utilities/temporal_interpolation.py:TemporalInterpolation._calculate_accumulation", "improver/utilities/temporal_interpolation.py:TemporalInterpolation.process"]}
{"id": "C58", "title": "Solar and day-night interpolation", "statement": "With the solar method, values are 0 where the sun is down; with the sun up at all three times (inputs less than a day apart) the ratio of value to sine of elevation is interpolated linearly, so non-negative inputs give non-negative results and the final input is reproduced. The day-night method zeroes night points and leaves the others. (Partial: inputs exactly one day apart give NaN, and sunrise or sunset between the inputs can give negative values.)", "quantifier": "all values, times and solar elevations", "why_tests_cant": "quantifies over all combinations of elevations and values", "anchors": ["improver/utilities/temporal_interpolation.py:TemporalInterpolation.solar_interpolate", "improver/utilities/temporal_interpolation.py:TemporalInterpolation.daynight_interpolate"]}
{"id": "C59", "title": "Freezing rain probability", "statement": "FreezingRain gives the mean over the realizations of (P(rain) + P(sleet)) P(temperature below freezing), a probability when rain and sleet probabilities add up to at most 1, and refuses inputs without common realizations. (Partial: if only some realizations are common to the inputs, the sum over these is still divided by the number of realizations of the rain cube.)", "quantifier": "all numbers and sets of realizations, all probabilities", "why_tests_cant": "any ensemble size and any subset of common realizations", "anchors": ["improver/precipitation_type/freezing_rain.py:FreezingRain.process", "improver/precipitation_type/freezing_rain.py:FreezingRain._extract_common_realizations", "improver/precipitation_type/freezing_rain.py:FreezingRain._calculate_freezing_rain_probability"]}
{"id": "C60", "title": "Snow splitter conserves precipitation", "statement": "The rain and snow parts of SnowSplitter add up to the precipitation at every point and each lies between 0 and the precipitation; certain rain (snow) makes it all rain (snow); inputs with P(rain) + P(snow) > 1 anywhere are refused.", "quantifier": "every grid and all values", "why_tests_cant": "conservation for every real-valued input", "anchors": ["improver/precipitation_type/snow_splitter.py:SnowSplitter.process"]}
{"id": "C61", "title": "Snow fraction", "statement": "SnowFraction is snow/(rain+snow) where there is precipitation, and elsewhere the fraction of some point with precipitation; it lies in [0, 1] everywhere on a grid with any precipitation.", "quantifier": "every grid, all non-negative rain and snow, every nearest-value interpolation", "why_tests_cant": "every pattern of dry points; interpolation is a black box for tests", "anchors": ["improver/precipitation_type/snow_fraction.py:SnowFraction.process", "improver/utilities/interpolation.py:interpolate_missing_data"]}
{"id": "C62", "title": "Filling masked points using differences from a reference", "statement": "InterpolateUsingDifference leaves unmasked values unchanged; a filled value is the reference minus a difference between the smallest and largest difference at unmasked points, and respects the limit; all masked points are filled as soon as one point is unmasked.", "quantifier": "every grid, mask, values, limit and whatever the interpolation routine returns", "why_tests_cant": "must hold for every mask pattern and regardless of the interpolator's numerical behaviour", "anchors": ["improver/utilities/interpolation.py:InterpolateUsingDifference.process", "improver/utilities/interpolation.py:interpolate_missing_data"]}
{"id": "C63", "title": "Hail fraction", "statement": "The hail fraction lies in [0, 1/4], is at least 0.05 where the hail size exceeds 2 mm, is 0 for small hail with a cold condensation level, warm cloud top or a melting level above ground, and otherwise rises linearly with updraught from 0 at 5 m/s to 1/4 at 50 m/s.", "quantifier": "all values of the six inputs", "why_tests_cant": "continuous six-dimensional input space with boundaries", "anchors": ["improver/precipitation_type/hail_fraction.py:HailFraction._compute_hail_fraction"]}
{"id": "C64", "title": "Shower condition probability", "statement": "The shower condition probability is the fraction of realizations with cloud fraction at most its threshold or an unmasked convective ratio above its threshold.", "quantifier": "every number of realizations and all values and masks of the convective ratio", "why_tests_cant": "all ensemble sizes and boundary values", "anchors": ["improver/precipitation_type/shower_condition_probability.py:ShowerConditionProbability.process"]}
{"id": "C65", "title": "Visibility combined with cloud base", "statement": "The scaling factor is the initial value at threshold 0, 1 from the first unscaled threshold on, in between otherwise and non-decreasing; probabilities of visibility below thresholds are never lowered, stay probabilities, equal the larger of visibility and cloud probability at unscaled thresholds and stay in order across thresholds; probabilities above thresholds are treated as complements.", "quantifier": "all thresholds in any number, all probabilities, all scaling parameters", "why_tests_cant": "monotonicity across all thresholds and values", "anchors": ["improver/visibility/visibility_combine_cloud_base.py:VisibilityCombineCloudBase.get_scaling_factors", "improver/visibility/visibility_combine_cloud_base.py:VisibilityCombineCloudBase.process"]}
{"id": "C66", "title": "Extraction from a table", "statement": "ExtractValueFromTable returns the table entry whose column and row labels are the last ones below the two inputs to within 1e-5 (the first label if the input is below all), whatever the order in which the table lists them; NaN inputs give NaN.", "quantifier": "every table and every pair of values", "why_tests_cant": "all label sets, including labels closer than the tolerance, and all values", "anchors": ["improver/utilities/extract_from_table.py:ExtractValueFromTable.nearest_lower_index", "improver/utilities/extract_from_table.py:ExtractValueFromTable.extract_table_values", "improver/utilities/extract_from_table.py:ExtractValueFromTable.convert_dict_to_dataframe"]}
{"id": "C67", "title": "Texture of binary fields", "statement": "For a cube of zeros and ones, FieldTexture counts for each wet cell its dry neighbours on the grid, divides the neighbourhood total by four times the number of wet cells (a ratio in [0, 1], one at dry cells) and returns the fraction of realizations whose ratio exceeds the textural threshold; data other than zeros and ones, and an absent threshold, are refused.", "quantifier": "every grid size, neighbourhood radius, binary field, number of realizations and pair of thresholds", "why_tests_cant": "the claim is about every binary field and radius, including fields touching every edge; tests show a few small grids", "anchors": ["improver/utilities/textural.py:FieldTexture.process", "improver/utilities/textural.py:FieldTexture._calculate_ratio", "improver/utilities/textural.py:FieldTexture._calculate_transitions"]}
{"id": "C68", "title": "Maximum within a vicinity", "statement": "At every unmasked point OccurrenceWithinVicinity gives the greatest of the unmasked values in the square of the given radius around it on the same side of the coast, independently of how the grid edges are extended; masked points are unchanged; results grow with the radius.", "quantifier": "every grid, radius (also larger than the grid), mask, land mask and data of any type", "why_tests_cant": "edge handling, masks and coasts combine in unboundedly many ways; tests use a handful of small grids of floats", "anchors": ["improver/utilities/spatial.py:maximum_within_vicinity", "improver/utilities/spatial.py:OccurrenceWithinVicinity"]}
{"id": "C69", "title": "Distances and grid cells", "statement": "The grid spacing is the common distance between neighbours and is refused for unevenly spaced axes; a distance is converted to the largest whole number of grid lengths that fits, and distances shorter than a grid length are refused; so a radius in metres selects exactly the columns within that distance; converting cells to distance and back is the identity.", "quantifier": "every axis of points and every distance", "why_tests_cant": "floor arithmetic over all real spacings and distances", "anchors": ["improver/utilities/spatial.py:calculate_grid_spacing", "improver/utilities/spatial.py:distance_to_number_of_grid_cells", "improver/utilities/spatial.py:number_of_grid_cells_to_distance", "improver/utilities/spatial.py:check_if_grid_is_equal_area"]}
{"id": "C70", "title": "Gradients between adjacent grid squares", "statement": "The gradient between two neighbouring points is the change of the field divided by the signed distance between the points, located halfway between them, with one extra pair on an axis that wraps round the globe.", "quantifier": "every field and every axis, ascending or descending, projected or longitude/latitude", "why_tests_cant": "sign and wrap-around errors only show for particular axis directions", "anchors": ["improver/utilities/spatial.py:GradientBetweenAdjacentGridSquares", "improver/utilities/spatial.py:DifferenceBetweenAdjacentGridSquares", "improver/utilities/spatial.py:DistanceBetweenGridSquares"]}
{"id": "C71", "title": "Forecast periods", "statement": "The forecast period is the validity time minus the reference time, at every point and for its bounds; an existing coordinate is kept unless recalculation is forced; contradictory reference times and missing coordinates are refused.", "quantifier": "every combination of time points, bounds, reference times and blend times", "why_tests_cant": "combinations of several times, several reference times and bounds are not enumerated by tests", "anchors": ["improver/metadata/forecast_times.py:forecast_period_coord", "improver/metadata/forecast_times.py:_calculate_forecast_period"]}
{"id": "C72", "title": "Selecting, relabelling and integrating over times", "statement": "The slice extracted for a time is the nearest one and no further away than allowed; relabelling to a period gives a period of that many hours ending at the point; integrating over time multiplies each rate by the length of its period so that constant rates over consecutive periods add up.", "quantifier": "every list of times, requested time, tolerance, period and rate", "why_tests_cant": "nearest search over arbitrary lists and tolerances", "anchors": ["improver/utilities/temporal.py:extract_nearest_time_point", "improver/utilities/temporal.py:relabel_to_period", "improver/utilities/temporal.py:integrate_time"]}
{"id": "C73", "title": "Forecasts made consistent with a reference", "statement": "EnforceConsistentForecasts moves each value to the nearest value satisfying the required one-sided or two-sided bound computed from the reference and leaves consistent values unchanged; contradictory bounds at any point, bad operators, mixed arguments and transformed probabilities are refused.", "quantifier": "every forecast, reference, pair of amounts and operator arguments", "why_tests_cant": "must hold at every point of every field for every argument combination", "anchors": ["improver/utilities/forecast_reference_enforcement.py:EnforceConsistentForecasts.process", "improver/utilities/forecast_reference_enforcement.py:EnforceConsistentForecasts.calculate_bound"]}
{"id": "C74", "title": "Normalisation of fields to a reference", "statement": "normalise_to_reference keeps the proportions of the fields and makes them add up to the reference wherever their total is not zero; zero totals are handled without division; split_cubes_by_name partitions the cubes keeping their order.", "quantifier": "every list of fields and every reference", "why_tests_cant": "the sum identity must hold for every number of fields and all values", "anchors": ["improver/utilities/forecast_reference_enforcement.py:normalise_to_reference", "improver/utilities/forecast_reference_enforcement.py:split_cubes_by_name"]}
{"id": "C75", "title": "Triangular blending across adjacent points", "statement": "TriangularWeightedBlendAcrossAdjacentPoints returns the mean of the unmasked values weighted by a triangle centred on the central point, so it lies between the values within the width; the central point must be one of the points and the width positive.", "quantifier": "every set of points, values, masks, central point and width", "why_tests_cant": "the composition of weight choice, sorting and blending must hold for all orders of the points", "anchors": ["improver/blending/blend_across_adjacent_points.py:TriangularWeightedBlendAcrossAdjacentPoints.process"]}
{"id": "C76", "title": "Integration along a coordinate is the cumulative trapezium rule of the positive part", "statement": "For a profile on a monotonic coordinate stored in either order, Integration returns one level for each pair of consecutive levels lying between the start and end points, with that pair as bounds, its far end as point, and the total area under the positive part of the profile accumulated so far; the values are nonnegative and never decrease, without limits the total does not depend on the direction, and a request that covers no pair of levels is refused.", "quantifier": "all profiles (any number of levels and values), both directions, all start and end points", "why_tests_cant": "the number of levels, the signs of the values and the position of the limits are unbounded; a test fixes a few levels", "anchors": ["improver/utilities/mathematical_operations.py:Integration"]}
{"id": "C77", "title": "The fast linear fit is the least-squares line", "statement": "The gradient and intercept returned by fast_linear_fit give the smallest possible sum of squared differences over the points that are not NaN and are the only ones that do; points on a line are fitted exactly; NaNs at different positions in the two inputs are refused and the result is NaN exactly when the finite abscissae are all equal.", "quantifier": "all lists of points, with NaNs anywhere, and all competing lines", "why_tests_cant": "optimality ranges over every competing line and every data set", "anchors": ["improver/utilities/mathematical_operations.py:fast_linear_fit"]}
{"id": "C78", "title": "Lapse rate adjustment is continuous and bounded by the limit", "statement": "compute_lapse_rate_adjustment applies the given lapse rate to height differences up to the limit and the environmental lapse rate to the excess; it is zero for no difference, odd, changes by at most the larger of the two rates per metre, and with a negative lapse rate never warms a higher point.", "quantifier": "all lapse rates, height differences and nonnegative limits", "why_tests_cant": "continuity and monotonicity relate all pairs of height differences, including those straddling the limit", "anchors": ["improver/lapse_rate.py:compute_lapse_rate_adjustment"]}
{"id": "C79", "title": "Lapse rates are clipped local slopes of temperature against height", "statement": "LapseRate gives, on land, the slope of the least-squares line of temperature against height over the land points of the neighbourhood whose height is within the allowed difference of the centre, or the dry adiabatic lapse rate at sea and where temperature or height do not vary; every value is within the configured range and no grid makes it fail; configurations with limits out of order or negative sizes are refused.", "quantifier": "all grids, land masks, temperatures, heights, points and configurations", "why_tests_cant": "the neighbourhood, the mask and the edge of the grid interact in unboundedly many ways", "anchors": ["improver/lapse_rate.py:LapseRate"]}
{"id": "C80", "title": "Gridded lapse rates are applied to their own realization and time", "statement": "ApplyGriddedLapseRate adjusts each temperature with the lapse rate of the same realization, time and grid point, and refuses a lapse rate cube that lacks or differs in a dimension of the temperature cube.", "quantifier": "all pairs of cubes with any leading dimensions and any height difference", "why_tests_cant": "the pairing depends on the order and sizes of the dimensions of both cubes", "anchors": ["improver/lapse_rate.py:ApplyGriddedLapseRate"]}
{"id": "C81", "title": "Spot temperatures are adjusted from exactly one source of lapse rates", "statement": "SpotLapseRateAdjust accepts only non-probability temperatures on matching grids with exactly one of a lapse rate cube (right name, same height) and a fixed lapse rate, and adds to each site's temperature the adjustment for its own lapse rate and vertical displacement.", "quantifier": "all combinations of inputs, all numbers of sites and values", "why_tests_cant": "the checks combine in many ways and the values are unbounded", "anchors": ["improver/spotdata/apply_lapse_rate.py:SpotLapseRateAdjust"]}
{"id": "C82", "title": "Height adjustment of probabilities reads the original curve at the displaced threshold", "statement": "SpotHeightAdjustment returns at each threshold the original probability curve (linear between thresholds, level beyond the ends) read at the threshold plus the vertical displacement of the site; deterministic values are raised by the displacement; fewer than two thresholds are refused.", "quantifier": "all threshold lists, probability columns and displacements", "why_tests_cant": "the displaced threshold may fall anywhere relative to the thresholds, in either direction", "anchors": ["improver/spotdata/height_adjustment.py:SpotHeightAdjustment"]}
{"id": "C83", "title": "Spot neighbours are the closest eligible grid points", "statement": "NeighbourSelection gives each site inside the domain one column, in the given order: without constraints the nearest grid point (on a regional grid a closest point of the whole grid); with the land constraint the closest land point within the search radius, else the nearest point; with minimum_dz the candidate of least height difference (ties to the closer one) among the node_limit closest eligible points within the radius, else the nearest point. The displacement is the site altitude minus the orography there. Unique identifiers are accepted exactly when all are present, distinct and at most eight digits.", "quantifier": "all grids, land masks, orographies, sites, radii and node limits", "why_tests_cant": "the choice depends on the whole configuration of land, heights and distances round the site; ties and cut-offs cannot be enumerated", "anchors": ["improver/spotdata/neighbour_finding.py:NeighbourSelection"]}
{"id": "C84", "title": "Spot extraction reads the chosen grid point", "statement": "SpotExtraction returns for each site the value of the field at the grid point the neighbour cube names for the requested method, refuses a method that is not on the neighbour cube and a field on a different grid; the four method names are distinct.", "quantifier": "all neighbour cubes, fields and methods", "why_tests_cant": "any index exchange (x with y, or between methods) must be excluded for every grid shape and selection", "anchors": ["improver/spotdata/spot_extraction.py:SpotExtraction", "improver/metadata/utilities.py:check_grid_match", "improver/spotdata/utilities.py:get_neighbour_finding_method_name"]}
{"id": "C85", "title": "Subsetting spot data keeps exactly the requested sites", "statement": "SpotManipulation applied to a spot cube with a neighbour cube keeps, in order, exactly the sites whose identifier occurs on the neighbour cube and is set, and refuses when none is left.", "quantifier": "all site lists on both cubes", "why_tests_cant": "the overlap of two arbitrary identifier lists, with unset identifiers, has unboundedly many forms", "anchors": ["improver/spotdata/spot_manipulation.py:SpotManipulation"]}
{"id": "C86", "title": "Circular neighbourhoods are exact weighted means over the circle", "statement": "NeighbourhoodProcessing with the circular method returns at every point the (weighted) sum or mean of the valid values over the circle of the radius, with the edge of the grid repeated outwards; missing exactly where the valid points have no weight; the shortcuts over fields of zeros and ones and the final clipping never change the result. The number of cells is the whole number of grid lengths in the radius, which may not exceed half the domain's diagonal.", "quantifier": "all grids, data, masks, radii, weighted or not", "why_tests_cant": "the shortcut depends on where zeros and ones lie relative to the edges, for any field", "anchors": ["improver/nbhood/nbhood.py:NeighbourhoodProcessing", "improver/nbhood/nbhood.py:circular_kernel", "improver/nbhood/nbhood.py:check_radius_against_distance"]}
{"id": "C87", "title": "Neighbourhood percentiles are the order statistics of the values within the radius", "statement": "GeneratePercentilesFromANeighbourhood returns at each point one value per percentile, not decreasing with the percentile and within the range of the data; away from the edges they are the percentiles (ordered values at equal steps joined by straight lines, independent of order) of exactly the grid values within the radius; masked input is refused.", "quantifier": "all grids, fields, radii and percentile lists", "why_tests_cant": "holds for every field and radius; window and kernel enumeration errors appear only for particular geometries", "anchors": ["improver/nbhood/nbhood.py:GeneratePercentilesFromANeighbourhood", "improver/utilities/neighbourhood_tools.py:pad_and_roll"]}
{"id": "C88", "title": "Percentiles over collapsed coordinates", "statement": "PercentileConverter returns the percentiles of the values along the named coordinates exactly when all of them are on the cube, otherwise refuses; the result does not depend on the order of the members, stays within their range and does not decrease with the percentile.", "quantifier": "all cubes, coordinate lists and percentile lists", "why_tests_cant": "ordering and ties are unbounded; every permutation of members must agree", "anchors": ["improver/percentile.py:PercentileConverter"]}
{"id": "C89", "title": "Neighbourhood processing with several masks", "statement": "ApplyNeighbourhoodProcessingWithAMask gives each slice the neighbourhood result computed from it, and, with weights, the weighted mean over the masks that have a value at the point, which stays within the range of the data.", "quantifier": "all slice sequences, masks and weights that are not negative", "why_tests_cant": "reuse of a previous result depends on the history of slices", "anchors": ["improver/nbhood/use_nbhood.py:ApplyNeighbourhoodProcessingWithAMask"]}
{"id": "C90", "title": "Radii by lead time and neighbourhood options", "statement": "One radius without lead times, or one per lead time, is accepted; the radius used is linear in the forecast period between lead times and level beyond them; contradictory options are refused.", "quantifier": "all radii, lead times, forecast periods and options", "why_tests_cant": "interpolation between arbitrary lead times cannot be enumerated", "anchors": ["improver/nbhood/__init__.py:radius_by_lead_time", "improver/nbhood/nbhood.py:BaseNeighbourhoodProcessing", "improver/nbhood/nbhood.py:MetaNeighbourhood"]}
{"id": "C91", "title": "Advection of a field", "statement": "AdvectField moves each value along the velocity: the value at a point is the bilinear interpolation of the input at the point upstream by velocity times time step, missing exactly where that point is outside the domain or next to a missing value; it creates no new extremes, keeps the field unchanged for a time step of zero, and stamps the result with the time shifted by the time step.", "quantifier": "all fields, masks, velocity fields, grids and time steps", "why_tests_cant": "displacements are arbitrary fractions of a grid length; domain edges and masks combine without bound", "anchors": ["improver/nowcasting/forecasting.py:AdvectField"]}
{"id": "C92", "title": "Orographic enhancement is added and subtracted consistently", "statement": "ApplyOrographicEnhancement uses the enhancement valid nearest to the precipitation time and at most 30 minutes away, applies it only where the rate reaches the minimum, never lowers a rate below the minimum when subtracting, and subtracting then adding it back restores every rate that exceeds the enhancement plus the minimum.", "quantifier": "all rates, enhancements, times and minimum rates", "why_tests_cant": "rates and enhancements are continuous; the choice of the nearest time depends on the whole list", "anchors": ["improver/nowcasting/utilities.py:ApplyOrographicEnhancement"]}
{"id": "C93", "title": "Filling holes in radar composites", "statement": "FillRadarHoles never changes a valid rate, fills a masked point exactly when enough of the square around it is valid, and gives it the geometric mean of the valid rates close to it, so a rate between the smallest and largest of them; ExtendRadarMask masks exactly the points whose coverage flag is not valid.", "quantifier": "all masks, rates and grid shapes", "why_tests_cant": "every pattern of masked points must be covered", "anchors": ["improver/nowcasting/utilities.py:FillRadarHoles", "improver/nowcasting/utilities.py:ExtendRadarMask"]}
{"id": "C94", "title": "Extrapolation forecasts at every lead time", "statement": "CreateExtrapolationForecast makes forecasts at the lead times 0, interval, 2 interval, ... up to the maximum, each advected from the analysis without its orographic enhancement and with the enhancement valid at its own time added back.", "quantifier": "all intervals, maximum lead times, fields and enhancements", "why_tests_cant": "the number of lead times is unbounded", "anchors": ["improver/nowcasting/forecasting.py:CreateExtrapolationForecast"]}
{"id": "C95", "title": "Lightning probabilities of the nowcast", "statement": "NowcastLightning raises the first guess probability to the risk given by the observed lightning rate, limits it where precipitation is unlikely and raises it where precipitation or ice is heavy, as a probability that does not decrease with any of its inputs.", "quantifier": "all probabilities, lightning rates, lead times and vertically integrated ice", "why_tests_cant": "four interacting limits over continuous inputs and times", "anchors": ["improver/nowcasting/lightning.py:NowcastLightning"]}
{"id": "C96", "title": "Optical flow solves the advection equation", "statement": "Within a box the velocity is the one least squares solution of the advection equation, recovers a uniform displacement exactly, and is zero where the gradients determine no direction; derivatives of planes are exact away from the edge.", "quantifier": "all gradients, box sizes and fields", "why_tests_cant": "minimality is a statement about every other velocity", "anchors": ["improver/nowcasting/optical_flow.py:OpticalFlow.solve_for_uv", "improver/nowcasting/optical_flow.py:OpticalFlow._partial_derivative_spatial"]}
{"id": "C97", "title": "Optical flow boxes partition the grid", "statement": "The boxes cover every grid point exactly once, the number of boxes agrees with the box arrays, and box velocities are given back to exactly the points of the box.", "quantifier": "all grid shapes and box sizes", "why_tests_cant": "off by one errors occur only for particular remainders of grid and box size", "anchors": ["improver/nowcasting/optical_flow.py:OpticalFlow.calculate_displacement_vectors", "improver/nowcasting/optical_flow.py:OpticalFlow._box_to_grid"]}
{"id": "C98", "title": "Optical flow smoothing is an averaging", "statement": "The smoothing kernel is symmetric, not negative and sums to one; however many iterations are done smoothed velocities stay between the smallest and largest unsmoothed one, so displacements are bounded by a third of the number of box rows.", "quantifier": "all velocity and weight fields, radii and numbers of iterations", "why_tests_cant": "iterated smoothing over arbitrary weights", "anchors": ["improver/nowcasting/optical_flow.py:OpticalFlow._smart_smooth", "improver/nowcasting/optical_flow.py:OpticalFlow.makekernel"]}
{"id": "C99", "title": "Optical flow velocities", "statement": "Velocities are returned only for inputs that pass the checks on time, smoothing radius, box size and iterations; they are bounded, zero for a field that does not move, and for several cubes the mean over consecutive pairs in time order, whatever the order of the inputs.", "quantifier": "all pairs and lists of fields, times and options", "why_tests_cant": "permutations of inputs and iterated smoothing are unbounded", "anchors": ["improver/nowcasting/optical_flow.py:OpticalFlow.process", "improver/nowcasting/optical_flow.py:generate_optical_flow_components"]}
{"id": "C100", "title": "Bilinear regridding from an even latitude/longitude grid interpolates in the cell of each target", "statement": "When a field on an even latitude/longitude grid is regridded in mode bilinear-2, every target inside the source domain gets the bilinear interpolation of the four corners of a source cell that contains it, is missing if one of the corners is missing, and every target outside the domain is missing; interpolated values make no new extremes, bilinear functions are reproduced exactly and targets on grid points get the value there.", "quantifier": "all source grids, fields, lists of targets in any order", "why_tests_cant": "tests use a handful of targets; the special handling of the last row, the last column and the corner and the slicing to the domain of the targets depend on the whole list of targets", "anchors": ["improver/regrid/landsea2.py:RegridWithLandSeaMask.process", "improver/regrid/bilinear.py:basic_indexes", "improver/regrid/bilinear.py:adjust_boundary_indexes", "improver/regrid/bilinear.py:basic_weights", "improver/regrid/bilinear.py:apply_weights", "improver/regrid/grid.py:slice_cube_by_domain", "improver/regrid/grid.py:group_target_points_with_source_domain", "improver/regrid/grid.py:mask_target_points_outside_source_domain"]}
{"id": "C101", "title": "Nearest neighbour regridding uses a nearest source grid point", "statement": "In mode nearest-2 every target inside the source domain gets the value of a source grid point that is nearest of all in degrees; targets outside are missing; a target on a grid point gets the value there whatever its neighbours are.", "quantifier": "all source grids, fields and lists of targets", "why_tests_cant": "the nearest point must be the minimum over the whole source grid although only four corners are looked at", "anchors": ["improver/regrid/nearest.py:nearest_regrid", "improver/regrid/landsea2.py:RegridWithLandSeaMask.process", "improver/regrid/bilinear.py:basic_indexes"]}
{"id": "C102", "title": "Nearest neighbour regridding with a land mask uses the nearest source point of the same type", "statement": "In mode nearest-with-mask-2 a target whose four surrounding source points have its type gets the nearest of them; otherwise it gets the nearest source point of its type, unless all points of its type are beyond the vicinity radius or behind eight points of the other type, when it gets the nearest point of any type; targets outside the domain are missing.", "quantifier": "all source grids, masks, fields, distances, vicinity radii and lists of targets", "why_tests_cant": "the search runs through 4 and 8 nearest points with different fallbacks; which branch a coast takes depends on the whole mask", "anchors": ["improver/regrid/nearest.py:nearest_with_mask_regrid", "improver/regrid/nearest.py:update_nearest_points", "improver/regrid/nearest.py:lakes_islands", "improver/regrid/idw.py:nearest_input_pts", "improver/regrid/grid.py:similar_surface_classify"]}
{"id": "C103", "title": "Bilinear regridding with a land mask only mixes source points of the type of the target", "statement": "In mode bilinear-with-mask-2 a target gets bilinear interpolation if its four corners match its type; interpolation in the triangle of the other three if one corner does not match and the target lies in it; otherwise inverse distance weighting of matching near points (weights positive, sum one, no new extremes), or of matching points within the vicinity radius among the nearest eight; if there are none plain bilinear interpolation is used. Targets outside the domain are missing.", "quantifier": "all source grids, masks, fields, distances, vicinity radii and lists of targets", "why_tests_cant": "the case taken depends on the mask around each target; sums of weights and reproduction of the position must hold for every geometry", "anchors": ["improver/regrid/bilinear.py:adjust_for_surface_mismatch", "improver/regrid/bilinear.py:one_mismatched_input_point", "improver/regrid/bilinear.py:lakes_islands", "improver/regrid/idw.py:inverse_distance_weighting"]}
{"id": "C104", "title": "Regridding keeps the other dimensions where they were", "statement": "Regridding treats the two spatial dimensions wherever they are in the cube, and every coordinate of the result is attached to the dimension that varies with it.", "quantifier": "all orders and numbers of dimensions", "why_tests_cant": "tests use the usual order of dimensions", "anchors": ["improver/regrid/grid.py:flatten_spatial_dimensions", "improver/regrid/grid.py:unflatten_spatial_dimensions", "improver/regrid/grid.py:create_regrid_cube"]}
{"id": "C105", "title": "Adjusting land and sea points replaces exactly the mismatched points", "statement": "After nearest neighbour regridding, a target point whose type differs from the type of the source point it came from gets the value of the nearest target point that came from a source point of the right type, if one lies within the vicinity square; every other point is unchanged and the two corrections do not interfere.", "quantifier": "all grids, masks, fields and radii", "why_tests_cant": "tests use single mismatched points; the nearest point, the vicinity and the independence of the two passes range over all masks", "anchors": ["improver/regrid/landsea.py:AdjustLandSeaPoints.process", "improver/regrid/landsea.py:AdjustLandSeaPoints._get_matches", "improver/regrid/landsea.py:AdjustLandSeaPoints.correct_where_input_true"]}
{"id": "C106", "title": "A source land mask is accepted exactly when it covers the source grid", "statement": "The check of the source land mask accepts a mask whose axes have the same name, units and coordinate system as the cube's and contain its points in order and without gaps, and rejects the others, including cubes that overshoot the mask.", "quantifier": "all pairs of axes", "why_tests_cant": "the search for the start, the overshooting slice and numpy broadcasting interact for particular lengths only", "anchors": ["improver/regrid/landsea.py:grid_contains_cutout", "improver/regrid/landsea.py:RegridLandSea.process"]}
{"id": "C107", "title": "Regridding modes and attributes", "statement": "The plugin accepts exactly the documented modes, requires a land mask for those that use one, and gives a result whose title is the one asked for, whose grid attributes are those of the target (or absent) and whose other attributes are those of the source.", "quantifier": "all modes, all attribute dictionaries of source and target", "why_tests_cant": "the update of the attributes must hold for every combination of present and absent keys", "anchors": ["improver/regrid/landsea.py:RegridLandSea.__init__", "improver/regrid/landsea.py:RegridLandSea._regrid_to_target"]}
{"id": "C108", "title": "Mean wind direction is the direction of the mean unit vector", "statement": "WindDirection gives at every point whose mean unit vector over the realizations is at least 0.01 long the direction of this vector in [0, 360): the common direction when all members agree, a result that turns with the members and does not depend on their order or on wrapping at north.", "quantifier": "all ensembles of any size, all directions, all grid points, both fallbacks", "why_tests_cant": "circular means go wrong only for particular combinations around north or for nearly cancelling members", "anchors": ["improver/wind_calculations/wind_direction.py:WindDirection.calc_wind_dir_mean", "improver/wind_calculations/wind_direction.py:WindDirection.find_r_values", "improver/utilities/complex_conversion.py:deg_to_complex", "improver/utilities/complex_conversion.py:complex_to_deg"]}
{"id": "C109", "title": "Unreliable mean wind directions are replaced, and only those", "statement": "Where the mean unit vector is shorter than 0.01 the result is that of realization 0 or the direction of the mean over the 6 km neighbourhood and the members, as asked for; an ensemble without realization 0, or a grid unfit for neighbourhoods, is accepted exactly when no point needs the fallback; clipping complex neighbourhood means to the extremes has no effect.", "quantifier": "all ensembles, grids, neighbourhood sizes and points", "why_tests_cant": "fallbacks are reached for cancelling members only, and the ordering of complex numbers in clip matters for particular fields", "anchors": ["improver/wind_calculations/wind_direction.py:WindDirection.wind_dir_decider", "improver/wind_calculations/wind_direction.py:WindDirection.process", "improver/nbhood/nbhood.py:NeighbourhoodProcessing._calculate_neighbourhood"]}
{"id": "C110", "title": "The wind direction plugin returns the slices of its input", "statement": "Processing a cube of several times returns the mean directions of these times and nothing else, in order of time, whatever was processed before with the same plugin.", "quantifier": "all histories of calls, all numbers of times", "why_tests_cant": "a history property: a plugin is used once in a test", "anchors": ["improver/wind_calculations/wind_direction.py:WindDirection.process", "improver/wind_calculations/wind_direction.py:WindDirection.__init__"]}
{"id": "C111", "title": "Wind gust diagnostic is the larger of gust and wind speed", "statement": "WindGustDiagnostic returns at every time and point the larger of the gust and the wind speed at the requested percentiles, refuses absent percentiles, ambiguous percentile coordinates and times that match neither the times nor the period of the gust, and labels exactly the two documented products.", "quantifier": "all percentile cubes, percentiles and times", "why_tests_cant": "the time check must hold for every pair of time coordinates, of any length", "anchors": ["improver/wind_calculations/wind_gust_diagnostic.py:WindGustDiagnostic.process", "improver/wind_calculations/wind_gust_diagnostic.py:WindGustDiagnostic.extract_percentile_data", "improver/metadata/probabilistic.py:find_percentile_coordinate"]}
{"id": "C112", "title": "Wind components preserve the speed and the direction", "statement": "ResolveWindComponents returns components whose length is the speed and whose direction is opposite to a wind-from direction adjusted to grid north, accepts exactly a speed and a direction on the same coordinates, and can be repeated on the same cubes.", "quantifier": "all speeds, angles, adjustments, units and histories of calls on the same cubes", "why_tests_cant": "real angles; in-place changes of the inputs show on a second call only", "anchors": ["improver/wind_calculations/wind_components.py:ResolveWindComponents.resolve_wind_components", "improver/wind_calculations/wind_components.py:ResolveWindComponents.process"]}
{"id": "C113", "title": "Vertical updraught grows with CAPE and rain and is zero below the minima", "statement": "VerticalUpdraught returns 0.25 sqrt(2 CAPE) from 10 J/kg plus 7.33 (rate/28.7)^0.22 from 5 mm/h, never negative and never decreasing in either input, from exactly two cubes, in any order, on one grid, of one forecast, with an instantaneous CAPE at the start of the rain period.", "quantifier": "all real CAPE and rain rate, all input cubes", "why_tests_cant": "monotonicity over the reals, and all combinations of time coordinates", "anchors": ["improver/wind_calculations/vertical_updraught.py:VerticalUpdraught._updraught_from_cape", "improver/wind_calculations/vertical_updraught.py:VerticalUpdraught._updraught_increment_from_precip", "improver/wind_calculations/vertical_updraught.py:VerticalUpdraught._parse_inputs"]}
{"id": "C114", "title": "Downscaled wind is unchanged without orographic information and never negative", "statement": "RoughnessCorrection returns the wind as it is at points whose silhouette roughness or standard deviation of orography is not a positive number; everywhere the result has the levels of the input and no negative speed.", "quantifier": "all ancillaries, columns and resolutions", "why_tests_cant": "every combination of missing and non-positive ancillaries", "anchors": ["improver/wind_calculations/wind_downscaling.py:RoughnessCorrectionUtilities.do_rc_hc_all", "improver/wind_calculations/wind_downscaling.py:RoughnessCorrectionUtilities._setmask"]}
{"id": "C115", "title": "Roughness correction is a logarithmic profile below the reference height", "statement": "At points of positive roughness length the wind below the reference height follows the logarithmic profile that meets the wind at this height, increasing with height; the wind above, and at sea everywhere, is changed by the height correction only; wavenumber and reference height stay within the scales of the grids and hills.", "quantifier": "all real ancillaries, resolutions and columns", "why_tests_cant": "real analysis over all values; clamps interact", "anchors": ["improver/wind_calculations/wind_downscaling.py:RoughnessCorrectionUtilities.calc_roughness_correction", "improver/wind_calculations/wind_downscaling.py:RoughnessCorrectionUtilities._calc_wav", "improver/wind_calculations/wind_downscaling.py:RoughnessCorrectionUtilities._calc_h_ref", "improver/wind_calculations/wind_downscaling.py:FrictionVelocity.process"]}
{"id": "C116", "title": "Wind at a height is interpolated between the levels around it", "statement": "For levels in increasing order the wind used at a height is on the line between the two levels around it, in proportion to the height below the lowest level; above the highest level it is extrapolated.", "quantifier": "all columns, all heights", "why_tests_cant": "searching with masked arrays has edge cases below, above, on and between levels", "anchors": ["improver/wind_calculations/wind_downscaling.py:RoughnessCorrectionUtilities._calc_u_at_h", "improver/wind_calculations/wind_downscaling.py:RoughnessCorrectionUtilities._interpolate_1d"]}
{"id": "C117", "title": "Height correction has the sign of the height difference and decays upwards", "statement": "The height correction is exp(-kh) times the wind at 1/k times k times the height difference of the orographies: it has the sign of this difference, weakens with height, is bounded, and is absent where an orography is missing.", "quantifier": "all real wavenumbers, winds, heights and differences", "why_tests_cant": "inequalities over the reals", "anchors": ["improver/wind_calculations/wind_downscaling.py:RoughnessCorrectionUtilities._calc_height_corr", "improver/wind_calculations/wind_downscaling.py:RoughnessCorrectionUtilities._delta_height", "improver/wind_calculations/wind_downscaling.py:RoughnessCorrectionUtilities._refinemask"]}
{"id": "C118", "title": "Downscaling can be repeated and keeps the order of the dimensions", "statement": "RoughnessCorrection gives the same result when called again with the same wind, keeps the order of the dimensions of the input, chooses the vertical coordinate by name, refuses missing or negative wind and accepts exactly ancillaries of the expected units on one grid.", "quantifier": "all histories of calls, all orders of dimensions, all coordinate names", "why_tests_cant": "history and run dependent behaviour", "anchors": ["improver/wind_calculations/wind_downscaling.py:RoughnessCorrection.process", "improver/wind_calculations/wind_downscaling.py:RoughnessCorrection.find_coord_names", "improver/wind_calculations/wind_downscaling.py:RoughnessCorrection.check_ancils", "improver/wind_calculations/wind_downscaling.py:RoughnessCorrection.calc_av_ppgrid_res"]}
{"id": "C119", "title": "Training minimises the mean CRPS of the predicted normal distributions", "statement": "For a normal distribution, the value that training minimises is the mean, over the observed cases with spread, of the continuous ranked probability score of the predicted normal distribution (the integral of the squared difference between its distribution function and the step at the observation); it is non-negative, and coefficients that make a case spreadless at a non-positive location, leave no case with spread, or meet a missing forecast, are refused with 999999.", "quantifier": "all predictors, coefficients, training cases and observations (present or missing)", "why_tests_cant": "the score is an improper integral for which the code uses a closed formula; equality for all reals needs a proof", "anchors": ["improver/calibration/ensemble_calibration.py:ContinuousRankedProbabilityScoreMinimisers.calculate_normal_crps", "improver/calibration/ensemble_calibration.py:ContinuousRankedProbabilityScoreMinimisers._prepare_forecasts", "improver/calibration/ensemble_calibration.py:ContinuousRankedProbabilityScoreMinimisers._normal_crps_preparation"]}
{"id": "C120", "title": "Training minimises the mean CRPS of the distributions truncated at zero", "statement": "For a truncated normal distribution and non-negative observations, the value that training minimises is the mean CRPS of the predicted normal distribution conditioned on being non-negative; degenerate coefficients are refused.", "quantifier": "all predictors, coefficients, training cases and non-negative observations", "why_tests_cant": "closed formula for an improper integral with a truncated distribution", "anchors": ["improver/calibration/ensemble_calibration.py:ContinuousRankedProbabilityScoreMinimisers.calculate_truncated_normal_crps"]}
{"id": "C121", "title": "Flattening masked training data keeps predictors and truths paired", "statement": "When all slices have the same mask, flattening forecasts, spreads and truths keeps exactly the unmasked values in order, so values at the same time and point stay paired; masks that differ between slices are rejected.", "quantifier": "all numbers of slices, all masks, all values", "why_tests_cant": "shapes and masks are unbounded", "anchors": ["improver/calibration/utilities.py:flatten_ignoring_masked_data", "improver/calibration/ensemble_calibration.py:EstimateCoefficientsForEnsembleCalibration.mask_cube"]}
{"id": "C122", "title": "Initial guess reproduces the raw ensemble or the regression", "statement": "The default initial guess predicts the ensemble mean (or the average of the predictors) and ensemble variance; any missing value gives this default; with complete, exactly linear training data the regression guess predicts every truth; the coefficient cubes hold exactly the optimised coefficients.", "quantifier": "all training data, any number of realizations and predictors, any least squares routine", "why_tests_cant": "algebra over reals for any number of members", "anchors": ["improver/calibration/ensemble_calibration.py:EstimateCoefficientsForEnsembleCalibration.compute_initial_guess", "improver/calibration/ensemble_calibration.py:EstimateCoefficientsForEnsembleCalibration.create_coefficients_cubelist"]}
{"id": "C123", "title": "Point by point coefficients depend on the data of that point only", "statement": "When coefficients are estimated point by point, the coefficients of a site are those of minimising the score over the data of that site alone from its own initial guess; a site without observations keeps its guess.", "quantifier": "all numbers of sites, all data, any minimiser", "why_tests_cant": "independence between sites is a property of all inputs", "anchors": ["improver/calibration/ensemble_calibration.py:ContinuousRankedProbabilityScoreMinimisers._process_points_independently", "improver/calibration/ensemble_calibration.py:ContinuousRankedProbabilityScoreMinimisers._minimise_caller", "improver/calibration/ensemble_calibration.py:EstimateCoefficientsForEnsembleCalibration.guess_and_minimise"]}
{"id": "C124", "title": "The calibrated distribution is the trained regression", "statement": "When applied, the location at each point is alpha plus each predictor times the coefficient trained under its name in whatever order they are given (for realizations, times the square of its beta); the scale is the square root of gamma squared plus delta squared times the sample variance of the members, never negative and growing with it; default coefficients reproduce the ensemble mean and standard deviation.", "quantifier": "all ensembles, coefficients shared or per site, orders of predictors", "why_tests_cant": "broadcasting and matching by name over unbounded shapes", "anchors": ["improver/calibration/ensemble_calibration.py:CalibratedForecastDistributionParameters._calculate_location_parameter_from_mean", "improver/calibration/ensemble_calibration.py:CalibratedForecastDistributionParameters._calculate_location_parameter_from_realizations", "improver/calibration/ensemble_calibration.py:CalibratedForecastDistributionParameters._calculate_scale_parameter"]}
{"id": "C125", "title": "EMOS coefficients are only applied to forecasts they were made for", "statement": "Applying EMOS coefficients is accepted exactly when every coefficient cube is for the diagnostic, the forecast period in hours rounded up and the hours of the forecast reference times of the forecast (unless mismatches are tolerated), and for the extent of its grid (unless it is at sites); otherwise it is an error.", "quantifier": "all forecasts, all lists of coefficient cubes, all coordinates", "why_tests_cant": "an accept/reject condition over unbounded coordinates", "anchors": ["improver/calibration/ensemble_calibration.py:CalibratedForecastDistributionParameters._spatial_domain_match", "improver/calibration/ensemble_calibration.py:CalibratedForecastDistributionParameters._diagnostic_match", "improver/calibration/utilities.py:forecast_coords_match", "improver/calibration/utilities.py:get_frt_hours"]}
{"id": "C126", "title": "Historic forecasts and truths are matched by validity time", "statement": "Filtering historic forecasts and truths returns, in order of time, the first forecast with data for each time (and period) for which a truth exists, with the truth of the same time at the same position; it is an error exactly when there is none.", "quantifier": "all numbers, orders and repetitions of times, with and without bounds", "why_tests_cant": "orders and duplicates are unbounded", "anchors": ["improver/calibration/utilities.py:filter_non_matching_cubes"]}
{"id": "C127", "title": "Reference times, consistency and sufficiency of training data", "statement": "The unified reference time is the latest with bounds covering all; forecasts are consistent exactly when they share the hour of the reference time and one period; training at sites is refused exactly when the proportion of missing pairs exceeds the allowed one.", "quantifier": "all times, bounds and patterns of missing data", "why_tests_cant": "extremal statements over unbounded lists", "anchors": ["improver/calibration/utilities.py:create_unified_frt_coord", "improver/calibration/utilities.py:check_forecast_consistency", "improver/calibration/utilities.py:check_data_sufficiency"]}
{"id": "C128", "title": "Calibrated percentiles are quantiles of the calibrated distribution", "statement": "The value given for a percentile p at a point lies in the support of the (truncated) normal distribution with the location and scale of the point and is not exceeded with probability p/100; percentiles increase; without spread the location is given; masked points stay masked.", "quantifier": "all locations, positive scales, percentiles strictly between 0 and 100, truncation limits, masks", "why_tests_cant": "inverse of an integral, for all reals", "anchors": ["improver/ensemble_copula_coupling/ensemble_copula_coupling.py:ConvertLocationAndScaleParametersToPercentiles._location_and_scale_parameters_to_percentiles", "improver/ensemble_copula_coupling/_scipy_continuous_distns.py:truncnorm_gen._ppf"]}
{"id": "C129", "title": "Calibrated probabilities are probabilities under the calibrated distribution", "statement": "The value given for a threshold at a point is the probability that a value of the (truncated) normal distribution of the point exceeds (or does not exceed) the threshold, also after a change of units; these values are in [0, 1], monotone in the threshold and complementary.", "quantifier": "all locations, positive scales, thresholds, truncation limits, masks, units", "why_tests_cant": "integrals for all reals", "anchors": ["improver/ensemble_copula_coupling/ensemble_copula_coupling.py:ConvertLocationAndScaleParametersToProbabilities._location_and_scale_parameters_to_probabilities", "improver/ensemble_copula_coupling/ensemble_copula_coupling.py:ConvertLocationAndScaleParametersToProbabilities._check_unit_compatibility"]}
{"id": "C130", "title": "Sea points keep the raw forecast", "statement": "With a land-sea mask, ApplyEMOS returns the uncalibrated forecast at sea points and over land what it returns without a mask; it refuses a mask when the output type or the percentiles differ from those of the forecast; it requires a number of realizations for other forecasts and the same distribution on all coefficient cubes.", "quantifier": "all masks, forecasts, parameters, argument combinations", "why_tests_cant": "holds for every mask and shape", "anchors": ["improver/calibration/ensemble_calibration.py:ApplyEMOS.process", "improver/calibration/utilities.py:merge_land_and_sea", "improver/calibration/ensemble_calibration.py:ApplyEMOS._get_attribute", "improver/calibration/ensemble_calibration.py:ApplyEMOS._get_input_forecast_type"]}
{"id": "C131", "title": "The bias of a forecast leaves no mean error", "statement": "CalculateForecastBias returns, at every point where forecast and truth are both known at one time at least, the number which subtracted from the training forecasts of that point leaves their mean error zero (and their mean squared error least), and a masked value at all other points.", "quantifier": "all numbers of times and points, all values and masks", "why_tests_cant": "mean over every pattern of missing data", "anchors": ["improver/calibration/simple_bias_correction.py:evaluate_additive_error", "improver/calibration/simple_bias_correction.py:CalculateForecastBias.process"]}
{"id": "C132", "title": "A bias-corrected forecast is the forecast minus the (mean) bias within the limits", "statement": "ApplyBiasCorrection returns at each point the forecast minus the bias, or minus the mean of the known ones of several biases, or the limit nearest to that; where the bias is masked, the forecast or a masked value as asked; a masked forecast stays masked; correcting the training forecast of one pair gives the truth.", "quantifier": "all forecasts, biases, masks, limits, numbers of biases", "why_tests_cant": "composition of optional steps for all values", "anchors": ["improver/calibration/simple_bias_correction.py:ApplyBiasCorrection.process", "improver/calibration/simple_bias_correction.py:apply_additive_correction"]}
{"id": "C133", "title": "Biases are accepted only for forecasts of the same hour and period, and inputs are preserved", "statement": "ApplyBiasCorrection accepts biases exactly if forecast and biases share one hour of the reference time and one forecast period and several biases have distinct single reference times; without biases the forecast is returned unchanged but for a comment; the cubes of the caller are not altered.", "quantifier": "all forecasts and lists of biases", "why_tests_cant": "acceptance is a condition on arbitrary lists", "anchors": ["improver/calibration/simple_bias_correction.py:ApplyBiasCorrection._check_forecast_bias_consistent", "improver/calibration/simple_bias_correction.py:ApplyBiasCorrection._get_mean_bias", "improver/calibration/__init__.py:add_warning_comment"]}
{"id": "C134", "title": "The rescaling for vertical displacement is estimated from matched sites", "statement": "EstimateDzRescaling uses, of the sites found in forecasts, truths and neighbours, the pairs of non-zero forecast and truth at sites with displacement within the bounds; when the logarithm of their ratio is linear in the displacement the gradient is recovered exactly and used for all sites of the neighbour cube.", "quantifier": "all numbers of times and sites, subsets of sites, values, bounds", "why_tests_cant": "least squares on arbitrary data", "anchors": ["improver/calibration/dz_rescaling.py:EstimateDzRescaling._fit_polynomial", "improver/calibration/dz_rescaling.py:EstimateDzRescaling.process"]}
{"id": "C135", "title": "Scaled displacements are bounded exponentials", "statement": "The scaled displacement of a site is exp(-factor * displacement) with the displacement held within the bounds; it is positive, and 1 at displacement zero, if zero is within the bounds.", "quantifier": "all factors, displacements, optional bounds", "why_tests_cant": "case analysis over signs and infinite bounds for all reals", "anchors": ["improver/calibration/dz_rescaling.py:EstimateDzRescaling._compute_scaled_dz"]}
{"id": "C136", "title": "A forecast is rescaled with the displacements of the right period and hour", "statement": "ApplyDzRescaling multiplies the forecast at each site by the scaled displacement of the shortest forecast period not shorter than its own (else the longest) and of the available hour nearest to that of its reference time within the leniency, the earlier of two; it refuses forecasts with other sites or without such an hour; an exactly log-linear forecast becomes the truth.", "quantifier": "all periods, hours (modulo 24), leniencies, sites, values", "why_tests_cant": "search over unbounded lists with wrap-around", "anchors": ["improver/calibration/dz_rescaling.py:ApplyDzRescaling.process", "improver/calibration/dz_rescaling.py:ApplyDzRescaling._create_forecast_period_constraint", "improver/calibration/dz_rescaling.py:ApplyDzRescaling._create_forecast_reference_time_constraint", "improver/calibration/dz_rescaling.py:EstimateDzRescaling._create_hour_coord"]}
{"id": "C137", "title": "Names of probability cubes determine the diagnostic", "statement": "From probability_of_X[_in_vicinity|_in_variable_vicinity][_above_threshold|_below_threshold|_between_thresholds] the threshold name X and the diagnostic name X[vicinity] are recovered for every plain X; different diagnostics have different names; the vicinity name of a name keeps X and the threshold part and is stable; names that do not start with probability_of_ are refused.", "quantifier": "all character strings X without a threshold word and not ending in a vicinity word", "why_tests_cant": "infinitely many strings and a lazily matching expression", "anchors": ["improver/metadata/probabilistic.py:probability_cube_name_regex", "improver/metadata/probabilistic.py:in_vicinity_name_format", "improver/metadata/probabilistic.py:_extract_diagnostic_name"]}
{"id": "C138", "title": "Threshold and percentile coordinates are found unambiguously", "statement": "A cube is a probability cube exactly if it has a coordinate named threshold or with that variable name, the former being preferred; above and below follow from its attribute; the percentile coordinate is the only one whose name contains percentile, and cubes with several or none are not percentile cubes.", "quantifier": "all lists of coordinates", "why_tests_cant": "every combination of coordinates", "anchors": ["improver/metadata/probabilistic.py:find_threshold_coordinate", "improver/metadata/probabilistic.py:probability_is_above_or_below", "improver/metadata/probabilistic.py:find_percentile_coordinate", "improver/metadata/probabilistic.py:is_probability", "improver/metadata/probabilistic.py:is_percentile"]}
{"id": "C139", "title": "Forecasts, truths and mask are told apart whatever their order", "statement": "split_forecasts_and_truth succeeds exactly if the cubes are forecasts and truths of one diagnostic, at least one of each, and at most one other cube, and returns the forecasts, the truths (those with the truth attribute) and that cube as the land-sea mask.", "quantifier": "all lists of cubes in all orders", "why_tests_cant": "all permutations and group sizes", "anchors": ["improver/calibration/__init__.py:split_forecasts_and_truth"]}
{"id": "C140", "title": "Forecast, coefficients, predictors, mask and template are told apart", "statement": "split_forecasts_and_coeffs succeeds exactly if there are one or two cubes with time that are neither coefficients nor the mask, of different names and at most one of probabilities; it returns the cubes of each kind in order; with two, the one of probabilities is the template.", "quantifier": "all lists of cubes in all orders", "why_tests_cant": "all permutations and kinds", "anchors": ["improver/calibration/__init__.py:split_forecasts_and_coeffs"]}
{"id": "C141", "title": "Forecast and biases are told apart; validity times are compared by the clock", "statement": "split_forecasts_and_bias_files succeeds exactly if one cube has no forecast_error in its name, which is the forecast, the others in order being the biases; validity_time_check holds exactly if the clock time HHMM of the validity is listed.", "quantifier": "all lists of cubes, all times", "why_tests_cant": "all lists and all times", "anchors": ["improver/calibration/__init__.py:split_forecasts_and_bias_files", "improver/calibration/__init__.py:validity_time_check"]}
{"id": "C142", "title": "The saturated vapour pressure table is positive, strictly increasing and joined at the triple point", "statement": "For every temperature above 0 K and up to 373 K the tabulated saturated vapour pressure is positive and strictly increases with temperature, also across the switch from the ice formula to the water formula, which agree at the triple point. The table starts at the minimum, goes up by the increment and contains every such temperature below the maximum plus half an increment; with the default limits it has 1552 entries in Pa. A warning is given exactly when a temperature is outside 173-373 K.", "quantifier": "all real temperatures; all table limits and positive increments", "why_tests_cant": "Monotonicity is a statement about a continuum of temperatures; tests compare a handful of values with a published table.", "anchors": ["improver/generate_ancillaries/generate_svp_table.py:SaturatedVapourPressureTable"]}
{"id": "C143", "title": "Looking up vapour pressure is monotone linear interpolation that never leaves the table", "statement": "For every real temperature the lookup reads two existing consecutive entries that bracket the temperature clipped to the table range and returns the straight line between them: it equals an entry at that entry's temperature, is constant outside the range, never decreases as temperature rises, and inside the range differs from the formula by at most the step between the two entries.", "quantifier": "all real temperatures, inside and outside the table", "why_tests_cant": "The index, the clip and the interpolation weight interact at every one of 1552 entries and at both ends; tests sample a few temperatures.", "anchors": ["improver/psychrometric_calculations/psychrometric_calculations.py:_svp_from_lookup", "improver/psychrometric_calculations/psychrometric_calculations.py:_svp_table"]}
{"id": "C144", "title": "Saturated humidity is a fraction that grows with temperature and shrinks with pressure", "statement": "For every temperature and non-negative pressure the saturated humidity lies in (0, 1] and is 1 exactly when the vapour pressure reaches the air pressure; it never increases with pressure at a fixed temperature, and never decreases with temperature from 183.15 K upwards for pressures up to 1e7 Pa. (Below 183.15 K it increases as the air gets colder.) The humidity mixing ratio is the relative humidity times this, at most saturated exactly when the relative humidity is at most 1.", "quantifier": "all temperatures, pressures and relative humidities", "why_tests_cant": "Monotonicity must hold over a continuum and across every table interval, where a pressure-dependent correction decreases with temperature below 0C.", "anchors": ["improver/psychrometric_calculations/psychrometric_calculations.py:calculate_svp_in_air", "improver/psychrometric_calculations/psychrometric_calculations.py:saturated_humidity", "improver/psychrometric_calculations/psychrometric_calculations.py:HumidityMixingRatio"]}
{"id": "C145", "title": "Dry adiabats are reversible and path independent", "statement": "The temperature after a dry adiabatic move to another pressure and the pressure after a dry adiabatic move to another temperature are inverse to each other; a move made in two stages ends where the single move ends; staying at the same pressure changes nothing; a higher pressure gives a higher temperature.", "quantifier": "all positive temperatures and pressures", "why_tests_cant": "An algebraic identity over all positive reals.", "anchors": ["improver/psychrometric_calculations/psychrometric_calculations.py:dry_adiabatic_temperature", "improver/psychrometric_calculations/psychrometric_calculations.py:dry_adiabatic_pressure"]}
{"id": "C146", "title": "Condensation warms and dries and keeps the heat budget, whatever the root finder returns", "statement": "adjust_for_latent_heat never lowers the temperature, never adds moisture, and the warming equals the latent heat of the moisture removed over the specific heat of dry air, for every value the root finder may stop at. When it stops at a root, air that changes ends exactly saturated, air below saturation is returned unchanged and supersaturated air is warmed and dried to saturation.", "quantifier": "all temperatures below 1341 K (positive latent heat), humidities, pressures up to 1e7 Pa, and all root finder results", "why_tests_cant": "The outcome depends on an iterative solver; tests see only the values it happens to return.", "anchors": ["improver/psychrometric_calculations/psychrometric_calculations.py:adjust_for_latent_heat", "improver/psychrometric_calculations/psychrometric_calculations.py:_latent_heat_release"]}
{"id": "C147", "title": "Each wet bulb temperature depends on its own point only and stops at the first converged value", "statement": "The vectorised iteration, which drops converged points from its working arrays, gives at each point the value obtained by iterating that point alone: the first trial value whose increment is within the precision, or the twentieth. A converged value balances the heat of the air with that of air saturated at the wet bulb temperature to within the precision times the slope, so it can exceed the air temperature by at most that over the specific heat; saturated air keeps its temperature exactly; unsaturated air first moves strictly down.", "quantifier": "all arrays of temperature, pressure and relative humidity, any number of points, any precision", "why_tests_cant": "The set of active points changes from pass to pass in a data-dependent way; misaligned arrays show only for particular combinations of convergence times.", "anchors": ["improver/psychrometric_calculations/wet_bulb_temperature.py:WetBulbTemperature"]}
{"id": "C148", "title": "Levels are sliced for wet bulb temperature only when all inputs have the same vertical dimension", "statement": "The three inputs are processed whole when any has no vertical coordinate or none has one with a dimension; level by level, paired by position, when all three have a dimension for a vertical coordinate of one name; anything else is an error. (Level values are not compared: levels in a different order are paired wrongly and surplus levels are dropped by the slicing.)", "quantifier": "all combinations of vertical coordinates and level counts of the three inputs", "why_tests_cant": "Tests cover a few combinations.", "anchors": ["improver/psychrometric_calculations/wet_bulb_temperature.py:WetBulbTemperature"]}
{"id": "C149", "title": "A phase change level below sea level makes up the missing integral exactly", "statement": "Where the wet bulb temperature integral above a sea point falls short of the threshold and the line fitted to the wet bulb temperatures falls with height, the extrapolated level is the only height at or below sea level such that the integral above sea level plus the integral of the positive part of the fitted line from there to sea level equals the threshold, limited to 2000 m below; elsewhere nothing is extrapolated. The fitted line has the least sum of squares of all lines.", "quantifier": "all thresholds, integrals, gradients and intercepts; all fitted points", "why_tests_cant": "The closed form has two branches and a choice of root; equality with the defining integral must hold for every gradient and intercept.", "anchors": ["improver/psychrometric_calculations/psychrometric_calculations.py:PhaseChangeLevel"]}
{"id": "C150", "title": "The phase change level of a column is where the integral equals the threshold", "statement": "When the integral starts at or below the threshold at the top and reaches it, the level is the ground height plus a height on the profile where the integral equals the threshold; when it exceeds the threshold everywhere, the highest height plus the ground; when it stays below, missing over land and extrapolated downwards (or missing) over sea. For an integral growing downwards there is no other case, so every level found lies within the profile above the ground or, over sea, between the ground and 2000 m below it.", "quantifier": "all columns of any number of levels, ground heights, land masks and wet bulb profiles", "why_tests_cant": "Which branch applies, and in what order the fills take effect, depends on the whole column.", "anchors": ["improver/psychrometric_calculations/psychrometric_calculations.py:PhaseChangeLevel"]}
{"id": "C151", "title": "Horizontal filling keeps the levels found and never fills above the ground", "statement": "Horizontal interpolation leaves every level found in its own column unchanged, gives every point it fills a level not above its orography whatever the interpolator returns, and with nearest-neighbour interpolation leaves no point masked once any point has a level. When no column has a level everything stays masked. Without it, masked points are exactly those without a level of their own.", "quantifier": "all grids, columns, orographies and interpolator results", "why_tests_cant": "Depends on the pattern of missing points over the grid and on an external triangulation.", "anchors": ["improver/psychrometric_calculations/psychrometric_calculations.py:PhaseChangeLevel", "improver/utilities/interpolation.py:interpolate_missing_data"]}
{"id": "C152", "title": "Phase change options are checked and the levels are ordered", "statement": "Only snow-sleet, sleet-rain and hail-rain are accepted, with increasing thresholds; in a column whose integral grows downwards the level for a larger threshold is never above that for a smaller one. Processing needs exactly four cubes and, if asked, matching model identifiers. (Without bounds the highest height is taken from the last wet bulb level, which is the highest only if levels are stored upwards.)", "quantifier": "all option strings, cube counts, identifiers and columns", "why_tests_cant": "The ordering relates two runs over all possible columns.", "anchors": ["improver/psychrometric_calculations/psychrometric_calculations.py:PhaseChangeLevel"]}
{"id": "C153", "title": "Hail size table lookup", "statement": "The hail size is always read from inside the table, whatever the temperatures; it lies between 0 and 120 mm, never falls when either index temperature difference grows, is 0 when the cloud base is colder than -5 C, when there is no level at -5 C or when the dry descent gains less than 2.5 K, and beyond the first height of the reduction table a higher wet bulb zero never gives bigger hail, with none at or above 4400 m.", "quantifier": "all real temperatures and heights, masked or not", "why_tests_cant": "lookups use rounding, offsets and negative indices; only a proof covers every real value. The gap between the two height limits of the code (3300 and 3350 m) is a refuted instance.", "anchors": ["improver/psychrometric_calculations/hail_size.py:HailSize.get_hail_size", "improver/psychrometric_calculations/hail_size.py:HailSize.updated_hail_size"]}
{"id": "C154", "title": "Cloud top temperature", "statement": "The cloud top temperature at a point is the parcel temperature on the highest pressure level reached before the parcel first becomes colder than its environment above the cloud base; it is masked when the cloud is less than 4 K deep.", "quantifier": "every number of points and levels, every temperature field, every root finder for the ascent", "why_tests_cant": "depends on a loop with per-point state over any number of levels.", "anchors": ["improver/psychrometric_calculations/cloud_top_temperature.py:CloudTopTemperature._calculate_cct"]}
{"id": "C155", "title": "Cloud condensation level", "statement": "The temperature returned is that of the surface air lifted dry-adiabatically to the pressure returned, colder than the surface air exactly when that pressure is lower; where the root finder stops at a root the lifted air is exactly saturated; saturated surface air has its root at the surface.", "quantifier": "all positive temperatures and pressures, all humidities, every root finder", "why_tests_cant": "holds for every real input and independently of the solver.", "anchors": ["improver/psychrometric_calculations/cloud_condensation_level.py:CloudCondensationLevel._iterate_to_ccl"]}
{"id": "C156", "title": "Feels-like temperature", "statement": "The feels-like temperature is the wind chill up to 10 C, the apparent temperature from 20 C and their linear blend in between, so the joins are continuous and the result is between the two; more wind never feels warmer, more humidity never feels colder, and warmer air feels warmer below 10 C and above 20 C.", "quantifier": "all real temperatures, winds, humidities and pressures", "why_tests_cant": "monotonicity over all real inputs; across the blending range monotonicity in temperature is refuted.", "anchors": ["improver/feels_like_temperature.py:calculate_feels_like_temperature", "improver/feels_like_temperature.py:_feels_like_temperature"]}
{"id": "C157", "title": "Precipitation phase at the surface", "statement": "From a falling level and the altitude the phase is 1 or 0 at each point: snow exactly where the ground is at or above the snow level, rain where it is below the rain level, using the 80th and 20th percentile where there are percentiles; snow is preferred to rain and rain to hail; the inputs refused are exactly those with the wrong number of cubes, unequal grids, no level, no such percentile or no altitude. Where the snow level is nowhere below the rain level the sleet probability of the two results is accepted and is 1 exactly in between.", "quantifier": "all input cubes, any number of points", "why_tests_cant": "ranges over all fields and orderings of cubes.", "anchors": ["improver/psychrometric_calculations/precip_phase_probability.py:PrecipPhaseProbability.process", "improver/precipitation_type/calculate_sleet_prob.py:calculate_sleet_probability"]}
{"id": "C158", "title": "Phase masks and UV index", "statement": "For an accepted snow fraction exactly one of the rain, sleet and snow masks is 1 at each point, split at 0.01 and 0.99; a mask is given exactly for an unmasked snow fraction in [0, 1] with unit 1 and a known phase. The UV index is accepted exactly for the right flux without negative or NaN values and is the flux times the scale.", "quantifier": "all fields, names and units", "why_tests_cant": "ranges over all values of the fields.", "anchors": ["improver/psychrometric_calculations/significant_phase_mask.py:SignificantPhaseMask.process", "improver/uv_index.py:calculate_uv_index"]}
{"id": "C159", "title": "Topographic zone weights", "statement": "For contiguous bands every land point above the lowest bound and not above the highest has weights between 0 and 1 that add up to one, with at least half in the band it is in and the rest in the neighbouring band on its side of the middle; the outer halves of the outermost bands have it all; the weights join continuously at shared bounds. Sea points are masked; points of no band have no weight.", "quantifier": "every list of contiguous bands, every height, with or without a land mask", "why_tests_cant": "quantifies over all heights and all numbers of bands. That no warning implies weights of sum one is refuted (a point at the lowest bound, gaps between bands).", "anchors": ["improver/generate_ancillaries/generate_topographic_zone_weights.py:GenerateTopographicZoneWeights.process", "improver/generate_ancillaries/generate_topographic_zone_weights.py:GenerateTopographicZoneWeights.calculate_weights"]}
{"id": "C160", "title": "Orography band masks and land masks", "statement": "Each mask is 1 exactly for land points above the lower and not above the upper bound of its band, so that for contiguous bands each land point between the outer bounds is in exactly one; the corrected land mask is 1 for fractions of at least a half and 0 below, and correcting twice changes nothing; bounds are accepted exactly as a pair of numbers.", "quantifier": "every height, band and land fraction", "why_tests_cant": "quantifies over all heights and bands.", "anchors": ["improver/generate_ancillaries/generate_ancillary.py:GenerateOrographyBandAncils.gen_orography_masks", "improver/generate_ancillaries/generate_ancillary.py:CorrectLandSeaMask"]}
{"id": "C161", "title": "Solar day, hour and solar time", "statement": "The hour of the day is a whole number of minutes from 0 to 24 h within half a minute of the time; day and hour of any datetime are never refused by the solar functions; solar time is an hour later 15 degrees east, within 21 minutes of UTC at Greenwich, and normalised lies in [0, 24) and is the same a full circle away.", "quantifier": "every datetime to the microsecond, every longitude", "why_tests_cant": "rounding across midnight and leap years; all reals.", "anchors": ["improver/utilities/solar.py:get_hour_of_day", "improver/utilities/solar.py:calc_solar_time"]}
{"id": "C162", "title": "Solar elevation", "statement": "For every valid latitude, day and hour an elevation is given between -90 and 90 degrees, at most 90 less the distance of the latitude from the declination (reached at solar noon) and at least the opposite value at midnight; the sine on request is the sine of the angle; the poles have the declination all day long.", "quantifier": "all latitudes, longitudes, days and hours", "why_tests_cant": "statement about all real inputs.", "anchors": ["improver/utilities/solar.py:calc_solar_elevation", "improver/utilities/solar.py:calc_solar_declination"]}
{"id": "C163", "title": "Day and night mask", "statement": "On a latitude-longitude grid, where the terminator is used, it is day exactly where the sun is above the horizon (or on it while the declination is positive), so that the mask agrees with that of other grids wherever the sun is not exactly on the horizon; the declination is never exactly zero, so no division by zero occurs; midnight sun and polar night come out right. Each slice is masked for its own time if the times have no bounds.", "quantifier": "all latitudes, longitudes, days and hours, all lists of times", "why_tests_cant": "agreement of two different formulae over all reals. That each slice is masked for its own time is refuted for times with bounds.", "anchors": ["improver/utilities/solar.py:DayNightMask.process", "improver/utilities/solar.py:daynight_terminator"]}
{"id": "C164", "title": "Clear sky irradiance", "statement": "The irradiance is never negative nor above that at the top of the atmosphere, is zero exactly when the sun is not above the horizon, and never grows with turbidity.", "quantifier": "all zenith angles, days, altitudes and turbidities", "why_tests_cant": "inequalities over all reals.", "anchors": ["improver/generate_ancillaries/generate_derived_solar_fields.py:GenerateClearskySolarRadiation._calc_clearsky_ineichen"]}
{"id": "C165", "title": "Clear sky radiation of a period", "statement": "Times are given exactly when the period is a whole number of steps, and run from the start to the end of the period in equal steps; the radiation is never negative, at most 1413 W m-2 over the period, zero if the sun is never up, and that of two adjoining periods adds up to that of both.", "quantifier": "all datetimes, periods and spacings, all places", "why_tests_cant": "quantifies over all periods and numbers of steps.", "anchors": ["improver/generate_ancillaries/generate_derived_solar_fields.py:GenerateClearskySolarRadiation.process", "improver/generate_ancillaries/generate_derived_solar_fields.py:GenerateClearskySolarRadiation._irradiance_times"]}
{"id": "C166", "title": "Orographic enhancement generated at a point", "statement": "The rain rate generated at a grid point is never negative. It is zero unless the mean height of the 3x3 square is at least 20 m, the relative humidity is at least 0.8 and the wind ascends the slope at no less than 0.0005 m/s; then it equals 3600 times the vapour density (rh*svp/(461.6*T)) times the ascent rate. It never falls when humidity or ascent grows.", "quantifier": "all topographies, winds, humidities, pressures and positive temperatures", "why_tests_cant": "The three thresholds and the sign of the slope wind partition a continuous space; tests sample a few points.", "anchors": ["improver/orographic_enhancement.py:OrographicEnhancement"]}
{"id": "C167", "title": "Upstream integration of orographic enhancement", "statement": "Every source cell read lies on the grid. Where there is wind the result is 0.23265 times a Gaussian weighted mean of the generated rates at the cell and the cells directly upwind within 15 km (the k-th exactly k cells upwind along the dominant axis), so it lies between 0.23265 times the least and greatest rate, and depends on nothing farther than 15 km along either axis. Calm cells are zero. The result is defined on every grid with spacing up to 10.6 km; above 15 km every windy cell is NaN.", "quantifier": "all grid shapes, spacings, wind fields and point rates", "why_tests_cant": "The source positions depend on wind direction, rounding and domain edges at every cell; no finite set of winds covers them.", "anchors": ["improver/orographic_enhancement.py:OrographicEnhancement"]}
{"id": "C168", "title": "Convection ratio and shower condition cube", "statement": "The ratio is computed exactly when the input has one convective and one stratiform rate in convertible units, otherwise a ValueError is raised. It is masked exactly where total precipitation is at most 1e-9 m/s in size and otherwise is convective over total; for rates that are not negative it is in [0,1], the two shares add to one, and it is monotone in each part. The shower condition cube replaces exactly the threshold coordinate by shower_condition with value 1, keeping data and other coordinates, and fails exactly when there is no threshold or it has more than one value; without in_place the input is untouched.", "quantifier": "all lists of cubes, all rates, all coordinate lists", "why_tests_cant": "Quantifies over every list of cubes and every pair of rates, including totals near the tolerance.", "anchors": ["improver/precipitation_type/convection.py:ConvectionRatioFromComponents", "improver/precipitation_type/utilities.py:make_shower_condition_cube"]}
{"id": "C169", "title": "File comparison reports exactly the differences", "statement": "compare_netcdfs calls its reporter exactly when the two files disagree: some group, attribute (not ignored), dimension or variable (not excluded) is present in only one, or differs in value, size or type, or coordinate data differ at all, or other data differ by more than atol + rtol*|desired|. A file without NaN attributes agrees with itself, and larger tolerances never add a report.", "quantifier": "all pairs of files with groups nested to any depth, all options", "why_tests_cant": "Quantifies over all trees of groups and all data; a check that misses one kind of difference passes every test that does not have it.", "anchors": ["improver/utilities/compare.py:compare_netcdfs", "improver/utilities/compare.py:compare_datasets", "improver/utilities/compare.py:compare_data"]}
{"id": "C170", "title": "Saving a file is all or nothing", "statement": "A call of save_netcdf that is cut off at any point, while other processes do anything to other files, leaves the target with its old or its complete new content; a call that ends leaves the new content and no temporary file; nothing is written unless every cube has the mandatory types and units, known units and the compression level is one of 0 to 9.", "quantifier": "every file system state, content, crash point, interleaving with other processes' steps and list of cubes", "why_tests_cant": "crash points and interleavings cannot be enumerated by tests", "anchors": ["improver/utilities/save.py:save_netcdf", "improver/utilities/save.py:_order_cell_methods", "improver/utilities/save.py:_check_metadata"]}
{"id": "C171", "title": "Mandatory types and units", "statement": "The check passes exactly when data and coordinates are not double precision, moments are 64 bit seconds since 1970 and durations 32 bit seconds, with bounds of the same type; what the standardisation gives always passes it, running it again changes nothing, and time values become their nearest whole seconds or are refused.", "quantifier": "every cube, unit, type and value", "why_tests_cant": "the guarantee is for every later consumer of any standardised cube", "anchors": ["improver/metadata/check_datatypes.py:check_mandatory_standards", "improver/metadata/check_datatypes.py:get_required_dtype", "improver/standardise.py:StandardiseMetadata", "improver/utilities/round.py:round_close"]}
{"id": "C172", "title": "Lightning from CAPE and precipitation rate", "statement": "LightningFromCapePrecip gives 1 exactly where CAPE exceeds its latitude dependent threshold and the precipitation rate exceeds its own, else 0; the thresholds are 350/500 J kg-1 and 1/4 mm h-1 beyond 50 and within 10 degrees of the equator with straight lines between, equal in both hemispheres; inputs are accepted exactly when CAPE is valid at the start of a one or three hour precipitation period with the same reference time and grid.", "quantifier": "every latitude, CAPE, rate, time, reference time and grid", "why_tests_cant": "thresholds vary continuously with latitude; tests sample a few", "anchors": ["improver/lightning.py:LightningFromCapePrecip", "improver/lightning.py:latitude_to_threshold"]}
{"id": "C173", "title": "Multivariate lightning probability", "statement": "The USAF lightning probability is the documented regression and lies between 0 and 0.95 for any CAPE and lifted index, non-negative precipitation and precipitable water and non-positive CIN; more precipitation never lowers it, nor does more CAPE where there is any; a dry column gives 0; inputs are accepted exactly when all are valid at the start of the three hour accumulation.", "quantifier": "every value of the five fields", "why_tests_cant": "a bound on a nonlinear regression over an unbounded domain", "anchors": ["improver/lightning.py:LightningMultivariateProbability_USAF2024"]}
{"id": "C174", "title": "Extraction keeps exactly the cells that meet the constraints", "statement": "Extracting with constraints gives a cube holding a cell if and only if the original holds it and each of its coordinates passes every constraint on it in the constraint's units, with coordinates and units as before and the input cube unchanged; it gives nothing exactly when a constrained coordinate is missing or has no passing point; with a step every step-th kept point from the first remains.", "quantifier": "every cube with any number of axes and points, every list of constraints, units and steps", "why_tests_cant": "ranges over arbitrary dimensions, points and constraint lists", "anchors": ["improver/utilities/cube_extraction.py:parse_constraint_list", "improver/utilities/cube_extraction.py:apply_extraction", "improver/utilities/cube_extraction.py:extract_subcube", "improver/utilities/cube_extraction.py:ExtractSubCube", "improver/utilities/cube_extraction.py:thin_cube", "improver/utilities/cube_constraints.py:create_sorted_lambda_constraint"]}
{"id": "C175", "title": "Filling of invalid levels", "statement": "ExtractLevel replaces the masked or invalid values of a column from the next valid value of higher index, or the last valid one of lower index if there is none, by adding or subtracting the documented increment once per level, keeps valid ones, and a column whose invalid values are at an end becomes monotone if its valid part was.", "quantifier": "every column length, every set of invalid levels and every value", "why_tests_cant": "every pattern of missing levels in columns of any length", "anchors": ["improver/utilities/cube_extraction.py:ExtractLevel"]}
{"id": "C176", "title": "Attributes are amended as asked", "statement": "amend_attributes with changes of the documented kinds (a new text, \"remove\", a text with one \"{}\" for the old value, a text with one \"{now:...}\" for the time) makes each of them and changes no other attribute; copying attributes from a template gives the template's values; set_history_attribute sets or appends the entry.", "quantifier": "every dictionary of changes and attributes, every text", "why_tests_cant": "ranges over all texts, including those that look like fields", "anchors": ["improver/metadata/amend.py:amend_attributes", "improver/metadata/amend.py:set_history_attribute", "improver/utilities/copy_attributes.py:CopyAttributes"]}
{"id": "C177", "title": "Attributes of combined cubes", "statement": "generate_mandatory_attributes gives title, source and institution the value all input cubes share or the default, and the model attribute the shared value or an error; update_model_id_attr_attribute gives every model of every cube once in alphabetical order; get_model_id_attr returns a value exactly when all cubes share it; create_new_diagnostic_cube needs all three mandatory attributes and leaves its arguments alone.", "quantifier": "every number of cubes and every attributes", "why_tests_cant": "ranges over lists of cubes of any length", "anchors": ["improver/metadata/utilities.py:generate_mandatory_attributes", "improver/metadata/utilities.py:create_new_diagnostic_cube", "improver/metadata/utilities.py:get_model_id_attr", "improver/metadata/amend.py:update_model_id_attr_attribute"]}
{"id": "C178", "title": "Nested inputs are flattened in order", "statement": "flatten gives the leaves of a collection nested to any depth, each once and in reading order; as_cubelist accepts its arguments exactly when they hold at least one cube and nothing else; as_cube returns a single cube itself and the merge of several, or an error.", "quantifier": "every nested collection of any depth and width", "why_tests_cant": "depth and shape of the nesting are unbounded", "anchors": ["improver/utilities/flatten.py:flatten", "improver/utilities/common_input_handle.py:as_cubelist", "improver/utilities/common_input_handle.py:as_cube"]}
{"id": "C179", "title": "check_cube_coordinates restores dimensions and their order", "statement": "check_cube_coordinates(cube, new_cube, exception_coordinates) returns the data of new_cube, every value at its coordinates, with scalar coordinates that are dimensions of cube made dimensions again and the dimensions of cube in the order of cube; the exception coordinates stay where they were in the promoted cube; a different number of dimensions is an error.", "quantifier": "every list of dimension names, every cube and every list of exceptions in the order of their dimensions", "why_tests_cant": "Promotion, insertion and transposition interact for every set of dimensions and every position of the exceptions.", "anchors": ["improver/utilities/cube_checker.py:check_cube_coordinates"]}
{"id": "C180", "title": "apply_mask masks exactly the points the mask selects", "statement": "For a cube and a mask with the same dimensions in any order and of equal sizes, apply_mask returns the cube in its own dimension order in which exactly the points where the mask is true (false, if inverted) are masked and every other value is unchanged; with other names or dimensions it raises; it does not change the mask.", "quantifier": "every cube, mask, order of dimensions and choice of inversion", "why_tests_cant": "Reordering of the mask must be right for every permutation, and the state of the mask after the call matters for later calls.", "anchors": ["improver/utilities/mask.py:apply_mask"]}
{"id": "C181", "title": "Checks on dimensions, spatial coordinates and times decide exactly what they claim", "statement": "find_dimension_coordinate_mismatch names exactly the dimensions one cube has and the other has not; spatial_coords_match holds exactly when all cubes have equal x and y coordinates; assert_time_coords_valid passes exactly for two or more cubes whose time bounds are as asked, whose times agree and, unless a blend time is used, whose reference times agree, in whatever order the cubes are given.", "quantifier": "every pair or list of cubes", "why_tests_cant": "The equivalence ranges over lists of any length and any differences between members.", "anchors": ["improver/utilities/cube_checker.py:find_dimension_coordinate_mismatch", "improver/utilities/cube_checker.py:spatial_coords_match", "improver/utilities/cube_checker.py:assert_time_coords_valid"]}
{"id": "C182", "title": "Loading returns the wanted cubes with standard dimension order", "statement": "load_cubelist returns, file by file and in file order, the cubes that meet the constraint other than the prefix cube, each with realization, percentile and threshold leading, y and x trailing, other dimensions in file order between them, every value at its coordinates and all attributes but the prefix pointer; no cube at all is an error; load_cube returns the only cube or the merge of the cubes found.", "quantifier": "every list of files, every constraint and every order of dimensions in a file", "why_tests_cant": "Two successive reorderings must keep each other's effect for every dimension order.", "anchors": ["improver/utilities/load.py:load_cubelist", "improver/utilities/load.py:load_cube"]}
{"id": "C183", "title": "A blend is the weighted mean of all its inputs", "statement": "WeightAndBlend.process returns, at every grid point, the mean of the unmasked inputs weighted by the weights its method gives their blend points (not negative, with sum one), masked where no input with weight is unmasked; leaving out slices of zero weight and returning the last remaining slice do not change this, nor does the order of the inputs; a single input is returned as it is. Blending over models gives each input its own id, and refuses inputs without a model or two of one model.", "quantifier": "every weighting method and its parameters, every number of inputs, any order, every pattern of masks and weights", "why_tests_cant": "The short cuts for zero weights and single slices must agree with the general formula for every combination of weights, masks and points.", "anchors": ["improver/blending/calculate_weights_and_blend.py:WeightAndBlend", "improver/blending/weighted_blend.py:MergeCubesForWeightedBlending"]}
{"id": "C184", "title": "Records of runs name exactly the contributors with their weights", "statement": "The record attribute of a blend has one line for each record of each input with weight, naming its model and cycle with its recorded weight times the weight of the input; inputs without weight do not appear; the order of the inputs does not matter; weights of a blend have sum one if those of each input have; with discard_weights each model and cycle appears once, sorted; a record without a weight is an error.", "quantifier": "every number of inputs, every list of earlier records, all weights", "why_tests_cant": "Composition over repeated blends, splitting and joining of texts and sorting must hold for every list of records.", "anchors": ["improver/blending/utilities.py:update_record_run_weights", "improver/blending/utilities.py:record_run_coord_to_attr", "improver/blending/utilities.py:store_record_run_as_coord"]}
{"id": "C185", "title": "Metadata of a blend describes the blend", "statement": "After a blend over models or cycles the reference time and blend time are the cycle time, the lead time counts from it, coordinates along the blend dimension other than times, the record and the model coordinates are gone and all others stay, whatever the number of inputs; a blend over models names its models in alphabetical order; mandatory attributes are there; other attributes are those after the requested changes; a missing cycle time is an error.", "quantifier": "every set of coordinates, number of inputs, attributes and changes", "why_tests_cant": "Which coordinates are removed depends on whether the blend coordinate is scalar, for every set of coordinates.", "anchors": ["improver/blending/utilities.py:get_coords_to_remove", "improver/blending/utilities.py:update_blended_metadata"]}
{"id": "C186", "title": "Binning RainForests features does not change predictions", "statement": "With bin_data the calibration predicts for one row of each group of rows whose features fall in the same bins and uses the answer for the whole group. Provided that no feature value is exactly at a split of the models, the predictions are those of evaluating the models for every row.", "quantifier": "all decision-tree models with any leaf values and any way of combining trees, all numbers of features, rows and thresholds, all contents of uninitialised arrays", "why_tests_cant": "The grouping, forward filling and reordering of rows must be right for every order and repetition of rows; tests use one small array, with values that are not thresholds.", "anchors": ["improver/calibration/rainforest_calibration.py:_evaluate_probabilities", "improver/calibration/rainforest_calibration.py:_get_feature_splits"]}
{"id": "C187", "title": "RainForests probabilities are made to decrease", "statement": "The probabilities at the model thresholds are replaced by the mean of the largest at this and later thresholds and the smallest at this and earlier ones; the result does not increase, stays in the range of the input, and is the input where that does not increase already.", "quantifier": "all lists of probabilities", "why_tests_cant": "Monotonicity and range are claims about all lists of probabilities of every length.", "anchors": ["improver/calibration/rainforest_calibration.py:_make_decreasing"]}
{"id": "C188", "title": "RainForests calibrated probabilities form a distribution", "statement": "The calibrated probabilities lie in 0 to 1, one for each output threshold, and do not increase from one output threshold to the next; they are the mean over the realizations of probabilities found by linear interpolation between those of the models, with probability 1 at the lower bound of the variable.", "quantifier": "all models' predictions in 0 to 1, all numbers of realizations, all model thresholds and output thresholds", "why_tests_cant": "The range, order and interpolation have to hold for all predictions and thresholds, in all combinations of the branches for equal thresholds and the lower bound.", "anchors": ["improver/calibration/rainforest_calibration.py:_get_ensemble_distributions", "improver/calibration/rainforest_calibration.py:_calculate_threshold_probabilities", "improver/calibration/rainforest_calibration.py:process"]}
{"id": "C189", "title": "RainForests features are aligned and ordered by name", "statement": "The models used are those for the lead time nearest to that of the forecast (the shorter if two are as near); features are given to them in alphabetical order of names whatever the order of the cubes; features and forecast are aligned exactly when the coordinates of their dimensions are the same and their realizations, where present, are the same, and cubes without realizations are repeated for each.", "quantifier": "all lists of feature cubes and forecasts with different names, all lead times and model lead times", "why_tests_cant": "Independence of order and alignment range over all sets of cubes; tests have one order and one pair of mismatches.", "anchors": ["improver/calibration/rainforest_calibration.py:_align_feature_variables", "improver/calibration/rainforest_calibration.py:_prepare_features_array", "improver/calibration/rainforest_calibration.py:_evaluate_probabilities"]}
{"id": "C190", "title": "Optical flow nowcasts with pysteps", "statement": "From a precipitation rate the plugin gives the analysis and a forecast for each multiple of the interval up to the greatest lead time; each holds the extrapolated rate without orographic enhancement, in the units of the analysis, with the enhancement for its own time added back, and has the right time, reference time and period; it fails unless the input is a rate on an equal area grid and there is enhancement within half an hour of every time.", "quantifier": "all analyses, velocities, enhancement cubes, intervals and lead times, and any extrapolation by pysteps", "why_tests_cant": "The times, units and enhancement must fit for every step of every nowcast; tests look at one nowcast of a few steps.", "anchors": ["improver/nowcasting/pysteps_advection.py:PystepsExtrapolate"]}
{"id": "C191", "title": "Spot data cubes have their sites on the last dimension", "statement": "The cube built from arrays has the dimensions asked for in order, followed by the sites; every site coordinate is along the dimension of the sites and has as many values as there are sites, and all consistent arguments are accepted.", "quantifier": "all combinations of neighbour methods, grid attributes, additional dimensions, auxiliary and scalar coordinates and all shapes of data", "why_tests_cant": "The combinations of optional arguments and shapes are without number.", "anchors": ["improver/spotdata/build_spotdata_cube.py:build_spotdata_cube"]}
{"id": "C192", "title": "Standardisation changes only what it is asked to", "statement": "Standardising a cube drops dimensions of length one other than realization without losing a value or coordinate, makes missing exactly the values with a status flag, removes and modifies only the coordinates named (and modifies only scalar coordinates that are not times, by a single value), and discards only point: time cell methods.", "quantifier": "all cubes with any dimensions and coordinates, all status flags, all names and values given", "why_tests_cant": "That nothing else changes is a statement about all cubes; tests compare a few.", "anchors": ["improver/standardise.py:StandardiseMetadata", "improver/standardise.py:_collapse_scalar_dimensions", "improver/standardise.py:_modify_scalar_coord_value", "improver/standardise.py:_rm_air_temperature_status_flag"]}
{"id": "C193", "title": "Training dates end before the cycle, one for each day", "statement": "The training dates for a forecast period are as many as the training length, a day apart, at the validity time of day, all before the cycle, and none of the last days with that time of day is left out.", "quantifier": "every cycle time, forecast period and training length", "why_tests_cant": "The number of days between validity time and cycle depends on the forecast period in whole days with rounding down; tests try a few periods.", "anchors": ["improver/calibration/dataframe_utilities.py:_training_dates_for_calibration"]}
{"id": "C194", "title": "Only forecasts of one experiment, period and the percentiles asked for are used", "statement": "Selection gives exactly the forecasts of the experiment, forecast period and percentiles asked for, in order; more than one experiment, percentiles where there are none, or percentiles that are not equally spaced quantiles in the order first seen are errors.", "quantifier": "every forecast table, experiment, period and list of percentiles", "why_tests_cant": "The filters interact with the check on quantiles, and the check depends on the order of rows.", "anchors": ["improver/calibration/dataframe_utilities.py:_prepare_dataframes", "improver/calibration/dataframe_utilities.py:_quantile_check"]}
{"id": "C195", "title": "Missing entries are filled with a site's own metadata", "statement": "Filling gives exactly one row for every site, time and percentile or realization; rows that were there keep their values, new ones have none, and their columns come from the nearest earlier row of the site (else the first later one) if the site has any value.", "quantifier": "every table without repeated rows", "why_tests_cant": "Forward fill is by site but backward fill is not, so correctness depends on the order of all rows of all sites.", "anchors": ["improver/calibration/dataframe_utilities.py:_fill_missing_entries"]}
{"id": "C196", "title": "Sites that moved get one place", "statement": "When sites differ in how many values of a place column they have, every site ends with a single place; no other column and no row changes.", "quantifier": "every table and list of columns", "why_tests_cant": "Whether a correction is made depends on counts over all sites; tables where all sites changed alike are rarely tested.", "anchors": ["improver/calibration/dataframe_utilities.py:_ensure_consistent_static_cols"]}
{"id": "C197", "title": "Forecasts and truths from tables are aligned", "statement": "For each training date with usable forecasts there is one forecast for each percentile or realization and one truth, all for the same sites in the same order with the same places and time bounds; each value is that of the last row for its site and time, missing if there is none.", "quantifier": "every forecast and truth table whose sites keep their places, every cycle, period and training length", "why_tests_cant": "Pairing a forecast with the truth of another site or day gives wrong coefficients without an error; it depends on every combination of missing, repeated and unordered rows.", "anchors": ["improver/calibration/dataframe_utilities.py:forecast_and_truth_dataframes_to_cubes", "improver/calibration/dataframe_utilities.py:forecast_dataframe_to_cube", "improver/calibration/dataframe_utilities.py:truth_dataframe_to_cube"]}
{"id": "C198", "title": "Renamed probability diagnostics keep name and threshold in step", "statement": "Renaming the diagnostic of a probability cube (by combining cubes with multiplication or by blending with renaming) gives the cube the name of the probabilities of the new diagnostic with the same threshold comparison, and its threshold coordinate the name that is derived from that cube name; the threshold coordinate can still be found as such and no other coordinate changes. Other cubes take the new name as it is.", "quantifier": "All cubes, names of diagnostics with and without vicinity parts, kinds of threshold and sets of coordinates.", "why_tests_cant": "The new name is made by replacing text in the old one; tests look at two or three names, but the claim is about every pair of names, in which words may overlap.", "anchors": ["improver/metadata/amend.py:update_diagnostic_name", "improver/metadata/probabilistic.py:get_diagnostic_cube_name_from_probability_name"]}
{"id": "C199", "title": "Cell methods follow thresholding, renaming and the way back", "statement": "The comments on cell methods name the diagnostic: thresholding names the threshold coordinate in each, renaming replaces the old name by the new one, and conversion back to a diagnostic removes them, while methods, coordinates, intervals, number and order stay as they were.", "quantifier": "All lists of cell methods, comments, names and renamings.", "why_tests_cant": "Comments are found by searching text, so what is kept or replaced depends on all names that may occur in them; tests have one comment each.", "anchors": ["improver/metadata/amend.py:_update_cell_methods", "improver/metadata/probabilistic.py:format_cell_methods_for_probability", "improver/metadata/probabilistic.py:format_cell_methods_for_diagnostic"]}
{"id": "C200", "title": "One vicinity radius after blending", "statement": "After blending with a vicinity radius the result has exactly one coordinate for the radius of the vicinity, in metres, with the value given; it is marked as a maximum exactly when the blended cube had none; other coordinates stay.", "quantifier": "All cubes with at most one such coordinate, and all radii.", "why_tests_cant": "It must hold for every set of coordinates left by a blend; tests have a few.", "anchors": ["improver/utilities/spatial.py:update_name_and_vicinity_coord", "improver/utilities/spatial.py:add_vicinity_coordinate"]}
{"id": "C201", "title": "Files accepted by the metadata interpreter", "statement": "The metadata interpreter accepts a cube exactly when it is one of the exempt intermediates, or meets the conventions for its kind: ancillaries have no cell methods; weather codes and wind directions only the permitted ones; probabilities have units 1, a threshold coordinate named as the diagnostic whose comparison agrees with the name; percentiles a single coordinate percentile in %; minima, maxima and sums over time have time bounds and, for probabilities, say what they are of; no forbidden attribute is present, mandatory attributes and time coordinates are, blends list a cycle for each known model, single models agree with the title, spot coordinates share the site dimension, time bounds end at the point, and data types are the standard ones.", "quantifier": "All cubes with any name, units, coordinates (of distinct names), cell methods and attributes.", "why_tests_cant": "Acceptance is a conjunction of some thirty rules depending on name, kind and attributes; tests break one rule at a time on four cubes.", "anchors": ["improver/developer_tools/metadata_interpreter.py:MOMetadataInterpreter"]}
{"id": "C202", "title": "Models and cycles of a blend shown", "statement": "For a blend of known models, the interpreter shows the names of all its models in the order of the attribute, each with the cycle recorded for it.", "quantifier": "All lists of known models and all records of runs with a line for each.", "why_tests_cant": "It must hold for every record of runs, including ones with several cycles per model; tests have one cycle each.", "anchors": ["improver/developer_tools/metadata_interpreter.py:MOMetadataInterpreter"]}
{"id": "C203", "title": "interpret-metadata reports every cube", "statement": "The interpret-metadata command reports each cube of the file in order (with failures only, only those that are not compliant) and fails exactly when some cube is not compliant.", "quantifier": "All lists of cubes, with and without failures only.", "why_tests_cant": "It must hold for all sequences of good and bad cubes; tests run single files.", "anchors": ["improver/cli/interpret_metadata.py:process"]}
{"id": "C204", "title": "The check of a decision tree accepts exactly the well-formed trees", "statement": "check_tree reports no problem for a decision tree exactly if the tree is not empty, its meta entry has a name alone, every destination is an entry of the tree, every node but the first and every leaf not marked unreachable is named by some entry, leaf values are integers and all different, night versions are leaves without a night version of their own, each group has two members, fields, conditions and thresholds have the same shape, conditions, comparators, combinations and thresholds are ones that can be processed, all thresholds of a diagnostic have the same units, and no unknown keys are there; otherwise it reports problems.", "quantifier": "every decision tree with entries of different names, of any size and any nesting of fields up to one level", "why_tests_cant": "tests give the check a few trees with one problem each", "anchors": ["improver/categorical/utilities.py:check_tree", "improver/categorical/utilities.py:interrogate_decision_tree"]}
{"id": "C205", "title": "A checked decision tree gives every point a category", "statement": "If a decision tree passes check_tree, no way through it leads back, and its nodes have one or two fields and two different destinations, then applying it gives every point, whatever the probabilities there, the category of the leaf to which the walk through the tree leads.", "quantifier": "every checked tree, every point and all values of the diagnostics", "why_tests_cant": "a test visits a few points of one or two trees", "anchors": ["improver/categorical/utilities.py:check_tree", "improver/categorical/decision_tree.py:ApplyDecisionTree"]}
{"id": "C206", "title": "The check of a decision tree lists exactly the inputs it needs", "statement": "For a decision tree without problems check_tree lists, in alphabetical order, the diagnostics used by deterministic nodes and, once each, those used as probabilities, the latter with their units and exactly the thresholds at which some node uses them (scaled to the target period), in ascending order, and nothing else.", "quantifier": "every accepted decision tree and every target period", "why_tests_cant": "a test compares the text for one tree", "anchors": ["improver/categorical/utilities.py:interrogate_decision_tree", "improver/categorical/utilities.py:check_tree"]}
{"id": "C207", "title": "A decision tree accepts inputs exactly if every test can be made, and uses the right probabilities", "statement": "The inputs are accepted exactly if they are for one time and every test of every node finds its diagnostic, at a threshold within 1 % of the one asked for in the units of the input and with the right sense; nodes with a default for missing inputs may do without. What is used are these parts of the inputs, and a test uses the probabilities at its threshold.", "quantifier": "all decision trees and all inputs with different names", "why_tests_cant": "tests remove one or two inputs of one tree", "anchors": ["improver/categorical/decision_tree.py:ApplyDecisionTree.prepare_input_cubes", "improver/categorical/decision_tree.py:ApplyDecisionTree.construct_extract_constraint"]}
{"id": "C208", "title": "The inputs of a decision tree are for one time and one period", "statement": "Inputs are accepted exactly if all their validity times are the same, all their time bounds are the same and, if a target period is given and there are bounds, the bounds have its length; the result has the times of the last input with bounds, or of the first input if there are none.", "quantifier": "all numbers of inputs, all times, bounds and target periods", "why_tests_cant": "tests give two inputs with different times", "anchors": ["improver/categorical/decision_tree.py:ApplyDecisionTree.check_coincidence"]}
{"id": "C209", "title": "The result of a decision tree has the latest reference time of its inputs", "statement": "If all inputs have a reference time, the one of the result is the latest of them and its forecast period is the time since then; if no kind of reference time is on all inputs, there is no result.", "quantifier": "all numbers of inputs and all their reference and validity times", "why_tests_cant": "tests set one or two reference times", "anchors": ["improver/categorical/decision_tree.py:ApplyDecisionTree._set_reference_time"]}
{"id": "C210", "title": "Brackets on the command line nest as written", "statement": "The words of a command line with brackets are read as exactly the nested commands that are written so; if the brackets do not match, the error names the first closing bracket that closes nothing, or the end of the line if a bracket is open there.", "quantifier": "every list of words and every depth of nesting", "why_tests_cant": "tests read a few lines with one or two brackets", "anchors": ["improver/cli/__init__.py:unbracket"]}
{"id": "C211", "title": "Nested commands are run once each, inner ones first, and results go to their places", "statement": "A command line with nested commands runs each command once, the nested ones before the one around them and from left to right; the result of each is handed to the command around it at the place of the nested command. If a command fails, nothing is run after it and its error is the result. A dry run runs nothing and cannot fail.", "quantifier": "every nesting of commands, every dispatcher and every state of the world", "why_tests_cant": "tests run one nested command with a mocked dispatcher", "anchors": ["improver/cli/__init__.py:execute_command", "improver/cli/__init__.py:ObjectAsStr"]}
{"id": "C212", "title": "A pipeline does the same as commands with files in between", "statement": "A command that is given the result of a nested command does the same as one that is given a file in which the result was saved, if reading a saved file gives the result back. Results are saved exactly if an output file is asked for and the result is not empty; cubes chosen by constraints are one for each constraint in their order.", "quantifier": "all commands that read their arguments through the converters, all results, files and constraints", "why_tests_cant": "tests use single commands and single files", "anchors": ["improver/cli/__init__.py:with_output", "improver/cli/__init__.py:maybe_coerce_with", "improver/cli/__init__.py:create_constrained_inputcubelist_converter", "improver/cli/__init__.py:comma_separated_list"]}
{"id": "C213", "title": "Titles are marked as post-processed once", "statement": "However many post-processing plugins a cube goes through, its title has \"Post-Processed \" in front once; missing, default and marked titles stay.", "quantifier": "every title and every number of plugins", "why_tests_cant": "tests call one plugin once", "anchors": ["improver/__init__.py:PostProcessingPlugin.post_processed_title"]}
{"id": "C214", "title": "nbhood-land-and-sea with a land-sea mask treats each surface on its own", "statement": "With a land-sea mask, the value at every grid point that has data is the neighbourhood sum or mean of the points with data on its own surface (land for land, sea for sea), in the square or in the circle; means stay within the range of the data; data over the other surface has no effect; points without data stay without data.", "quantifier": "every grid, radius, mask with values zero and positive, field with any missing points, both shapes, sums and means", "why_tests_cant": "depends on every combination of coast line, missing data and shortcut of the neighbourhood sum; tests use a few small grids", "anchors": ["improver/cli/nbhood_land_and_sea.py:process", "improver/nbhood/nbhood.py:NeighbourhoodProcessing"]}
{"id": "C215", "title": "nbhood-land-and-sea with topographic zones", "statement": "With a mask of topographic zones and their weights, a land point gets the mean, by its weights, of the neighbourhood values of the zones that have one, each over the points of that zone with data; a sea point with data gets the neighbourhood value over the sea points.", "quantifier": "every grid, radius, number of zones, weights and field with any missing points", "why_tests_cant": "depends on every combination of zones, weights and missing data", "anchors": ["improver/cli/nbhood_land_and_sea.py:process", "improver/nbhood/use_nbhood.py:ApplyNeighbourhoodProcessingWithAMask"]}
{"id": "C216", "title": "Inputs nbhood-land-and-sea accepts", "statement": "A land-sea mask is accepted only without weights, a mask of zones only with weights, when neither says it includes sea points and the weights have a mask for each point; with lead times there must be as many radii as lead times, without them the first radius is used; a result implies that all of this holds.", "quantifier": "every mask, weights, radii and lead times", "why_tests_cant": "all combinations of optional inputs", "anchors": ["improver/cli/nbhood_land_and_sea.py:process"]}
{"id": "C217", "title": "Ensemble reordering with masks", "statement": "Reordering a percentile forecast by a raw ensemble accepts masks in exactly these cases: the raw ensemble has no masked value, or both forecasts have masked values and every grid point is masked in all percentiles and members or in none. When the percentiles are masked alike at each point, the result has one realization per percentile, the points that were masked are masked and no others, and at each other point the values are exactly the percentile values, in the order of the raw members. When the mask of the percentiles differs between percentiles (accepted whenever the raw ensemble is unmasked), masked values take part in the reordering: the mask stays where it was, the value moved under it is lost and NaN appears at an unmasked place.", "quantifier": "all percentile forecasts, raw ensembles, masks, random numbers and grid sizes, one time", "why_tests_cant": "tests use one masked column and one mask per cube; which values survive depends on every combination of ranking and mask", "anchors": ["improver/ensemble_copula_coupling/ensemble_copula_coupling.py:EnsembleReordering.process,EnsembleReordering._check_input_cube_masks,EnsembleReordering.rank_ecc", "improver/utilities/indexing_operations.py:choose"]}
{"id": "C218", "title": "generate-realizations", "statement": "The generate-realizations command returns a realization cube unchanged, and refuses a cube that is neither realizations, percentiles nor probabilities. Otherwise it makes the number of realizations asked for, or as many as the raw ensemble has, and fails when neither is given. Without raw ensemble the realizations are the evenly spaced percentiles of the input in ascending order, numbered from zero, within the bounds of the diagnostic, masked where the input is masked. With a raw ensemble their values at each point are the same values in the order of the raw members, repeated or cut to that number. Percentiles in order with values within bounds can always be resampled.", "quantifier": "all inputs, raw ensembles, counts, bounds and random numbers", "why_tests_cant": "the command is tested on acceptance data fixed in advance; the order and bounds must hold at each point for all values and counts", "anchors": ["improver/cli/generate_realizations.py:process", "improver/ensemble_copula_coupling/ensemble_copula_coupling.py:EnsembleReordering.process,ResamplePercentiles.process,ConvertProbabilitiesToPercentiles.process,RebadgePercentilesAsRealizations.process"]}
{"id": "C219", "title": "generate-percentiles", "statement": "The generate-percentiles command makes from probabilities the percentiles asked for (default: as many evenly spaced ones as thresholds), ascending and within the bounds at each point, masked exactly where the percentile reaches the last cumulated probability if masking was asked for; the coordinates named are not used. From other cubes with coordinates named it makes the percentiles (default: fifteen) of the values along them, refusing coordinates the cube does not have; without coordinates it sorts the realizations and calls them evenly spaced percentiles of their number, whatever percentiles were asked for, and fails without realizations.", "quantifier": "all options, thresholds, probabilities, coordinates and values", "why_tests_cant": "tests run single options on fixed data; the branch taken and its result must be right for every combination", "anchors": ["improver/cli/generate_percentiles.py:process", "improver/percentile.py:PercentileConverter.process", "improver/ensemble_copula_coupling/ensemble_copula_coupling.py:RebadgeRealizationsAsPercentiles.process,ConvertProbabilitiesToPercentiles.process"]}
{"id": "C220", "title": "Coefficients fit the forecasts they are made for", "statement": "Estimating EMOS coefficients gives cubes named after alpha, beta, gamma and delta, the first and third in the units of the forecasts, all naming diagnostic and distribution; applying them is accepted for exactly those forecasts that have the same diagnostic, the same forecast period rounded up to hours, reference times only at the hour of day of the historic forecasts and, unless at sites, the same domain; in particular for forecasts like the historic ones.", "quantifier": "all historic forecasts that are consistent, all forecasts, point by point or all points together", "why_tests_cant": "Tests write and read coefficients for one grid and one time; that what estimation writes is what application compares must hold for every domain, period and hour.", "anchors": ["improver/calibration/ensemble_calibration.py:EstimateCoefficientsForEnsembleCalibration._create_cubelist,EstimateCoefficientsForEnsembleCalibration.create_coefficients_cubelist,CalibratedForecastDistributionParameters._spatial_domain_match", "improver/calibration/utilities.py:create_unified_frt_coord,forecast_coords_match"]}
{"id": "C221", "title": "What the estimation of EMOS coefficients refuses", "statement": "The estimation starts exactly if a land-sea mask is not combined with coefficients for each point, both forecasts and truths are given and have a common time, the matched forecasts are of one hour of day and one forecast period, not too many values at sites are missing, additional predictors are static and not combined with realizations as predictor, and units agree after conversion; it then uses the matched pairs and does not change the cubes given.", "quantifier": "all training data, masks, predictors, units and options", "why_tests_cant": "Each refusal has one test with one input; that no other input is refused and none of these is let through is about all combinations.", "anchors": ["improver/calibration/ensemble_calibration.py:EstimateCoefficientsForEnsembleCalibration.process,EstimateCoefficientsForEnsembleCalibration._validate_distribution", "improver/calibration/utilities.py:check_data_sufficiency,check_forecast_consistency,filter_non_matching_cubes"]}
{"id": "C222", "title": "Warnings of the minimisation do not change the coefficients", "statement": "With all points together the coefficients returned are those the minimiser found; a warning of no convergence is given exactly if the minimiser reports it, and a warning of a large last change exactly if some coefficient changed by more than 5 % in the last iteration.", "quantifier": "all results of the minimiser, with any number of iterations and coefficients", "why_tests_cant": "Tests run two or three minimisations; which warnings come must be right for every course of the iteration.", "anchors": ["improver/calibration/ensemble_calibration.py:ContinuousRankedProbabilityScoreMinimisers._process_points_together,ContinuousRankedProbabilityScoreMinimisers._calculate_percentage_change_in_last_iteration"]}
{"id": "C223", "title": "apply-emos-coefficients returns the forecast marked when it cannot calibrate", "statement": "At validity times not wanted, and without coefficients, apply-emos-coefficients returns the forecast uncalibrated with a comment that says so, otherwise the calibrated forecast; in all cases of the same kind: probabilities if a template is given, else the kind of the forecast, with the percentiles asked for.", "quantifier": "all forecasts, templates, coefficients, percentiles and validity times", "why_tests_cant": "The branches depend on five optional inputs together; tests cover some of the combinations.", "anchors": ["improver/cli/apply_emos_coefficients.py:process", "improver/calibration/__init__.py:add_warning_comment"]}
{"id": "C224", "title": "Calibrated realizations keep their order and the sea", "statement": "Calibrating realizations gives as many members; at each calibrated point their values are the percentiles k/(N+1) of the calibrated distribution, each given to one member, in the order of the members of the forecast; at the sea points of a land-sea mask each member keeps its value.", "quantifier": "all numbers of members and points, distributions, land-sea masks, member values (ties included) and random numbers", "why_tests_cant": "Tests compare one small ensemble with stored values; ranks and masks must be right for every ensemble and mask.", "anchors": ["improver/calibration/ensemble_calibration.py:ApplyEMOS.process,ApplyEMOS._convert_to_realizations", "improver/ensemble_copula_coupling/ensemble_copula_coupling.py:EnsembleReordering.process", "improver/calibration/utilities.py:merge_land_and_sea"]}
{"id": "C225", "title": "What spot-extract gives at a site depends only on its neighbour", "statement": "spot-extract on gridded data gives at each site a result that depends only on the forecast (and lapse rate) at the site's neighbour; without options it is that forecast, unchanged; with lapse rates every value of the site is moved by the same amount, the adjustment for the site's vertical displacement with the lapse rate at the neighbour or the fixed one.", "quantifier": "all grids, neighbour cubes, forecasts of any kind, options and lapse rates", "why_tests_cant": "Tests extract a few sites of one small grid; independence of all other points and of the order of sites is about all fields.", "anchors": ["improver/spotdata/spot_manipulation.py:SpotManipulation.process", "improver/spotdata/spot_extraction.py:SpotExtraction.process", "improver/spotdata/apply_lapse_rate.py:SpotLapseRateAdjust.process"]}
{"id": "C226", "title": "Percentiles from spot-extract", "statement": "With percentiles asked for, the result has exactly those: extracted unchanged if the forecast has them all, otherwise interpolated within the ECC bounds, or computed from probabilities or members; at every site the values increase with the percentile and stay within the bounds or between the members.", "quantifier": "all percentile, probability and ensemble forecasts and all lists of percentiles", "why_tests_cant": "Tests ask for two or three percentiles of one cube of each kind; order and bounds must hold for every forecast and every list.", "anchors": ["improver/spotdata/spot_manipulation.py:SpotManipulation.process", "improver/ensemble_copula_coupling/ensemble_copula_coupling.py:ResamplePercentiles.process,ConvertProbabilitiesToPercentiles.process", "improver/utilities/cube_extraction.py:extract_subcube"]}
{"id": "C227", "title": "What spot-extract warns of and refuses", "statement": "The warning about percentiles of a deterministic forecast and the one about a missing lapse rate are given exactly when that is so and warnings are not suppressed; a forecast already at sites is refused with lapse rate options and otherwise keeps exactly the sites whose identifier is set and in the neighbour cube; lapse rates are applied only to air and feels-like temperatures that are not probabilities; a cube of lapse rates takes precedence over a fixed one.", "quantifier": "all inputs and all combinations of options", "why_tests_cant": "Each case has one test; that no other combination warns, passes or is refused is about all of them.", "anchors": ["improver/spotdata/spot_manipulation.py:SpotManipulation.process", "improver/spotdata/apply_lapse_rate.py:SpotLapseRateAdjust._check_inputs"]}
{"id": "C228", "title": "Construction of reliability tables counts every matched forecast and truth once", "statement": "Constructing tables from historic forecasts and truths succeeds exactly if the bins are possible, some forecast has a truth, both have the same thresholds, and the matched forecasts have one hour of the day and one forecast period.  The table of a threshold counts every pair of a matched forecast and its truth at every point (or, point by point, at that point): each probability in [0, 1] in exactly one bin, with number of pairs, sum of forecasts and number of events; points at which all truths are masked are left out, points with no masked truth are counted.", "quantifier": "all historic forecasts and truths, thresholds, numbers of points, masks and numbers of bins", "why_tests_cant": "The matching of times, the bins, the masks and the sum over points interact; tests use one small set of forecasts with one arrangement of masks.", "anchors": ["improver/calibration/reliability_calibration.py:ConstructReliabilityCalibrationTables.process,_add_reliability_tables", "improver/calibration/utilities.py:filter_non_matching_cubes,check_forecast_consistency"]}
{"id": "C229", "title": "Reliability calibration trained on any data never reverses forecasts", "statement": "Tables constructed from historic forecasts with probabilities at most one and any truths, then manipulated with any minimum count, give a calibration that never reverses forecasts: if one forecast gives at least the probability of another at every threshold and point, so does the calibrated one; and probabilities in [0, 1] stay there.", "quantifier": "all historic forecasts and truths, bins, minimum counts, forecasts, with or without point by point calibration", "why_tests_cant": "That mean probabilities of pooled bins stay in order depends on how bins are merged for every distribution of counts; tests look at a few tables.", "anchors": ["improver/calibration/reliability_calibration.py:ConstructReliabilityCalibrationTables.process,ManipulateReliabilityTable.process,ApplyReliabilityCalibration.process,_ensure_monotonicity_across_thresholds"]}
{"id": "C230", "title": "Reliability calibration uses the one table of each threshold and point", "statement": "A forecast is calibrated exactly if the direction of its thresholds is known, it has at least two thresholds and there is exactly one table for each threshold (and point, if point by point).  Each column is calibrated with these tables only and put in the order of the thresholds; with the same tables at every point, point by point and joint calibration agree; the warnings name exactly the thresholds with fewer than two bins and say whether probabilities were reordered.", "quantifier": "all forecasts, sets of tables, positions of points and directions of thresholds", "why_tests_cant": "It ranges over all sets of tables, including missing, repeated or coinciding ones, which tests do not use.", "anchors": ["improver/calibration/reliability_calibration.py:ApplyReliabilityCalibration.process,_apply_point_by_point_calibration,_extract_matching_reliability_table,_apply_calibration"]}
{"id": "C231", "title": "The lapse rate command works in kelvin and metres and keeps the input's layout", "statement": "For a temperature field in any temperature unit with y before x, the command gives at every point (of every realization) the lapse rate of the window around it: fitted to the temperatures in kelvin and heights in metres of the land points within the height difference, limited to the given range, and the dry adiabatic rate over sea.  The result has the dimensions of the temperature and unit K m-1.  With the dry adiabatic option it is that rate everywhere; impossible options and missing orography or mask are refused.", "quantifier": "all temperature fields, orographies, masks, units, sizes and options", "why_tests_cant": "Which grid is sliced, which unit is converted and which dimension order the windows use matter only for inputs unlike the test cubes (square windows, kelvin, y before x).", "anchors": ["improver/lapse_rate.py:LapseRate.process,__init__", "improver/cli/temp_lapse_rate.py:process"]}
{"id": "C232", "title": "Hail fraction takes its inputs by name and in any unit", "statement": "Given the six named inputs on one grid, in any order, among others and in any unit of the right kind, the hail fraction is at every point that of the values in the standard units; it succeeds only if all six are there on one grid.", "quantifier": "all lists of inputs with different names, units, grids and values", "why_tests_cant": "Tests give the inputs in one order and in the standard units.", "anchors": ["improver/precipitation_type/hail_fraction.py:HailFraction.process"]}
{"id": "C233", "title": "Adding a dimension puts it where asked and repeats the values", "statement": "Adding a coordinate at a location from 0 to the number of dimensions inserts the new dimension there, keeps the others in order, and the values (and the mask) are at each of its points those of the cube; other locations are refused.", "quantifier": "all cubes, numbers of dimensions, locations and indexes", "why_tests_cant": "The order of dimensions is built by insertion and transposition; a test sees one location in a cube of one shape.", "anchors": ["improver/utilities/cube_manipulation.py:add_coordinate_to_cube"]}
{"id": "C234", "title": "Merging keeps every cube and exactly the metadata all agree on", "statement": "Cubes merge exactly if they have one name, different points and all or none have bounds, and if asked for bounds of one length.  The merged cube has every input once, in the order of the points, and exactly the attributes and cell methods that all of them have.  One cube is returned as it is.", "quantifier": "all lists of cubes, attributes, cell methods, points, bounds and data", "why_tests_cant": "Agreement of attributes and bounds is over all pairs of cubes, in any order; tests merge two or three.", "anchors": ["improver/utilities/cube_manipulation.py:MergeCubes.process,_equalise_cell_methods,_check_time_bounds_ranges"]}
{"id": "C235", "title": "Merging for a blend numbers the models in the order given and unifies their cycle", "statement": "A blend of models needs the model attribute, a model name on every cube, no name twice, and bounds of one length; slice i is cube i with model number 1000·i and its name, without its blend time, and if weights are by forecast period with the given cycle or the latest of all and the matching period.  A blend over another coordinate needs that coordinate on every cube, no value twice; its slices are the cubes, unchanged, in the order of the coordinate.", "quantifier": "all lists of cubes, titles, cycles, times, bounds and both kinds of blends", "why_tests_cant": "The order of slices and the cycle chosen depend on the whole list; tests use two models.", "anchors": ["improver/blending/weighted_blend.py:MergeCubesForWeightedBlending.process,_create_model_coordinates,_remove_blend_time", "improver/metadata/forecast_times.py:rebadge_forecasts_as_latest_cycle"]}
{"id": "C236", "title": "The consistency command bounds the forecast by the reference in the forecast's unit", "statement": "Given two cubes, one of the reference's name, in either order, with the same kind of unit and one or two bounds in every option, the command gives the forecast under its own name and in its own unit, each value the nearest one in the interval made from the reference in that unit; it warns exactly if a value moved by more than the limit; everything else is refused, probabilities with anything but the reference itself as bound included.", "quantifier": "all pairs of cubes, names, units, values, options and limits", "why_tests_cant": "Which cube is the reference, which unit is converted and which of two lists is the lower bound are each seen by one test; the combination must hold for all.", "anchors": ["improver/cli/enforce_consistent_forecasts.py:process", "improver/utilities/forecast_reference_enforcement.py:EnforceConsistentForecasts.process"]}
{"id": "C237", "title": "The normalisation command makes the fields add up to the reference", "statement": "The command gives the field asked for, normalised with the total of all cubes but the reference; it succeeds exactly if one cube has the reference's name, at least two others fit it, one of them is the one asked for and no zero total meets a reference that is not zero (unless ignored).  The fields for all names add up to the reference, as the same amount.", "quantifier": "all lists of cubes, names, values, coordinates and options", "why_tests_cant": "That the fields of all runs add up at every point is a statement about several runs of the command; tests run it once on two fields.", "anchors": ["improver/cli/normalise_to_reference.py:process", "improver/utilities/forecast_reference_enforcement.py:normalise_to_reference,split_cubes_by_name"]}
{"id": "C238", "title": "Blending adjacent points from files", "statement": "The blend-adjacent-points command merges the given cubes and returns, at every grid point, the mean of the unmasked values weighted by a triangle about the central point whose half-width is the given width in the units of the coordinate, in whatever order the files come, with the name, point and bounds of the slice at the central point and only the attributes and cell methods common to all. It succeeds exactly for coordinates that are not times or thresholds, that span a dimension, whose cubes can be merged (with equal lengths of time bounds if forecast periods are asked for), with units and width given, units of the right kind, a positive width and a central point that is among the points. Distances are physical: hours and seconds give the same weights. (Refuted for units with different zeros: a width in degrees Celsius is converted like a temperature.)", "quantifier": "all lists of cubes, points, bounds, values and masks, all central points, widths and units", "why_tests_cant": "the merge order, unit of the options and membership of the central point vary with the input files; tests use one or two cubes in matching units", "anchors": ["improver/cli/blend_adjacent_points.py:process", "improver/blending/blend_across_adjacent_points.py:TriangularWeightedBlendAcrossAdjacentPoints.process,_find_central_point", "improver/blending/weights.py:ChooseDefaultWeightsTriangular.process"]}
{"id": "C239", "title": "Height adjustment of spot forecasts from files", "statement": "The apply-height-adjustment command takes the vertical displacements of the neighbour-finding method named by its options. Heights in any unit of length with the sites along the last dimension are raised by the displacement of their site as physical quantities and keep their unit; probabilities that do not decrease with the threshold are, for every member, site and threshold, the curve of that site read at the threshold plus the displacement, whatever unit of length the thresholds are in, and the thresholds are kept. A method the neighbours do not hold, a unit that is not a length and fewer than two thresholds are refused. (Refuted: probabilities at a single site, and sites along a leading dimension.)", "quantifier": "all spot cubes, units, thresholds, members, sites and displacements", "why_tests_cant": "the result mixes units, broadcasting and interpolation for every site; tests cover a few sites in fixed layouts", "anchors": ["improver/cli/apply_height_adjustment.py:process", "improver/spotdata/height_adjustment.py:SpotHeightAdjustment.process,adjust_prob_cube", "improver/spotdata/apply_lapse_rate.py:extract_vertical_displacements"]}
{"id": "C240", "title": "Freezing rain from three cubes in any order", "statement": "FreezingRain.process takes exactly three cubes with different names, one each whose name holds \"rain\", \"sleet\" and \"temperature\", in any order, on one grid and at one time. Sleet thresholds may be in another unit than rain thresholds if they are the same amounts; the temperature may be in any unit of temperature and of being above or below, and must have a threshold at 273.15 K. The result has the rain thresholds and units and at every threshold and point is the mean over realizations of (rain + sleet) x P(temperature below freezing). One expects the rain and the sleet cube to be different cubes: not so, a cube whose name holds both words is used for both.", "quantifier": "every list of three cubes, all names, units, thresholds, realizations and data", "why_tests_cant": "order, units and directions of the three inputs combine freely; tests fix one arrangement", "anchors": ["improver/precipitation_type/freezing_rain.py:FreezingRain,_get_input_cubes,_get_input_cube_names,process"]}
{"id": "C241", "title": "Snow fraction and snow splitter find their inputs by words in the names", "statement": "SnowFraction gives snow/(rain + snow) with snow converted to the unit of rain, whichever order the two cubes come in; it gives no result unless there are exactly two cubes, one with \"rain\" and the other with \"snow\" in its name, same grid, same time, convertible units and no masked data. SnowSplitter's rain and snow parts have the unit of the precipitation and add up to it at every point, in whatever order the inputs come and whichever other cubes are there. One expects probabilities in per cent to be understood: not so.", "quantifier": "every list of cubes with names, units, grids and data", "why_tests_cant": "order, names and units of inputs are unlimited", "anchors": ["improver/precipitation_type/snow_fraction.py:SnowFraction,_get_input_cubes", "improver/precipitation_type/snow_splitter.py:SnowSplitter,separate_input_cubes,process"]}
{"id": "C242", "title": "Visibility and cloud base cubes are told apart by name", "statement": "VisibilityCombineCloudBase takes exactly two probability cubes in either order; the result has the visibility thresholds, the probability of visibility below each is the larger of the given one and the scaled cloud probability, and probabilities of being above are returned as such. One expects a cloud base given as probability of being above to be inverted like the visibility: not so.", "quantifier": "every pair of cubes, thresholds, points and scaling options", "why_tests_cant": "tests use one threshold direction for the cloud base", "anchors": ["improver/visibility/visibility_combine_cloud_base.py:VisibilityCombineCloudBase,separate_input_cubes,process"]}
{"id": "C243", "title": "RainForests configuration", "statement": "For a model configuration whose keys stand for different numbers, lead times and thresholds are used in ascending order whatever the order in the file, all lead times must have the same thresholds, the model used for a lead time and threshold is the one whose file is named there, Treelite models are used exactly when the library is there and every entry names one, and otherwise every entry must name a LightGBM model; the splits read from a model file are those of its trees. One expects every entry to be used: not so for two texts of one number, nor for lead times when the first has no thresholds.", "quantifier": "every configuration dictionary and every model file", "why_tests_cant": "dictionaries and their orders are unlimited; which entry is silently dropped shows only for odd keys", "anchors": ["improver/calibration/rainforest_calibration.py:ApplyRainForestsCalibration,check_filenames,_parse_model_config,_get_feature_splits,ApplyRainForestsCalibrationLightGBM,ApplyRainForestsCalibrationTreelite"]}
{"id": "C244", "title": "RainForests calibration from forecast and features to probabilities", "statement": "The calibrated probabilities at every point are between 0 and 1 and do not increase over the output thresholds; they do not depend on the order of the feature cubes; thresholds in another unit give the same as the converted ones; and bin_data makes no difference as long as no feature value is exactly at a split. The command takes output thresholds from exactly one of its two options.", "quantifier": "every forest, set of features, grid, number of realizations and output thresholds", "why_tests_cant": "must hold for all models and data; the binned path permutes rows in ways tests only sample", "anchors": ["improver/calibration/rainforest_calibration.py:process,_evaluate_probabilities,_calculate_threshold_probabilities,_get_ensemble_distributions", "improver/cli/apply_rainforests_calibration.py:process"]}
{"id": "C245", "title": "The forecast bias made from an archive", "statement": "From historic forecasts and truths a bias is made exactly when the forecasts are single valued (no probabilities, one percentile or realization), a forecast has a truth of its time, and the forecasts used are all of one hour of the day and one forecast period. At every point it is the mean over the matched times of forecast minus truth (masked if both are never known); it is named after the diagnostic, in its units, with the latest reference time, limited by the earliest and latest if there are several.", "quantifier": "every archive, order of times, gaps, masks and number of points", "why_tests_cant": "archives, their gaps and orders are unlimited; tests use a few complete ones", "anchors": ["improver/calibration/simple_bias_correction.py:CalculateForecastBias,_ensure_single_valued_forecast,_create_bias_cube,process,evaluate_additive_error", "improver/calibration/utilities.py:filter_non_matching_cubes,create_unified_frt_coord,check_forecast_consistency"]}
{"id": "C246", "title": "A bias made by the one plugin serves the other", "statement": "Whatever the diagnostic, a bias made from an archive is recognised among the inputs of the correction in any order, is accepted for exactly the forecasts of its hour of the day and forecast period, and, applied without limits to the forecasts it was made from, leaves a mean error of zero at every point at which forecast and truth were ever known. A bias made from several forecasts is never averaged with others.", "quantifier": "every archive, forecast and point", "why_tests_cant": "it is a relation between two plugins over all archives; tests check the plugins with separate data", "anchors": ["improver/calibration/simple_bias_correction.py:CalculateForecastBias,ApplyBiasCorrection,_check_forecast_bias_consistent,_get_mean_bias,apply_additive_correction", "improver/calibration/__init__.py:split_forecasts_and_bias_files"]}
{"id": "C247", "title": "Orographic smoothing coefficients, as a whole", "statement": "OrographicSmoothingCoefficients(min_gradient, max_gradient, power, mask options).process(orography, mask) returns coefficients exactly when both limits lie in [0, 0.5], the orography has two dimensions of at least two points and a mask, if given, has the same coordinates in the same order. The coefficient between two neighbouring points is linear in the steepness of that step (the power of the size of the gradient), from the min_gradient coefficient at the gentlest step of the whole grid (both directions) to the max_gradient coefficient at the steepest; it is zero where the mask says so (a masked point at either end; with invert, an unmasked one; with mask boundaries, ends that differ), and never outside the two limits or [0, 0.5]. With max_gradient \u2264 min_gradient a steeper step is never smoothed more. Equal steepness everywhere gives NaN. An orography in x, y order gives the same coefficients in x, y order; it is itself turned round in place.", "quantifier": "every orography, mask of zeros and ones, pair of limits, power that keeps numbers non-negative, and mask option", "why_tests_cant": "tests use one 3 by 3 orography; the property relates every step of every grid to the extremes over the whole grid", "anchors": ["improver/generate_ancillaries/generate_orographic_smoothing_coefficients.py:OrographicSmoothingCoefficients,process,scale_smoothing_coefficients,unnormalised_smoothing_coefficients,zero_masked,create_coefficient_cube"]}
{"id": "C248", "title": "Smoothing coefficients serve the recursive filter", "statement": "The two coefficient cubes made from an orography in y, x order that is not equally steep everywhere are accepted by RecursiveFilter for every field on the grid of the orography, in whichever order the two cubes are given, for every number of iterations, edge width and mask of the field; the result is the same for both orders, and every filtered value stays within the range of the field's values. Coefficients from an x, y ordered orography come in x, y order.", "quantifier": "every orography, mask, limits, field, number of iterations and edge width", "why_tests_cant": "the unit tests of the two plugins never chain them; the range must hold for every orography and every field", "anchors": ["improver/generate_ancillaries/generate_orographic_smoothing_coefficients.py:OrographicSmoothingCoefficients,process", "improver/nbhood/recursive_filter.py:RecursiveFilter,_validate_coefficients,process"]}
{"id": "C249", "title": "Extraction of a level of constant value", "statement": "ExtractLevel(positive_correlation, value).process(cube) accepts a cube with exactly one of pressure and height, as a dimension, and refuses both, none, or one that is not a dimension. With realization (if it is a dimension) first among the other dimensions, the result at each point is what the vertical interpolation gives for that point's own column, in which each missing value is first replaced by the next one above less a step for each level between, or failing that by the last one below plus a step for each level; the step is one unit of the least significant digit (default 2), of the sign in which the variable changes along the column. The other dimensions keep their order; unit and name come from the coordinate, the value and the variable's unit. The caller's cube is filled too.", "quantifier": "every cube, order of dimensions, pattern of missing values, set of levels and interpolation", "why_tests_cant": "patterns of missing values and layouts are unlimited; tests use two small cubes", "anchors": ["improver/utilities/cube_extraction.py:ExtractLevel,process,fill_invalid,_one_way_fill,coordinate_grid,_make_template_cube"]}
{"id": "C250", "title": "Hail size from its five inputs", "statement": "HailSize().process(cubes) finds its five inputs by name in any order and among other cubes; for inputs of different names it gives a result exactly when all five are there, in units of their quantities, on one grid and with dimensions that fit. At each point the size is that of the condensation temperature in kelvin and pressure in pascal, the pressure of 268.15 K in the point's own column of temperatures in kelvin, and the wet bulb freezing level above the ground in metres, whatever the units of the inputs. Sizes are whole millimetres from 0 to 120; none where the condensation level is colder than 268.15 K or the freezing level is 4400 m or more above the ground; from 3350 m a higher freezing level never gives larger hail. The unit of the pressure coordinate is not looked at.", "quantifier": "every list of cubes, order, unit, shape and value", "why_tests_cant": "combinations of orders, units and values are unlimited", "anchors": ["improver/psychrometric_calculations/hail_size.py:HailSize,process,check_cubes,hail_size_data,make_hail_cube,temperature_after_saturated_ascent_from_ccl,dry_adiabatic_descent_to_ccl"]}
{"id": "C251", "title": "From wet bulb temperature to phase change level", "statement": "Integrating a wet bulb temperature profile and passing it with its integral, orography and land mask (in any order) to PhaseChangeLevel gives at each point the height above sea level at which the warmth above freezing, summed by trapezia from the top of the profile and interpolated between levels, equals the threshold of the phase change; the top of the profile where that is exceeded above the first level already; an extrapolated level at most 2000 m down at sea and no level over land where it is never reached. The integral does not depend on the units of temperature and height nor the level on the unit of temperature, the order of the levels does not matter, and anything but one cube of each of the four names is refused.", "quantifier": "every profile of two or more strictly ordered levels in any order and units, every orography, land mask, phase change and option", "why_tests_cant": "the integral is made by one plugin and read by another, and the agreement concerns every profile, unit, order and option", "anchors": ["improver/psychrometric_calculations/wet_bulb_temperature.py:WetBulbTemperatureIntegral.process", "improver/psychrometric_calculations/psychrometric_calculations.py:PhaseChangeLevel.process,PhaseChangeLevel.create_phase_change_level_cube"]}
{"id": "C252", "title": "A blend over a whole dimension gives every input the weight of its own blend point, whatever the order of dimensions", "statement": "Blending a cube over a coordinate gives the cube's other dimensions, in their order and with their points; at each place the value is the mean (or the blend of percentiles) of the inputs, each with the weight given there for its own blend point, however the dimensions and blend points of cube and weights are stored; without weights all count the same. Weights of percentiles are scaled to sum to one unless they already do everywhere. A coordinate missing or not on one dimension, differing validity times (unless times are blended), weights without the coordinate, and percentiles not a dimension or fewer than two are refused.", "quantifier": "all cubes and weights cubes of any dimensions, sizes and orders, all values and masks", "why_tests_cant": "tests blend a few small cubes with the blend dimension first; the orders of dimensions of cube and weights, and the orders of their points, are unbounded in number", "anchors": ["improver/blending/weighted_blend.py:WeightedBlendAcrossWholeDimension,process,shape_weights,weighted_mean,percentile_weighted_mean", "improver/blending/utilities.py:find_blend_dim_coord", "improver/utilities/cube_manipulation.py:sort_coord_in_cube,enforce_coordinate_ordering"]}
{"id": "C253", "title": "Combining cubes: dimensions, broadcasting, bounds and cell methods", "statement": "CubeCombiner.process combines two or more cubes place by place in the order given and returns the dimensions and points of the first; a cube without the dimension to broadcast along is used at every point of it, whatever the order of its dimensions; with expanded bounds every scalar coordinate on all cubes that differs covers all of them; cell methods are added for max, min and mean only and any other combination of cubes is refused. It is not so that a dimension of length one is treated alike everywhere: a realization dimension of length one is lost, a further cube with one realization is combined with the first realization only when broadcasting along thresholds, and a plugin made for \"threshold\" cannot be reused for another diagnostic.", "quantifier": "all numbers of cubes, dimensions, orders of dimensions, points, masked values, scalar coordinates and operations", "why_tests_cant": "the statement ranges over all dimension orders, sizes and cube lists; tests fix a few cubes of one shape", "anchors": ["improver/cube_combiner.py:CubeCombiner.process,_combine_cube_data,_setup_coords_for_broadcast,_check_dimensions_match,_get_expanded_coord_names,_add_cell_method"]}
{"id": "C254", "title": "Thresholding a cube: every probability at the place and label of its threshold and radius", "statement": "Threshold.process returns, for every threshold given and every place, the mean over the realizations not masked there (or the value itself) of the truth value of the data, filled if asked and in the unit of the thresholds, masked exactly where all are masked; with radii of vicinity each truth value is the greatest within the radius over points not masked and on the same side of the coast; the other coordinates are unchanged, the threshold coordinate is in the unit of the cube, dimensions of length one become scalar and realizations, percentiles, thresholds and radii come first; thresholds given twice, units that do not convert, missing realizations, a land mask without radii and bounds that touch the threshold are refused. It is not so that thresholds or radii given out of order are labelled rightly, that fuzzy bounds respect the mask in a vicinity, or that a vicinity is always over y and x.", "quantifier": "all cubes, orders of dimensions, masks, thresholds, bounds, operators, units, radii and land masks", "why_tests_cant": "the statement ranges over all cubes and dimension orders; tests fix a few arrays with ascending thresholds", "anchors": ["improver/threshold.py:Threshold.process,_create_threshold_cube,_calculate_truth_value,_vicinity_processing,_update_metadata", "improver/utilities/spatial.py:maximum_within_vicinity,rename_vicinity_cube"]}
{"id": "C255", "title": "Vicinity processing of a cube: every maximum at the labels it was made from", "statement": "OccurrenceWithinVicinity.process returns at every place, for every radius, the greatest value within the radius that is not masked and on the same side of the coast, or the value itself where the cube is masked; radii may be given in any order and dimensions other than y and x may be ascending or descending: they come out ascending with every value at the labels it was made from; dimensions without a coordinate system come first, then the radii if there are several; the name says \"in vicinity\"; a cube with a radius of vicinity, a radius given twice and a land mask on other points or of another name are refused. It is not so that a land mask with its dimensions in the other order is used rightly.", "quantifier": "all cubes, numbers and orders of dimensions, masks, radii and land masks", "why_tests_cant": "the statement ranges over all cubes and orders of dimensions and radii; tests fix a few small arrays", "anchors": ["improver/utilities/spatial.py:OccurrenceWithinVicinity.process,OccurrenceWithinVicinity.__init__,maximum_within_vicinity,rename_vicinity_cube,create_vicinity_coord"]}
{"id": "C256", "title": "Shower probability from its two inputs", "statement": "ShowerConditionProbability.process finds the one cloud and the one convection cube among its inputs, whatever their order, and returns at every place the proportion, among the realizations in which the cloud is not missing, of those with cloud at or below its threshold or convection (not missing) above its threshold; missing exactly where the cloud is missing in all realizations; dimensions of length one become scalar; inputs with no or several cubes of a kind, or of two shapes, are refused. It is not so that the two cubes must have the same dimensions (only shapes are compared, so that a transposed cube is combined at the wrong places), or that units are looked at.", "quantifier": "all lists of cubes, dimensions, numbers of realizations, masks, data and thresholds", "why_tests_cant": "the statement ranges over all cubes, masks and dimension orders; tests fix a few arrays", "anchors": ["improver/precipitation_type/shower_condition_probability.py:ShowerConditionProbability.process,_extract_inputs", "improver/threshold.py:Threshold.process"]}
{"id": "C257", "title": "Looking up two fields in a table", "statement": "ExtractValueFromTable.process takes exactly two cubes, one and only one of the row name, in either order, and returns on the dimensions of the column cube, in its order and whatever the order of those of the row cube, at every place the entry of the table at the column label for the value of the column cube there and the row label for the value of the row cube there (the greatest label not exceeding the value by 1e-5 or more, the least of all if there is none), NaN where one of the two is NaN or the table has no such entry; it has the unit of the table and the new name. Cubes of other shapes, tables without unit, without entries or with two columns of one label are refused. It is not so that the cubes must be on one grid, that their units are looked at, or that the caller's row cube is left as it was.", "quantifier": "all tables, cubes, numbers of dimensions, dimension orders and values", "why_tests_cant": "the statement ranges over all tables and cubes; tests fix one table and a few arrays", "anchors": ["improver/utilities/extract_from_table.py:ExtractValueFromTable.process,ExtractValueFromTable.extract_table_values,ExtractValueFromTable.convert_dict_to_dataframe,ExtractValueFromTable.nearest_lower_index", "improver/utilities/cube_manipulation.py:enforce_coordinate_ordering"]}
{"id": "C258", "title": "Neighbourhood processing of whole cubes", "statement": "NeighbourhoodProcessing.process keeps to the (y, x) slices of a cube whatever its dimensions and their order: every place gets the sum (sum_only), or the mean, over the neighbourhood in its own slice of the points that count (not masked and not zero in the mask), a square inside the grid or a circle with its weights; means are NaN exactly where nothing within reach counts, and within the range of the slice; where masks are put back a place is masked exactly if it does not count itself. The radius is a whole number of grid cells rounded down; less than one cell, more than half the diagonal, several forecast periods with radii by lead time, and a mask of another shape are refused. It is not so that dimensions of one point are kept, or that a mask must have its axes in the order y, x.", "quantifier": "all cubes on equal area grids, dimensions and their orders, masks, data, radii and options", "why_tests_cant": "the statement ranges over all grids, dimension orders, masks and data; tests fix a few arrays", "anchors": ["improver/nbhood/nbhood.py:NeighbourhoodProcessing.process,NeighbourhoodProcessing._calculate_neighbourhood,BaseNeighbourhoodProcessing.process,check_radius_against_distance"]}
{"id": "C259", "title": "Configured weights for all models at once", "statement": "ChooseWeightsLinear.process gives each input, at each of its points of the weighting coordinate, the weight that the table configured for its own model gives there, divided by the sum of those of all inputs: tables are read in their own unit whatever the unit of the coordinate, linearly between their points and constant beyond both ends; every model occurs once, weights are not negative and have sum one at every point. No inputs, inputs of several models or of a model without table, two inputs of one model, tables (used or not) with other numbers of points than weights, tables in a unit of another quantity, and inputs that differ in the points of a weighting dimension are refused.", "quantifier": "all configurations, numbers of models, points, units and orders of the inputs", "why_tests_cant": "the statement ranges over all tables, units, points and numbers of models; tests fix a few", "anchors": ["improver/blending/weights.py:ChooseWeightsLinear.process,ChooseWeightsLinear._get_interpolation_inputs_from_dict,ChooseWeightsLinear._check_config_dict,ChooseWeightsLinear._slice_input_cubes,WeightsUtilities.normalise_weights"]}
{"id": "C260", "title": "Convective cloud top from cubes", "statement": "CloudTopTemperature.process takes one cube of each of its three names, in any order, among others and in any units of their quantities, and on one grid gives at every point the temperature of that point's parcel at the last level before the first one above the cloud base where it is colder than the air, in K, on the grid of the condensation level; points whose top is within 4 K of the base are masked. Missing or repeated names, units of other quantities, different grids or shapes are refused. The unit of the pressure levels is not looked at, and the order of the levels matters.", "quantifier": "all cubes, units, grids, shapes, numbers of levels, values and results of the root finder", "why_tests_cant": "the statement ranges over all arrays, columns and units; the loop over levels stops early depending on all points together", "anchors": ["improver/psychrometric_calculations/cloud_top_temperature.py:CloudTopTemperature.process,CloudTopTemperature._calculate_cct,CloudTopTemperature._make_cct_cube"]}
{"id": "C261", "title": "Condensation level from surface air", "statement": "MetaCloudCondensationLevel.process gives on the grid of the temperature, whatever the order of the inputs and others among them, the pressure (Pa) found by the root finder and the temperature (K) of the dry adiabat through the surface air at that pressure; where the root finder finds an existing root the air there is saturated with the mixing ratio of the surface air, and saturated surface air is its own condensation level. HumidityMixingRatio.process gives the relative humidity times the saturated mixing ratio. Neither units nor grids of the inputs are looked at.", "quantifier": "all cubes, shapes, values and results of the root finder", "why_tests_cant": "holds for every array and every behaviour of an iterative solver", "anchors": ["improver/psychrometric_calculations/cloud_condensation_level.py:MetaCloudCondensationLevel.process,CloudCondensationLevel.process,CloudCondensationLevel._iterate_to_ccl,CloudCondensationLevel._make_ccl_cube", "improver/psychrometric_calculations/psychrometric_calculations.py:HumidityMixingRatio.process,HumidityMixingRatio._make_humidity_cube"]}
{"id": "C262", "title": "Wet bulb temperature from cubes", "statement": "WetBulbTemperature.process needs exactly three cubes, one of each name, in any order and any units of their quantities. Without a vertical dimension it gives one field, and on levels a field for each level of the temperature, in ascending order of the levels; every value (K) is the wet bulb temperature of the temperature, humidity and pressure of its own point and level, and saturated air keeps its temperature. The grids of humidity and pressure and the points of their levels are not looked at.", "quantifier": "all cubes, units, shapes, levels and values", "why_tests_cant": "the statement ranges over all arrays, units, numbers and orders of levels", "anchors": ["improver/psychrometric_calculations/wet_bulb_temperature.py:WetBulbTemperature.process,WetBulbTemperature.create_wet_bulb_temperature_cube,WetBulbTemperature._slice_inputs"]}
{"id": "C263", "title": "Maximum over a time window", "statement": "MaxInTimeWindow.process accepts exactly two or more inputs whose times all have bounds of one length, and gives at every place the largest of their values (masked if one is masked), with the coordinates and name of the first input, a time whose bounds are the smallest interval covering all the periods, and the cell methods of the first input with any sum or maximum over time replaced by one sum (commented with the diagnostic, or for probabilities that of the threshold, and the period in whole hours) and one maximum; done again on results these do not accumulate.", "quantifier": "all numbers of inputs, shapes, dimensions, values, masks, times, periods and cell methods", "why_tests_cant": "the statement ranges over all arrays, times and metadata", "anchors": ["improver/cube_combiner.py:MaxInTimeWindow.process,MaxInTimeWindow._correct_metadata,MaxInTimeWindow._check_input_cubes,MaxInTimeWindow._get_coords_in_hours,Combine.process,Combine.__init__"]}
{"id": "C264", "title": "Percentiles over a neighbourhood, whole cubes", "statement": "GeneratePercentilesFromANeighbourhood.process, for percentiles asked for in ascending order, gives a cube on realization (if there), percentile (if there are several) and the other dimensions in their order, dimensions of one point included; at every place whose neighbourhood lies inside the grid the value is the percentile named by its label of the values of its own slice within the radius (interpolated between order statistics), and every value lies in the range of its slice. Masked input, axes that are not projection coordinates and percentiles that are missing, repeated or outside 0 to 100 are refused.", "quantifier": "all numbers, orders and lengths of dimensions, grids, radii, values and lists of percentiles", "why_tests_cant": "the statement ranges over all arrays and orders of dimensions", "anchors": ["improver/nbhood/nbhood.py:GeneratePercentilesFromANeighbourhood.process,GeneratePercentilesFromANeighbourhood.pad_and_unpad_cube,GeneratePercentilesFromANeighbourhood.make_percentile_cube", "improver/utilities/cube_checker.py:check_cube_coordinates,find_dimension_coordinate_mismatch"]}
{"id": "C265", "title": "Removing a halo from a cube", "statement": "remove_cube_halo leaves a cube on the same dimensions in the same order, dimensions of one point included, whose y and x axes lack the whole number of grid cells of the halo radius on either side and whose other coordinates are unchanged; every place holds the value the cube had at the same coordinates. A radius of less than one grid cell along either axis is refused.", "quantifier": "all numbers, orders and lengths of dimensions, axis origins, spacings (either sign), radii and values of any type", "why_tests_cant": "the statement ranges over all arrays and orders of dimensions", "anchors": ["improver/utilities/pad_spatial.py:remove_cube_halo,remove_halo_from_cube,_create_cube_with_padded_data,pad_coord", "improver/utilities/spatial.py:distance_to_number_of_grid_cells", "improver/utilities/cube_manipulation.py:enforce_coordinate_ordering"]}
{"id": "C266", "title": "Neighbourhoods with a halo", "statement": "MetaNeighbourhood for probabilities with a halo radius gives what NeighbourhoodProcessing gives for the whole cube trimmed by the cells of the halo; if the halo is at least as wide as the radius no neighbourhood is cut off by the edge, and square means are the exact means of all values that count in the square around each place. Inconsistent options and outputs of other names are refused.", "quantifier": "all cubes on equal area grids, masks, radii, halo radii and options", "why_tests_cant": "the statement ranges over all arrays, masks and radii", "anchors": ["improver/nbhood/nbhood.py:MetaNeighbourhood.process,MetaNeighbourhood.__init__,NeighbourhoodProcessing.process", "improver/utilities/pad_spatial.py:remove_cube_halo"]}
{"id": "C267", "title": "Expected values of cubes", "statement": "ExpectedValue of a probability cube lacks the threshold dimension and holds, at every place, the sum of the steps of probability each at the middle of its interval between thresholds, counted from 0 just below the first threshold to 1 just above the last, whether the probabilities are of exceeding or not; thresholds that do not ascend, or probabilities that do not rise with them, at any place, are refused. Of a percentile cube it is the mean over percentiles that divide 0 to 100 equally; unequal percentiles, or a realization coordinate beside them, are refused. Of any other cube it is the mean over realizations.", "quantifier": "all numbers, orders and lengths of dimensions, thresholds, percentiles, places and values", "why_tests_cant": "the statement ranges over all arrays and orders of dimensions", "anchors": ["improver/expected_value.py:ExpectedValue.process,ExpectedValue.integrate_over_thresholds", "improver/utilities/cube_manipulation.py:collapse_realizations", "improver/ensemble_copula_coupling/ensemble_copula_coupling.py:RebadgePercentilesAsRealizations.process"]}
{"id": "C268", "title": "Synthetic cubes", "statement": "construct_yx_coords gives, for the known grids, axes with the number of points asked for, evenly spaced, from the corner given or else centred about the origin, and refuses other grids and zero spacing; construct_scalar_time_coords gives time coordinates just when there is one reference time not after the time and the time is within its bounds, with forecast period and bounds counted from the reference time; set_up_variable_cube puts data only on coordinates that match their shape. generate_metadata makes from sound arguments a cube of zeros with the realizations, percentiles or thresholds given as first dimension, levels, grid, times, units, and attributes in which the mandatory ones prevail; it refuses unknown types, grids, units, and missing mandatory attributes.", "quantifier": "all numbers of points, spacings, corners, times, periods, realizations, percentiles, thresholds, levels and attributes", "why_tests_cant": "the statement ranges over all arguments", "anchors": ["improver/synthetic_data/set_up_test_cubes.py:construct_yx_coords,construct_scalar_time_coords,set_up_variable_cube,set_up_percentile_cube,set_up_probability_cube,_construct_dimension_coords", "improver/synthetic_data/generate_metadata.py:generate_metadata", "improver/synthetic_data/utilities.py:get_leading_dimension,get_height_levels"]}
{"id": "C269", "title": "nowcast-accumulate gives the rain of each period of the nowcast", "statement": "From an analysis without time bounds, nowcast-accumulate gives one accumulation for each multiple of the lead time interval that is at least the accumulation period and at most the greatest lead time, in order of time; each is, at each point, the trapezoidal integral of the nowcast rates of every minute over exactly the period that ends at its lead time, in the units asked for, missing where one of these rates is missing, with bounds that state this period. It fails exactly if the nowcast does or there is no such lead time. If interval and period are equal each minute is part of exactly one accumulation.", "quantifier": "all analyses, velocities, enhancements, lead times, intervals, periods and extrapolation methods", "why_tests_cant": "the statement ranges over all lead times, periods and fields", "anchors": ["improver/cli/nowcast_accumulate.py:process", "improver/nowcasting/accumulation.py:Accumulation", "improver/nowcasting/pysteps_advection.py:PystepsExtrapolate"]}
{"id": "C270", "title": "Standardising a whole cube", "statement": "StandardiseMetadata gives a cube with the name and unit asked for, at every place the value of the input there (missing where the status flag is set) in that unit and in single precision if it was double precision, and with the coordinates that are not to be removed, in their order, each with the value given for it; it meets the mandatory standards whatever the options, and standardising the result again with the same options changes nothing.", "quantifier": "every cube, all combinations of options, repeated runs", "why_tests_cant": "The steps are tested one at a time; that they commute to a stable result for every combination of options and every cube is a statement about all of them.", "anchors": ["improver/standardise.py:StandardiseMetadata.process,StandardiseMetadata._modify_scalar_coord_value", "improver/cli/standardise.py:process"]}
{"id": "C271", "title": "Advection velocities from a steering flow", "statement": "nowcast-optical-flow-from-winds takes two radar fields of one name on one grid, in any order, advects the earlier one with the steering flow to the time of the later one, and gives at every point the steering flow plus the velocity that optical flow finds from the advected to the later field over the time between them; where the advected field is the later one the velocities are the steering flow, and they are always within a bounded distance of it.", "quantifier": "all radar fields, times, flows, enhancements and extrapolations", "why_tests_cant": "Orders, lead times that are not whole minutes and all fields cannot be enumerated; tests use one pair of cubes fifteen minutes apart.", "anchors": ["improver/cli/nowcast_optical_flow_from_winds.py:process", "improver/nowcasting/optical_flow.py:generate_advection_velocities_from_winds,_perturb_background_flow,OpticalFlow._check_input_cubes,OpticalFlow._get_advection_time"]}
{"id": "C272", "title": "Wind downscaling of whole cubes", "statement": "The roughness correction plugin, and the wind-downscaling command, accept a wind speed exactly when its dimensions are y, x (x directly after y), the vertical and optionally time (two times or more, else time is a scalar), named as the ancillaries, with no missing or negative speed anywhere. The result keeps the dimensions (realization first in the command) and holds, at every place found by its coordinates, the corrected column through that very place of the input, with the ancillaries of that grid point; members and times do not mix. Speeds are never negative. A height asked for gives the slice at that height, compared in its own unit, and is refused if absent.", "quantifier": "all wind cubes, orders of dimensions, numbers of realizations, times, levels and points, all corrections of a column, all ancillaries, all levels asked for", "why_tests_cant": "the sorting of members and times by merging, transpositions and per-slice plugins combine; tests use a few small cubes in one dimension order", "anchors": ["improver/wind_calculations/wind_downscaling.py:RoughnessCorrection.process,RoughnessCorrection.find_coord_order,RoughnessCorrection.find_heightgrid,RoughnessCorrection.check_wind_ancil", "improver/cli/wind_downscaling.py:process"]}
{"id": "C273", "title": "Values are set to zero by night, each at its own time and place", "statement": "apply-night-mask keeps every value where it is day at the time and place of that value and sets it to 0 where it is night, keeps all coordinates, and refuses probabilities that are not of being above a threshold. This is so for cubes whose spatial dimensions come last, with time (if a dimension) just before them, in ascending order, and without bounds unless there is a single time. It is refuted for other orders of dimensions (the mask is fitted by position), for several times with bounds (the first period is used for all) and masks of the data are dropped.", "quantifier": "all cubes (gridded or spot), numbers and orders of dimensions, times with or without bounds, all rules for day and night", "why_tests_cant": "fitting by position goes wrong only when dimensions have equal lengths; tests use one shape", "anchors": ["improver/cli/apply_night_mask.py:process", "improver/utilities/solar.py:DayNightMask.process,DayNightMask._create_daynight_mask"]}
{"id": "C274", "title": "Clear sky radiation and solar time of a grid are those of each place", "statement": "generate-clearsky-solar-radiation gives a field on the coordinates of the target grid; for fields stored as (y, x) the value at each place is the radiation of its own latitude and longitude with its own altitude and turbidity (0 m and 3 without fields), between 0 and 1413 W m-2 over the period. The time is the given one with the period that ends there as bounds; the vertical coordinate is altitude exactly when all altitudes are 0 to within 1e-8, and height otherwise; the title is the given one or none. Fields on other coordinates and periods of not whole steps are refused. generate-solar-time gives at each place the time of day from 0 up to 24, four minutes later for each degree eastward. Altitudes stored as (x, y) on a square grid are not found by coordinate but used transposed, and a period of negative length is not refused but gives 0 everywhere.", "quantifier": "all target grids, altitude and turbidity fields, times, periods, spacings, titles and calendars", "why_tests_cant": "the altitude of the right place must be used at every place of grids of every size, and metadata depend on every value of the field", "anchors": ["improver/generate_ancillaries/generate_derived_solar_fields.py:GenerateClearskySolarRadiation.process,GenerateClearskySolarRadiation._initialise_input_cubes,GenerateClearskySolarRadiation._create_solar_radiation_cube,GenerateSolarTime.process"]}
{"id": "C275", "title": "Land and sea points are adjusted with the masks of the call at hand, whatever calls were made before", "statement": "AdjustLandSeaPoints keeps its matching points in a cache of the class. In every history of calls, of one plugin or several, with any masks and fields, and with refused calls in between, each call gives for each field of its cube exactly what it would give alone: a value whose source point is of the wrong type is replaced by that of a nearest point of the right type when there is one in the vicinity by the masks of this call, and is kept otherwise.", "quantifier": "all sequences of calls of any number of plugins, any state of the cache at the start, all grids, masks, vicinities and numbers of fields", "why_tests_cant": "a stale cache shows only after particular sequences of calls with different masks", "anchors": ["improver/regrid/landsea.py:AdjustLandSeaPoints.process,AdjustLandSeaPoints._get_matches,AdjustLandSeaPoints.correct_where_input_true"]}
{"id": "C276", "title": "The regrid command uses the regridder of its mode, and the mask only where asked for", "statement": "For every text given as mode, the regrid command without a land mask uses iris bilinear or nearest regridding for these two modes, the newer regridders for nearest-2 and bilinear-2, without mask or vicinity, and refuses all others. With a land mask it refuses modes that do not use one and masks that do not cover the source; nearest-with-mask adjusts the result of nearest regridding with the mask and the given vicinity, the other two pass both to the newer regridder.", "quantifier": "all modes (any text), with and without a mask, all vicinities, regridders and outcomes of the cover check", "why_tests_cant": "the cases are a product of modes, masks and outcomes of several steps", "anchors": ["improver/cli/regrid.py:process", "improver/regrid/landsea.py:RegridLandSea.__init__,RegridLandSea.process,RegridLandSea._regrid_to_target"]}
{"id": "C277", "title": "Nowcast optical flow command", "statement": "Given rate cubes in any order, the command returns for the latest time the mean over consecutive pairs of the velocities found by optical flow between the rates in mm/h with the orographic enhancement of the nearest time removed; it refuses fewer than two cubes, cubes of different names or grids, cubes without an enhancement within half an hour and repeated times; velocities are bounded and 0 without rain. A dry earliest cube is counted in the mean.", "quantifier": "all lists of cubes, rates, masks, times, units and enhancements", "why_tests_cant": "order, number of cubes and fields are unbounded", "anchors": ["improver/cli/nowcast_optical_flow.py:process", "improver/nowcasting/optical_flow.py:generate_optical_flow_components", "improver/nowcasting/utilities.py:ApplyOrographicEnhancement.process"]}
{"id": "C278", "title": "Blend of cycles and realizations", "statement": "The command gives at every grid point the mean over cycles of each cycle's mean over its realizations, masked values being left out at each step; the order of cycles does not matter, the result lies within the range of the realizations and is masked only where all of them are, and a cube without realizations is refused. All cycles count alike, so realizations do not when their numbers differ.", "quantifier": "all numbers of cycles, realizations and grid points, all values and masks", "why_tests_cant": "numbers of cycles and realizations and patterns of masks are unbounded", "anchors": ["improver/cli/blend_cycles_and_realizations.py:process", "improver/utilities/cube_manipulation.py:collapse_realizations", "improver/blending/calculate_weights_and_blend.py:WeightAndBlend", "improver/blending/weights.py:ChooseDefaultWeightsLinear"]}
{"id": "C279", "title": "Directions are interpolated in time the short way round", "statement": "TemporalInterpolation of two instantaneous cubes in degrees gives, at each requested time, the direction of the mean of the two unit vectors weighted by the elapsed fraction, between 0 and 360. If the second direction is less than half a circle from the first, the direction turns monotonically through that turn and never the other way, with half the turn half-way. Between opposite directions the first holds for the first half and the second for the second; exactly half-way the answer is 0 whatever they were. The caller's cubes are left holding complex numbers, so the same request with the same cubes raises a TypeError.", "quantifier": "All pairs of directions, all times, all intervals and lists of times", "why_tests_cant": "A test samples a few pairs of directions; the wrap-around, the sense of the turn and its monotonicity must hold for every pair and every time", "anchors": ["improver/utilities/temporal_interpolation.py:TemporalInterpolation.process", "improver/utilities/complex_conversion.py:deg_to_complex,complex_to_deg"]}
{"id": "C280", "title": "temporal-interpolate does not depend on which input is named first", "statement": "For two inputs with different validity times the command gives the same values and the same errors in either order, also for directions. With a list of times between the two the result has exactly those times and the later input's, ascending, each on the straight line between the inputs; a time outside is refused. Of two inputs with the same time the one named second is returned.", "quantifier": "All pairs of inputs, options and lists of times", "why_tests_cant": "Order independence is a statement about all pairs of runs", "anchors": ["improver/cli/temporal_interpolate.py:process", "improver/utilities/temporal_interpolation.py:TemporalInterpolation"]}
{"id": "C281", "title": "A blend with spatial weights depends at every point only on what is not masked there", "statement": "WeightAndBlend with spatial_weights gives, for every pattern of masks and every order of the inputs, a weighted mean at each grid point whose weights are none negative and positive exactly for the inputs that have weight and are not masked there; a point is masked exactly if all inputs with weight are masked there; the value lies within the range of the inputs that count. Where all inputs with weight have no masked point, or are at least the fuzzy length from one, it is the blend without regard to masks. A cube with further dimensions is accepted only if the mask is the same in all slices along them, when the first slice has a masked point.", "quantifier": "All inputs, masks, fuzzy lengths, numbers of grid points and distance functions positive where a field is not masked", "why_tests_cant": "Tests use a few masks on small grids; the property is about every pattern of masks and every place", "anchors": ["improver/blending/calculate_weights_and_blend.py:WeightAndBlend.process", "improver/blending/spatial_weights.py:SpatiallyVaryingWeightsFromMask"]}
{"id": "C282", "title": "weighted-blending: contradictory options are refused, accepted ones give the documented weights", "statement": "The command raises a RuntimeError for a (non-zero) cval with linear weights, a (non-zero) y0val or ynval with nonlinear ones, dict weights without a table, a model coordinate or record of runs without model_id_attr, and an error for any other method; zeros count as not given. With linear weights the blend of two or more inputs in any order is the mean with weights along the straight line from y0val at the lowest blend point to ynval at the highest; with nonlinear ones each point has cval times the weight of the one below. Values for the weights that are missing or out of range are refused when there are two or more inputs; a single input is returned as it is. Options for other methods make no difference. blend-with-vicinity-and-rename gives the same data, and is refused when neither a name nor a radius is given.", "quantifier": "All combinations of options, all numbers and orders of inputs, values and masks", "why_tests_cant": "There are thousands of combinations of options; and the weights must be right for any number of inputs in any order", "anchors": ["improver/cli/weighted_blending.py:process", "improver/cli/blend_with_vicinity_and_rename.py:process", "improver/blending/calculate_weights_and_blend.py:WeightAndBlend", "improver/blending/weights.py:ChooseDefaultWeightsLinear,ChooseDefaultWeightsNonLinear"]}
{"id": "C283", "title": "Orography gradients in orographic enhancement are those of the surface, whatever the layout of the grid", "statement": "On an even grid of at least three points each way the gradient eastwards is the central difference along the row of heights averaged over the row and its two neighbours (the edge row counting twice at the edge), and likewise northwards; at the edges it is extrapolated from the last two steps. It does not depend on the order of the dimensions or the direction of the axes, is exact for planes, ridges and valleys including at the edges, scales with the heights, ignores their datum, and is no steeper than the steepest step (twice that at the edges). Uneven grids are refused. Over level ground, or with wind along the contours, no rain is generated.", "quantifier": "All orographies, grid sizes, spacings, orders of dimensions, directions of axes and winds", "why_tests_cant": "The gradient is a composition of sorting, smoothing, differencing and extrapolating regridding; an error in one axis or at an edge shows only on particular surfaces", "anchors": ["improver/orographic_enhancement.py:OrographicEnhancement", "improver/utilities/spatial.py:GradientBetweenAdjacentGridSquares", "improver/utilities/cube_manipulation.py:sort_coord_in_cube"]}
{"id": "C284", "title": "Site data are combined only for the same sites", "statement": "With station identifiers on the forecast, EMOS coefficients are applied with additional predictors exactly when every predictor has the same identifiers in the same order, and then every site's predictors are that site's values; the sites named in a refusal are those only one of the two has. Rescaling for the difference in altitude is done under the same condition and multiplies each site's value by that site's factor. Estimating coefficients from a table keeps of each predictor exactly the sites of the truths, and refuses a predictor without any of them.", "quantifier": "All lists of site identifiers, orders of sites, numbers of predictors and values", "why_tests_cant": "A mispaired site gives plausible numbers; tests use a few sites in one order", "anchors": ["improver/calibration/ensemble_calibration.py:ApplyEMOS", "improver/calibration/dz_rescaling.py:ApplyDzRescaling", "improver/cli/estimate_emos_coefficients_from_table.py:process"]}
{"id": "C285", "title": "Modal weather codes carry the times, forecast period and models of their inputs", "statement": "Inputs are accepted exactly when they are for different times and for periods of one length. The result is for the time from the earliest start to the latest end of the inputs, with its time at the end, the latest of their reference times, the forecast period from that to the end, and each of their models named once in alphabetical order. The interval of the cell method is the length of the inputs' periods. The order of the inputs does not matter.", "quantifier": "All numbers, orders, times, periods, reference times and models of the inputs", "why_tests_cant": "Inputs from several cycles and models in every order cannot be enumerated", "anchors": ["improver/categorical/modal_code.py:ModalCategory"]}
{"id": "C286", "title": "Coefficients estimated point by point are stored at the point they were trained on", "statement": "With the sites of the truths in the order of those of the forecasts, or truths and forecasts on a grid with y before x, the coefficients stored at a point are those from the predictors, the variance and the observations of that point, starting from its own regression; a point without observations keeps its initial guess. If the truths have fewer sites than the forecasts, no coefficients come out.", "quantifier": "All numbers and positions of points told apart by the comparison of coordinates, all orders of sites and dimensions, all data, any minimiser", "why_tests_cant": "Which data meet at a point depends on positions, orders and shapes together; tests use sites in one order", "anchors": ["improver/calibration/ensemble_calibration.py:EstimateCoefficientsForEnsembleCalibration.guess_and_minimise,ContinuousRankedProbabilityScoreMinimisers._process_points_independently,EstimateCoefficientsForEnsembleCalibration._create_cubelist,EstimateCoefficientsForEnsembleCalibration._get_spatial_associated_coordinates"]}
{"id": "C287", "title": "The orographic enhancement command uses one level of each input, the one asked for", "statement": "The command goes on to the calculation exactly when each input has exactly one level within 0.1 of the boundary height, in the unit of the boundary height, and these levels, the horizontal grids and the times are the same for all inputs; the fields used are those of these levels.", "quantifier": "All numbers and heights of levels, units of the levels and of the boundary height, and all fields", "why_tests_cant": "The levels, units and heights combine without bound; a wrong level gives a plausible field", "anchors": ["improver/cli/orographic_enhancement.py:extract_and_check,process", "improver/orographic_enhancement.py:OrographicEnhancement.process", "improver/wind_calculations/wind_components.py:ResolveWindComponents.process"]}
{"id": "C288", "title": "Distances between neighbouring points of a grid", "statement": "On an evenly spaced projected grid with y before x and axes in any units of length, every distance is that of the neighbouring columns or rows in metres, placed halfway between them. On a grid of latitude and longitude in degrees they are signed arcs of the circles of latitude and of the meridians; on an axis round the globe one more leads from the last point to the first, and each row adds up to its circle. Other combinations of units and coordinate systems are refused. The cube given is not changed.", "quantifier": "All numbers of points, positions, spacings and units of the axes, orders of dimensions and coordinate systems", "why_tests_cant": "Order of dimensions, units, direction and wrapping of the axes combine; tests use a few small grids", "anchors": ["improver/utilities/spatial.py:DistanceBetweenGridSquares,ProjectionCubeDistanceCalculator,LatLonCubeDistanceCalculator,BaseDistanceCalculator"]}
{"id": "C289", "title": "The command that makes a time-lagged ensemble", "statement": "One ensemble is returned as it is, no ensembles are an error, and ensembles not all of one validity time and period are refused. From two or more the result has the latest of their cycles, their time and period, and the forecast period (and bounds) from that cycle: the shortest of theirs. If all realization numbers differ, its members are theirs, ascending by number, whatever the order of the ensembles, all at once or in steps. Otherwise they are numbered from 0 in the order of the cubes. Then order and steps matter.", "quantifier": "All numbers and orders of ensembles, of members and their numbers, cycles, times and periods", "why_tests_cant": "Unbounded lists of ensembles and members; tests use two or three", "anchors": ["improver/cli/time_lagged_ensembles.py:process", "improver/utilities/time_lagging.py:GenerateTimeLaggedEnsemble"]}
{"id": "C290", "title": "Reliability tables summed over coordinates", "statement": "Tables are aggregated exactly when their reference time bounds are there and each end before the next begin, layouts agree and all coordinates named exist. Each value of the result is masked where all its places are masked in all tables, otherwise the sum of the rest over the tables and the dimensions that the coordinates belong to; the others keep order and points. Reference time: the latest, bounds over all. Order and repetition of coordinates do not matter; summing in steps, or each table first and then adding up, gives the same. The list given by the caller is changed if there are several tables.", "quantifier": "All numbers of tables, dimensions, coordinates, masks, values, reference times and lists of coordinates", "why_tests_cant": "Masks, order of sums and dimensions combine without bound; tests use two tables of one shape", "anchors": ["improver/calibration/reliability_calibration.py:AggregateReliabilityCalibrationTables", "improver/cli/aggregate_reliability_tables.py:process"]}
{"id": "C291", "title": "A grid with a halo", "statement": "create_cube_with_halo gives zeros on a grid that has, on either side of each axis, the whole number of grid cells of the radius more, at the same spacing, with bounds half a step around each point. All points of the grid given are points of it; it reaches beyond them by at most the radius and by more than the radius less one step, and remove_cube_halo with the same radius gives the axes back. Less than one cell is refused. The command uses 162 km unless told otherwise. Places within the radius may still be outside the new grid.", "quantifier": "All lengths, origins and spacings of either sign of both axes, and all radii", "why_tests_cant": "Lengths and radii are unbounded; tests use one grid and one radius", "anchors": ["improver/utilities/pad_spatial.py:create_cube_with_halo", "improver/cli/create_grid_with_halo.py:process"]}
{"id": "C292", "title": "Advection moves a field with the flow for fields stored in rows", "statement": "AdvectField takes two velocities exactly if each has x and y coordinates and at most two dimensions of more than one point and the coordinates agree, and refuses cubes that differ in these, lack a time or are on other coordinates. For fields stored row by row the value at each place is the one the flow there carries to it, on the dimensions of the input. Cubes with further dimensions of one point are refused once time passes, as are mixed orders unless the grid is square. Stored column by column nothing is refused, but eastward and northward velocities are exchanged.", "quantifier": "All cubes, names, orders and lengths of dimensions, grids, velocities and time steps", "why_tests_cant": "Orders, shapes and fields are unbounded; tests only use fields stored in rows", "anchors": ["improver/nowcasting/forecasting.py:AdvectField.__init__,AdvectField.process,AdvectField._advect_field", "improver/nowcasting/optical_flow.py:check_input_coords", "improver/utilities/cube_checker.py:check_for_x_and_y_axes"]}
{"id": "C293", "title": "The metadata-cube command makes what its options and JSON describe", "statement": "generate-metadata-cube makes the cube that generate_metadata makes for the combined request, where name, units, times, attributes and side of the JSON go before options and defaults, the first dimension holds the realizations, percentiles or thresholds of the JSON or else counts the members asked for, and levels are heights before pressures. No JSON is the same as an empty one. Two kinds of first dimension and times that cannot be read are refused whatever else is asked for. A time period goes before bounds in the JSON.", "quantifier": "All options, JSON contents, lists of values and readings of times", "why_tests_cant": "Combinations of options and JSON are unbounded; tests try single files", "anchors": ["improver/cli/generate_metadata_cube.py:process", "improver/synthetic_data/utilities.py:get_leading_dimension,get_height_levels", "improver/synthetic_data/generate_metadata.py:generate_metadata"]}
{"id": "C294", "title": "Spot extraction keeps identifiers, coordinates and attributes of the right cells", "statement": "SpotExtraction gives the spot cube the identifiers of the one coordinate of the neighbour cube that is marked as such (none if several are), every coordinate of the diagnostic of one value, every coordinate on rows and columns with points and bounds at the cells of the sites, and nothing else that depends on the site; its attributes are those of the diagnostic without the three grid attributes, with the title asked for or \"unknown\", and the grid hash of the neighbour cube. It succeeds just if that hash is there and coordinates of several dimensions have two that hold all the cells.", "quantifier": "All cells, coordinates with any dimensions, points and bounds, identifiers, attributes and titles", "why_tests_cant": "Coordinates, their orders and attributes are unbounded; tests store all of them in rows", "anchors": ["improver/spotdata/spot_extraction.py:SpotExtraction.process,SpotExtraction.check_for_unique_id,SpotExtraction.get_aux_coords,SpotExtraction.get_coordinate_data,SpotExtraction.build_diagnostic_cube"]}
{"id": "C295", "title": "Cubes are chosen by time in whole hours of the clock", "statement": "Without an upper limit the time constraint fits exactly the times in the same hour of the clock as the time asked for; with one, those from the start of the first hour to before the start of the hour of the limit, periods being placed by their end. extract_cube_at_time returns a cube just if one cube of the list, and no other, has times that fit: its times that fit, in order, with their data; and otherwise None.", "quantifier": "All times, limits, periods and lists of cubes", "why_tests_cant": "Lists, times and offsets within the hour are unbounded; tests ask for full hours in a few cubes", "anchors": ["improver/utilities/temporal.py:datetime_constraint,extract_cube_at_time"]}
