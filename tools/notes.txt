C01|-|Grid point by grid point over exact rationals. One-sided fuzzy bounds are accepted by the constructor but always fail at process time (C01_one_sided_bounds_always_fail).
C04|-|Collapsing realizations with masks.
C06|partial|Full statement is false of the code: a percentile-collapsing plugin cannot be reused (C06_reuse_refuted); proved for every other configuration.
C36|partial|Full statement is false of the code: the input cube is converted in place when threshold_units is given without collapse (C36_input_unchanged_refuted); proved otherwise.
C07|proved|Involution proved for names with one kind of direction word; C07_name_refuted exhibits the misnaming otherwise.
C38|proved|For ascending tables; C38_descending_table_refuted shows that descending tables swap the two extrapolation values.
C22|proved|Point-wise over exact rationals; angles in degrees (complex averaging) are not covered here. C22_points_not_checked records that the weights cube's coordinate points are not compared with the data's.
C23|proved|C23_ties_refuted records that with tied percentile values identical inputs are not reproduced.
C24|proved|The Euclidean distance transform is a parameter of the model. C24_deficit_refuted records that weights need not sum to one where every contributing input is within the fuzzy length of its mask.
C42|proved|Finite coefficients only; C42_uniform_gradient_refuted records that an orography whose gradients all have equal magnitude gives NaN coefficients.
C32|partial|The data of the table are fully characterised. The mask of the table depends on the order of the times when masked and unmasked truth slices are mixed (C32_mask_order_refuted); C32_mask_partial covers the uniform case. np.nextafter is a parameter.
C33|proved|Point-wise over exact rationals. C33_single_threshold_refuted records that single-threshold forecasts raise ValueError.
C34|partial|C34_order_refuted: tables must be passed in chronological order.
C43|proved|Stated under well-formedness Spec.TreeOk (non-empty conditions, known comparators, differing branches). C43_same_branches_refuted and C43_leaf_root_fails record what happens otherwise. Values are exact rationals at one grid point; the "leaf" if_false of the numpy nan handling and cube metadata are not modelled.
C44|proved|C44_masked_refuted and C44_reuse_refuted record the findings.
C45|proved|C45_chain_refuted records order dependence when variants are chained.
C46|proved|C46_add_after_sub_refuted records that additions are carried out before subtractions.
C48|proved|One grid point, exact rationals, integer times. C48_incomplete_refuted and C48_reuse_refuted record the findings.
C49|partial|Everything but the dimension check is proved in full: C49_dimensions_partial covers cubes of equal rank, C49_fewer_dimensions_refuted shows that cubes with fewer dimensions pass the check. C49_name_reuse_refuted records that the name sticks to the plugin.
C53|partial|C53_find_lowest_refuted: find_lowest=True returns a height above the lowest whenever the maximum is attained twice. C53_height_partial states what is returned.
C55|proved|C55_interval is for inputs less than a day apart (stated as a disjunction); C55_day_refuted shows what happens otherwise and C55_reuse_refuted the dependence on earlier calls. Negative intervals are not modelled.
C57|partial|C57_dry_refuted: zero accumulations give NaN. C57_inputs_changed_refuted: the input cubes are overwritten with rates.
C58|partial|C58_one_day_refuted and C58_twilight_refuted.
C59|partial|C59_mean covers inputs with identical realizations; C59_subset_refuted shows the wrong divisor when only some realizations are common.
C68|partial|C68_maximum needs the data not to lie below minus the netCDF fill value of their type; C68_integer_refuted shows that for integer data masked points and points across the coast then dominate.
C70|partial|C70_gradient_partial is for ascending projected axes; C70_descending_refuted: on descending projected axes the sign is wrong. Longitude/latitude grids are fully covered. Regridding to the input grid is not modelled.
C71|partial|C71_bounds_refuted: several reference times with time bounds.
C76|partial|Start and end points other than zero; C76_zero_refuted records that a limit of zero is ignored by the code.
C80|partial|C80_applied_partial needs the leading dimensions to agree in order; C80_order_refuted shows the mispairing otherwise.
C82|partial|C82_below_partial covers probabilities that do not decrease with the threshold; C82_above_refuted shows the wrong end value for the others. C82_inside covers both inside the range.
C83|partial|C83_land_partial needs some land on the grid; C83_no_land_refuted: with none the tree is empty and the call fails instead of falling back. Coordinate transformations are not modelled.
C84|proved|C84_bounds_refuted is a finding: the bounds of coordinates take no part in the grid check.
C89|partial|C89_reuse_partial is for slices that agree in their masks; C89_mask_refuted: slices with equal underlying data but different masks share a result. The range is proved for the square method.
C90|proved|C90_several_periods_refuted is a finding: with lead times a cube with several forecast periods is always refused.
C91|partial|C91_bilinear holds for sources inside the outermost grid points. C91_edge_refuted: between the last grid point and the edge of the domain values fade to 0. C91_zero_weight_refuted: a missing neighbour with weight 0 masks the result.
C92|proved|C92_round_trip_refuted is a finding: rates below the enhancement plus the minimum are raised by subtracting and adding back.
C93|partial|C93_extend_refuted: ExtendRadarMask replaces the mask of its input, so points masked before can become unmasked.
C95|partial|C95_no_lightning_refuted, C95_smoothing_refuted and C95_several_times_refuted are defects of the code; the value at one output time is proved (C95_value, C95_process).
C100|partial|Targets within the tolerance of np.isclose of the last grid line but not on it are excluded (C100_close_refuted shows extrapolation there). Source axes exactly even; rational arithmetic.
C101|partial|Targets within the tolerance of np.isclose of the last grid line but not on it are excluded (C101_close_refuted).
C102|partial|Same exclusion of nearly aligned targets; the part of the source that is searched depends on the other targets (C102_domain_refuted). The distance through the earth is an arbitrary function.
C103|partial|Same exclusion of nearly aligned targets; a missing point with weight zero makes the target missing (C103_missing_refuted). The power in inverse distance weighting is an arbitrary positive function.
C104|partial|Holds when latitude and longitude are the last two dimensions; refuted for other orders (C104_order_refuted).
C105|proved|The regridded mask is taken to be defined at every target; regridding by iris is not modelled.
C108|partial|Exact arithmetic; with 32-bit floats a direction just below north becomes 360 instead of staying below 360 (C108_f32_range_refuted).
C109|proved|Unmasked data; the number of cells in 6 km is a parameter.
C110|partial|Proved for a new plugin; refuted for a plugin that is used again, because the list of results is never emptied (C110_reuse_refuted, C110_stale_refuted).
C111|partial|The time check is refuted for time coordinates of different lengths (C111_times_refuted); proved for equal lengths.
C112|partial|Repeating the call on the same cubes is refuted because the direction cube is changed in place (C112_repeat_refuted). The angle to true north (cartopy) is arbitrary.
C115|partial|The shape of the profile is refuted for a roughness length above the reference height (C115_upside_down_refuted).
C116|partial|Above the top level and for decreasing levels the value is not between neighbouring levels (C116_extrapolation_refuted, C116_decreasing_refuted).
C118|partial|Repetition is refuted at sea points, whose roughness length is filled in place (C118_repeat_refuted); a single time in a dimension fails (C118_single_time_refuted); two vertical coordinates make the choice depend on the run (C118_vertical_name_refuted).
C119|partial|Proved over the reals for the exact CRPS integral. Cases with a predicted spread of zero at a positive location drop out of the score (C119_spreadless_ignored_refuted). Rounding and scipy's minimiser are not modelled.
C120|partial|Proved for non-negative observations. Refuted: negative observations (C120_negative_observation_refuted), no spread at all (C120_no_spread_refuted), the -3 limit on the ratio is inert (C120_ratio_limit_refuted).
C121|partial|Refuted for missing observations at land points (C121_missing_truth_refuted) and for two-dimensional arrays whose masks differ (C121_two_dimensions_refuted).
C122|partial|The regression guess of the realizations option is refuted (C122_realizations_regression_refuted). The regression itself (statsmodels) is an arbitrary least squares routine.
C123|partial|Refuted for sites closer than the tolerance of np.isclose (C123_close_sites_refuted).
C124|partial|Refuted for a static predictor with the name of the forecast (C124_duplicate_name_refuted) and for a single realization (C124_single_realization_refuted, C124_scale_single_refuted).
C125|partial|The condition is proved exactly; that it compares the whole domain is refuted: other grid points with the same extent (C125_resolution_refuted) and other sites (C125_sites_refuted) are accepted.
C126|partial|Proved for instantaneous forecasts and truths and for forecasts and truths of periods. Mixed cases are refuted (C126_contained_refuted, C126_unbounded_truth_refuted). Merging (iris) is modelled as sorting by time.
C127|partial|Pairs of which only one value is missing are not counted (C127_one_missing_refuted).
C128|partial|Refuted for spreadless points with a location outside the truncation limits (C128_spreadless_refuted). scipy's special functions are modelled as the exact functions.
C129|partial|Refuted for units with an offset (C129_celsius_refuted) and for spreadless points (C129_spreadless_refuted).
C130|proved|Percentile and probability forecasts; reordering of realizations is C09 and C10.
C131|proved|Exact arithmetic. Alignment of the two cubes by iris, and the template of the output cube, are not modelled.
C132|proved|Exact arithmetic.
C133|partial|Refuted for a single bias cube with masked values that are filled: the cube of the caller is overwritten (C133_bias_overwritten_refuted). The comment of the caller's forecast is changed when there is no bias.
C134|partial|Needs the common sites in the same order in the three inputs; refuted otherwise (C134_order_refuted). numpy's polyfit is a least squares fit by hypothesis.
C135|partial|Refuted for a factor of exactly zero with a missing bound, the default: NaN everywhere (C135_zero_factor_refuted).
C136|partial|The forecast of the caller is overwritten, so applying twice rescales twice (C136_twice_refuted).
C137|partial|Proved for all plain names; text after a threshold word is ignored (C137_trailing_refuted).
C138|proved|Coordinates as lists of name, variable name and attribute.
C139|proved|Merging of the cubes is not modelled.
C140|partial|Of two forecasts without probabilities the first is ignored silently (C140_two_forecasts_refuted).
C141|proved|
C142|proved|Over the reals: the code uses binary64 powers and logarithms.
C143|proved|Over the reals; a binary64 table position next to a whole number may pick the neighbouring interval, which shares its end point.
C144|partial|Proved from 183.15 K upwards and pressures up to 1e7 Pa; below 183.15 K monotonicity in temperature is refuted (C144_below_table_refuted). Float32 casts are not modelled.
C145|proved|Over the reals.
C146|proved|scipy's newton is a parameter: the budget holds for all its results, saturation and unchanged air for exact roots only; its convergence error is not modelled.
C147|proved|Over the reals. That twenty passes suffice for the precision is not proved, and a wet bulb temperature not above the air temperature is proved only up to the precision.
C148|proved|
C149|proved|Over the reals, with the defining integral taken from Mathlib.
C150|proved|stratify's interpolation is modelled as the first crossing from the top; input NaNs are not modelled.
C151|proved|scipy's griddata is a parameter.
C152|proved|Unit conversion and extraction by name are modelled in C251.
C153|proved|Exact reals; extraction of cubes and unit conversion are modelled in C250. The gap 3300-3350 m is C153_gap_refuted.
C154|proved|The Newton solver of the saturated ascent is a parameter; exact reals.
C155|proved|scipy's Newton is a parameter, so that a root is reached is a hypothesis of C155_saturated_there.
C156|proved|Exact reals. Monotonicity across 10-20 C is false: C156_temperature_refuted.
C157|proved|Units taken to agree; spatial match is a parameter.
C158|proved|
C159|proved|Exact rationals; bands in the units of the orography. Refuted parts: C159_lowest_bound_refuted, C159_gap_refuted.
C160|proved|Cube building not modelled.
C161|proved|The calendar is a parameter with days 1 to 366.
C162|proved|Exact reals.
C163|partial|Refuted for bounded times (C163_bounded_times_refuted); transformation of projected coordinates and cube handling not modelled.
C164|proved|Exact reals; altitude above -17000 m (-900 m for turbidity).
C165|proved|Exact reals; cube building not modelled.
C166|proved|Exact arithmetic; gradients, regridding and the 3x3 mean are inputs.
C167|proved|Exact arithmetic; C167_coarse_grid_refuted shows the NaN above 15 km spacing.
C168|proved|Exact arithmetic; the two components are on the same coordinates.
C13|partial|Percentiles already present keep their values except the zeroth, which becomes the lower bound (C13_zeroth_percentile_refuted); all else proved in full.
C16|partial|Full statement is false of the code for truncnorm: a second call scales the limits again (C16_truncnorm_second_call_refuted); proved for the first call and for the other distributions.
C17|partial|Full statement is false of the code: several times raise a TypeError (C17_full_statement_refuted); proved for one time.
C27|partial|The mean is proved exactly away from the special cases of the code; C27_edge_refuted shows the deviation at the edges.
C29|partial|Rejection of uneven grids is false in general: the check sums the differences of increments (C29_uniformity_refuted); everything else is proved in full.
C40|partial|Full statement is false of the code: data under the mask leak through the halo (C40_halo_leak_refuted); proved without a halo (edge width 0).
C41|partial|Full statement is false of the code: coefficient cubes are overwritten when there is a mask (C41_coefficients_overwritten_refuted); proved without a mask.
C169|partial|Agreement is characterised exactly; the names of the dimensions of a variable are not compared (C169_dimension_names_refuted), a scalar agrees with a constant array, NaN attributes never agree (C169_nan_attribute_refuted), and agreement is not symmetric (C169_symmetry_refuted).
C170|proved|Atomic replacement is proved for every crash point and interleaving with steps on other files (C170_atomic, C170_complete, C170_two_saves); 'other files' excludes the temporary file: it fails for two saves to the same target, which share one temporary file (C170_same_target_refuted). Chunk sizes can exceed later cubes' dimensions (C170_chunks_refuted). What iris writes is a parameter.
C171|proved|The check is characterised completely and the standardisation shown to satisfy it and to be idempotent; times with fractions are rounded silently beyond about 50000 because np.allclose keeps its default rtol (C171_large_refuted). Storage in a type is a parameter; overflow not modelled.
C172|proved|Point by point; cube building, units, masks and merging of input cubes are left out.
C173|proved|Real logarithms and square roots; the step down of the probability when CAPE becomes positive is shown in C173_cape_refuted. Masks and NaN are not modelled.
C174|partial|Soundness and completeness for every list of tests; ranges keep their ends only when these are not negative (C174_range_negative_refuted); a step that leaves one point raises (C174_one_point_refuted) and a failed extraction with a step raises even when failures are ignored (C174_ignore_refuted). Longitude intersection and number reading are parameters.
C175|proved|Monotone results for columns with missing ends; interior gaps can be filled out of order (C175_gap_refuted). Interpolation to the requested level is not modelled here.
C176|partial|Holds for changes of the documented kinds (Spec.Change); two "{}" or a time followed by "{}" raise IndexError with earlier changes kept (C176_errors_refuted), of two times on a line the first is lost (C176_two_times_refuted), and a template value that reads "remove", holds "{}" or is a number is not copied (C176_copy_refuted). Fields other than {} and {now:...} are not modelled.
C177|partial|All parts but the last: create_new_diagnostic_cube adds the optional attributes to the caller's dictionary (C177_argument_refuted).
C178|proved|Nesting to any depth; iris's merge is a parameter; what counts as a cube is a parameter.
C179|partial|Proved when the exceptions are listed in the order of their dimensions; in another order they cause an IndexError or are moved (C179_exception_order_refuted).
C180|partial|All parts for masks of the sizes of the cube; the function also changes the caller's mask cube, so that a second inverted use gives the opposite (C180_twice_refuted), and accepts a mask on another grid with the same number of points (C180_shape_refuted).
C181|partial|Exact characterisations; only the first cube's blend time counts, so the outcome depends on the order of the cubes (C181_blend_order_refuted).
C182|proved|What iris reads from a file, the constraint and MergeCubes are parameters; cubes without x or y coordinate raise.
C183|proved|For every method and any number of inputs; spatial weights (C-list: SpatiallyVaryingWeightsFromMask), percentile blends (C23) and merging by iris are left out. Weights are one number for each slice.
C184|partial|All parts; but weights are stored with three decimals, so the sum is one only up to half a thousandth for each record and small contributors show weight zero (C184_rounding_refuted). Texts character by character; float() of texts that are not plain decimals is a parameter.
C185|partial|Proved for blends over models and cycles of cubes without blend time; cubes that have one cannot be blended over cycles (C185_blend_time_refuted), and for other blend coordinates the coordinate stays if there is one input (C185_one_input_refuted). Deprecation notes are left out.
C186|proved|LightGBM is modelled as decision trees with <= splits and any combination of leaves; values exactly at a split do change (C186_equal_refuted) and are excluded by the statement. Missing values, treelite and model files are left out.
C187|proved|Rational arithmetic; at one point, for any number of thresholds.
C188|partial|Range, order, number, mean over realizations and certainty at the lower bound for all inputs; the interpolated values for ascending thresholds whose first is not within 1e-8 of the lower bound without being it (C188_lower_bound_refuted, C188_descending_refuted). Rounding to float32 is left out.
C189|proved|For cubes of different names; the order of dimensions is not compared (C189_dim_order_refuted) and cubes of one name hide a mismatch (C189_same_name_refuted). Lead times are compared exactly, not as float32.
C190|partial|Proved for analyses that are their own reference time and have no time bounds; otherwise periods do not fit the reference time (C190_reference_time_refuted) and bounds are those of the analysis (C190_bounds_refuted); on descending axes the displacement has the wrong sign (C190_descending_refuted). The extrapolation of pysteps is any function; attributes are left out.
C191|partial|Proved where there is a dimension of the data for each one asked for and auxiliary coordinates are given for all or none of the additional dimensions; otherwise sites can be on another dimension (C191_square_refuted, C191_aux_refuted). Coordinates of equal names are not looked at.
C192|partial|Everything but: removing the status flag loses a realization dimension of one (C192_realization_refuted), a modified coordinate keeps its bounds (C192_bounds_refuted) and dimension coordinates are removed as well (C192_dimension_refuted). Types and units are in C171, attributes in C176.
C193|proved|Times are whole seconds since the epoch, as rationals; time zones of the dates are not modelled.
C194|partial|The equal-spacing test on quantiles is of the quantiles in the order they are first seen, so a table whose first quantile seen is not the least is refused though its quantiles are equally spaced (C194_order_matters_refuted); the selection itself is proved for every table.
C195|partial|A site with no value of a static column takes that of the next site in the sorted table (C195_other_site_refuted); proved for every site with a value.
C196|partial|When every site has moved between the same number of values, nothing is corrected (C196_all_moved_refuted), and the value kept is the last one first seen, not the most recent (C196_most_recent_refuted).
C197|partial|For sites keeping their place and a uniform period, height, name and units; one diagnostic, wmo_id only, truth tables without units column; before the iris merge, which is not modelled.
C198|partial|Proved for names of diagnostics found once in the name of the cube; the name is replaced wherever it is found (C198_everywhere_refuted), and a threshold coordinate known by its name alone cannot be renamed (C198_named_threshold_refuted).
C199|partial|Comments whose text merely holds the name are overwritten (C199_part_of_name_refuted) and cell methods with several comments keep the old name (C199_several_refuted).
C200|proved|Marked as maximum also when no blended cube had a vicinity. Rounding of the radius to 32 bits is not modelled.
C201|proved|An exact characterisation for all cubes with coordinates of distinct names. Warnings and descriptive text are not modelled; "standards" (data types) is an input, see C192. The diagnostic of a probability is the name extracted as in C137. The code compares by substrings, so names and comments that merely contain the words are accepted (C201_comparison_refuted, C201_comment_refuted).
C202|partial|Of several cycles of a model only the last is shown (C202_cycles_refuted).
C203|partial|Proved if no cube stops the check by something other than its metadata: a blend without a record for one of its models ends the command with a KeyError before the other cubes are reported (C203_stops_refuted).
C204|proved|For trees whose entries have different names and the mandatory keys, with fields, conditions and thresholds nested one level. The text of the report is not modelled, only whether there is an issue and which inputs are listed.
C205|partial|Proved for trees without a way back, with one or two fields and two different destinations per node. The check does not find cycles (C205_way_back_refuted), islands (C205_island_refuted), nodes with equal destinations (C205_same_branches_refuted) or three fields (C205_three_fields_refuted).
C206|proved|Thresholds are rationals and the conversion of text to numbers is not modelled.
C207|partial|Acceptance, the parts taken and the part a test uses are proved for inputs with different names. A test may be given several thresholds, since all within 1 % are taken (C207_one_threshold_refuted), and a threshold coordinate of the old name on one input makes the tests of the others fail (C207_mixed_names_refuted). Conversion of units is a parameter.
C208|proved|Times are integers.
C209|partial|If the inputs have both kinds of reference time, forecast_reference_time is set to the latest blend time (C209_reference_time_refuted).
C210|proved|
C211|proved|The parser of single commands (clize) is the dispatcher, an arbitrary function with effects. Printing and profiling are not modelled.
C212|partial|A nested command that saves its result without pass_through_output hands None to the command around it (C212_saved_refuted); everything else is proved. Loading and saving are parameters.
C213|proved|For one cube; that a result which is a list of cubes is treated cube by cube is not modelled.
C214|partial|Sums of both shapes, circular means, ranges and independence proved; the square mean is exact inside the grid or without the shortcut over ones (C214_edge_refuted gives a land value changed by sea data); refuted for points without data, which become zero when the domain has both surfaces.
C215|partial|Proved for circles and for sums; square means share the edge error of C27. Refuted when the first layer of the weights does not mask the same points as the others.
C217|partial|Proved for percentile masks that are alike at each point; for masks differing between percentiles the values are not preserved (C217_varying_mask_refuted shows it). One time, one grid; random numbers as parameter.
C218|proved|Bounds table as parameter; masks of the input as one flag per point and percentile; the check of ignore_ecc_bounds only as the warning flag.
C219|proved|Data without masks (the slow percentile method for masked data is not modelled); linear interpolation as numpy's default.
C220|proved|Metadata only; the values of the coefficients are C120-C122. Coordinates as exact numbers; the extra predictor coordinates of beta are not modelled.
C221|partial|Acceptance is exact; refuted that inputs stay unchanged: the cubes of additional predictors are masked in place (C221_fields_changed_refuted). NaN flags stand for the data; unit conversion as a relation.
C222|partial|Proved for every course with at least two recorded iterations; with only the starting point recorded an IndexError is raised (C222_first_guess_refuted). The minimiser itself is a parameter.
C223|partial|Outcome and comment proved; the kind is the same only if no percentiles are asked for or there is no template, refuted otherwise (C223_precedence_refuted), and for realizations with percentiles asked for (C223_realizations_refuted).
C224|proved|One time; random numbers as parameter; exact real arithmetic.
C225|proved|Data without masks, exact numbers; title and other metadata are not modelled.
C226|partial|All four ways proved; refuted: a single number as documented (C226_single_refuted), and the options about ECC bounds have no effect when percentiles are resampled (C226_bounds_refuted).
C227|proved|Warnings on gridded data; data without masks.
C228|proved|Floats next to the bin edges are parameters with the stated bounds; attributes and other coordinates of the tables are not modelled.
C229|proved|Exact arithmetic (the code uses float32); tables that are masked everywhere are excluded.
C230|partial|Proved as stated except that two points with the same coordinates, each with its own table, cannot be calibrated (C230_same_location_refuted). Masks of the forecast and the merge back into a cube are not modelled.
C231|partial|Proved for y before x; refuted: grids of one row or column without realizations are refused (C231_thin_refuted), with x before y temperature and orography are combined at different points (C231_order_refuted).
C232|partial|Proved for inputs with different names; refuted: a missing input passes if another name comes twice (C232_missing_refuted).
C233|partial|Dimensions and values proved; refuted for the mask, which is lost (C233_mask_refuted).
C234|partial|Proved with lengths agreeing to one part in 100000; refuted for equal lengths (C234_close_refuted). One coordinate tells the cubes apart; other coordinates are not modelled.
C235|proved|Records of runs (C184) and attributes (C234) are left out; coordinates other than cycle, period, time bounds, blend time and blend coordinate are not modelled.
C236|partial|Proved as stated; refuted: two bounds that are both the reference itself are refused for probabilities (C236_probability_refuted). Data without masks, fields of one shape.
C237|partial|Proved for the numbers; refuted for amounts in different units (C237_units_refuted): units are not looked at. Data without masks, fields of one shape.
C238|partial|Command and plugin for cubes of plain values; percentile cubes and directions in degrees are not modelled. The conversion of widths between units with different zeros is refuted (C238_width_refuted).
C239|partial|Interpolation over (site, threshold) is modelled as linear interpolation along the thresholds of the site. Single sites and leading site dimensions are refuted; decreasing probabilities are refuted under C82.
C240|partial|Proved for cubes that all or none have (the same) realizations and one freezing threshold; that rain and sleet are different cubes is refuted (C240_roles_refuted).
C241|partial|Order, units and checks proved; that the splitter understands per cent is refuted (C241_percent_refuted). Filling of points without precipitation is C61.
C242|partial|Order and checks proved; inversion of a cloud base given as above is refuted (C242_cloud_direction_refuted). Cloud base with one threshold.
C243|partial|Proved for keys of different numbers and lead times with thresholds; otherwise refuted (C243_same_number_refuted, C243_no_thresholds_refuted). Loading of models is not modelled; model files as lines already split into fields.
C244|partial|Proved for forecasts whose leading dimension is realization; binning under the hypothesis that no value is at a split (otherwise refuted, C186_equal_refuted). Order of dimensions and equal names are refuted under C189.
C245|partial|Instantaneous forecasts and truths or both of periods, reference times without limits, exact arithmetic, one value per point and time. That several realizations are always refused is refuted when there also is a percentile dimension (C245_realizations_refuted).
C246|proved|Exact arithmetic, same hypotheses as C245.
C247|proved|Exact arithmetic, power as a parameter, no circular x axis. That the orography of the caller is turned round is C247_orography_turned_refuted.
C248|proved|The field of the filter is one slice of one time. For x, y order the coefficients come in x, y order (C248_x_first_refuted).
C249|proved|The interpolation of one column (stratify) is a parameter; 32-bit casts are not modelled. Where realization is not first among the other dimensions, values can be put at other points (C249_realization_order_refuted); the caller's cube is filled (C249_input_filled_refuted).
C250|proved|Data without masks; vertical interpolation and Newton solver are parameters; exact reals; dimension order as the plugin makes it. That the unit of the pressure coordinate is ignored is C250_level_unit_refuted.
C251|partial|Refuted: a level within the layer below the top is put at the top (C251_top_layer_refuted); the sea extrapolation uses the heights in whatever unit they have (C251_height_unit_refuted) and the first five levels as stored (C251_level_order_refuted); the caller's temperature cube is converted (C251_caller_refuted). stratify and griddata are modelled or parameters as in C150 and C151; exact numbers.
C252|partial|Masked percentiles and directions in degrees are not modelled. C252_rank_refuted, C252_dropped_refuted, C252_length_one_refuted and C252_reversed_refuted are defects: weights for other blend points are used by rank, and in four dimensions slices without weights are dropped, a second dimension of length one is lost and a descending one reversed.
C253|partial|Values, dimensions and metadata are proved for all cubes that agree on their points (C253_result, with C49 for the values), and what is refused (C253_refused); a realization dimension of length one, a cube with one realization and reuse of the plugin are counterexamples (C253_*_refuted). Data types and the renaming of products are not modelled here (see C49 and C198).
C254|partial|Values, labels, dimensions and name are proved (C254_probabilities, C254_vicinity, C254_labels, C254_refused). Refuted: thresholds or radii given out of order are mislabelled (C254_order_refuted, C254_radius_order_refuted), fuzzy bounds lose the mask in a vicinity (C254_fuzzy_mask_refuted), the vicinity is over the last two dimensions whatever they are (C254_axes_refuted). Data types, percentile rebadging and cell methods are not modelled here.
C255|partial|Proved for all cubes with a land mask on (y, x) (C255_result, C255_refused); a land mask on (x, y) of a square grid is used transposed (C255_land_order_refuted). Data are float32 (see C68 for integers), further coordinates are not modelled.
C256|partial|Proved for cloud and convection on the same dimensions in the same order (C256_result, C256_refused); otherwise refuted (C256_axes_refuted), and units are ignored (C256_percent_refuted). Metadata of the result are in C168 and Model/Convection.
C257|partial|Proved for cubes with the same dimensions in any order (C257_result, C257_refused); otherwise refuted (C257_grid_refuted), units are ignored (C257_units) and the caller's cube is changed (C257_input_changed_refuted). Masks and data types are not modelled.
C258|partial|Proved for sums and circular means everywhere and for square means away from the edges (C258_sum, C258_circular_mean, C258_square_mean; near edges C27 refutes exactness) and refusals (C258_refused); dimensions of one point are lost (C258_one_point_refuted) and a mask on (x, y) is used transposed (C258_mask_axes_refuted). Complex data in Model/Wind.
C259|proved|C259_result (for ascending tables; others are in C38), C259_normalised, C259_refused. Coordinates kept on the weights and data types are not modelled.
C260|partial|Proved for pressure levels in Pa in the order given (C260_value, C260_complete, C260_buoyant); the unit of the levels is ignored (C260_level_unit_refuted) and their order changes the result (C260_level_order_refuted). Masks, attributes and broadcasting are not modelled.
C261|partial|Proved for inputs in SI units on one grid (C261_humidity, C261_level, C261_saturated); units and grids are ignored (C261_units_refuted). The root finder is a parameter; attributes and the removal of the height are not modelled.
C262|partial|Proved for inputs on one grid and the same levels (C262_single, C262_levels, C262_saturated, C262_refused); grids and level points are ignored (C262_grid_refuted). Broadcasting and attributes are not modelled.
C263|proved|C263_result, C263_refused, C263_methods_again; without a minimum number of realizations (C49, C52), times as scalar coordinates in seconds. C263_combine_reuse_refuted: a Combine plugin made without a name names later results after its first input (MaxInTimeWindow makes a new one each time).
C264|partial|Proved for ascending percentiles (C264_value), and the range for any (C264_range, C264_refused); in another order the values are labelled wrongly (C264_labels_refuted). Complex data and other coordinates that are not ascending are not modelled.
C265|proved|C265_trimmed, C265_refused; coordinates other than dimension coordinates, and halos that leave no points, are not modelled.
C266|proved|C266_halo, C266_square_mean, C266_refused. C266_mask_ignored_refuted: a mask given with percentiles is ignored. Angles as complex numbers are not modelled.
C267|proved|C267_probability, C267_probability_only, C267_percentile, C267_percentile_only, C267_realizations; masks, data types and cell methods are not modelled.
C268|partial|Proved for leading dimensions and levels of two or more points (C268_variable, C268_percentile, C268_probability, C268_dimensions, C268_grid, C268_times, C268_fits, C268_centred, C268_refused, C268_one_kind); a single percentile or threshold is refused and a single realization is lost (C268_single_percentile_refuted, C268_single_realization_refuted). Bounds of the spatial coordinates, coordinate systems, data types, and spot cubes are not modelled.
C269|proved|C269_accumulations, C269_succeeds, C269_tile, C269_limits, C269_example. Findings: C269_gaps_refuted (an interval longer than the period leaves minutes out without a warning), C269_bounds_refuted (time bounds of the analysis become those of every accumulation).
C270|partial|Proved for the whole plugin (C270_result, C270_coords, C270_given, C270_standards); stability under repetition (C270_again) holds when no attribute is written with {} or {now:}, and is refuted otherwise (C270_again_refuted: the attribute is extended each time).
C271|partial|Proved for fields a whole number of minutes apart (C271_result, C271_time, C271_match, C271_bound, C271_observation, C271_order, C271_refused). Refuted otherwise (C271_seconds_refuted): the displacement is taken to have happened in the seconds left over.
C272|proved|C272_heights_refuted records that units of heights are ignored and level numbers are used as metres
C273|partial|Proved for cubes with the spatial dimensions last, time just before them (C273_values_partial, C273_accepted); refuted for other orders (C273_order_refuted), several times with bounds (C273_periods_refuted) and masked data (C273_masked_refuted).
C274|proved|C274_order_refuted and C274_negative_refuted record that altitudes stored as (x, y) are used transposed on a square grid (refused otherwise) and that a negative period gives 0 everywhere with reversed time bounds.
C278|proved|C278_members_refuted records that realizations are not weighted equally when cycles have different numbers of them.
C279|partial|the result, the short way round and the opposite directions are proved; that the inputs are left unchanged is refuted (C279_inputs_changed_refuted)
C280|partial|order independence is proved for different times; it is refuted for equal times (C280_equal_times_refuted)
C281|partial|the blend, its range and its masked points are proved; that masks varying along a further dimension are always refused is refuted (C281_template_refuted): they are only compared if the first slice has a masked point
C282|proved|C282_zero_refuted records that zeros are ignored although the documentation promises an error whenever the option is not None. Closed forms of the weights without spatial weights (with them see C281).
C283|proved|Heights and coordinates are exact rationals in metres; with fewer than three points on an axis (a single midpoint, from which iris cannot interpolate) the model refuses. C283_edges_refuted is a finding: at the edges of the grid the extrapolated gradient can have the wrong sign.
C284|proved|Findings: C284_message_refuted (the same sites in another order are refused with an empty list of mismatching sites) and C284_order_refuted (in estimation from a table the sites of a predictor are not checked to be in the order of the truths: values of other sites are used). One value per site; other dimensions are not modelled.
C285|partial|Everything but the interval is proved as stated; the interval is right for whole hours (C285_interval) and 0 hours for shorter periods (C285_interval_refuted). Also a finding: gaps between the inputs go unnoticed (C285_gaps_refuted). Times are whole seconds; blend_time, handled like the reference time, and the run record are not modelled.
C286|proved|Proved as stated for sites (any order characterised exactly) and grids. Findings: sites in another order (C286_order_refuted) or truths with x first on a square grid (C286_mixed_refuted) mix the data of different points unnoticed; forecasts with x first fail unless the grid is square (C286_x_first_refuted). The regression and the minimisation are parameters; the default guess is a constant g.
C287|proved|Proved as stated, exactly (an iff). Finding: the tolerance of 0.1 is in the unit of the boundary height, so 1 km takes a level at 950 m and refuses levels at 1000 m and 1050 m (C287_unit_refuted). Other coordinates are one token; two-dimensional grids; exact arithmetic for the change of units.
C288|partial|Everything but the last sentence is proved as stated (C288_projected, C288_latlon, C288_circumference, C288_refused). Findings: the cube given has its axes in metres afterwards (C288_units_refuted); a projected grid with x first is refused unless square (C288_x_first_refuted). Exact rationals; the cosine of a latitude and the conversion of degrees are parameters.
C289|proved|Order and stepwise lagging are proved for ensembles whose numbers all differ and refuted for others; times are in seconds.
C290|proved|C290_callers_list_refuted: the list of coordinates passed by the caller gets the reference time appended (reliability_calibration.py:599). Tables that differ in other scalar coordinates are taken as refused; a collapse in which no dimension is left is an error.
C291|proved|C291_reach_refuted: the halo is the whole number of cells in the radius, so the outermost cells may end short of it (pad_spatial.py:91-92). Points are in metres; float32 rounding of the points is not modelled.
C292|proved|C292_order_refuted: the order of the dimensions is not looked at (forecasting.py:336-342, 176): a field stored as (x, y) in an eastward flow is moved north. Displacements of whole cells are stated here, others are in C91; numpy error kinds for shapes that differ are taken as ValueError.
C293|proved|C293_height_levels_refuted: the key "height_levels" that the documentation of the command gives for levels is not read (cli/generate_metadata_cube.py:55-58, utilities.py:70-76 read "heights" and "pressures"): the levels are lost without word. Only documented JSON keys without null are modelled.
C294|proved|C294_order_refuted: transposing the diagnostic does not transpose the points of its two-dimensional coordinates, which are then read by position (spot_extraction.py:172, 290): a coordinate stored as (x, y) gives the sites the points of other cells, with values of the right ones. Further dimensions and their coordinates are in C191 and not here.
C295|proved|C295_minutes_refuted and C295_range_refuted: minutes are dropped (temporal.py:150, 155-157), so that another time of the same hour is returned for the one asked for, and a range that ends within an hour loses the times of that hour. That iris compares cells with bounds by their last bound here is taken from iris, as is the order of partial times.
