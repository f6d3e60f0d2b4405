{
 "claims": [
  {
   "property": "C01",
   "status": "proved",
   "theorems": [
    "Improver.C01_truth_value_in_unit_interval",
    "Improver.C01_truth_value_defined",
    "Improver.C01_one_sided_bounds_always_fail"
   ],
   "note": "Grid point by grid point over exact rationals. One-sided fuzzy bounds are accepted by the constructor but always fail at process time (C01_one_sided_bounds_always_fail)."
  },
  {
   "property": "C02",
   "status": "proved",
   "theorems": [
    "Improver.C02_truth_monotone_in_data",
    "Improver.C02_truth_antitone_in_threshold"
   ],
   "note": ""
  },
  {
   "property": "C03",
   "status": "proved",
   "theorems": [
    "Improver.C03_fuzzy_truth_is_membership",
    "Improver.C03_anchors",
    "Improver.C03_crisp_truth_is_indicator"
   ],
   "note": ""
  },
  {
   "property": "C04",
   "status": "proved",
   "theorems": [
    "Improver.C04_collapse_is_mean_of_unmasked",
    "Improver.C04_collapse_in_unit_interval_and_mask",
    "Improver.C04_collapse_order_independent",
    "Improver.C04_fill_masked"
   ],
   "note": "Collapsing realizations with masks."
  },
  {
   "property": "C05",
   "status": "proved",
   "theorems": [
    "Improver.C05_init_rejects_factor",
    "Improver.C05_init_rejects_factor_with_bounds",
    "Improver.C05_check_rejects_non_bracketing",
    "Improver.C05_accepted_bounds_bracket",
    "Improver.C05_mixed_config"
   ],
   "note": ""
  },
  {
   "property": "C06",
   "status": "partial",
   "theorems": [
    "Improver.C06_reuse_refuted",
    "Improver.C06_reuse_partial"
   ],
   "note": "Full statement is false of the code: a percentile-collapsing plugin cannot be reused (C06_reuse_refuted); proved for every other configuration."
  },
  {
   "property": "C07",
   "status": "proved",
   "theorems": [
    "Improver.C07_invert_involutive",
    "Improver.C07_name_refuted",
    "Improver.C07_inverse_is_complement",
    "Improver.C07_invert_complements",
    "Improver.C07_to_threshold_inequality",
    "Improver.C07_no_threshold"
   ],
   "note": "Involution proved for names with one kind of direction word; C07_name_refuted exhibits the misnaming otherwise."
  },
  {
   "property": "C08",
   "status": "proved",
   "theorems": [
    "Improver.C08_between_in_unit_interval",
    "Improver.C08_between_additive",
    "Improver.C08_between_above_below_agree",
    "Improver.C08_between_rejects"
   ],
   "note": ""
  },
  {
   "property": "C09",
   "status": "proved",
   "theorems": [
    "Improver.C09_reorder_is_permutation",
    "Improver.C09_length_mismatch"
   ],
   "note": ""
  },
  {
   "property": "C10",
   "status": "proved",
   "theorems": [
    "Improver.C10_rank_order_transferred",
    "Improver.C10_independent_of_random"
   ],
   "note": ""
  },
  {
   "property": "C11",
   "status": "proved",
   "theorems": [
    "Improver.C11_recycle"
   ],
   "note": ""
  },
  {
   "property": "C12",
   "status": "proved",
   "theorems": [
    "Improver.C12_percentiles_equally_partition",
    "Improver.C12_percentiles_increasing_symmetric",
    "Improver.C12_rebadge_accepts",
    "Improver.C12_rebadge_rejects_uneven",
    "Improver.C12_rebadge_wrong_count",
    "Improver.C12_failed_rebadge_corrupts_input"
   ],
   "note": ""
  },
  {
   "property": "C13",
   "status": "partial",
   "theorems": [
    "Improver.C13_resampled_ordered_and_bounded",
    "Improver.C13_resampled_no_bounds",
    "Improver.C13_existing_percentile_kept",
    "Improver.C13_zeroth_percentile_refuted",
    "Improver.C13_valid_input_succeeds"
   ],
   "note": "Percentiles already present keep their values except the zeroth, which becomes the lower bound (C13_zeroth_percentile_refuted); all else proved in full."
  },
  {
   "property": "C14",
   "status": "proved",
   "theorems": [
    "Improver.C14_percentiles_ordered_and_bounded",
    "Improver.C14_out_of_bounds_rejected",
    "Improver.C14_threshold_recovered",
    "Improver.C14_cdf_rounding"
   ],
   "note": ""
  },
  {
   "property": "C15",
   "status": "proved",
   "theorems": [
    "Improver.C15_scan_is_pointwise",
    "Improver.C15_same_x_same_y_agree",
    "Improver.C15_fast_agrees_with_slow",
    "Improver.C15_fast_slow_differ_on_ties"
   ],
   "note": ""
  },
  {
   "property": "C16",
   "status": "partial",
   "theorems": [
    "Improver.C16_reusable_partial",
    "Improver.C16_truncnorm_second_call_refuted",
    "Improver.C16_truncnorm_witness_refuted",
    "Improver.C16_first_call_partial"
   ],
   "note": "Full statement is false of the code for truncnorm: a second call scales the limits again (C16_truncnorm_second_call_refuted); proved for the first call and for the other distributions."
  },
  {
   "property": "C17",
   "status": "partial",
   "theorems": [
    "Improver.C17_multi_time_refuted",
    "Improver.C17_full_statement_refuted",
    "Improver.C17_single_time_partial"
   ],
   "note": "Full statement is false of the code: several times raise a TypeError (C17_full_statement_refuted); proved for one time."
  },
  {
   "property": "C18",
   "status": "proved",
   "theorems": [
    "Improver.C18_values_sorted_and_preserved",
    "Improver.C18_percentiles_increasing",
    "Improver.C18_default_matches_choose_set"
   ],
   "note": ""
  },
  {
   "property": "C19",
   "status": "proved",
   "theorems": [
    "Improver.C19_within_thresholds",
    "Improver.C19_weights_are_probabilities",
    "Improver.C19_monotone",
    "Improver.C19_rejects"
   ],
   "note": ""
  },
  {
   "property": "C20",
   "status": "proved",
   "theorems": [
    "Improver.C20_normalise_iff",
    "Improver.C20_normalised",
    "Improver.C20_rejected"
   ],
   "note": ""
  },
  {
   "property": "C21",
   "status": "proved",
   "theorems": [
    "Improver.C21_linear",
    "Improver.C21_linear_total",
    "Improver.C21_linear_init",
    "Improver.C21_nonlinear",
    "Improver.C21_nonlinear_inverse",
    "Improver.C21_triangular",
    "Improver.C21_triangular_shape",
    "Improver.C21_triangular_bad_width"
   ],
   "note": ""
  },
  {
   "property": "C22",
   "status": "proved",
   "theorems": [
    "Improver.C22_blend_between",
    "Improver.C22_masked_iff",
    "Improver.C22_blend_constant",
    "Improver.C22_weights_scale",
    "Improver.C22_order_independent",
    "Improver.C22_equal_weights",
    "Improver.C22_points_not_checked"
   ],
   "note": "Point-wise over exact rationals; angles in degrees (complex averaging) are not covered here. C22_points_not_checked records that the weights cube's coordinate points are not compared with the data's."
  },
  {
   "property": "C23",
   "status": "proved",
   "theorems": [
    "Improver.C23_ordered_and_bounded",
    "Improver.C23_identical_inputs",
    "Improver.C23_ties_refuted",
    "Improver.C23_order_independent",
    "Improver.C23_weights_normalised",
    "Improver.C23_weights_zero"
   ],
   "note": "C23_ties_refuted records that with tied percentile values identical inputs are not reproduced."
  },
  {
   "property": "C24",
   "status": "proved",
   "theorems": [
    "Improver.SWInput.C24_valid",
    "Improver.SWInput.C24_sum_one",
    "Improver.SWInput.C24_positive",
    "Improver.SWInput.C24_far",
    "Improver.SWInput.C24_no_mask",
    "Improver.SWInput.C24_deficit_refuted"
   ],
   "note": "The Euclidean distance transform is a parameter of the model. C24_deficit_refuted records that weights need not sum to one where every contributing input is within the fuzzy length of its mask."
  },
  {
   "property": "C25",
   "status": "proved",
   "theorems": [
    "Improver.C25_clash_renumbers",
    "Improver.C25_distinct_unchanged",
    "Improver.C25_lagged"
   ],
   "note": ""
  },
  {
   "property": "C26",
   "status": "proved",
   "theorems": [
    "Improver.C26_boxsum_constant",
    "Improver.C26_boxsum",
    "Improver.C26_even_rejected"
   ],
   "note": ""
  },
  {
   "property": "C27",
   "status": "partial",
   "theorems": [
    "Improver.C27_sum_exact",
    "Improver.C27_mean_in_range",
    "Improver.C27_mean_exact_partial",
    "Improver.C27_edge_refuted"
   ],
   "note": "The mean is proved exactly away from the special cases of the code; C27_edge_refuted shows the deviation at the edges."
  },
  {
   "property": "C28",
   "status": "proved",
   "theorems": [
    "Improver.C28_range",
    "Improver.C28_constant",
    "Improver.C28_identity",
    "Improver.C28_monotone",
    "Improver.C28_linear",
    "Improver.C28_large_rejected",
    "Improver.C28_iterations"
   ],
   "note": ""
  },
  {
   "property": "C29",
   "status": "partial",
   "theorems": [
    "Improver.C29_coord_extended",
    "Improver.C29_coord_roundtrip",
    "Improver.C29_roundtrip",
    "Improver.C29_symmetric_values",
    "Improver.C29_symmetric_mirror",
    "Improver.C29_constant_halo",
    "Improver.C29_uniformity_partial",
    "Improver.C29_uniformity_refuted"
   ],
   "note": "Rejection of uneven grids is false in general: the check sums the differences of increments (C29_uniformity_refuted); everything else is proved in full."
  },
  {
   "property": "C30",
   "status": "proved",
   "theorems": [
    "Improver.C30_choice",
    "Improver.C30_combine",
    "Improver.C30_totals"
   ],
   "note": ""
  },
  {
   "property": "C31",
   "status": "proved",
   "theorems": [
    "Improver.C31_manipulated",
    "Improver.C31_unchanged",
    "Improver.C31_idempotent"
   ],
   "note": ""
  },
  {
   "property": "C32",
   "status": "partial",
   "theorems": [
    "Improver.C32_bins",
    "Improver.C32_exactly_one",
    "Improver.C32_within_bounds",
    "Improver.C32_table",
    "Improver.C32_order_data",
    "Improver.C32_obs_le",
    "Improver.C32_total",
    "Improver.C32_mask_partial",
    "Improver.C32_mask_order_refuted"
   ],
   "note": "The data of the table are fully characterised. The mask of the table depends on the order of the times when masked and unmasked truth slices are mixed (C32_mask_order_refuted); C32_mask_partial covers the uniform case. np.nextafter is a parameter."
  },
  {
   "property": "C33",
   "status": "proved",
   "theorems": [
    "Improver.C33_value",
    "Improver.C33_segment_exists",
    "Improver.C33_at_bin",
    "Improver.C33_range",
    "Improver.C33_unchanged",
    "Improver.C33_monotone",
    "Improver.C33_thresholds",
    "Improver.C33_single_threshold_refuted"
   ],
   "note": "Point-wise over exact rationals. C33_single_threshold_refuted records that single-threshold forecasts raise ValueError."
  },
  {
   "property": "C34",
   "status": "partial",
   "theorems": [
    "Improver.C34_overlap_refused",
    "Improver.C34_sum",
    "Improver.C34_grouping",
    "Improver.C34_order_refuted"
   ],
   "note": "C34_order_refuted: tables must be passed in chronological order."
  },
  {
   "property": "C35",
   "status": "proved",
   "theorems": [
    "Improver.C35_rescale_affine",
    "Improver.C35_rescale_clip_range",
    "Improver.C35_rescale_clip_inside",
    "Improver.C35_rescale_inverse",
    "Improver.C35_rescale_error_iff",
    "Improver.C35_rescale_monotone",
    "Improver.C35_rescale_auto",
    "Improver.C35_double_scaling_anchors"
   ],
   "note": ""
  },
  {
   "property": "C36",
   "status": "partial",
   "theorems": [
    "Improver.C36_input_unchanged_refuted",
    "Improver.C36_input_unchanged_partial"
   ],
   "note": "Full statement is false of the code: the input cube is converted in place when threshold_units is given without collapse (C36_input_unchanged_refuted); proved otherwise."
  },
  {
   "property": "C37",
   "status": "proved",
   "theorems": [
    "Improver.C37_mask_percentiles"
   ],
   "note": ""
  },
  {
   "property": "C38",
   "status": "proved",
   "theorems": [
    "Improver.C38_normalised",
    "Improver.C38_proportional",
    "Improver.C38_lengths_checked",
    "Improver.C38_ascending_table",
    "Improver.C38_descending_table_refuted"
   ],
   "note": "For ascending tables; C38_descending_table_refuted shows that descending tables swap the two extrapolation values."
  },
  {
   "property": "C39",
   "status": "proved",
   "theorems": [
    "Improver.C39_latest_cycle",
    "Improver.C39_given_cycle",
    "Improver.C39_idempotent"
   ],
   "note": ""
  },
  {
   "property": "C40",
   "status": "partial",
   "theorems": [
    "Improver.C40_mask_isolated_partial",
    "Improver.C40_halo_leak_refuted"
   ],
   "note": "Full statement is false of the code: data under the mask leak through the halo (C40_halo_leak_refuted); proved without a halo (edge width 0)."
  },
  {
   "property": "C41",
   "status": "partial",
   "theorems": [
    "Improver.C41_coefficients_unchanged_partial",
    "Improver.C41_coefficients_overwritten_refuted"
   ],
   "note": "Full statement is false of the code: coefficient cubes are overwritten when there is a mask (C41_coefficients_overwritten_refuted); proved without a mask."
  },
  {
   "property": "C42",
   "status": "proved",
   "theorems": [
    "Improver.C42_in_limits",
    "Improver.C42_antitone",
    "Improver.C42_uniform_gradient_refuted"
   ],
   "note": "Finite coefficients only; C42_uniform_gradient_refuted records that an orography whose gradients all have equal magnitude gives NaN coefficients."
  },
  {
   "property": "C43",
   "status": "proved",
   "theorems": [
    "Improver.C43_walk",
    "Improver.C43_search_terminates",
    "Improver.C43_same_branches_refuted",
    "Improver.C43_leaf_root_fails"
   ],
   "note": "Stated under well-formedness Spec.TreeOk (non-empty conditions, known comparators, differing branches). C43_same_branches_refuted and C43_leaf_root_fails record what happens otherwise. Values are exact rationals at one grid point; the \"leaf\" if_false of the numpy nan handling and cube metadata are not modelled."
  },
  {
   "property": "C44",
   "status": "proved",
   "theorems": [
    "Improver.C44_reroute",
    "Improver.C44_missing_not_visited",
    "Improver.C44_category",
    "Improver.C44_masked_refuted",
    "Improver.C44_reuse_refuted"
   ],
   "note": "C44_masked_refuted and C44_reuse_refuted record the findings."
  },
  {
   "property": "C45",
   "status": "proved",
   "theorems": [
    "Improver.C45_day",
    "Improver.C45_night",
    "Improver.C45_chain_refuted",
    "Improver.C45_map"
   ],
   "note": "C45_chain_refuted records order dependence when variants are chained."
  },
  {
   "property": "C46",
   "status": "proved",
   "theorems": [
    "Improver.C46_usual_value",
    "Improver.C46_add_after_sub_refuted"
   ],
   "note": "C46_add_after_sub_refuted records that additions are carried out before subtractions."
  },
  {
   "property": "C47",
   "status": "proved",
   "theorems": [
    "Improver.C47_day_night",
    "Improver.C47_mode",
    "Improver.C47_grouped",
    "Improver.C47_occurs",
    "Improver.C47_order"
   ],
   "note": ""
  },
  {
   "property": "C48",
   "status": "proved",
   "theorems": [
    "Improver.C48_amounts",
    "Improver.C48_default",
    "Improver.C48_additive",
    "Improver.C48_limits",
    "Improver.C48_irregular",
    "Improver.C48_incomplete_refuted",
    "Improver.C48_reuse_refuted"
   ],
   "note": "One grid point, exact rationals, integer times. C48_incomplete_refuted and C48_reuse_refuted record the findings."
  },
  {
   "property": "C49",
   "status": "partial",
   "theorems": [
    "Improver.C49_masked",
    "Improver.C49_values",
    "Improver.C49_names",
    "Improver.C49_masked_add",
    "Improver.C49_too_few",
    "Improver.C49_order",
    "Improver.C49_mean_between",
    "Improver.C49_dimensions_partial",
    "Improver.C49_fewer_dimensions_refuted",
    "Improver.C49_name_reuse_refuted",
    "Improver.C49_minimum_realizations",
    "Improver.C49_time_window"
   ],
   "note": "Everything but the dimension check is proved in full: C49_dimensions_partial covers cubes of equal rank, C49_fewer_dimensions_refuted shows that cubes with fewer dimensions pass the check. C49_name_reuse_refuted records that the name sticks to the plugin."
  },
  {
   "property": "C50",
   "status": "proved",
   "theorems": [
    "Improver.C50_bounded",
    "Improver.C50_unbounded",
    "Improver.C50_mixture",
    "Improver.C50_order",
    "Improver.C50_steps"
   ],
   "note": ""
  },
  {
   "property": "C51",
   "status": "proved",
   "theorems": [
    "Improver.C51_ordering",
    "Improver.C51_requested"
   ],
   "note": ""
  },
  {
   "property": "C52",
   "status": "proved",
   "theorems": [
    "Improver.C52_complete_realizations",
    "Improver.C52_sorted",
    "Improver.C52_fails"
   ],
   "note": ""
  },
  {
   "property": "C53",
   "status": "partial",
   "theorems": [
    "Improver.C53_maximum",
    "Improver.C53_maximum_all",
    "Improver.C53_no_level",
    "Improver.C53_height_partial",
    "Improver.C53_find_lowest_refuted"
   ],
   "note": "C53_find_lowest_refuted: find_lowest=True returns a height above the lowest whenever the maximum is attained twice. C53_height_partial states what is returned."
  },
  {
   "property": "C54",
   "status": "proved",
   "theorems": [
    "Improver.C54_differences",
    "Improver.C54_single_cube"
   ],
   "note": ""
  },
  {
   "property": "C55",
   "status": "proved",
   "theorems": [
    "Improver.C55_shape",
    "Improver.C55_times",
    "Improver.C55_interval",
    "Improver.C55_indivisible",
    "Improver.C55_day_refuted",
    "Improver.C55_reuse_refuted",
    "Improver.C55_constructor"
   ],
   "note": "C55_interval is for inputs less than a day apart (stated as a disjunction); C55_day_refuted shows what happens otherwise and C55_reuse_refuted the dependence on earlier calls. Negative intervals are not modelled."
  },
  {
   "property": "C56",
   "status": "proved",
   "theorems": [
    "Improver.C56_instant",
    "Improver.C56_extremes"
   ],
   "note": ""
  },
  {
   "property": "C57",
   "status": "partial",
   "theorems": [
    "Improver.C57_total",
    "Improver.C57_uniform",
    "Improver.C57_dry_refuted",
    "Improver.C57_inputs_changed_refuted"
   ],
   "note": "C57_dry_refuted: zero accumulations give NaN. C57_inputs_changed_refuted: the input cubes are overwritten with rates."
  },
  {
   "property": "C58",
   "status": "partial",
   "theorems": [
    "Improver.C58_sun_down",
    "Improver.C58_sun_up",
    "Improver.C58_one_day_refuted",
    "Improver.C58_twilight_refuted",
    "Improver.C58_daynight"
   ],
   "note": "C58_one_day_refuted and C58_twilight_refuted."
  },
  {
   "property": "C59",
   "status": "partial",
   "theorems": [
    "Improver.C59_mean",
    "Improver.C59_probability",
    "Improver.C59_subset_refuted",
    "Improver.C59_no_common"
   ],
   "note": "C59_mean covers inputs with identical realizations; C59_subset_refuted shows the wrong divisor when only some realizations are common."
  },
  {
   "property": "C60",
   "status": "proved",
   "theorems": [
    "Improver.C60_split",
    "Improver.C60_refusal"
   ],
   "note": ""
  },
  {
   "property": "C61",
   "status": "proved",
   "theorems": [
    "Improver.C61_fraction",
    "Improver.C61_dry"
   ],
   "note": ""
  },
  {
   "property": "C62",
   "status": "proved",
   "theorems": [
    "Improver.C62_unmasked",
    "Improver.C62_filled",
    "Improver.C62_complete"
   ],
   "note": ""
  },
  {
   "property": "C63",
   "status": "proved",
   "theorems": [
    "Improver.C63_range",
    "Improver.C63_large_hail",
    "Improver.C63_no_hail",
    "Improver.C63_updraught"
   ],
   "note": ""
  },
  {
   "property": "C64",
   "status": "proved",
   "theorems": [
    "Improver.C64_fraction"
   ],
   "note": ""
  },
  {
   "property": "C65",
   "status": "proved",
   "theorems": [
    "Improver.C65_scaling",
    "Improver.C65_below",
    "Improver.C65_above"
   ],
   "note": ""
  },
  {
   "property": "C66",
   "status": "proved",
   "theorems": [
    "Improver.C66_index",
    "Improver.C66_value"
   ],
   "note": ""
  },
  {
   "property": "C67",
   "status": "proved",
   "theorems": [
    "Improver.C67_transitions",
    "Improver.C67_ratio",
    "Improver.C67_fraction",
    "Improver.C67_refusals"
   ],
   "note": ""
  },
  {
   "property": "C68",
   "status": "partial",
   "theorems": [
    "Improver.C68_maximum",
    "Improver.C68_masked_unchanged",
    "Improver.C68_monotone",
    "Improver.C68_integer_refuted",
    "Improver.C68_constructor",
    "Improver.C68_process",
    "Improver.C68_process_cells"
   ],
   "note": "C68_maximum needs the data not to lie below minus the netCDF fill value of their type; C68_integer_refuted shows that for integer data masked points and points across the coast then dominate."
  },
  {
   "property": "C69",
   "status": "proved",
   "theorems": [
    "Improver.C69_spacing",
    "Improver.C69_uneven",
    "Improver.C69_cells",
    "Improver.C69_metres",
    "Improver.C69_roundtrip",
    "Improver.C69_equal_area"
   ],
   "note": ""
  },
  {
   "property": "C70",
   "status": "partial",
   "theorems": [
    "Improver.C70_differences",
    "Improver.C70_gradient_partial",
    "Improver.C70_circular_refused",
    "Improver.C70_descending_refuted",
    "Improver.C70_latlon",
    "Improver.C70_latlon_y",
    "Improver.C70_midpoints"
   ],
   "note": "C70_gradient_partial is for ascending projected axes; C70_descending_refuted: on descending projected axes the sign is wrong. Longitude/latitude grids are fully covered. Regridding to the input grid is not modelled."
  },
  {
   "property": "C71",
   "status": "partial",
   "theorems": [
    "Improver.C71_single_reference_partial",
    "Improver.C71_several_references",
    "Improver.C71_bounds_refuted",
    "Improver.C71_coordinate"
   ],
   "note": "C71_bounds_refuted: several reference times with time bounds."
  },
  {
   "property": "C72",
   "status": "proved",
   "theorems": [
    "Improver.C72_nearest",
    "Improver.C72_name",
    "Improver.C72_relabel",
    "Improver.C72_integrate",
    "Improver.C72_integrate_total"
   ],
   "note": ""
  },
  {
   "property": "C73",
   "status": "proved",
   "theorems": [
    "Improver.C73_nearest_consistent",
    "Improver.C73_refusals"
   ],
   "note": ""
  },
  {
   "property": "C74",
   "status": "proved",
   "theorems": [
    "Improver.C74_normalise",
    "Improver.C74_split"
   ],
   "note": ""
  },
  {
   "property": "C75",
   "status": "proved",
   "theorems": [
    "Improver.C75_triangular",
    "Improver.C75_between",
    "Improver.C75_refusals"
   ],
   "note": ""
  },
  {
   "property": "C76",
   "status": "partial",
   "theorems": [
    "Improver.C76_value_partial",
    "Improver.C76_refused_partial",
    "Improver.C76_monotone",
    "Improver.C76_total",
    "Improver.C76_zero_refuted"
   ],
   "note": "Start and end points other than zero; C76_zero_refuted records that a limit of zero is ignored by the code."
  },
  {
   "property": "C77",
   "status": "proved",
   "theorems": [
    "Improver.C77_least_squares",
    "Improver.C77_outcome",
    "Improver.C77_exact"
   ],
   "note": ""
  },
  {
   "property": "C78",
   "status": "proved",
   "theorems": [
    "Improver.C78_piecewise",
    "Improver.C78_symmetry",
    "Improver.C78_lipschitz",
    "Improver.C78_antitone"
   ],
   "note": ""
  },
  {
   "property": "C79",
   "status": "proved",
   "theorems": [
    "Improver.C79_value",
    "Improver.C79_range",
    "Improver.C79_config"
   ],
   "note": ""
  },
  {
   "property": "C80",
   "status": "partial",
   "theorems": [
    "Improver.C80_applied_partial",
    "Improver.C80_missing",
    "Improver.C80_order_refuted"
   ],
   "note": "C80_applied_partial needs the leading dimensions to agree in order; C80_order_refuted shows the mispairing otherwise."
  },
  {
   "property": "C81",
   "status": "proved",
   "theorems": [
    "Improver.C81_accepted",
    "Improver.C81_value"
   ],
   "note": ""
  },
  {
   "property": "C82",
   "status": "partial",
   "theorems": [
    "Improver.C82_below_partial",
    "Improver.C82_inside",
    "Improver.C82_refused",
    "Improver.C82_values",
    "Improver.C82_above_refuted"
   ],
   "note": "C82_below_partial covers probabilities that do not decrease with the threshold; C82_above_refuted shows the wrong end value for the others. C82_inside covers both inside the range."
  },
  {
   "property": "C83",
   "status": "partial",
   "theorems": [
    "Improver.C83_nearest",
    "Improver.C83_planar_nearest",
    "Improver.C83_land_partial",
    "Improver.C83_minimum_dz",
    "Improver.C83_no_land_refuted",
    "Improver.C83_columns",
    "Improver.C83_unique_ids"
   ],
   "note": "C83_land_partial needs some land on the grid; C83_no_land_refuted: with none the tree is empty and the call fails instead of falling back. Coordinate transformations are not modelled."
  },
  {
   "property": "C84",
   "status": "proved",
   "theorems": [
    "Improver.C84_value",
    "Improver.C84_method",
    "Improver.C84_end_to_end",
    "Improver.C84_names",
    "Improver.C84_bounds_refuted",
    "Improver.C84_grid_match"
   ],
   "note": "C84_bounds_refuted is a finding: the bounds of coordinates take no part in the grid check."
  },
  {
   "property": "C85",
   "status": "proved",
   "theorems": [
    "Improver.C85_subset"
   ],
   "note": ""
  },
  {
   "property": "C86",
   "status": "proved",
   "theorems": [
    "Improver.C86_sum",
    "Improver.C86_mean",
    "Improver.C86_valid_present",
    "Improver.C86_cells"
   ],
   "note": ""
  },
  {
   "property": "C87",
   "status": "proved",
   "theorems": [
    "Improver.C87_order_statistics",
    "Improver.C87_perm",
    "Improver.C87_range",
    "Improver.C87_interior",
    "Improver.C87_masked"
   ],
   "note": ""
  },
  {
   "property": "C88",
   "status": "proved",
   "theorems": [
    "Improver.C88_accepted",
    "Improver.C88_values"
   ],
   "note": ""
  },
  {
   "property": "C89",
   "status": "partial",
   "theorems": [
    "Improver.C89_reuse_partial",
    "Improver.C89_mask_refuted",
    "Improver.C89_collapse",
    "Improver.C89_range"
   ],
   "note": "C89_reuse_partial is for slices that agree in their masks; C89_mask_refuted: slices with equal underlying data but different masks share a result. The range is proved for the square method."
  },
  {
   "property": "C90",
   "status": "proved",
   "theorems": [
    "Improver.C90_radii",
    "Improver.C90_interpolated",
    "Improver.C90_several_periods_refuted",
    "Improver.C90_options"
   ],
   "note": "C90_several_periods_refuted is a finding: with lead times a cube with several forecast periods is always refused."
  },
  {
   "property": "C91",
   "status": "partial",
   "theorems": [
    "Improver.C91_no_time",
    "Improver.C91_missing",
    "Improver.C91_bilinear",
    "Improver.C91_range",
    "Improver.C91_edge_refuted",
    "Improver.C91_zero_weight_refuted",
    "Improver.C91_process",
    "Improver.C91_mismatch"
   ],
   "note": "C91_bilinear holds for sources inside the outermost grid points. C91_edge_refuted: between the last grid point and the edge of the domain values fade to 0. C91_zero_weight_refuted: a missing neighbour with weight 0 masks the result."
  },
  {
   "property": "C92",
   "status": "proved",
   "theorems": [
    "Improver.C92_apply",
    "Improver.C92_refused",
    "Improver.C92_round_trip",
    "Improver.C92_round_trip_refuted"
   ],
   "note": "C92_round_trip_refuted is a finding: rates below the enhancement plus the minimum are raised by subtracting and adding back."
  },
  {
   "property": "C93",
   "status": "partial",
   "theorems": [
    "Improver.C93_valid_kept",
    "Improver.C93_filled_iff",
    "Improver.C93_geometric_mean",
    "Improver.C93_dry",
    "Improver.C93_edge",
    "Improver.C93_extended_mask",
    "Improver.C93_extend_refuted"
   ],
   "note": "C93_extend_refuted: ExtendRadarMask replaces the mask of its input, so points masked before can become unmasked."
  },
  {
   "property": "C94",
   "status": "proved",
   "theorems": [
    "Improver.C94_forecasts",
    "Improver.C94_needs_enhancement",
    "Improver.C94_start"
   ],
   "note": ""
  },
  {
   "property": "C95",
   "status": "partial",
   "theorems": [],
   "note": "C95_no_lightning_refuted, C95_smoothing_refuted and C95_several_times_refuted are defects of the code; the value at one output time is proved (C95_value, C95_process)."
  },
  {
   "property": "C96",
   "status": "proved",
   "theorems": [
    "Improver.C96_least_squares",
    "Improver.C96_recovers",
    "Improver.C96_singular",
    "Improver.C96_derivatives"
   ],
   "note": ""
  },
  {
   "property": "C97",
   "status": "proved",
   "theorems": [
    "Improver.C97_partition",
    "Improver.C97_spread",
    "Improver.C97_starts"
   ],
   "note": ""
  },
  {
   "property": "C98",
   "status": "proved",
   "theorems": [
    "Improver.C98_smart_smooth",
    "Improver.C98_iterations",
    "Improver.C98_kernel",
    "Improver.C98_box_weight",
    "Improver.C98_box_centre",
    "Improver.C98_displacement_bound",
    "Improver.C98_box_smoothing"
   ],
   "note": ""
  },
  {
   "property": "C99",
   "status": "proved",
   "theorems": [
    "Improver.C99_checks",
    "Improver.C99_velocity_bound",
    "Improver.C99_stationary",
    "Improver.C99_perturbed",
    "Improver.C99_components",
    "Improver.C99_order"
   ],
   "note": ""
  },
  {
   "property": "C100",
   "status": "partial",
   "theorems": [
    "Improver.C100_bilinear_partial",
    "Improver.C100_range",
    "Improver.C100_exact",
    "Improver.C100_on_grid",
    "Improver.C100_close_refuted"
   ],
   "note": "Targets within the tolerance of np.isclose of the last grid line but not on it are excluded (C100_close_refuted shows extrapolation there). Source axes exactly even; rational arithmetic."
  },
  {
   "property": "C101",
   "status": "partial",
   "theorems": [
    "Improver.C101_nearest_partial",
    "Improver.C101_close_refuted",
    "Improver.C101_on_grid"
   ],
   "note": "Targets within the tolerance of np.isclose of the last grid line but not on it are excluded (C101_close_refuted)."
  },
  {
   "property": "C102",
   "status": "partial",
   "theorems": [
    "Improver.C102_nearest_mask_partial",
    "Improver.C102_domain_refuted"
   ],
   "note": "Same exclusion of nearly aligned targets; the part of the source that is searched depends on the other targets (C102_domain_refuted). The distance through the earth is an arbitrary function."
  },
  {
   "property": "C103",
   "status": "partial",
   "theorems": [
    "Improver.C103_bilinear_mask_partial",
    "Improver.C103_idw_weights",
    "Improver.C103_four_range",
    "Improver.C103_eight_range",
    "Improver.C103_missing_refuted"
   ],
   "note": "Same exclusion of nearly aligned targets; a missing point with weight zero makes the target missing (C103_missing_refuted). The power in inverse distance weighting is an arbitrary positive function."
  },
  {
   "property": "C104",
   "status": "partial",
   "theorems": [
    "Improver.C104_flatten",
    "Improver.C104_unflatten",
    "Improver.C104_attached",
    "Improver.C104_order_refuted"
   ],
   "note": "Holds when latitude and longitude are the last two dimensions; refuted for other orders (C104_order_refuted)."
  },
  {
   "property": "C105",
   "status": "proved",
   "theorems": [
    "Improver.C105_adjust",
    "Improver.C105_distance"
   ],
   "note": "The regridded mask is taken to be defined at every target; regridding by iris is not modelled."
  },
  {
   "property": "C106",
   "status": "proved",
   "theorems": [
    "Improver.C106_sound",
    "Improver.C106_complete",
    "Improver.C106_cover"
   ],
   "note": ""
  },
  {
   "property": "C107",
   "status": "proved",
   "theorems": [
    "Improver.C107_init",
    "Improver.C107_attributes"
   ],
   "note": ""
  },
  {
   "property": "C108",
   "status": "partial",
   "theorems": [
    "Improver.C108_vector_mean",
    "Improver.C108_unanimous",
    "Improver.C108_rotation",
    "Improver.C108_order",
    "Improver.C108_strength_range",
    "Improver.C108_f32_range_refuted"
   ],
   "note": "Exact arithmetic; with 32-bit floats a direction just below north becomes 360 instead of staying below 360 (C108_f32_range_refuted)."
  },
  {
   "property": "C109",
   "status": "proved",
   "theorems": [
    "Improver.C109_first_realization",
    "Improver.C109_needs_realization_zero",
    "Improver.C109_neighbourhood",
    "Improver.C109_refused_grid",
    "Improver.C109_backup_names",
    "Improver.C109_example"
   ],
   "note": "Unmasked data; the number of cells in 6 km is a parameter."
  },
  {
   "property": "C110",
   "status": "partial",
   "theorems": [
    "Improver.C110_fresh",
    "Improver.C110_fresh_succeeds",
    "Improver.C110_reuse_refuted",
    "Improver.C110_stale_refuted"
   ],
   "note": "Proved for a new plugin; refuted for a plugin that is used again, because the list of results is never emptied (C110_reuse_refuted, C110_stale_refuted)."
  },
  {
   "property": "C111",
   "status": "partial",
   "theorems": [
    "Improver.C111_maximum",
    "Improver.C111_times",
    "Improver.C111_accepts",
    "Improver.C111_refuses",
    "Improver.C111_metadata",
    "Improver.C111_times_refuted"
   ],
   "note": "The time check is refuted for time coordinates of different lengths (C111_times_refuted); proved for equal lengths."
  },
  {
   "property": "C112",
   "status": "partial",
   "theorems": [
    "Improver.C112_speed",
    "Improver.C112_direction",
    "Improver.C112_accepts",
    "Improver.C112_repeat_refuted",
    "Improver.C112_left_behind"
   ],
   "note": "Repeating the call on the same cubes is refuted because the direction cube is changed in place (C112_repeat_refuted). The angle to true north (cartopy) is arbitrary."
  },
  {
   "property": "C113",
   "status": "proved",
   "theorems": [
    "Improver.C113_minima",
    "Improver.C113_nonneg",
    "Improver.C113_monotone",
    "Improver.C113_strict",
    "Improver.C113_inputs",
    "Improver.C113_two_cubes",
    "Improver.C113_example"
   ],
   "note": ""
  },
  {
   "property": "C114",
   "status": "proved",
   "theorems": [
    "Improver.C114_unresolved",
    "Improver.C114_levels_nonneg"
   ],
   "note": ""
  },
  {
   "property": "C115",
   "status": "partial",
   "theorems": [
    "Improver.C115_wavenumber",
    "Improver.C115_reference_height",
    "Improver.C115_profile",
    "Improver.C115_no_roughness",
    "Improver.C115_profile_shape",
    "Improver.C115_upside_down_refuted"
   ],
   "note": "The shape of the profile is refuted for a roughness length above the reference height (C115_upside_down_refuted)."
  },
  {
   "property": "C116",
   "status": "partial",
   "theorems": [
    "Improver.C116_between",
    "Improver.C116_below",
    "Improver.C116_above",
    "Improver.C116_extrapolation_refuted",
    "Improver.C116_decreasing_refuted"
   ],
   "note": "Above the top level and for decreasing levels the value is not between neighbouring levels (C116_extrapolation_refuted, C116_decreasing_refuted)."
  },
  {
   "property": "C117",
   "status": "proved",
   "theorems": [
    "Improver.C117_height_correction",
    "Improver.C117_missing_orography",
    "Improver.C117_example"
   ],
   "note": ""
  },
  {
   "property": "C118",
   "status": "partial",
   "theorems": [
    "Improver.C118_repeat_partial",
    "Improver.C118_repeat_refuted",
    "Improver.C118_invalid_wind",
    "Improver.C118_dimension_order",
    "Improver.C118_single_time_refuted",
    "Improver.C118_vertical_name",
    "Improver.C118_vertical_name_refuted",
    "Improver.C118_ancillaries",
    "Improver.C118_resolution"
   ],
   "note": "Repetition is refuted at sea points, whose roughness length is filled in place (C118_repeat_refuted); a single time in a dimension fails (C118_single_time_refuted); two vertical coordinates make the choice depend on the run (C118_vertical_name_refuted)."
  },
  {
   "property": "C119",
   "status": "partial",
   "theorems": [
    "Improver.C119_normal_score",
    "Improver.C119_normal_all",
    "Improver.C119_normal_refused",
    "Improver.C119_missing_forecast",
    "Improver.C119_score_nonneg",
    "Improver.C119_spreadless_ignored_refuted"
   ],
   "note": "Proved over the reals for the exact CRPS integral. Cases with a predicted spread of zero at a positive location drop out of the score (C119_spreadless_ignored_refuted). Rounding and scipy's minimiser are not modelled."
  },
  {
   "property": "C120",
   "status": "partial",
   "theorems": [
    "Improver.C120_truncated_score",
    "Improver.C120_truncated_refused",
    "Improver.C120_no_spread_refuted",
    "Improver.C120_ratio_limit_refuted",
    "Improver.C120_negative_observation_refuted"
   ],
   "note": "Proved for non-negative observations. Refuted: negative observations (C120_negative_observation_refuted), no spread at all (C120_no_spread_refuted), the -3 limit on the ratio is inert (C120_ratio_limit_refuted)."
  },
  {
   "property": "C121",
   "status": "partial",
   "theorems": [
    "Improver.C121_rows",
    "Improver.C121_truths",
    "Improver.C121_paired",
    "Improver.C121_mask_mismatch",
    "Improver.C121_missing_truth_refuted",
    "Improver.C121_two_dimensions_refuted"
   ],
   "note": "Refuted for missing observations at land points (C121_missing_truth_refuted) and for two-dimensional arrays whose masks differ (C121_two_dimensions_refuted)."
  },
  {
   "property": "C122",
   "status": "partial",
   "theorems": [
    "Improver.C122_default_mean",
    "Improver.C122_default_predictors",
    "Improver.C122_default_realizations",
    "Improver.C122_missing_gives_default",
    "Improver.C122_regression",
    "Improver.C122_realizations_regression_refuted",
    "Improver.C122_coefficients_written"
   ],
   "note": "The regression guess of the realizations option is refuted (C122_realizations_regression_refuted). The regression itself (statsmodels) is an arbitrary least squares routine."
  },
  {
   "property": "C123",
   "status": "partial",
   "theorems": [
    "Improver.C123_site_coefficients",
    "Improver.C123_close_sites_refuted"
   ],
   "note": "Refuted for sites closer than the tolerance of np.isclose (C123_close_sites_refuted)."
  },
  {
   "property": "C124",
   "status": "partial",
   "theorems": [
    "Improver.C124_location_mean",
    "Improver.C124_unknown_predictor",
    "Improver.C124_duplicate_name_refuted",
    "Improver.C124_location_realizations",
    "Improver.C124_location_realizations_sites",
    "Improver.C124_single_realization_refuted",
    "Improver.C124_scale",
    "Improver.C124_scale_monotone",
    "Improver.C124_scale_single_refuted",
    "Improver.C124_default_is_raw",
    "Improver.C124_same_names_refuted"
   ],
   "note": "Refuted for a static predictor with the name of the forecast (C124_duplicate_name_refuted) and for a single realization (C124_single_realization_refuted, C124_scale_single_refuted)."
  },
  {
   "property": "C125",
   "status": "partial",
   "theorems": [
    "Improver.C125_accepted",
    "Improver.C125_resolution_refuted",
    "Improver.C125_sites_refuted"
   ],
   "note": "The condition is proved exactly; that it compares the whole domain is refuted: other grid points with the same extent (C125_resolution_refuted) and other sites (C125_sites_refuted) are accepted."
  },
  {
   "property": "C126",
   "status": "partial",
   "theorems": [
    "Improver.C126_matched",
    "Improver.C126_paired",
    "Improver.C126_contained_refuted",
    "Improver.C126_unbounded_truth_refuted"
   ],
   "note": "Proved for instantaneous forecasts and truths and for forecasts and truths of periods. Mixed cases are refuted (C126_contained_refuted, C126_unbounded_truth_refuted). Merging (iris) is modelled as sorting by time."
  },
  {
   "property": "C127",
   "status": "partial",
   "theorems": [
    "Improver.C127_unified_frt",
    "Improver.C127_consistent",
    "Improver.C127_sufficient_sites",
    "Improver.C127_sufficient_all",
    "Improver.C127_one_missing_refuted",
    "Improver.C127_gridded_unchecked"
   ],
   "note": "Pairs of which only one value is missing are not counted (C127_one_missing_refuted)."
  },
  {
   "property": "C128",
   "status": "partial",
   "theorems": [
    "Improver.C128_percentiles",
    "Improver.C128_increasing",
    "Improver.C128_spreadless_refuted"
   ],
   "note": "Refuted for spreadless points with a location outside the truncation limits (C128_spreadless_refuted). scipy's special functions are modelled as the exact functions."
  },
  {
   "property": "C129",
   "status": "partial",
   "theorems": [
    "Improver.C129_probabilities",
    "Improver.C129_valid",
    "Improver.C129_masked",
    "Improver.C129_units_factor",
    "Improver.C129_celsius_refuted",
    "Improver.C129_spreadless_refuted"
   ],
   "note": "Refuted for units with an offset (C129_celsius_refuted) and for spreadless points (C129_spreadless_refuted)."
  },
  {
   "property": "C130",
   "status": "proved",
   "theorems": [
    "Improver.C130_percentiles",
    "Improver.C130_other_percentiles",
    "Improver.C130_probabilities",
    "Improver.C130_types",
    "Improver.C130_realizations_count",
    "Improver.C130_attribute",
    "Improver.C130_input_type",
    "Improver.C130_negative_scale"
   ],
   "note": "Percentile and probability forecasts; reordering of realizations is C09 and C10."
  },
  {
   "property": "C131",
   "status": "proved",
   "theorems": [
    "Improver.C131_unbiased",
    "Improver.C131_least_squares",
    "Improver.C131_masked",
    "Improver.C131_single"
   ],
   "note": "Exact arithmetic. Alignment of the two cubes by iris, and the template of the output cube, are not modelled."
  },
  {
   "property": "C132",
   "status": "proved",
   "theorems": [
    "Improver.C132_corrected",
    "Improver.C132_masked_bias",
    "Improver.C132_masked_forecast",
    "Improver.C132_several",
    "Improver.C132_round_trip"
   ],
   "note": "Exact arithmetic."
  },
  {
   "property": "C133",
   "status": "partial",
   "theorems": [
    "Improver.C133_accepted",
    "Improver.C133_no_bias",
    "Improver.C133_inputs_kept",
    "Improver.C133_bias_overwritten_refuted"
   ],
   "note": "Refuted for a single bias cube with masked values that are filled: the cube of the caller is overwritten (C133_bias_overwritten_refuted). The comment of the caller's forecast is changed when there is no bias."
  },
  {
   "property": "C134",
   "status": "partial",
   "theorems": [
    "Improver.C134_recovers_partial",
    "Improver.C134_data",
    "Improver.C134_order_refuted"
   ],
   "note": "Needs the common sites in the same order in the three inputs; refuted otherwise (C134_order_refuted). numpy's polyfit is a least squares fit by hypothesis."
  },
  {
   "property": "C135",
   "status": "partial",
   "theorems": [
    "Improver.C135_scaled_partial",
    "Improver.C135_positive",
    "Improver.C135_zero_factor_refuted"
   ],
   "note": "Refuted for a factor of exactly zero with a missing bound, the default: NaN everywhere (C135_zero_factor_refuted)."
  },
  {
   "property": "C136",
   "status": "partial",
   "theorems": [
    "Improver.C136_period",
    "Improver.C136_applied",
    "Improver.C136_accepted",
    "Improver.C136_hour",
    "Improver.C136_corrects",
    "Improver.C136_twice_refuted"
   ],
   "note": "The forecast of the caller is overwritten, so applying twice rescales twice (C136_twice_refuted)."
  },
  {
   "property": "C137",
   "status": "partial",
   "theorems": [
    "Improver.C137_round_trip",
    "Improver.C137_injective",
    "Improver.C137_vicinity",
    "Improver.C137_accepted",
    "Improver.C137_trailing_refuted"
   ],
   "note": "Proved for all plain names; text after a threshold word is ignored (C137_trailing_refuted)."
  },
  {
   "property": "C138",
   "status": "proved",
   "theorems": [
    "Improver.C138_probability",
    "Improver.C138_not_found",
    "Improver.C138_threshold",
    "Improver.C138_sense",
    "Improver.C138_percentile"
   ],
   "note": "Coordinates as lists of name, variable name and attribute."
  },
  {
   "property": "C139",
   "status": "proved",
   "theorems": [
    "Improver.C139_diagnostic",
    "Improver.C139_split"
   ],
   "note": "Merging of the cubes is not modelled."
  },
  {
   "property": "C140",
   "status": "partial",
   "theorems": [
    "Improver.C140_parts",
    "Improver.C140_accepted",
    "Improver.C140_two_forecasts_refuted"
   ],
   "note": "Of two forecasts without probabilities the first is ignored silently (C140_two_forecasts_refuted)."
  },
  {
   "property": "C141",
   "status": "proved",
   "theorems": [
    "Improver.C141_split",
    "Improver.C141_validity"
   ],
   "note": ""
  },
  {
   "property": "C142",
   "status": "proved",
   "theorems": [
    "Improver.C142_branches_meet",
    "Improver.C142_increasing",
    "Improver.C142_warning",
    "Improver.C142_temperatures",
    "Improver.C142_table"
   ],
   "note": "Over the reals: the code uses binary64 powers and logarithms."
  },
  {
   "property": "C143",
   "status": "proved",
   "theorems": [
    "Improver.C143_in_bounds",
    "Improver.C143_interpolates",
    "Improver.C143_exact_at_entries",
    "Improver.C143_constant_outside",
    "Improver.C143_monotone",
    "Improver.C143_accuracy"
   ],
   "note": "Over the reals; a binary64 table position next to a whole number may pick the neighbouring interval, which shares its end point."
  },
  {
   "property": "C144",
   "status": "partial",
   "theorems": [
    "Improver.C144_range",
    "Improver.C144_masses",
    "Improver.C144_antitone_in_pressure",
    "Improver.C144_monotone_in_temperature",
    "Improver.C144_below_table_refuted",
    "Improver.C144_below_table_met",
    "Improver.C144_mixing_ratio"
   ],
   "note": "Proved from 183.15 K upwards and pressures up to 1e7 Pa; below 183.15 K monotonicity in temperature is refuted (C144_below_table_refuted). Float32 casts are not modelled."
  },
  {
   "property": "C145",
   "status": "proved",
   "theorems": [
    "Improver.C145_inverse",
    "Improver.C145_path"
   ],
   "note": "Over the reals."
  },
  {
   "property": "C146",
   "status": "proved",
   "theorems": [
    "Improver.C146_budget",
    "Improver.C146_saturated_after",
    "Improver.C146_unsaturated_unchanged",
    "Improver.C146_supersaturated"
   ],
   "note": "scipy's newton is a parameter: the budget holds for all its results, saturation and unchanged air for exact roots only; its convergence error is not modelled."
  },
  {
   "property": "C147",
   "status": "proved",
   "theorems": [
    "Improver.C147_pointwise",
    "Improver.C147_stops",
    "Improver.C147_balance",
    "Improver.C147_saturated",
    "Improver.C147_first_move",
    "Improver.C147_not_above"
   ],
   "note": "Over the reals. That twenty passes suffice for the precision is not proved, and a wet bulb temperature not above the air temperature is proved only up to the precision."
  },
  {
   "property": "C148",
   "status": "proved",
   "theorems": [
    "Improver.C148_whole",
    "Improver.C148_slices",
    "Improver.C148_error",
    "Improver.C148_level_values_ignored_refuted"
   ],
   "note": ""
  },
  {
   "property": "C149",
   "status": "proved",
   "theorems": [
    "Improver.C149_extrapolated",
    "Improver.C149_otherwise",
    "Improver.C149_least_squares"
   ],
   "note": "Over the reals, with the defining integral taken from Mathlib."
  },
  {
   "property": "C150",
   "status": "proved",
   "theorems": [
    "Improver.C150_crossing",
    "Improver.C150_high",
    "Improver.C150_low",
    "Improver.C150_range"
   ],
   "note": "stratify's interpolation is modelled as the first crossing from the top; input NaNs are not modelled."
  },
  {
   "property": "C151",
   "status": "proved",
   "theorems": [
    "Improver.C151_fill",
    "Improver.C151_sources",
    "Improver.C151_complete",
    "Improver.C151_otherwise"
   ],
   "note": "scipy's griddata is a parameter."
  },
  {
   "property": "C152",
   "status": "proved",
   "theorems": [
    "Improver.C152_phase_changes",
    "Improver.C152_thresholds",
    "Improver.C152_order",
    "Improver.C152_checks",
    "Improver.C152_highest",
    "Improver.C152_highest_bounds",
    "Improver.C152_highest_descending_refuted"
   ],
   "note": "Unit conversion and extraction by name are modelled in C251."
  },
  {
   "property": "C153",
   "status": "proved",
   "theorems": [
    "Improver.C153_reduced",
    "Improver.C153_in_bounds",
    "Improver.C153_range",
    "Improver.C153_monotone",
    "Improver.C153_wet_bulb",
    "Improver.C153_gap_refuted",
    "Improver.C153_gap_example",
    "Improver.C153_no_hail"
   ],
   "note": "Exact reals; extraction of cubes and unit conversion are modelled in C250. The gap 3300-3350 m is C153_gap_refuted."
  },
  {
   "property": "C154",
   "status": "proved",
   "theorems": [
    "Improver.C154_parcel",
    "Improver.C154_cloud_top",
    "Improver.C154_buoyant"
   ],
   "note": "The Newton solver of the saturated ascent is a parameter; exact reals."
  },
  {
   "property": "C155",
   "status": "proved",
   "theorems": [
    "Improver.C155_condensation",
    "Improver.C155_saturated_there",
    "Improver.C155_saturated_surface"
   ],
   "note": "scipy's Newton is a parameter, so that a root is reached is a hypothesis of C155_saturated_there."
  },
  {
   "property": "C156",
   "status": "proved",
   "theorems": [
    "Improver.C156_blend",
    "Improver.C156_between",
    "Improver.C156_calm",
    "Improver.C156_wind",
    "Improver.C156_humidity",
    "Improver.C156_temperature",
    "Improver.C156_temperature_refuted"
   ],
   "note": "Exact reals. Monotonicity across 10-20 C is false: C156_temperature_refuted."
  },
  {
   "property": "C157",
   "status": "proved",
   "theorems": [
    "Improver.C157_phase",
    "Improver.C157_refused",
    "Improver.C157_sleet",
    "Improver.C157_sleet_refused"
   ],
   "note": "Units taken to agree; spatial match is a parameter."
  },
  {
   "property": "C158",
   "status": "proved",
   "theorems": [
    "Improver.C158_partition",
    "Improver.C158_accepted",
    "Improver.C158_uv"
   ],
   "note": ""
  },
  {
   "property": "C159",
   "status": "proved",
   "theorems": [
    "Improver.C159_weights",
    "Improver.C159_sum_one",
    "Improver.C159_joins",
    "Improver.C159_outside",
    "Improver.C159_warns",
    "Improver.C159_lowest_bound_refuted",
    "Improver.C159_gap_refuted",
    "Improver.C159_default_bands"
   ],
   "note": "Exact rationals; bands in the units of the orography. Refuted parts: C159_lowest_bound_refuted, C159_gap_refuted."
  },
  {
   "property": "C160",
   "status": "proved",
   "theorems": [
    "Improver.C160_masks",
    "Improver.C160_mask",
    "Improver.C160_bounds",
    "Improver.C160_land_mask"
   ],
   "note": "Cube building not modelled."
  },
  {
   "property": "C161",
   "status": "proved",
   "theorems": [
    "Improver.C161_hour_of_day",
    "Improver.C161_never_refused",
    "Improver.C161_refused",
    "Improver.C161_solar_time",
    "Improver.C161_spencer"
   ],
   "note": "The calendar is a parameter with days 1 to 366."
  },
  {
   "property": "C162",
   "status": "proved",
   "theorems": [
    "Improver.C162_elevation",
    "Improver.C162_special"
   ],
   "note": "Exact reals."
  },
  {
   "property": "C163",
   "status": "partial",
   "theorems": [
    "Improver.C163_lat_lon",
    "Improver.C163_projected",
    "Improver.C163_agree",
    "Improver.C163_polar",
    "Improver.C163_bounded_times_refuted",
    "Improver.C163_times"
   ],
   "note": "Refuted for bounded times (C163_bounded_times_refuted); transformation of projected coordinates and cube handling not modelled."
  },
  {
   "property": "C164",
   "status": "proved",
   "theorems": [
    "Improver.C164_range",
    "Improver.C164_turbidity"
   ],
   "note": "Exact reals; altitude above -17000 m (-900 m for turbidity)."
  },
  {
   "property": "C165",
   "status": "proved",
   "theorems": [
    "Improver.C165_times",
    "Improver.C165_irradiance",
    "Improver.C165_radiation",
    "Improver.C165_additive"
   ],
   "note": "Exact reals; cube building not modelled."
  },
  {
   "property": "C166",
   "status": "proved",
   "theorems": [
    "Improver.C166_point_value",
    "Improver.C166_nonneg",
    "Improver.C166_field_value",
    "Improver.C166_monotone"
   ],
   "note": "Exact arithmetic; gradients, regridding and the 3x3 mean are inputs."
  },
  {
   "property": "C167",
   "status": "proved",
   "theorems": [
    "Improver.C167_sources_on_grid",
    "Improver.C167_weighted_mean",
    "Improver.C167_calm",
    "Improver.C167_defined",
    "Improver.C167_coarse_grid_refuted",
    "Improver.C167_bounds",
    "Improver.C167_upwind",
    "Improver.C167_local",
    "Improver.C167_product"
   ],
   "note": "Exact arithmetic; C167_coarse_grid_refuted shows the NaN above 15 km spacing."
  },
  {
   "property": "C168",
   "status": "proved",
   "theorems": [
    "Improver.C168_inputs",
    "Improver.C168_ratio",
    "Improver.C168_fraction",
    "Improver.C168_monotone",
    "Improver.C168_shower",
    "Improver.C168_shower_fails",
    "Improver.C168_failed_call_renames"
   ],
   "note": "Exact arithmetic; the two components are on the same coordinates."
  },
  {
   "property": "C169",
   "status": "partial",
   "theorems": [
    "Improver.C169_silent_iff_agree",
    "Improver.C169_tolerance_monotone",
    "Improver.C169_reflexive",
    "Improver.C169_detects",
    "Improver.C169_symmetry_refuted",
    "Improver.C169_dimension_names_refuted",
    "Improver.C169_nan_attribute_refuted"
   ],
   "note": "Agreement is characterised exactly; the names of the dimensions of a variable are not compared (C169_dimension_names_refuted), a scalar agrees with a constant array, NaN attributes never agree (C169_nan_attribute_refuted), and agreement is not symmetric (C169_symmetry_refuted)."
  },
  {
   "property": "C170",
   "status": "proved",
   "theorems": [
    "Improver.C170_atomic",
    "Improver.C170_complete",
    "Improver.C170_others",
    "Improver.C170_two_saves",
    "Improver.C170_same_target_refuted",
    "Improver.C170_checks",
    "Improver.C170_chunks",
    "Improver.C170_chunks_refuted"
   ],
   "note": "Atomic replacement is proved for every crash point and interleaving with steps on other files (C170_atomic, C170_complete, C170_two_saves); 'other files' excludes the temporary file: it fails for two saves to the same target, which share one temporary file (C170_same_target_refuted). Chunk sizes can exceed later cubes' dimensions (C170_chunks_refuted). What iris writes is a parameter."
  },
  {
   "property": "C171",
   "status": "proved",
   "theorems": [
    "Improver.C171_check_iff",
    "Improver.C171_round",
    "Improver.C171_large_refuted",
    "Improver.C171_small",
    "Improver.C171_standard",
    "Improver.C171_idempotent",
    "Improver.C171_unchanged",
    "Improver.C171_time_values",
    "Improver.C171_wrong_unit"
   ],
   "note": "The check is characterised completely and the standardisation shown to satisfy it and to be idempotent; times with fractions are rounded silently beyond about 50000 because np.allclose keeps its default rtol (C171_large_refuted). Storage in a type is a parameter; overflow not modelled."
  },
  {
   "property": "C172",
   "status": "proved",
   "theorems": [
    "Improver.C172_threshold",
    "Improver.C172_value",
    "Improver.C172_monotone",
    "Improver.C172_inputs"
   ],
   "note": "Point by point; cube building, units, masks and merging of input cubes are left out."
  },
  {
   "property": "C173",
   "status": "proved",
   "theorems": [
    "Improver.C173_value",
    "Improver.C173_range",
    "Improver.C173_precipitation",
    "Improver.C173_cape",
    "Improver.C173_no_cape",
    "Improver.C173_dry",
    "Improver.C173_cape_refuted",
    "Improver.C173_inputs"
   ],
   "note": "Real logarithms and square roots; the step down of the probability when CAPE becomes positive is shown in C173_cape_refuted. Masks and NaN are not modelled."
  },
  {
   "property": "C174",
   "status": "partial",
   "theorems": [
    "Improver.C174_range",
    "Improver.C174_range_negative_refuted",
    "Improver.C174_cells",
    "Improver.C174_none",
    "Improver.C174_thin",
    "Improver.C174_thin_error",
    "Improver.C174_one_point_refuted",
    "Improver.C174_process",
    "Improver.C174_ignore_refuted",
    "Improver.C174_read_range",
    "Improver.C174_read_repeated",
    "Improver.C174_units_count",
    "Improver.C174_unit",
    "Improver.C174_read_in_order"
   ],
   "note": "Soundness and completeness for every list of tests; ranges keep their ends only when these are not negative (C174_range_negative_refuted); a step that leaves one point raises (C174_one_point_refuted) and a failed extraction with a step raises even when failures are ignored (C174_ignore_refuted). Longitude intersection and number reading are parameters."
  },
  {
   "property": "C175",
   "status": "proved",
   "theorems": [
    "Improver.C175_values",
    "Improver.C175_monotone",
    "Improver.C175_falling",
    "Improver.C175_gap_refuted",
    "Improver.C175_increment"
   ],
   "note": "Monotone results for columns with missing ends; interior gaps can be filled out of order (C175_gap_refuted). Interpolation to the requested level is not modelled here."
  },
  {
   "property": "C176",
   "status": "partial",
   "theorems": [
    "Improver.C176_amend",
    "Improver.C176_errors_refuted",
    "Improver.C176_two_times_refuted",
    "Improver.C176_copy",
    "Improver.C176_copy_refuted",
    "Improver.C176_copy_missing",
    "Improver.C176_braces",
    "Improver.C176_history"
   ],
   "note": "Holds for changes of the documented kinds (Spec.Change); two \"{}\" or a time followed by \"{}\" raise IndexError with earlier changes kept (C176_errors_refuted), of two times on a line the first is lost (C176_two_times_refuted), and a template value that reads \"remove\", holds \"{}\" or is a number is not copied (C176_copy_refuted). Fields other than {} and {now:...} are not modelled."
  },
  {
   "property": "C177",
   "status": "partial",
   "theorems": [
    "Improver.C177_models",
    "Improver.C177_models_missing",
    "Improver.C177_mandatory",
    "Improver.C177_model_id",
    "Improver.C177_new_cube",
    "Improver.C177_argument_refuted"
   ],
   "note": "All parts but the last: create_new_diagnostic_cube adds the optional attributes to the caller's dictionary (C177_argument_refuted)."
  },
  {
   "property": "C178",
   "status": "proved",
   "theorems": [
    "Improver.C178_flatten",
    "Improver.C178_cubelist",
    "Improver.C178_cube"
   ],
   "note": "Nesting to any depth; iris's merge is a parameter; what counts as a cube is a parameter."
  },
  {
   "property": "C179",
   "status": "partial",
   "theorems": [
    "Improver.C179_promote",
    "Improver.C179_order",
    "Improver.C179_exception_order_refuted",
    "Improver.C179_error"
   ],
   "note": "Proved when the exceptions are listed in the order of their dimensions; in another order they cause an IndexError or are moved (C179_exception_order_refuted)."
  },
  {
   "property": "C180",
   "status": "partial",
   "theorems": [
    "Improver.C180_mask",
    "Improver.C180_errors",
    "Improver.C180_twice_refuted",
    "Improver.C180_shape_refuted"
   ],
   "note": "All parts for masks of the sizes of the cube; the function also changes the caller's mask cube, so that a second inverted use gives the opposite (C180_twice_refuted), and accepts a mask on another grid with the same number of points (C180_shape_refuted)."
  },
  {
   "property": "C181",
   "status": "partial",
   "theorems": [
    "Improver.C181_mismatch",
    "Improver.C181_spatial",
    "Improver.C181_times",
    "Improver.C181_blend_order_refuted"
   ],
   "note": "Exact characterisations; only the first cube's blend time counts, so the outcome depends on the order of the cubes (C181_blend_order_refuted)."
  },
  {
   "property": "C182",
   "status": "proved",
   "theorems": [
    "Improver.C182_tidy",
    "Improver.C182_list",
    "Improver.C182_cube"
   ],
   "note": "What iris reads from a file, the constraint and MergeCubes are parameters; cubes without x or y coordinate raise."
  },
  {
   "property": "C183",
   "status": "proved",
   "theorems": [
    "Improver.C183_weights",
    "Improver.C183_blend",
    "Improver.C183_single",
    "Improver.C183_between",
    "Improver.C183_models"
   ],
   "note": "For every method and any number of inputs; spatial weights (C-list: SpatiallyVaryingWeightsFromMask), percentile blends (C23) and merging by iris are left out. Weights are one number for each slice."
  },
  {
   "property": "C184",
   "status": "partial",
   "theorems": [
    "Improver.C184_update",
    "Improver.C184_no_weight",
    "Improver.C184_attribute",
    "Improver.C184_discard",
    "Improver.C184_blend",
    "Improver.C184_single",
    "Improver.C184_total",
    "Improver.C184_rounding_refuted",
    "Improver.C184_store"
   ],
   "note": "All parts; but weights are stored with three decimals, so the sum is one only up to half a thousandth for each record and small contributors show weight zero (C184_rounding_refuted). Texts character by character; float() of texts that are not plain decimals is a parameter."
  },
  {
   "property": "C185",
   "status": "partial",
   "theorems": [
    "Improver.C185_coords",
    "Improver.C185_one_input_refuted",
    "Improver.C185_metadata",
    "Improver.C185_no_cycle",
    "Improver.C185_blend_time_refuted"
   ],
   "note": "Proved for blends over models and cycles of cubes without blend time; cubes that have one cannot be blended over cycles (C185_blend_time_refuted), and for other blend coordinates the coordinate stays if there is one input (C185_one_input_refuted). Deprecation notes are left out."
  },
  {
   "property": "C186",
   "status": "proved",
   "theorems": [
    "Improver.C186_binning_keeps_predictions",
    "Improver.C186_plain",
    "Improver.C186_equal_refuted",
    "Improver.C186_empty"
   ],
   "note": "LightGBM is modelled as decision trees with <= splits and any combination of leaves; values exactly at a split do change (C186_equal_refuted) and are excluded by the statement. Missing values, treelite and model files are left out."
  },
  {
   "property": "C187",
   "status": "proved",
   "theorems": [
    "Improver.C187_value",
    "Improver.C187_decreasing",
    "Improver.C187_range",
    "Improver.C187_identity",
    "Improver.C187_idempotent"
   ],
   "note": "Rational arithmetic; at one point, for any number of thresholds."
  },
  {
   "property": "C188",
   "status": "partial",
   "theorems": [
    "Improver.C188_valid_distribution",
    "Improver.C188_succeeds",
    "Improver.C188_mean_of_realizations",
    "Improver.C188_interpolated",
    "Improver.C188_model_thresholds",
    "Improver.C188_lower_bound_is_certain",
    "Improver.C188_descending_refuted",
    "Improver.C188_lower_bound_refuted",
    "Improver.C188_beyond_last"
   ],
   "note": "Range, order, number, mean over realizations and certainty at the lower bound for all inputs; the interpolated values for ascending thresholds whose first is not within 1e-8 of the lower bound without being it (C188_lower_bound_refuted, C188_descending_refuted). Rounding to float32 is left out."
  },
  {
   "property": "C189",
   "status": "proved",
   "theorems": [
    "Improver.C189_nearest_lead_time",
    "Improver.C189_order_of_cubes",
    "Improver.C189_columns",
    "Improver.C189_alignment",
    "Improver.C189_dim_order_refuted",
    "Improver.C189_same_name_refuted"
   ],
   "note": "For cubes of different names; the order of dimensions is not compared (C189_dim_order_refuted) and cubes of one name hide a mismatch (C189_same_name_refuted). Lead times are compared exactly, not as float32."
  },
  {
   "property": "C190",
   "status": "partial",
   "theorems": [
    "Improver.C190_forecasts",
    "Improver.C190_number",
    "Improver.C190_succeeds",
    "Improver.C190_first",
    "Improver.C190_periods",
    "Improver.C190_reference_time_refuted",
    "Improver.C190_bounds_refuted",
    "Improver.C190_descending_refuted"
   ],
   "note": "Proved for analyses that are their own reference time and have no time bounds; otherwise periods do not fit the reference time (C190_reference_time_refuted) and bounds are those of the analysis (C190_bounds_refuted); on descending axes the displacement has the wrong sign (C190_descending_refuted). The extrapolation of pysteps is any function; attributes are left out."
  },
  {
   "property": "C191",
   "status": "partial",
   "theorems": [
    "Improver.C191_dimensions",
    "Improver.C191_sites",
    "Improver.C191_scalars",
    "Improver.C191_sites_last",
    "Improver.C191_accepts",
    "Improver.C191_square_refuted",
    "Improver.C191_aux_refuted"
   ],
   "note": "Proved where there is a dimension of the data for each one asked for and auxiliary coordinates are given for all or none of the additional dimensions; otherwise sites can be on another dimension (C191_square_refuted, C191_aux_refuted). Coordinates of equal names are not looked at."
  },
  {
   "property": "C192",
   "status": "partial",
   "theorems": [
    "Improver.C192_status_flag",
    "Improver.C192_status_flag_refused",
    "Improver.C192_collapse",
    "Improver.C192_collapse_data",
    "Improver.C192_remove",
    "Improver.C192_modify",
    "Improver.C192_cell_methods",
    "Improver.C192_realization_refuted",
    "Improver.C192_bounds_refuted",
    "Improver.C192_dimension_refuted"
   ],
   "note": "Everything but: removing the status flag loses a realization dimension of one (C192_realization_refuted), a modified coordinate keeps its bounds (C192_bounds_refuted) and dimension coordinates are removed as well (C192_dimension_refuted). Types and units are in C171, attributes in C176."
  },
  {
   "property": "C193",
   "status": "proved",
   "theorems": [
    "Improver.C193_training_dates",
    "Improver.C193_training_dates_latest"
   ],
   "note": "Times are whole seconds since the epoch, as rationals; time zones of the dates are not modelled."
  },
  {
   "property": "C194",
   "status": "partial",
   "theorems": [
    "Improver.C194_columns",
    "Improver.C194_representation",
    "Improver.C194_selection",
    "Improver.C194_quantiles",
    "Improver.C194_order_matters_refuted"
   ],
   "note": "The equal-spacing test on quantiles is of the quantiles in the order they are first seen, so a table whose first quantile seen is not the least is refused though its quantiles are equally spaced (C194_order_matters_refuted); the selection itself is proved for every table."
  },
  {
   "property": "C195",
   "status": "partial",
   "theorems": [
    "Improver.C195_fill",
    "Improver.C195_by_site",
    "Improver.C195_nearest",
    "Improver.C195_own_site",
    "Improver.C195_other_site_refuted"
   ],
   "note": "A site with no value of a static column takes that of the next site in the sorted table (C195_other_site_refuted); proved for every site with a value."
  },
  {
   "property": "C196",
   "status": "partial",
   "theorems": [
    "Improver.C196_rest_kept",
    "Improver.C196_corrected",
    "Improver.C196_unchanged",
    "Improver.C196_all_moved_refuted",
    "Improver.C196_most_recent_refuted"
   ],
   "note": "When every site has moved between the same number of values, nothing is corrected (C196_all_moved_refuted), and the value kept is the last one first seen, not the most recent (C196_most_recent_refuted)."
  },
  {
   "property": "C197",
   "status": "partial",
   "theorems": [
    "Improver.C197_aligned",
    "Improver.C197_places"
   ],
   "note": "For sites keeping their place and a uniform period, height, name and units; one diagnostic, wmo_id only, truth tables without units column; before the iris merge, which is not modelled."
  },
  {
   "property": "C198",
   "status": "partial",
   "theorems": [
    "Improver.C198_renamed",
    "Improver.C198_not_probability",
    "Improver.C198_everywhere_refuted",
    "Improver.C198_named_threshold_refuted"
   ],
   "note": "Proved for names of diagnostics found once in the name of the cube; the name is replaced wherever it is found (C198_everywhere_refuted), and a threshold coordinate known by its name alone cannot be renamed (C198_named_threshold_refuted)."
  },
  {
   "property": "C199",
   "status": "partial",
   "theorems": [
    "Improver.C199_through",
    "Improver.C199_round_trip",
    "Improver.C199_kept",
    "Improver.C199_whole_name",
    "Improver.C199_of_cube",
    "Improver.C199_part_of_name_refuted",
    "Improver.C199_several_refuted"
   ],
   "note": "Comments whose text merely holds the name are overwritten (C199_part_of_name_refuted) and cell methods with several comments keep the old name (C199_several_refuted)."
  },
  {
   "property": "C200",
   "status": "proved",
   "theorems": [
    "Improver.C200_comment",
    "Improver.C200_recorded",
    "Improver.C200_with_name",
    "Improver.C200_zero"
   ],
   "note": "Marked as maximum also when no blended cube had a vicinity. Rounding of the radius to 32 bits is not modelled."
  },
  {
   "property": "C201",
   "status": "proved",
   "theorems": [
    "Improver.C201_accepted",
    "Improver.C201_comparison_refuted",
    "Improver.C201_comment_refuted",
    "Improver.C201_names"
   ],
   "note": "An exact characterisation for all cubes with coordinates of distinct names. Warnings and descriptive text are not modelled; \"standards\" (data types) is an input, see C192. The diagnostic of a probability is the name extracted as in C137. The code compares by substrings, so names and comments that merely contain the words are accepted (C201_comparison_refuted, C201_comment_refuted)."
  },
  {
   "property": "C202",
   "status": "partial",
   "theorems": [
    "Improver.C202_shown",
    "Improver.C202_cycles_refuted"
   ],
   "note": "Of several cycles of a model only the last is shown (C202_cycles_refuted)."
  },
  {
   "property": "C203",
   "status": "partial",
   "theorems": [
    "Improver.C203_command",
    "Improver.C203_stops_refuted"
   ],
   "note": "Proved if no cube stops the check by something other than its metadata: a blend without a record for one of its models ends the command with a KeyError before the other cubes are reported (C203_stops_refuted)."
  },
  {
   "property": "C204",
   "status": "proved",
   "theorems": [
    "Improver.C204_accepted"
   ],
   "note": "For trees whose entries have different names and the mandatory keys, with fields, conditions and thresholds nested one level. The text of the report is not modelled, only whether there is an issue and which inputs are listed."
  },
  {
   "property": "C205",
   "status": "partial",
   "theorems": [
    "Improver.C205_every_point",
    "Improver.C205_way_back_refuted",
    "Improver.C205_island_refuted",
    "Improver.C205_same_branches_refuted",
    "Improver.C205_three_fields_refuted",
    "Improver.C205_missing_way"
   ],
   "note": "Proved for trees without a way back, with one or two fields and two different destinations per node. The check does not find cycles (C205_way_back_refuted), islands (C205_island_refuted), nodes with equal destinations (C205_same_branches_refuted) or three fields (C205_three_fields_refuted)."
  },
  {
   "property": "C206",
   "status": "proved",
   "theorems": [
    "Improver.C206_listed"
   ],
   "note": "Thresholds are rationals and the conversion of text to numbers is not modelled."
  },
  {
   "property": "C207",
   "status": "partial",
   "theorems": [
    "Improver.C207_accepted",
    "Improver.C207_taken",
    "Improver.C207_test_uses",
    "Improver.C207_one_threshold_refuted",
    "Improver.C207_mixed_names_refuted",
    "Improver.C207_threshold_left"
   ],
   "note": "Acceptance, the parts taken and the part a test uses are proved for inputs with different names. A test may be given several thresholds, since all within 1 % are taken (C207_one_threshold_refuted), and a threshold coordinate of the old name on one input makes the tests of the others fail (C207_mixed_names_refuted). Conversion of units is a parameter."
  },
  {
   "property": "C208",
   "status": "proved",
   "theorems": [
    "Improver.C208_accepted",
    "Improver.C208_template"
   ],
   "note": "Times are integers."
  },
  {
   "property": "C209",
   "status": "partial",
   "theorems": [
    "Improver.C209_latest",
    "Improver.C209_blend_time",
    "Improver.C209_blend_time_alone",
    "Improver.C209_refused",
    "Improver.C209_reference_time_refuted",
    "Improver.C209_template_refused"
   ],
   "note": "If the inputs have both kinds of reference time, forecast_reference_time is set to the latest blend time (C209_reference_time_refuted)."
  },
  {
   "property": "C210",
   "status": "proved",
   "theorems": [
    "Improver.C210_nested",
    "Improver.C210_mismatch"
   ],
   "note": ""
  },
  {
   "property": "C211",
   "status": "proved",
   "theorems": [
    "Improver.C211_in_place",
    "Improver.C211_plain",
    "Improver.C211_each_once",
    "Improver.C211_logged",
    "Improver.C211_dry"
   ],
   "note": "The parser of single commands (clize) is the dispatcher, an arbitrary function with effects. Printing and profiling are not modelled."
  },
  {
   "property": "C212",
   "status": "partial",
   "theorems": [
    "Improver.C212_objects",
    "Improver.C212_output",
    "Improver.C212_output_named",
    "Improver.C212_pipeline",
    "Improver.C212_saved_refuted",
    "Improver.C212_pass_through",
    "Improver.C212_constrained",
    "Improver.C212_comma_list"
   ],
   "note": "A nested command that saves its result without pass_through_output hands None to the command around it (C212_saved_refuted); everything else is proved. Loading and saving are parameters."
  },
  {
   "property": "C213",
   "status": "proved",
   "theorems": [
    "Improver.C213_marked_once"
   ],
   "note": "For one cube; that a result which is a list of cubes is treated cube by cube is not modelled."
  },
  {
   "property": "C214",
   "status": "partial",
   "theorems": [
    "Improver.C214_square_sum",
    "Improver.C214_circular_sum",
    "Improver.C214_circular_mean",
    "Improver.C214_square_mean_partial",
    "Improver.C214_range",
    "Improver.C214_independent",
    "Improver.C214_missing_refuted",
    "Improver.C214_edge_refuted"
   ],
   "note": "Sums of both shapes, circular means, ranges and independence proved; the square mean is exact inside the grid or without the shortcut over ones (C214_edge_refuted gives a land value changed by sea data); refuted for points without data, which become zero when the domain has both surfaces."
  },
  {
   "property": "C215",
   "status": "partial",
   "theorems": [
    "Improver.C215_land",
    "Improver.C215_sea",
    "Improver.C215_first_layer_refuted"
   ],
   "note": "Proved for circles and for sums; square means share the edge error of C27. Refuted when the first layer of the weights does not mask the same points as the others."
  },
  {
   "property": "C216",
   "status": "proved",
   "theorems": [
    "Improver.C216_surfaces",
    "Improver.C216_radii",
    "Improver.C216_fails"
   ],
   "note": ""
  },
  {
   "property": "C217",
   "status": "partial",
   "theorems": [
    "Improver.C217_masks_accepted",
    "Improver.C217_reordered",
    "Improver.C217_varying_mask_refuted"
   ],
   "note": "Proved for percentile masks that are alike at each point; for masks differing between percentiles the values are not preserved (C217_varying_mask_refuted shows it). One time, one grid; random numbers as parameter."
  },
  {
   "property": "C218",
   "status": "proved",
   "theorems": [
    "Improver.C218_choice",
    "Improver.C218_without_raw",
    "Improver.C218_with_raw",
    "Improver.C218_valid_percentiles"
   ],
   "note": "Bounds table as parameter; masks of the input as one flag per point and percentile; the check of ignore_ecc_bounds only as the warning flag."
  },
  {
   "property": "C219",
   "status": "proved",
   "theorems": [
    "Improver.C219_probabilities",
    "Improver.C219_relation_refused",
    "Improver.C219_bounds_refused",
    "Improver.C219_collapse",
    "Improver.C219_default",
    "Improver.C219_collapse_refused",
    "Improver.C219_rebadge",
    "Improver.C219_nothing_to_do"
   ],
   "note": "Data without masks (the slow percentile method for masked data is not modelled); linear interpolation as numpy's default."
  },
  {
   "property": "C220",
   "status": "proved",
   "theorems": [
    "Improver.C220_cubes",
    "Improver.C220_accepted",
    "Improver.C220_same_grid"
   ],
   "note": "Metadata only; the values of the coefficients are C120-C122. Coordinates as exact numbers; the extra predictor coordinates of beta are not modelled."
  },
  {
   "property": "C221",
   "status": "partial",
   "theorems": [
    "Improver.C221_pairs",
    "Improver.C221_accepted",
    "Improver.C221_fields_changed_refuted"
   ],
   "note": "Acceptance is exact; refuted that inputs stay unchanged: the cubes of additional predictors are masked in place (C221_fields_changed_refuted). NaN flags stand for the data; unit conversion as a relation."
  },
  {
   "property": "C222",
   "status": "partial",
   "theorems": [
    "Improver.C222_warnings",
    "Improver.C222_first_guess_refuted"
   ],
   "note": "Proved for every course with at least two recorded iterations; with only the starting point recorded an IndexError is raised (C222_first_guess_refuted). The minimiser itself is a parameter."
  },
  {
   "property": "C223",
   "status": "partial",
   "theorems": [
    "Improver.C223_outcome",
    "Improver.C223_kind",
    "Improver.C223_precedence_refuted",
    "Improver.C223_realizations_refuted"
   ],
   "note": "Outcome and comment proved; the kind is the same only if no percentiles are asked for or there is no template, refuted otherwise (C223_precedence_refuted), and for realizations with percentiles asked for (C223_realizations_refuted)."
  },
  {
   "property": "C224",
   "status": "proved",
   "theorems": [
    "Improver.C224_realizations",
    "Improver.C224_order"
   ],
   "note": "One time; random numbers as parameter; exact real arithmetic."
  },
  {
   "property": "C225",
   "status": "proved",
   "theorems": [
    "Improver.C225_local",
    "Improver.C225_plain",
    "Improver.C225_lapse",
    "Improver.C225_collapse"
   ],
   "note": "Data without masks, exact numbers; title and other metadata are not modelled."
  },
  {
   "property": "C226",
   "status": "partial",
   "theorems": [
    "Improver.C226_extracted",
    "Improver.C226_resampled",
    "Improver.C226_probabilities",
    "Improver.C226_members",
    "Improver.C226_skip",
    "Improver.C226_single_refuted",
    "Improver.C226_bounds_refuted"
   ],
   "note": "All four ways proved; refuted: a single number as documented (C226_single_refuted), and the options about ECC bounds have no effect when percentiles are resampled (C226_bounds_refuted)."
  },
  {
   "property": "C227",
   "status": "proved",
   "theorems": [
    "Improver.C227_warnings",
    "Improver.C227_spots_lapse",
    "Improver.C227_subset",
    "Improver.C227_cube_wins",
    "Improver.C227_not_temperature"
   ],
   "note": "Warnings on gridded data; data without masks."
  },
  {
   "property": "C228",
   "status": "proved",
   "theorems": [
    "Improver.C228_accepted",
    "Improver.C228_counts",
    "Improver.C228_all_pairs",
    "Improver.C228_pointwise"
   ],
   "note": "Floats next to the bin edges are parameters with the stated bounds; attributes and other coordinates of the tables are not modelled."
  },
  {
   "property": "C229",
   "status": "proved",
   "theorems": [
    "Improver.C229_monotone",
    "Improver.C229_range"
   ],
   "note": "Exact arithmetic (the code uses float32); tables that are masked everywhere are excluded."
  },
  {
   "property": "C230",
   "status": "partial",
   "theorems": [
    "Improver.C230_accepted",
    "Improver.C230_result",
    "Improver.C230_warnings",
    "Improver.C230_same_tables",
    "Improver.C230_same_location_refuted"
   ],
   "note": "Proved as stated except that two points with the same coordinates, each with its own table, cannot be calibrated (C230_same_location_refuted). Masks of the forecast and the merge back into a cube are not modelled."
  },
  {
   "property": "C231",
   "status": "partial",
   "theorems": [
    "Improver.C231_limits",
    "Improver.C231_realizations",
    "Improver.C231_single",
    "Improver.C231_options",
    "Improver.C231_thin_refuted",
    "Improver.C231_order_refuted"
   ],
   "note": "Proved for y before x; refuted: grids of one row or column without realizations are refused (C231_thin_refuted), with x before y temperature and orography are combined at different points (C231_order_refuted)."
  },
  {
   "property": "C232",
   "status": "partial",
   "theorems": [
    "Improver.C232_value",
    "Improver.C232_complete",
    "Improver.C232_missing_refuted"
   ],
   "note": "Proved for inputs with different names; refuted: a missing input passes if another name comes twice (C232_missing_refuted)."
  },
  {
   "property": "C233",
   "status": "partial",
   "theorems": [
    "Improver.C233_added",
    "Improver.C233_refused",
    "Improver.C233_mask_refuted"
   ],
   "note": "Dimensions and values proved; refuted for the mask, which is lost (C233_mask_refuted)."
  },
  {
   "property": "C234",
   "status": "partial",
   "theorems": [
    "Improver.C234_single",
    "Improver.C234_merged",
    "Improver.C234_close_refuted"
   ],
   "note": "Proved with lengths agreeing to one part in 100000; refuted for equal lengths (C234_close_refuted). One coordinate tells the cubes apart; other coordinates are not modelled."
  },
  {
   "property": "C235",
   "status": "proved",
   "theorems": [
    "Improver.C235_init",
    "Improver.C235_models",
    "Improver.C235_other"
   ],
   "note": "Records of runs (C184) and attributes (C234) are left out; coordinates other than cycle, period, time bounds, blend time and blend coordinate are not modelled."
  },
  {
   "property": "C236",
   "status": "partial",
   "theorems": [
    "Improver.C236_result",
    "Improver.C236_order",
    "Improver.C236_refused",
    "Improver.C236_probability_refuted"
   ],
   "note": "Proved as stated; refuted: two bounds that are both the reference itself are refused for probabilities (C236_probability_refuted). Data without masks, fields of one shape."
  },
  {
   "property": "C237",
   "status": "partial",
   "theorems": [
    "Improver.C237_result",
    "Improver.C237_total",
    "Improver.C237_units_refuted"
   ],
   "note": "Proved for the numbers; refuted for amounts in different units (C237_units_refuted): units are not looked at. Data without masks, fields of one shape."
  },
  {
   "property": "C238",
   "status": "partial",
   "theorems": [
    "Improver.C238_plugin",
    "Improver.C238_several",
    "Improver.C238_one",
    "Improver.C238_scalar",
    "Improver.C238_physical",
    "Improver.C238_width_refuted"
   ],
   "note": "Command and plugin for cubes of plain values; percentile cubes and directions in degrees are not modelled. The conversion of widths between units with different zeros is refuted (C238_width_refuted)."
  },
  {
   "property": "C239",
   "status": "partial",
   "theorems": [
    "Improver.C239_values",
    "Improver.C239_probabilities",
    "Improver.C239_refused",
    "Improver.C239_single_site_refuted",
    "Improver.C239_layout_refuted"
   ],
   "note": "Interpolation over (site, threshold) is modelled as linear interpolation along the thresholds of the site. Single sites and leading site dimensions are refuted; decreasing probabilities are refuted under C82."
  },
  {
   "property": "C240",
   "status": "partial",
   "theorems": [
    "Improver.C240_common",
    "Improver.C240_realizations",
    "Improver.C240_single",
    "Improver.C240_needs",
    "Improver.C240_roles_refuted"
   ],
   "note": "Proved for cubes that all or none have (the same) realizations and one freezing threshold; that rain and sleet are different cubes is refuted (C240_roles_refuted)."
  },
  {
   "property": "C241",
   "status": "partial",
   "theorems": [
    "Improver.C241_one_of_each",
    "Improver.C241_names",
    "Improver.C241_fraction",
    "Improver.C241_fraction_needs",
    "Improver.C241_split",
    "Improver.C241_percent_refuted"
   ],
   "note": "Order, units and checks proved; that the splitter understands per cent is refuted (C241_percent_refuted). Filling of points without precipitation is C61."
  },
  {
   "property": "C242",
   "status": "partial",
   "theorems": [
    "Improver.C242_value",
    "Improver.C242_needs",
    "Improver.C242_cloud_direction_refuted"
   ],
   "note": "Order and checks proved; inversion of a cloud base given as above is refuted (C242_cloud_direction_refuted). Cloud base with one threshold."
  },
  {
   "property": "C243",
   "status": "partial",
   "theorems": [
    "Improver.C243_class",
    "Improver.C243_models",
    "Improver.C243_accepted",
    "Improver.C243_same_number_refuted",
    "Improver.C243_no_thresholds_refuted",
    "Improver.C243_splits"
   ],
   "note": "Proved for keys of different numbers and lead times with thresholds; otherwise refuted (C243_same_number_refuted, C243_no_thresholds_refuted). Loading of models is not modelled; model files as lines already split into fields."
  },
  {
   "property": "C244",
   "status": "partial",
   "theorems": [
    "Improver.C244_order",
    "Improver.C244_units",
    "Improver.C244_binning",
    "Improver.C244_distribution",
    "Improver.C244_cli_thresholds"
   ],
   "note": "Proved for forecasts whose leading dimension is realization; binning under the hypothesis that no value is at a split (otherwise refuted, C186_equal_refuted). Order of dimensions and equal names are refuted under C189."
  },
  {
   "property": "C245",
   "status": "partial",
   "theorems": [
    "Improver.C245_made",
    "Improver.C245_mean_error",
    "Improver.C245_described",
    "Improver.C245_realizations_refuted"
   ],
   "note": "Instantaneous forecasts and truths or both of periods, reference times without limits, exact arithmetic, one value per point and time. That several realizations are always refused is refuted when there also is a percentile dimension (C245_realizations_refuted)."
  },
  {
   "property": "C246",
   "status": "proved",
   "theorems": [
    "Improver.C246_recognised",
    "Improver.C246_accepted",
    "Improver.C246_no_mean_error",
    "Improver.C246_not_averaged"
   ],
   "note": "Exact arithmetic, same hypotheses as C245."
  },
  {
   "property": "C247",
   "status": "proved",
   "theorems": [
    "Improver.C247_made",
    "Improver.C247_values",
    "Improver.C247_limits",
    "Improver.C247_steeper",
    "Improver.C247_order",
    "Improver.C247_orography_turned_refuted"
   ],
   "note": "Exact arithmetic, power as a parameter, no circular x axis. That the orography of the caller is turned round is C247_orography_turned_refuted."
  },
  {
   "property": "C248",
   "status": "proved",
   "theorems": [
    "Improver.C248_accepted",
    "Improver.C248_filtered",
    "Improver.C248_x_first_refuted"
   ],
   "note": "The field of the filter is one slice of one time. For x, y order the coefficients come in x, y order (C248_x_first_refuted)."
  },
  {
   "property": "C249",
   "status": "proved",
   "theorems": [
    "Improver.C249_values",
    "Improver.C249_refused",
    "Improver.C249_own_column",
    "Improver.C249_input_filled_refuted",
    "Improver.C249_realization_order_refuted"
   ],
   "note": "The interpolation of one column (stratify) is a parameter; 32-bit casts are not modelled. Where realization is not first among the other dimensions, values can be put at other points (C249_realization_order_refuted); the caller's cube is filled (C249_input_filled_refuted)."
  },
  {
   "property": "C250",
   "status": "proved",
   "theorems": [
    "Improver.C250_value",
    "Improver.C250_range",
    "Improver.C250_complete",
    "Improver.C250_no_hail",
    "Improver.C250_melting",
    "Improver.C250_level_unit_refuted"
   ],
   "note": "Data without masks; vertical interpolation and Newton solver are parameters; exact reals; dimension order as the plugin makes it. That the unit of the pressure coordinate is ignored is C250_level_unit_refuted."
  },
  {
   "property": "C251",
   "status": "partial",
   "theorems": [
    "Improver.C251_without_bounds",
    "Improver.C251_integral",
    "Improver.C251_level",
    "Improver.C251_integral_units",
    "Improver.C251_temperature_unit",
    "Improver.C251_top_layer_refuted",
    "Improver.C251_height_unit_refuted",
    "Improver.C251_level_order_refuted",
    "Improver.C251_caller_refuted",
    "Improver.C251_refused"
   ],
   "note": "Refuted: a level within the layer below the top is put at the top (C251_top_layer_refuted); the sea extrapolation uses the heights in whatever unit they have (C251_height_unit_refuted) and the first five levels as stored (C251_level_order_refuted); the caller's temperature cube is converted (C251_caller_refuted). stratify and griddata are modelled or parameters as in C150 and C151; exact numbers."
  },
  {
   "property": "C252",
   "status": "partial",
   "theorems": [
    "Improver.C252_mean",
    "Improver.C252_equal",
    "Improver.C252_percentiles",
    "Improver.C252_refused",
    "Improver.C252_rank_refuted",
    "Improver.C252_dropped_refuted",
    "Improver.C252_length_one_refuted",
    "Improver.C252_reversed_refuted"
   ],
   "note": "Masked percentiles and directions in degrees are not modelled. C252_rank_refuted, C252_dropped_refuted, C252_length_one_refuted and C252_reversed_refuted are defects: weights for other blend points are used by rank, and in four dimensions slices without weights are dropped, a second dimension of length one is lost and a descending one reversed."
  },
  {
   "property": "C253",
   "status": "partial",
   "theorems": [
    "Improver.C253_result",
    "Improver.C253_refused",
    "Improver.C253_realization_broadcast_refuted",
    "Improver.C253_single_realization_refuted",
    "Improver.C253_reuse_refuted",
    "Improver.C253_product_method_refuted",
    "Improver.C253_single_first_refuted"
   ],
   "note": "Values, dimensions and metadata are proved for all cubes that agree on their points (C253_result, with C49 for the values), and what is refused (C253_refused); a realization dimension of length one, a cube with one realization and reuse of the plugin are counterexamples (C253_*_refuted). Data types and the renaming of products are not modelled here (see C49 and C198)."
  },
  {
   "property": "C254",
   "status": "partial",
   "theorems": [
    "Improver.C254_probabilities",
    "Improver.C254_vicinity",
    "Improver.C254_labels",
    "Improver.C254_refused",
    "Improver.C254_order_refuted",
    "Improver.C254_radius_order_refuted",
    "Improver.C254_fuzzy_mask_refuted",
    "Improver.C254_axes_refuted"
   ],
   "note": "Values, labels, dimensions and name are proved (C254_probabilities, C254_vicinity, C254_labels, C254_refused). Refuted: thresholds or radii given out of order are mislabelled (C254_order_refuted, C254_radius_order_refuted), fuzzy bounds lose the mask in a vicinity (C254_fuzzy_mask_refuted), the vicinity is over the last two dimensions whatever they are (C254_axes_refuted). Data types, percentile rebadging and cell methods are not modelled here."
  },
  {
   "property": "C255",
   "status": "partial",
   "theorems": [
    "Improver.C255_result",
    "Improver.C255_refused",
    "Improver.C255_land_order_refuted"
   ],
   "note": "Proved for all cubes with a land mask on (y, x) (C255_result, C255_refused); a land mask on (x, y) of a square grid is used transposed (C255_land_order_refuted). Data are float32 (see C68 for integers), further coordinates are not modelled."
  },
  {
   "property": "C256",
   "status": "partial",
   "theorems": [
    "Improver.C256_result",
    "Improver.C256_refused",
    "Improver.C256_axes_refuted",
    "Improver.C256_percent_refuted"
   ],
   "note": "Proved for cloud and convection on the same dimensions in the same order (C256_result, C256_refused); otherwise refuted (C256_axes_refuted), and units are ignored (C256_percent_refuted). Metadata of the result are in C168 and Model/Convection."
  },
  {
   "property": "C257",
   "status": "partial",
   "theorems": [
    "Improver.C257_result",
    "Improver.C257_refused",
    "Improver.C257_input_changed_refuted",
    "Improver.C257_grid_refuted",
    "Improver.C257_units"
   ],
   "note": "Proved for cubes with the same dimensions in any order (C257_result, C257_refused); otherwise refuted (C257_grid_refuted), units are ignored (C257_units) and the caller's cube is changed (C257_input_changed_refuted). Masks and data types are not modelled."
  },
  {
   "property": "C258",
   "status": "partial",
   "theorems": [
    "Improver.C258_sum",
    "Improver.C258_circular_mean",
    "Improver.C258_square_mean",
    "Improver.C258_refused",
    "Improver.C258_one_point_refuted",
    "Improver.C258_mask_axes_refuted"
   ],
   "note": "Proved for sums and circular means everywhere and for square means away from the edges (C258_sum, C258_circular_mean, C258_square_mean; near edges C27 refutes exactness) and refusals (C258_refused); dimensions of one point are lost (C258_one_point_refuted) and a mask on (x, y) is used transposed (C258_mask_axes_refuted). Complex data in Model/Wind."
  },
  {
   "property": "C259",
   "status": "proved",
   "theorems": [
    "Improver.C259_result",
    "Improver.C259_normalised",
    "Improver.C259_refused"
   ],
   "note": "C259_result (for ascending tables; others are in C38), C259_normalised, C259_refused. Coordinates kept on the weights and data types are not modelled."
  },
  {
   "property": "C260",
   "status": "partial",
   "theorems": [
    "Improver.C260_value",
    "Improver.C260_complete",
    "Improver.C260_buoyant",
    "Improver.C260_level_unit_refuted",
    "Improver.C260_level_order_refuted"
   ],
   "note": "Proved for pressure levels in Pa in the order given (C260_value, C260_complete, C260_buoyant); the unit of the levels is ignored (C260_level_unit_refuted) and their order changes the result (C260_level_order_refuted). Masks, attributes and broadcasting are not modelled."
  },
  {
   "property": "C261",
   "status": "partial",
   "theorems": [
    "Improver.C261_humidity",
    "Improver.C261_level",
    "Improver.C261_saturated",
    "Improver.C261_units_refuted"
   ],
   "note": "Proved for inputs in SI units on one grid (C261_humidity, C261_level, C261_saturated); units and grids are ignored (C261_units_refuted). The root finder is a parameter; attributes and the removal of the height are not modelled."
  },
  {
   "property": "C262",
   "status": "partial",
   "theorems": [
    "Improver.C262_single",
    "Improver.C262_levels",
    "Improver.C262_saturated",
    "Improver.C262_refused",
    "Improver.C262_grid_refuted"
   ],
   "note": "Proved for inputs on one grid and the same levels (C262_single, C262_levels, C262_saturated, C262_refused); grids and level points are ignored (C262_grid_refuted). Broadcasting and attributes are not modelled."
  },
  {
   "property": "C263",
   "status": "proved",
   "theorems": [
    "Improver.C263_result",
    "Improver.C263_refused",
    "Improver.C263_methods_again",
    "Improver.C263_combine_reuse_refuted"
   ],
   "note": "C263_result, C263_refused, C263_methods_again; without a minimum number of realizations (C49, C52), times as scalar coordinates in seconds. C263_combine_reuse_refuted: a Combine plugin made without a name names later results after its first input (MaxInTimeWindow makes a new one each time)."
  },
  {
   "property": "C264",
   "status": "partial",
   "theorems": [
    "Improver.C264_value",
    "Improver.C264_range",
    "Improver.C264_refused",
    "Improver.C264_labels_refuted"
   ],
   "note": "Proved for ascending percentiles (C264_value), and the range for any (C264_range, C264_refused); in another order the values are labelled wrongly (C264_labels_refuted). Complex data and other coordinates that are not ascending are not modelled."
  },
  {
   "property": "C265",
   "status": "proved",
   "theorems": [
    "Improver.C265_trimmed",
    "Improver.C265_refused"
   ],
   "note": "C265_trimmed, C265_refused; coordinates other than dimension coordinates, and halos that leave no points, are not modelled."
  },
  {
   "property": "C266",
   "status": "proved",
   "theorems": [
    "Improver.C266_without_halo",
    "Improver.C266_halo",
    "Improver.C266_square_mean",
    "Improver.C266_refused",
    "Improver.C266_mask_ignored_refuted"
   ],
   "note": "C266_halo, C266_square_mean, C266_refused. C266_mask_ignored_refuted: a mask given with percentiles is ignored. Angles as complex numbers are not modelled."
  },
  {
   "property": "C267",
   "status": "proved",
   "theorems": [
    "Improver.C267_probability",
    "Improver.C267_probability_only",
    "Improver.C267_realizations",
    "Improver.C267_percentile",
    "Improver.C267_percentile_only"
   ],
   "note": "C267_probability, C267_probability_only, C267_percentile, C267_percentile_only, C267_realizations; masks, data types and cell methods are not modelled."
  },
  {
   "property": "C268",
   "status": "partial",
   "theorems": [
    "Improver.C268_grid",
    "Improver.C268_centred",
    "Improver.C268_times",
    "Improver.C268_dimensions",
    "Improver.C268_fits",
    "Improver.C268_variable",
    "Improver.C268_percentile",
    "Improver.C268_probability",
    "Improver.C268_refused",
    "Improver.C268_single_percentile_refuted",
    "Improver.C268_single_realization_refuted",
    "Improver.C268_one_kind"
   ],
   "note": "Proved for leading dimensions and levels of two or more points (C268_variable, C268_percentile, C268_probability, C268_dimensions, C268_grid, C268_times, C268_fits, C268_centred, C268_refused, C268_one_kind); a single percentile or threshold is refused and a single realization is lost (C268_single_percentile_refuted, C268_single_realization_refuted). Bounds of the spatial coordinates, coordinate systems, data types, and spot cubes are not modelled."
  },
  {
   "property": "C269",
   "status": "proved",
   "theorems": [
    "Improver.C269_accumulations",
    "Improver.C269_succeeds",
    "Improver.C269_tile",
    "Improver.C269_limits",
    "Improver.C269_example",
    "Improver.C269_gaps_refuted",
    "Improver.C269_bounds_refuted"
   ],
   "note": "C269_accumulations, C269_succeeds, C269_tile, C269_limits, C269_example. Findings: C269_gaps_refuted (an interval longer than the period leaves minutes out without a warning), C269_bounds_refuted (time bounds of the analysis become those of every accumulation)."
  },
  {
   "property": "C270",
   "status": "partial",
   "theorems": [
    "Improver.C270_coords",
    "Improver.C270_result",
    "Improver.C270_standards",
    "Improver.C270_again",
    "Improver.C270_again_refuted",
    "Improver.C270_given"
   ],
   "note": "Proved for the whole plugin (C270_result, C270_coords, C270_given, C270_standards); stability under repetition (C270_again) holds when no attribute is written with {} or {now:}, and is refuted otherwise (C270_again_refuted: the attribute is extended each time)."
  },
  {
   "property": "C271",
   "status": "partial",
   "theorems": [
    "Improver.C271_result",
    "Improver.C271_order",
    "Improver.C271_refused",
    "Improver.C271_time",
    "Improver.C271_observation",
    "Improver.C271_match",
    "Improver.C271_bound",
    "Improver.C271_seconds_refuted"
   ],
   "note": "Proved for fields a whole number of minutes apart (C271_result, C271_time, C271_match, C271_bound, C271_observation, C271_order, C271_refused). Refuted otherwise (C271_seconds_refuted): the displacement is taken to have happened in the seconds left over."
  },
  {
   "property": "C272",
   "status": "proved",
   "theorems": [
    "Improver.C272_accepted",
    "Improver.C272_values",
    "Improver.C272_members",
    "Improver.C272_single",
    "Improver.C272_bad_speed",
    "Improver.C272_level",
    "Improver.C272_nonnegative",
    "Improver.C272_heights_refuted"
   ],
   "note": "C272_heights_refuted records that units of heights are ignored and level numbers are used as metres"
  },
  {
   "property": "C273",
   "status": "partial",
   "theorems": [
    "Improver.C273_values_partial",
    "Improver.C273_accepted",
    "Improver.C273_order_refuted",
    "Improver.C273_masked_refuted",
    "Improver.C273_periods_refuted"
   ],
   "note": "Proved for cubes with the spatial dimensions last, time just before them (C273_values_partial, C273_accepted); refuted for other orders (C273_order_refuted), several times with bounds (C273_periods_refuted) and masked data (C273_masked_refuted)."
  },
  {
   "property": "C274",
   "status": "proved",
   "theorems": [
    "Improver.C274_value",
    "Improver.C274_range",
    "Improver.C274_metadata",
    "Improver.C274_refused",
    "Improver.C274_spacing_error",
    "Improver.C274_order_refuted",
    "Improver.C274_negative_refuted",
    "Improver.C274_solar_time"
   ],
   "note": "C274_order_refuted and C274_negative_refuted record that altitudes stored as (x, y) are used transposed on a square grid (refused otherwise) and that a negative period gives 0 everywhere with reversed time bounds."
  },
  {
   "property": "C275",
   "status": "proved",
   "theorems": [
    "Improver.C275_history",
    "Improver.C275_values"
   ],
   "note": ""
  },
  {
   "property": "C276",
   "status": "proved",
   "theorems": [
    "Improver.C276_plain",
    "Improver.C276_masked"
   ],
   "note": ""
  },
  {
   "property": "C277",
   "status": "proved",
   "theorems": [
    "Improver.C277_result",
    "Improver.C277_order",
    "Improver.C277_refused",
    "Improver.C277_bound",
    "Improver.C277_dry",
    "Improver.C277_dry_first"
   ],
   "note": ""
  },
  {
   "property": "C278",
   "status": "proved",
   "theorems": [
    "Improver.C278_result",
    "Improver.C278_order",
    "Improver.C278_refused",
    "Improver.C278_between",
    "Improver.C278_members_refuted"
   ],
   "note": "C278_members_refuted records that realizations are not weighted equally when cycles have different numbers of them."
  },
  {
   "property": "C279",
   "status": "partial",
   "theorems": [
    "Improver.C279_result",
    "Improver.C279_shortest_way",
    "Improver.C279_opposite",
    "Improver.C279_inputs_changed_refuted"
   ],
   "note": "the result, the short way round and the opposite directions are proved; that the inputs are left unchanged is refuted (C279_inputs_changed_refuted)"
  },
  {
   "property": "C280",
   "status": "partial",
   "theorems": [
    "Improver.C280_order",
    "Improver.C280_order_directions",
    "Improver.C280_times",
    "Improver.C280_outside",
    "Improver.C280_equal_times_refuted"
   ],
   "note": "order independence is proved for different times; it is refuted for equal times (C280_equal_times_refuted)"
  },
  {
   "property": "C281",
   "status": "partial",
   "theorems": [
    "Improver.C281_blend",
    "Improver.C281_masked",
    "Improver.C281_between",
    "Improver.C281_template",
    "Improver.C281_template_refuted"
   ],
   "note": "the blend, its range and its masked points are proved; that masks varying along a further dimension are always refused is refuted (C281_template_refuted): they are only compared if the first slice has a masked point"
  },
  {
   "property": "C282",
   "status": "proved",
   "theorems": [
    "Improver.C282_refused",
    "Improver.C282_unknown",
    "Improver.C282_linear",
    "Improver.C282_nonlinear",
    "Improver.C282_values",
    "Improver.C282_one_input",
    "Improver.C282_irrelevant",
    "Improver.C282_zero_refuted",
    "Improver.C282_vicinity"
   ],
   "note": "C282_zero_refuted records that zeros are ignored although the documentation promises an error whenever the option is not None. Closed forms of the weights without spatial weights (with them see C281)."
  },
  {
   "property": "C283",
   "status": "proved",
   "theorems": [
    "Improver.C283_values",
    "Improver.C283_layout",
    "Improver.C283_exact",
    "Improver.C283_affine",
    "Improver.C283_even",
    "Improver.C283_contours",
    "Improver.C283_level",
    "Improver.C283_bound",
    "Improver.C283_edges_refuted"
   ],
   "note": "Heights and coordinates are exact rationals in metres; with fewer than three points on an axis (a single midpoint, from which iris cannot interpolate) the model refuses. C283_edges_refuted is a finding: at the edges of the grid the extrapolated gradient can have the wrong sign."
  },
  {
   "property": "C284",
   "status": "proved",
   "theorems": [
    "Improver.C284_same",
    "Improver.C284_pairing",
    "Improver.C284_message",
    "Improver.C284_unchecked",
    "Improver.C284_rescale",
    "Improver.C284_extract",
    "Improver.C284_aligned",
    "Improver.C284_table_predictors",
    "Improver.C284_order_refuted",
    "Improver.C284_message_refuted"
   ],
   "note": "Findings: C284_message_refuted (the same sites in another order are refused with an empty list of mismatching sites) and C284_order_refuted (in estimation from a table the sites of a predictor are not checked to be in the order of the truths: values of other sites are used). One value per site; other dimensions are not modelled."
  },
  {
   "property": "C285",
   "status": "partial",
   "theorems": [
    "Improver.C285_accepted",
    "Improver.C285_times",
    "Improver.C285_order",
    "Improver.C285_interval",
    "Improver.C285_interval_refuted",
    "Improver.C285_gaps_refuted"
   ],
   "note": "Everything but the interval is proved as stated; the interval is right for whole hours (C285_interval) and 0 hours for shorter periods (C285_interval_refuted). Also a finding: gaps between the inputs go unnoticed (C285_gaps_refuted). Times are whole seconds; blend_time, handled like the reference time, and the run record are not modelled."
  },
  {
   "property": "C286",
   "status": "proved",
   "theorems": [
    "Improver.C286_any_order",
    "Improver.C286_same_order",
    "Improver.C286_order_refuted",
    "Improver.C286_fewer_truths",
    "Improver.C286_grid",
    "Improver.C286_x_first_refuted",
    "Improver.C286_mixed_refuted"
   ],
   "note": "Proved as stated for sites (any order characterised exactly) and grids. Findings: sites in another order (C286_order_refuted) or truths with x first on a square grid (C286_mixed_refuted) mix the data of different points unnoticed; forecasts with x first fail unless the grid is square (C286_x_first_refuted). The regression and the minimisation are parameters; the default guess is a constant g."
  },
  {
   "property": "C287",
   "status": "proved",
   "theorems": [
    "Improver.C287_level",
    "Improver.C287_tolerance",
    "Improver.C287_unit_refuted"
   ],
   "note": "Proved as stated, exactly (an iff). Finding: the tolerance of 0.1 is in the unit of the boundary height, so 1 km takes a level at 950 m and refuses levels at 1000 m and 1050 m (C287_unit_refuted). Other coordinates are one token; two-dimensional grids; exact arithmetic for the change of units."
  },
  {
   "property": "C288",
   "status": "partial",
   "theorems": [
    "Improver.C288_projected",
    "Improver.C288_latlon",
    "Improver.C288_circumference",
    "Improver.C288_circular",
    "Improver.C288_refused",
    "Improver.C288_x_first_refuted",
    "Improver.C288_units_refuted"
   ],
   "note": "Everything but the last sentence is proved as stated (C288_projected, C288_latlon, C288_circumference, C288_refused). Findings: the cube given has its axes in metres afterwards (C288_units_refuted); a projected grid with x first is refused unless square (C288_x_first_refuted). Exact rationals; the cosine of a latitude and the conversion of degrees are parameters."
  },
  {
   "property": "C289",
   "status": "proved",
   "theorems": [
    "Improver.C289_single",
    "Improver.C289_none",
    "Improver.C289_accepted",
    "Improver.C289_times",
    "Improver.C289_shortest",
    "Improver.C289_distinct",
    "Improver.C289_clash",
    "Improver.C289_order",
    "Improver.C289_order_refuted",
    "Improver.C289_stepwise",
    "Improver.C289_stepwise_refuted"
   ],
   "note": "Order and stepwise lagging are proved for ensembles whose numbers all differ and refuted for others; times are in seconds."
  },
  {
   "property": "C290",
   "status": "proved",
   "theorems": [
    "Improver.C290_single",
    "Improver.C290_sums",
    "Improver.C290_sums_one",
    "Improver.C290_reference_time",
    "Improver.C290_coordinate_order",
    "Improver.C290_stepwise",
    "Improver.C290_commute",
    "Improver.C290_callers_list",
    "Improver.C290_accepted",
    "Improver.C290_callers_list_refuted"
   ],
   "note": "C290_callers_list_refuted: the list of coordinates passed by the caller gets the reference time appended (reliability_calibration.py:599). Tables that differ in other scalar coordinates are taken as refused; a collapse in which no dimension is left is an error."
  },
  {
   "property": "C291",
   "status": "proved",
   "theorems": [
    "Improver.C291_made",
    "Improver.C291_contains",
    "Improver.C291_width",
    "Improver.C291_roundtrip",
    "Improver.C291_refused",
    "Improver.C291_command",
    "Improver.C291_reach_refuted"
   ],
   "note": "C291_reach_refuted: the halo is the whole number of cells in the radius, so the outermost cells may end short of it (pad_spatial.py:91-92). Points are in metres; float32 rounding of the points is not modelled."
  },
  {
   "property": "C292",
   "status": "proved",
   "theorems": [
    "Improver.C292_velocities",
    "Improver.C292_refused",
    "Improver.C292_shift",
    "Improver.C292_exchanged",
    "Improver.C292_mixed",
    "Improver.C292_extra",
    "Improver.C292_order_refuted"
   ],
   "note": "C292_order_refuted: the order of the dimensions is not looked at (forecasting.py:336-342, 176): a field stored as (x, y) in an eastward flow is moved north. Displacements of whole cells are stated here, others are in C91; numpy error kinds for shapes that differ are taken as ValueError."
  },
  {
   "property": "C293",
   "status": "proved",
   "theorems": [
    "Improver.C293_no_json",
    "Improver.C293_request",
    "Improver.C293_members",
    "Improver.C293_realizations",
    "Improver.C293_percentiles",
    "Improver.C293_thresholds",
    "Improver.C293_two_kinds",
    "Improver.C293_times",
    "Improver.C293_period",
    "Improver.C293_height_levels_refuted",
    "Improver.C293_defaults"
   ],
   "note": "C293_height_levels_refuted: the key \"height_levels\" that the documentation of the command gives for levels is not read (cli/generate_metadata_cube.py:55-58, utilities.py:70-76 read \"heights\" and \"pressures\"): the levels are lost without word. Only documented JSON keys without null are modelled."
  },
  {
   "property": "C294",
   "status": "proved",
   "theorems": [
    "Improver.C294_accepted",
    "Improver.C294_attributes",
    "Improver.C294_identifiers",
    "Improver.C294_scalars",
    "Improver.C294_sites",
    "Improver.C294_only",
    "Improver.C294_order_refuted"
   ],
   "note": "C294_order_refuted: transposing the diagnostic does not transpose the points of its two-dimensional coordinates, which are then read by position (spot_extraction.py:172, 290): a coordinate stored as (x, y) gives the sites the points of other cells, with values of the right ones. Further dimensions and their coordinates are in C191 and not here."
  },
  {
   "property": "C295",
   "status": "proved",
   "theorems": [
    "Improver.C295_same_hour",
    "Improver.C295_range",
    "Improver.C295_found",
    "Improver.C295_minutes_refuted",
    "Improver.C295_range_refuted"
   ],
   "note": "C295_minutes_refuted and C295_range_refuted: minutes are dropped (temporal.py:150, 155-157), so that another time of the same hour is returned for the one asked for, and a range that ends within an hour loses the times of that hour. That iris compares cells with bounds by their last bound here is taken from iris, as is the order of partial times."
  }
 ]
}