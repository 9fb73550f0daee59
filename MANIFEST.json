{
 "claims": [
  {
   "property": "C01",
   "status": "proved",
   "theorems": [
    "Verif.Props.sorter_counts_boundaries",
    "Verif.Props.sorter_interval",
    "Verif.Props.sorter_length"
   ],
   "note": ""
  },
  {
   "property": "C02",
   "status": "proved",
   "theorems": [
    "Verif.Props.wrap_longitude_congruent",
    "Verif.Props.wrap_longitude_range",
    "Verif.Props.wrap_longitude_idempotent",
    "Verif.Props.wrap_longitude_not_idempotent_below"
   ],
   "note": "Idempotence holds for inputs >= -360, and is shown false below."
  },
  {
   "property": "C03",
   "status": "proved",
   "theorems": [
    "Verif.Props.wrap_longitude_keeps_differences",
    "Verif.Props.wrap_longitude_keeps_differences_in_boxes",
    "Verif.Props.wrap_longitude_can_break_differences"
   ],
   "note": "Windows: 40 degrees either side of Greenwich, and the box windows find_25boxes can choose. A witness shows the claim false for wider sets."
  },
  {
   "property": "C04",
   "status": "proved",
   "theorems": [
    "Verif.Props.cal2dec_exact",
    "Verif.Props.cal2dec_range",
    "Verif.Props.cal2dec_strict_mono",
    "Verif.Props.cal2dec_leap_day_collides"
   ],
   "note": "29 February collides with 1 March."
  },
  {
   "property": "C05",
   "status": "proved",
   "theorems": [
    "Verif.Props.cal2dec_only_value_error",
    "Verif.Props.cal2dec_bad_month",
    "Verif.Props.cal2dec_fails_iff",
    "Verif.Props.cal2dec_negative_month"
   ],
   "note": "Month index 12 and negative indices are accepted by the code."
  },
  {
   "property": "C06",
   "status": "proved",
   "theorems": [
    "Verif.Props.change_dates_elementwise",
    "Verif.Props.change_dates_bad_date_is_zero",
    "Verif.Props.change_dates_short_is_zero",
    "Verif.Props.change_dates_negative",
    "Verif.Props.change_dates_float_day_is_zero"
   ],
   "note": "Finding: valid 8-digit dates in a float array become 0."
  },
  {
   "property": "C07",
   "status": "proved",
   "theorems": [
    "Verif.Props.change_dates_exact",
    "Verif.Props.change_dates_strict_mono"
   ],
   "note": ""
  },
  {
   "property": "C08",
   "status": "proved",
   "theorems": [
    "Verif.Props.potential_vorticity_ne_zero",
    "Verif.Props.potential_vorticity_sign",
    "Verif.Props.potential_vorticity_antisymm",
    "Verif.Props.potential_vorticity_equator",
    "Verif.Props.potential_vorticity_value"
   ],
   "note": ""
  },
  {
   "property": "C09",
   "status": "proved",
   "theorems": [
    "Verif.Props.spatial_correlation_nonneg",
    "Verif.Props.spatial_correlation_symm",
    "Verif.Props.spatial_correlation_eq_zero_iff",
    "Verif.Props.spatial_correlation_antitone",
    "Verif.Props.spatial_correlation_pv_bounded"
   ],
   "note": ""
  },
  {
   "property": "C10",
   "status": "proved",
   "theorems": [
    "Verif.Props.besthist_only_inside"
   ],
   "note": ""
  },
  {
   "property": "C11",
   "status": "proved",
   "theorems": [
    "Verif.Props.besthist_few_returns_all",
    "Verif.Props.besthist_zero_depth_fails"
   ],
   "note": "With the potential vorticity constraint all depths must be non-zero: a cast of depth 0 makes the call fail (proved)."
  },
  {
   "property": "C12",
   "status": "proved",
   "theorems": [
    "Verif.Props.besthist_many_exact_size"
   ],
   "note": ""
  },
  {
   "property": "C13",
   "status": "partial",
   "theorems": [
    "Verif.Props.besthist_closest_partial",
    "Verif.Props.besthist_closest_pv",
    "Verif.Props.besthist_pv_closeness_ignores_float"
   ],
   "note": "Proved without the potential vorticity constraint. With it the claim is false: spatial_correlation gets its arguments in the wrong order. besthist_closest_pv says what closeness is used then, besthist_pv_closeness_ignores_float is a selection that goes wrong."
  },
  {
   "property": "C14",
   "status": "partial",
   "theorems": [
    "Verif.Props.besthist_at_most_partial",
    "Verif.Props.besthist_one_returns_all_but_one",
    "Verif.Props.besthist_one_returns_six",
    "Verif.Props.besthist_two_four_fail",
    "Verif.Props.besthist_one_fails"
   ],
   "note": "False for max_casts = 1 (negation proved); ValueError for 2 and 4, and for 1 with two or three casts in the ellipse; holds for every max_casts >= 2."
  },
  {
   "property": "C15",
   "status": "proved",
   "theorems": [
    "Verif.Props.boxes_are_neighbours",
    "Verif.Props.boxes_centre_contains_float",
    "Verif.Props.boxes_cell_exists",
    "Verif.Props.boxes_centre_edge_witness",
    "Verif.Props.boxes_negative_longitude_witness"
   ],
   "note": "Findings: a float within 0.01 degree of an eastern or northern edge gets the neighbouring box; longitudes below -10 get the wrong box."
  },
  {
   "property": "C16",
   "status": "proved",
   "theorems": [
    "Verif.Props.boxes_in_range",
    "Verif.Props.boxes_nan"
   ],
   "note": ""
  },
  {
   "property": "C17",
   "status": "proved",
   "theorems": [
    "Verif.Props.boxes_distinct_iff",
    "Verif.Props.boxes_repeat_near_pole"
   ],
   "note": "An equivalence; nearer to the poles the boxes repeat."
  },
  {
   "property": "C18",
   "status": "proved",
   "theorems": [
    "Verif.Props.thetas_index_usable",
    "Verif.Props.thetas_levels_between",
    "Verif.Props.thetas_levels_within_limits",
    "Verif.Props.thetas_pressures_within_limits",
    "Verif.Props.thetas_level_in_excluded_band"
   ],
   "note": "Finding: levels can lie in an excluded middle band."
  },
  {
   "property": "C19",
   "status": "proved",
   "theorems": [
    "Verif.Props.thetas_least_variance",
    "Verif.Props.thetas_variance"
   ],
   "note": ""
  },
  {
   "property": "C20",
   "status": "proved",
   "theorems": [
    "Verif.Props.thetas_index_nearest",
    "Verif.Props.thetas_index_found"
   ],
   "note": ""
  },
  {
   "property": "C21",
   "status": "proved",
   "theorems": [
    "Verif.Props.signal_variance_value",
    "Verif.Props.signal_variance_nonneg",
    "Verif.Props.signal_variance_eq_zero_iff",
    "Verif.Props.signal_variance_shift",
    "Verif.Props.signal_variance_scale",
    "Verif.Props.signal_variance_perm"
   ],
   "note": ""
  },
  {
   "property": "C22",
   "status": "proved",
   "theorems": [
    "Verif.Props.noise_variance_value",
    "Verif.Props.noise_variance_coincide",
    "Verif.Props.noise_variance_total",
    "Verif.Props.noise_variance_bounds",
    "Verif.Props.noise_variance_constant",
    "Verif.Props.noise_variance_shift"
   ],
   "note": ""
  },
  {
   "property": "C23",
   "status": "proved",
   "theorems": [
    "Verif.Props.covar_value",
    "Verif.Props.covar_is_correlation",
    "Verif.Props.covar_range",
    "Verif.Props.covar_transpose",
    "Verif.Props.covar_succeeds_iff"
   ],
   "note": "Includes positive semi-definiteness of the potential vorticity kernel. Finding: the documented latitude column is scaled by the argument called long."
  },
  {
   "property": "C24",
   "status": "proved",
   "theorems": [
    "Verif.Props.build_cov_entry",
    "Verif.Props.build_cov_diagonal",
    "Verif.Props.build_cov_fails_iff",
    "Verif.Props.build_cov_ok"
   ],
   "note": ""
  },
  {
   "property": "C25",
   "status": "partial",
   "theorems": [
    "Verif.Props.build_cov_symmetric_partial",
    "Verif.Props.build_cov_not_symmetric",
    "Verif.Props.build_cov_not_symmetric_equator"
   ],
   "note": "False (two negations proved). Symmetric only where both scale tables are flat, for equal temperatures and without potential vorticity."
  },
  {
   "property": "C26",
   "status": "proved",
   "theorems": [
    "Verif.Props.brk_fit_least_squares",
    "Verif.Props.determined_example",
    "Verif.Props.brk_fit_unsorted_wrong"
   ],
   "note": "Determined is the data-level meaning of an invertible normal matrix (lemma determined_iff). brk_fit_unsorted_wrong: ascending x is necessary."
  },
  {
   "property": "C27",
   "status": "proved",
   "theorems": [
    "Verif.Props.brk_fit_exact",
    "Verif.Props.brk_fit_unsorted_wrong"
   ],
   "note": ""
  },
  {
   "property": "C28",
   "status": "proved",
   "theorems": [
    "Verif.Props.brk_fit_undetermined",
    "Verif.Props.brk_fit_mismatch",
    "Verif.Props.brk_fit_fails_iff"
   ],
   "note": ""
  },
  {
   "property": "C29",
   "status": "proved",
   "theorems": [
    "Verif.Props.optimiser_breaks_ordered",
    "Verif.Props.optimiser_limits",
    "Verif.Props.optimiser_breaks_few"
   ],
   "note": ""
  },
  {
   "property": "C30",
   "status": "proved",
   "theorems": [
    "Verif.Props.args_odd",
    "Verif.Props.args_bad_name",
    "Verif.Props.args_last_wins",
    "Verif.Props.fit_args_error",
    "Verif.Props.fit_args_unchecked"
   ],
   "note": ""
  },
  {
   "property": "C31",
   "status": "proved",
   "theorems": [
    "Verif.Props.fit_ndf_between",
    "Verif.Props.fit_ndf_independent",
    "Verif.Props.fit_ndf_dependent"
   ],
   "note": ""
  },
  {
   "property": "C32",
   "status": "proved",
   "theorems": [
    "Verif.Props.fit_chooses_least_aic",
    "Verif.Props.residuals_exist"
   ],
   "note": ""
  },
  {
   "property": "C33",
   "status": "partial",
   "theorems": [
    "Verif.Props.fit_order_partial",
    "Verif.Props.fit_order_matters",
    "Verif.Props.fit_ignores_pairing"
   ],
   "note": "False (fit_order_matters). Proved for observations listed with ascending profile numbers."
  },
  {
   "property": "C34",
   "status": "proved",
   "theorems": [
    "Verif.Props.map_is_best_estimate",
    "Verif.Props.map_error_bounds",
    "Verif.Props.map_error_ge_simple",
    "Verif.Props.map_no_data"
   ],
   "note": ""
  },
  {
   "property": "C35",
   "status": "proved",
   "theorems": [
    "Verif.Props.map_constant",
    "Verif.Props.map_affine",
    "Verif.Props.map_additive",
    "Verif.Props.map_is_best_estimate"
   ],
   "note": ""
  },
  {
   "property": "C36",
   "status": "proved",
   "theorems": [
    "Verif.Props.map_permutation"
   ],
   "note": ""
  },
  {
   "property": "C37",
   "status": "proved",
   "theorems": [
    "Verif.Props.map_interpolates"
   ],
   "note": ""
  },
  {
   "property": "C38",
   "status": "proved",
   "theorems": [
    "Verif.Props.interp_spec",
    "Verif.Props.crossing_between"
   ],
   "note": ""
  },
  {
   "property": "C39",
   "status": "proved",
   "theorems": [
    "Verif.Props.interp_spec",
    "Verif.Props.nearest_unique"
   ],
   "note": ""
  },
  {
   "property": "C40",
   "status": "proved",
   "theorems": [
    "Verif.Props.interp_spec",
    "Verif.Props.interp_local",
    "Verif.Props.interp_shape"
   ],
   "note": ""
  },
  {
   "property": "C41",
   "status": "proved",
   "theorems": [
    "Verif.Props.interp_gaps"
   ],
   "note": ""
  },
  {
   "property": "C42",
   "status": "proved",
   "theorems": [
    "Verif.Props.topo_grid_window",
    "Verif.Props.topo_grid_full_circle_fails",
    "Verif.Props.topo_grid_swapped"
   ],
   "note": "A window over the full circle can fail (topo_grid_full_circle_fails); exchanged limits are a ValueError (topo_grid_swapped)."
  },
  {
   "property": "C43",
   "status": "proved",
   "theorems": [
    "Verif.Props.hist_locations_spec",
    "Verif.Props.region_data_numbering",
    "Verif.Props.region_data_spec"
   ],
   "note": ""
  },
  {
   "property": "C44",
   "status": "proved",
   "theorems": [
    "Verif.Props.region_data_spec",
    "Verif.Props.region_data_none",
    "Verif.Props.region_data_first_cast_empty"
   ],
   "note": ""
  },
  {
   "property": "C45",
   "status": "partial",
   "theorems": [
    "Verif.Props.attached_depths_partial",
    "Verif.Props.own_depths_partial",
    "Verif.Props.depth_of_chosen_cast",
    "Verif.Props.besthist_not_ascending",
    "Verif.Props.besthist_not_ascending_concrete",
    "Verif.Props.depth_of_other_cast"
   ],
   "note": "False (besthist_not_ascending; depth_of_other_cast for a whole profile). Proved: the depths are right exactly if the numbers are ascending and every cast has data (attached_depths_partial), so in a run with few casts that all have data (own_depths_partial); whose depths they are in general (depth_of_chosen_cast)."
  },
  {
   "property": "C46",
   "status": "proved",
   "theorems": [
    "Verif.Props.argo_own_float_excluded",
    "Verif.Props.argo_own_float_never_used"
   ],
   "note": ""
  },
  {
   "property": "C47",
   "status": "proved",
   "theorems": [
    "Verif.Props.cached_reads_repeatable",
    "Verif.Props.cached_call_twice"
   ],
   "note": ""
  },
  {
   "property": "C48",
   "status": "proved",
   "theorems": [
    "Verif.Props.saf_north_identity",
    "Verif.Props.saf_subsequence",
    "Verif.Props.saf_keeps_own_side",
    "Verif.Props.saf_envelope_decides",
    "Verif.Props.saf_undecided_keeps_all",
    "Verif.Props.saf_used_above_five"
   ],
   "note": "np.interp is a parameter with the assumptions IsInterp, met by scan_isInterp. The side of a cast is computed without the last row, see C90."
  },
  {
   "property": "C49",
   "status": "proved",
   "theorems": [
    "Verif.Props.selected_points_spec",
    "Verif.Props.selected_points_history",
    "Verif.Props.selected_points_no_cast"
   ],
   "note": ""
  },
  {
   "property": "C50",
   "status": "proved",
   "theorems": [
    "Verif.Props.few_outliers",
    "Verif.Props.no_outlier_among_ten",
    "Verif.Props.level_drops_outliers",
    "Verif.Props.remove_outliers_exact"
   ],
   "note": ""
  },
  {
   "property": "C51",
   "status": "proved",
   "theorems": [
    "Verif.Props.hist_casts_are_comparable",
    "Verif.Props.hist_casts_need_pressure"
   ],
   "note": ""
  },
  {
   "property": "C52",
   "status": "partial",
   "theorems": [
    "Verif.Props.fresh_run_aligned_partial",
    "Verif.Props.fresh_run_misaligned",
    "Verif.Props.fresh_run_file"
   ],
   "note": "False (fresh_run_misaligned). Proved for ascending profile numbers."
  },
  {
   "property": "C53",
   "status": "proved",
   "theorems": [
    "Verif.Props.saved_salinities_plausible"
   ],
   "note": ""
  },
  {
   "property": "C54",
   "status": "proved",
   "theorems": [
    "Verif.Props.rerun_keeps_content",
    "Verif.Props.reruns_keep_content",
    "Verif.Props.fresh_run_consistent"
   ],
   "note": ""
  },
  {
   "property": "C55",
   "status": "proved",
   "theorems": [
    "Verif.Props.run_writes_only_at_end"
   ],
   "note": ""
  },
  {
   "property": "C56",
   "status": "proved",
   "theorems": [
    "Verif.Props.calibration_fills_segments",
    "Verif.Props.calibration_segments_independent"
   ],
   "note": "For settings without prescribed break points; with them see C105."
  },
  {
   "property": "C57",
   "status": "proved",
   "theorems": [
    "Verif.Props.float_depth_at_own_position"
   ],
   "note": "interp2d is a parameter. Outside these longitudes the window can leave the file."
  },
  {
   "property": "C58",
   "status": "proved",
   "theorems": [
    "Verif.Props.set_calseries_idempotent",
    "Verif.Props.set_calseries_repeated_numbers"
   ],
   "note": "The second theorem shows why repeated numbers are excluded."
  },
  {
   "property": "C59",
   "status": "partial",
   "theorems": [
    "Verif.Props.set_calseries_excludes_partial",
    "Verif.Props.set_calseries_saved",
    "Verif.Props.set_calseries_excludes_wrong_profile",
    "Verif.Props.set_calseries_lost_profile"
   ],
   "note": "False in general (two witnesses); proved for ascending profile numbers with a file for the same profiles, and the exact content of the file for any order."
  },
  {
   "property": "C60",
   "status": "partial",
   "theorems": [
    "Verif.Props.set_calseries_new_profiles_partial",
    "Verif.Props.set_calseries_new_profile_fails"
   ],
   "note": "False: every new profile raises AttributeError. Proved: it succeeds exactly if there is no new profile."
  },
  {
   "property": "C61",
   "status": "partial",
   "theorems": [
    "Verif.Props.sal_var_exact_partial",
    "Verif.Props.sal_var_drops_rows"
   ],
   "note": "Holds without limits and with an upper limit of temperature only; else false."
  },
  {
   "property": "C62",
   "status": "proved",
   "theorems": [
    "Verif.Props.thetas_mask"
   ],
   "note": ""
  },
  {
   "property": "C63",
   "status": "proved",
   "theorems": [
    "Verif.Props.thetas_salinity_between"
   ],
   "note": ""
  },
  {
   "property": "C64",
   "status": "proved",
   "theorems": [
    "Verif.Props.thetas_level_is_mean"
   ],
   "note": ""
  },
  {
   "property": "C65",
   "status": "proved",
   "theorems": [
    "Verif.Props.map_is_best_estimate"
   ],
   "note": "Uniqueness of the weights is isBestWeights_unique, used for C36."
  },
  {
   "property": "C66",
   "status": "proved",
   "theorems": [
    "Verif.Props.map_duplicate_cast_fails",
    "Verif.Props.map_constant_salinity_fails"
   ],
   "note": "Findings: both crash the run with LinAlgError."
  },
  {
   "property": "C67",
   "status": "proved",
   "theorems": [
    "Verif.Props.fit_result"
   ],
   "note": ""
  },
  {
   "property": "C68",
   "status": "proved",
   "theorems": [
    "Verif.Props.fit_offset_when_few"
   ],
   "note": ""
  },
  {
   "property": "C69",
   "status": "proved",
   "theorems": [
    "Verif.Props.fit_returns_without_breaks"
   ],
   "note": ""
  },
  {
   "property": "C70",
   "status": "proved",
   "theorems": [
    "Verif.Props.fit_constant",
    "Verif.Props.fit_constant_returned"
   ],
   "note": ""
  },
  {
   "property": "C71",
   "status": "proved",
   "theorems": [
    "Verif.Props.fit_linear_exact"
   ],
   "note": ""
  },
  {
   "property": "C72",
   "status": "proved",
   "theorems": [
    "Verif.Props.fit_affine"
   ],
   "note": ""
  },
  {
   "property": "C73",
   "status": "proved",
   "theorems": [
    "Verif.Props.fit_offset_error"
   ],
   "note": ""
  },
  {
   "property": "C74",
   "status": "partial",
   "theorems": [
    "Verif.Props.fit_profile_mean_partial",
    "Verif.Props.fit_profile_mean_wrong"
   ],
   "note": "False (fit_profile_mean_wrong). Proved for one observation per profile."
  },
  {
   "property": "C75",
   "status": "proved",
   "theorems": [
    "Verif.Props.fit_free_breaks_fail",
    "Verif.Props.fit_broken_line_fails",
    "Verif.Props.fit_free_breaks_fail_case"
   ],
   "note": "Finding."
  },
  {
   "property": "C76",
   "status": "proved",
   "theorems": [
    "Verif.Props.fit_breaks_alone_fail",
    "Verif.Props.fit_fixed_fails",
    "Verif.Props.fit_fixed"
   ],
   "note": "Finding: see also calc_piecewisefit."
  },
  {
   "property": "C77",
   "status": "proved",
   "theorems": [
    "Verif.Props.interp_reproduces"
   ],
   "note": ""
  },
  {
   "property": "C78",
   "status": "proved",
   "theorems": [
    "Verif.Props.interp_fails_iff"
   ],
   "note": "Findings: a climatology without two good levels in a station, or a homogeneous station at exactly the float temperature, ends the run with ValueError."
  },
  {
   "property": "C79",
   "status": "proved",
   "theorems": [
    "Verif.Props.level_mapping_spec"
   ],
   "note": ""
  },
  {
   "property": "C80",
   "status": "proved",
   "theorems": [
    "Verif.Props.level_fails_iff",
    "Verif.Props.level_constant_fails",
    "Verif.Props.level_one_position_fails",
    "Verif.Props.noise_variance_eq_zero_iff"
   ],
   "note": "Finding: one level with constant salinities ends the whole run."
  },
  {
   "property": "C81",
   "status": "proved",
   "theorems": [
    "Verif.Props.level_affine"
   ],
   "note": ""
  },
  {
   "property": "C82",
   "status": "proved",
   "theorems": [
    "Verif.Props.level_skipped_iff",
    "Verif.Props.level_mapped"
   ],
   "note": ""
  },
  {
   "property": "C83",
   "status": "proved",
   "theorems": [
    "Verif.Props.single_cast_file_ignored"
   ],
   "note": "Finding."
  },
  {
   "property": "C84",
   "status": "proved",
   "theorems": [
    "Verif.Props.cached_read_ignores_disk"
   ],
   "note": ""
  },
  {
   "property": "C85",
   "status": "partial",
   "theorems": [
    "Verif.Props.region_lost_casts_partial",
    "Verif.Props.region_data_first_cast_empty"
   ],
   "note": "False (region_data_first_cast_empty). Proved if the first chosen cast has a usable level."
  },
  {
   "property": "C86",
   "status": "proved",
   "theorems": [
    "Verif.Props.new_profiles_exception",
    "Verif.Props.run_with_new_profiles_fails"
   ],
   "note": "Finding."
  },
  {
   "property": "C87",
   "status": "proved",
   "theorems": [
    "Verif.Props.run_without_mapped_level_fails"
   ],
   "note": "Finding."
  },
  {
   "property": "C88",
   "status": "proved",
   "theorems": [
    "Verif.Props.other_path_not_reused"
   ],
   "note": "Finding."
  },
  {
   "property": "C89",
   "status": "proved",
   "theorems": [
    "Verif.Props.saf_repeated_pressure_fails"
   ],
   "note": "Finding."
  },
  {
   "property": "C90",
   "status": "partial",
   "theorems": [
    "Verif.Props.saf_keeps_own_side_partial",
    "Verif.Props.saf_last_row_ignored"
   ],
   "note": "False in general (saf_last_row_ignored); proved for casts whose last row is missing."
  },
  {
   "property": "C91",
   "status": "proved",
   "theorems": [
    "Verif.Props.successful_run_found_casts",
    "Verif.Props.run_without_casts_saves_nothing"
   ],
   "note": "Finding: the code means to skip such a profile."
  },
  {
   "property": "C92",
   "status": "proved",
   "theorems": [
    "Verif.Props.saved_missing"
   ],
   "note": ""
  },
  {
   "property": "C93",
   "status": "proved",
   "theorems": [
    "Verif.Props.saved_errors_nonneg"
   ],
   "note": ""
  },
  {
   "property": "C94",
   "status": "proved",
   "theorems": [
    "Verif.Props.saved_column_independent"
   ],
   "note": ""
  },
  {
   "property": "C95",
   "status": "proved",
   "theorems": [
    "Verif.Props.own_casts_never_influence"
   ],
   "note": ""
  },
  {
   "property": "C96",
   "status": "proved",
   "theorems": [
    "Verif.Props.longitude_difference_iff",
    "Verif.Props.run_fails_across_greenwich",
    "Verif.Props.mapping_longitude_off",
    "Verif.Props.matchLongitude_spec",
    "Verif.Props.greenwich_run_fails",
    "Verif.Props.greenwich_run_wrong"
   ],
   "note": "Finding: the property one would expect (always the true difference) is false; this is the exact condition."
  },
  {
   "property": "C97",
   "status": "proved",
   "theorems": [
    "Verif.Props.float_depth_defined",
    "Verif.Props.grid_depths_defined"
   ],
   "note": "The interpolation interp2d on the window is a parameter."
  },
  {
   "property": "C98",
   "status": "partial",
   "theorems": [
    "Verif.Props.set_calseries_limits_partial",
    "Verif.Props.set_calseries_keeps_row_of_limits"
   ],
   "note": "False for limits stored as a row."
  },
  {
   "property": "C99",
   "status": "partial",
   "theorems": [
    "Verif.Props.set_calseries_percent_partial",
    "Verif.Props.set_calseries_old_file_fails"
   ],
   "note": "False: KeyError for every such file."
  },
  {
   "property": "C100",
   "status": "proved",
   "theorems": [
    "Verif.Props.calibrated_cells"
   ],
   "note": "gsw is a parameter."
  },
  {
   "property": "C101",
   "status": "proved",
   "theorems": [
    "Verif.Props.factor_one_changes_nothing",
    "Verif.Props.correction_has_one_sign"
   ],
   "note": "The properties of gsw are hypotheses."
  },
  {
   "property": "C102",
   "status": "proved",
   "theorems": [
    "Verif.Props.segment_factor_is_linear",
    "Verif.Props.no_breaks_saved"
   ],
   "note": ""
  },
  {
   "property": "C103",
   "status": "partial",
   "theorems": [
    "Verif.Props.factor_follows_derivative_partial",
    "Verif.Props.descending_numbers_reverse_trend"
   ],
   "note": "Holds for ascending numbers; the second theorem shows the reversed sign for descending numbers."
  },
  {
   "property": "C104",
   "status": "proved",
   "theorems": [
    "Verif.Props.segment_needs_data",
    "Verif.Props.repeated_numbers_all_equal",
    "Verif.Props.no_history_no_calibration"
   ],
   "note": ""
  },
  {
   "property": "C105",
   "status": "partial",
   "theorems": [
    "Verif.Props.limit_of_own_segment_partial",
    "Verif.Props.rejected_settings_save_nothing",
    "Verif.Props.prescribed_breaks_give_nothing",
    "Verif.Props.prescribed_breaks_outcome",
    "Verif.Props.missing_breaks_fail",
    "Verif.Props.row_limits_fail",
    "Verif.Props.only_first_limit_counts"
   ],
   "note": "False; the theorems say what happens instead."
  },
  {
   "property": "C106",
   "status": "partial",
   "theorems": [
    "Verif.Props.calibration_scales_partial",
    "Verif.Props.calibration_scales_swapped"
   ],
   "note": "False; the theorem gives the covariance actually used."
  },
  {
   "property": "C107",
   "status": "proved",
   "theorems": [
    "Verif.Props.calibration_completes"
   ],
   "note": "Without potential vorticity."
  },
  {
   "property": "C108",
   "status": "proved",
   "theorems": [
    "Verif.Props.sal_var_values"
   ],
   "note": "Model of the values drawn."
  },
  {
   "property": "C109",
   "status": "proved",
   "theorems": [
    "Verif.Props.sal_var_index_error",
    "Verif.Props.sal_var_never_completes"
   ],
   "note": ""
  },
  {
   "property": "C110",
   "status": "proved",
   "theorems": [
    "Verif.Props.anom_matrix",
    "Verif.Props.anom_matrix_order",
    "Verif.Props.anom_value",
    "Verif.Props.anom_order_free",
    "Verif.Props.anom_balanced",
    "Verif.Props.anom_shift",
    "Verif.Props.anom_fails_iff",
    "Verif.Props.anom_repeated_temperature"
   ],
   "note": ""
  },
  {
   "property": "C111",
   "status": "proved",
   "theorems": [
    "Verif.Props.avg_offset"
   ],
   "note": ""
  },
  {
   "property": "C112",
   "status": "proved",
   "theorems": [
    "Verif.Props.legend_at_most_30",
    "Verif.Props.legend_every"
   ],
   "note": ""
  },
  {
   "property": "C113",
   "status": "proved",
   "theorems": [
    "Verif.Props.drawn_longitude"
   ],
   "note": ""
  },
  {
   "property": "C114",
   "status": "proved",
   "theorems": [
    "Verif.Props.mapped_found_iff",
    "Verif.Props.analysis_uses_own_results"
   ],
   "note": "What the steps compute is a parameter."
  },
  {
   "property": "C115",
   "status": "proved",
   "theorems": [
    "Verif.Props.floats_do_not_interfere"
   ],
   "note": "Induction over the history."
  },
  {
   "property": "C116",
   "status": "proved",
   "theorems": [
    "Verif.Props.mapped_in_directory_never_updated",
    "Verif.Props.no_calibration_in_directory"
   ],
   "note": "Induction over the history."
  },
  {
   "property": "C117",
   "status": "proved",
   "theorems": [
    "Verif.Props.same_name_overwrites"
   ],
   "note": "Finding: the directory is not part of the name."
  },
  {
   "property": "C118",
   "status": "proved",
   "theorems": [
    "Verif.Props.postfixes_must_agree"
   ],
   "note": "An exact condition on the settings."
  },
  {
   "property": "C119",
   "status": "proved",
   "theorems": [
    "Verif.Props.figures_distinct"
   ],
   "note": ""
  },
  {
   "property": "C120",
   "status": "proved",
   "theorems": [
    "Verif.Props.fit_time_deriv_err",
    "Verif.Props.time_deriv_err_case"
   ],
   "note": "Finding."
  },
  {
   "property": "C121",
   "status": "proved",
   "theorems": [
    "Verif.Props.fit_offset_error_bounds",
    "Verif.Props.fit_offset_error_equal",
    "Verif.Props.fit_offset_error_unequal"
   ],
   "note": ""
  },
  {
   "property": "C122",
   "status": "proved",
   "theorems": [
    "Verif.Props.fit_line_error_ignores_values",
    "Verif.Props.fit_line_error_noise"
   ],
   "note": "The random numbers are a parameter."
  },
  {
   "property": "C123",
   "status": "proved",
   "theorems": [
    "Verif.Props.fit_repeatable",
    "Verif.Props.fit_offset_repeatable",
    "Verif.Props.calibration_repeatable",
    "Verif.Props.fit_errors_not_repeatable"
   ],
   "note": "The results of the search for break points are taken to be the same in both runs."
  },
  {
   "property": "C124",
   "status": "proved",
   "theorems": [
    "Verif.Props.fit_station_window",
    "Verif.Props.fit_station_bounds"
   ],
   "note": "Finding: see C74."
  },
  {
   "property": "C125",
   "status": "proved",
   "theorems": [
    "Verif.Props.interruptions_stay_local",
    "Verif.Props.uninterrupted"
   ],
   "note": "Induction over the history. The second theorem says that the model without interruptions is that of C114-C119."
  },
  {
   "property": "C126",
   "status": "proved",
   "theorems": [
    "Verif.Props.killed_before_saving",
    "Verif.Props.calibration_repaired",
    "Verif.Props.mapping_repaired_in_directory"
   ],
   "note": "Induction over the history."
  },
  {
   "property": "C127",
   "status": "proved",
   "theorems": [
    "Verif.Props.damaged_mapped_blocks",
    "Verif.Props.damaged_calseries_blocks"
   ],
   "note": "Finding. Assumes that reading a damaged file raises an exception other than FileNotFoundError."
  },
  {
   "property": "C128",
   "status": "proved",
   "theorems": [
    "Verif.Props.float_depth_right",
    "Verif.Props.grid_depths_right",
    "Verif.Props.calibration_depth_right",
    "Verif.Props.depth_well_defined"
   ],
   "note": "scipy's interp2d is a parameter of which IsInterp2d is assumed: bilinear in a cell, constant south of the window. grid2_isInterp2d gives a function with these properties."
  },
  {
   "property": "C129",
   "status": "proved",
   "theorems": [
    "Verif.Props.coefficients_by_segment"
   ],
   "note": "With the order of the segments given by any ascending list of the non-zero values of calseries."
  },
  {
   "property": "C130",
   "status": "proved",
   "theorems": [
    "Verif.Props.calibration_partner",
    "Verif.Props.calibration_compares_own",
    "Verif.Props.calibration_compares_other"
   ],
   "note": "Finding: other orders than ascending or descending."
  },
  {
   "property": "C131",
   "status": "proved",
   "theorems": [
    "Verif.Props.first_settings",
    "Verif.Props.first_calibration"
   ],
   "note": ""
  },
  {
   "property": "C132",
   "status": "proved",
   "theorems": [
    "Verif.Props.constant_offset_recovered"
   ],
   "note": "Assumes that SP_from_C inverts C_from_SP for the last statement. For max_breaks -1 and 0, C107 says when the calibration completes."
  },
  {
   "property": "C133",
   "status": "proved",
   "theorems": [
    "Verif.Props.saved_value",
    "Verif.Props.noise_variance_is"
   ],
   "note": "The casts used stand at their longitudes beside the other chosen casts, the k-th depth that of the k-th chosen cast (finding C45). Noise variance 0 makes the run fail, so it does not occur in a run that succeeds."
  },
  {
   "property": "C134",
   "status": "proved",
   "theorems": [
    "Verif.Props.only_levels_within_limits_count",
    "Verif.Props.settingsOf_bounds"
   ],
   "note": "For one limit of each kind, as in C98. The values of the levels themselves follow from the factors (C100)."
  },
  {
   "property": "C135",
   "status": "proved",
   "theorems": [
    "Verif.Props.thetas_candidates",
    "Verif.Props.thetas_need_range",
    "Verif.Props.thetas_small_range_fails"
   ],
   "note": "The exceptions are findings."
  },
  {
   "property": "C136",
   "status": "proved",
   "theorems": [
    "Verif.Props.map_drawn_iff",
    "Verif.Props.map_shows_casts",
    "Verif.Props.map_labels",
    "Verif.Props.map_named_often",
    "Verif.Props.map_misses_float"
   ],
   "note": "The coastline and bathymetry shapes are in C152. The last theorem is a finding."
  },
  {
   "property": "C137",
   "status": "proved",
   "theorems": [
    "Verif.Props.error_bars"
   ],
   "note": "The mapped values are those in the column of the same position (C130)."
  },
  {
   "property": "C138",
   "status": "proved",
   "theorems": [
    "Verif.Props.figures_in_order",
    "Verif.Props.figures_complete_iff",
    "Verif.Props.figures_without_levels",
    "Verif.Props.figures_cut_by_limit"
   ],
   "note": "The last two statements are findings. Drawing is taken to succeed except for the exceptions named in the model."
  },
  {
   "property": "C139",
   "status": "proved",
   "theorems": [
    "Verif.Props.fit_value_error_iff",
    "Verif.Props.fit_few_profiles_fails",
    "Verif.Props.fit_one_profile_fails"
   ],
   "note": "Finding. The failure is the ValueError of assigning a residual of shape (n, 1) to a row of length n, when brk_pt_fit returns early for a singular matrix."
  },
  {
   "property": "C140",
   "status": "proved",
   "theorems": [
    "Verif.Props.nloops_positive",
    "Verif.Props.nloops_default",
    "Verif.Props.nloops_offset",
    "Verif.Props.nloops_refused",
    "Verif.Props.nloops_negative_errors",
    "Verif.Props.nloops_negative_fit",
    "Verif.Props.nloops_free",
    "Verif.Props.nloops_negative_chooses"
   ],
   "note": "The statements about negative numbers are findings."
  },
  {
   "property": "C141",
   "status": "proved",
   "theorems": [
    "Verif.Props.rerun_more_levels",
    "Verif.Props.gained_levels_not_mapped"
   ],
   "note": "Finding. The loaded arrays are padded with rows of NaN, and only profiles whose number is not in the file are computed."
  },
  {
   "property": "C142",
   "status": "proved",
   "theorems": [
    "Verif.Props.separate_figures",
    "Verif.Props.session_figures",
    "Verif.Props.shows_something",
    "Verif.Props.script_saves"
   ],
   "note": "Matplotlib's list of open figures is modelled; whether show() closes them and whether a new panel removes overlapped ones are parameters."
  },
  {
   "property": "C143",
   "status": "proved",
   "theorems": [
    "Verif.Props.map_on_current",
    "Verif.Props.map_over_broken",
    "Verif.Props.curve_over_map",
    "Verif.Props.map_over_profiles"
   ],
   "note": "Findings. plots.py:55 draws on gca() without opening a figure, lines 228 and 633 call figure(1), and no figure is ever closed."
  },
  {
   "property": "C144",
   "status": "proved",
   "theorems": [
    "Verif.Props.parallel_results",
    "Verif.Props.parallel_ends",
    "Verif.Props.parallel_stopped"
   ],
   "note": "Steps are programs of single file accesses; run alone they are the steps of C125-C127. Reading a file takes one moment."
  },
  {
   "property": "C145",
   "status": "proved",
   "theorems": [
    "Verif.Props.either_order",
    "Verif.Props.fit_while_mapping",
    "Verif.Props.fit_while_mapping_all"
   ],
   "note": "Finding: savemat writes in place and there is no lock, so a reader may find a damaged file."
  },
  {
   "property": "C146",
   "status": "proved",
   "theorems": [
    "Verif.Props.linear_drift",
    "Verif.Props.drift_found",
    "Verif.Props.drift_recovered",
    "Verif.Props.drift_shifted"
   ],
   "note": "The last part is a finding: the line starts at the first usable profile, but its slope is applied from the first profile of the segment (fit_cond subtracts different origins, see C71)."
  },
  {
   "property": "C147",
   "status": "proved",
   "theorems": [
    "Verif.Props.bent_drift_fails",
    "Verif.Props.bent_drift_line"
   ],
   "note": "Finding: the broken line is the best fit, and then the uncertainty loop of fit_cond fails (C75)."
  },
  {
   "property": "C148",
   "status": "proved",
   "theorems": [
    "Verif.Props.plots_find_levels",
    "Verif.Props.plots_after_calibration",
    "Verif.Props.plots_fail_by_excluded_profile"
   ],
   "note": ""
  },
  {
   "property": "C149",
   "status": "proved",
   "theorems": [
    "Verif.Props.map_error_monotone"
   ],
   "note": ""
  },
  {
   "property": "C150",
   "status": "proved",
   "theorems": [
    "Verif.Props.mapping_blind",
    "Verif.Props.front_looks_at_salinities"
   ],
   "note": ""
  },
  {
   "property": "C151",
   "status": "proved",
   "theorems": [
    "Verif.Props.print_cfg_lines",
    "Verif.Props.print_cfg_injective",
    "Verif.Props.print_cfg_ambiguous"
   ],
   "note": ""
  },
  {
   "property": "C152",
   "status": "proved",
   "theorems": [
    "Verif.Props.shapes_drawn",
    "Verif.Props.shapes_fail"
   ],
   "note": "The filling of the shapes with colour is not modelled."
  },
  {
   "property": "C153",
   "status": "proved",
   "theorems": [
    "Verif.Props.mapping_dates_relative",
    "Verif.Props.moved_year"
   ],
   "note": "Casts whose dates cannot be read are decoded as year 0 whatever their text; with such casts the hypothesis that all dates are moved cannot be met."
  },
  {
   "property": "C154",
   "status": "proved",
   "theorems": [
    "Verif.Props.mapping_ignores_depths"
   ],
   "note": ""
  },
  {
   "property": "C155",
   "status": "proved",
   "theorems": [
    "Verif.Props.mapping_in_units"
   ],
   "note": ""
  },
  {
   "property": "C156",
   "status": "proved",
   "theorems": [
    "Verif.Props.fit_renumbered",
    "Verif.Props.calibration_renumbered",
    "Verif.Props.calibration_relabelled"
   ],
   "note": ""
  },
  {
   "property": "C157",
   "status": "proved",
   "theorems": [
    "Verif.Props.saved_value_front",
    "Verif.Props.side_exists",
    "Verif.Props.floatSide_exists"
   ],
   "note": "The in-situ temperature (gsw) is a parameter."
  },
  {
   "property": "C158",
   "status": "proved",
   "theorems": [
    "Verif.Props.mapping_local"
   ],
   "note": ""
  },
  {
   "property": "C159",
   "status": "proved",
   "theorems": [
    "Verif.Props.mapping_meridians"
   ],
   "note": ""
  },
  {
   "property": "C160",
   "status": "proved",
   "theorems": [
    "Verif.Props.mapping_shallow"
   ],
   "note": "Files with at least two levels, as in all theorems on reference files."
  },
  {
   "property": "C161",
   "status": "proved",
   "theorems": [
    "Verif.Props.level_order",
    "Verif.Props.level_order_matters"
   ],
   "note": "Casts missing a salinity are not among those that meet a level (C133)."
  },
  {
   "property": "C162",
   "status": "proved",
   "theorems": [
    "Verif.Props.saved_order",
    "Verif.Props.saved_order_first",
    "Verif.Props.saved_few"
   ],
   "note": "saved_few is the value of every entry in this case. saved_order assumes that both runs end normally, saved_order_first the condition of C164 instead. Positions as in C133."
  },
  {
   "property": "C163",
   "status": "proved",
   "theorems": [
    "Verif.Props.run_ends_iff",
    "Verif.Props.run_ends_iff_front",
    "Verif.Props.front_ends"
   ],
   "note": "Positions as in C133. run_ends_iff_front is the case with MAP_USE_SAF. noise_unique shows that the noise variance of a list of casts is determined."
  },
  {
   "property": "C164",
   "status": "proved",
   "theorems": [
    "Verif.Props.order_ends",
    "Verif.Props.order_decides"
   ],
   "note": "order_decides is the concrete case."
  },
  {
   "property": "C165",
   "status": "proved",
   "theorems": [
    "Verif.Props.clean_run_ends"
   ],
   "note": "The conditions are sufficient; C163 has the necessary and sufficient ones for runs without a draw and MAP_USE_PV."
  },
  {
   "property": "C166",
   "status": "proved",
   "theorems": [
    "Verif.Props.settings_read",
    "Verif.Props.settings_mapping",
    "Verif.Props.settings_complete",
    "Verif.Props.settings_misspelt",
    "Verif.Props.settings_unused",
    "Verif.Props.settings_order"
   ],
   "note": "The list of names read is part of the model, with the lines of the code."
  },
  {
   "property": "C167",
   "status": "proved",
   "theorems": [
    "Verif.Props.default_numbers",
    "Verif.Props.default_run_ends_iff",
    "Verif.Props.default_clean_run_ends"
   ],
   "note": "Decimal defaults are the exact numbers written in the source."
  },
  {
   "property": "C168",
   "status": "proved",
   "theorems": [
    "Verif.Props.run_fails_iff",
    "Verif.Props.run_fails_iff_front",
    "Verif.Props.front_nothing",
    "Verif.Props.fail_nothing",
    "Verif.Props.fail_first",
    "Verif.Props.fail_reach",
    "Verif.Props.fail_noise",
    "Verif.Props.fail_name"
   ],
   "note": "run_fails_iff_front is the case with MAP_USE_SAF. The fail_ theorems are concrete runs with each of the four exceptions."
  },
  {
   "property": "C169",
   "status": "proved",
   "theorems": [
    "Verif.Props.level_alone",
    "Verif.Props.more_same"
   ],
   "note": "more_same is a concrete pair of runs in which a level has another number and salinity and other levels above it."
  },
  {
   "property": "C170",
   "status": "proved",
   "theorems": [
    "Verif.Props.build_cov_symmetric_iff"
   ],
   "note": "C25 is what a user would expect; this is the exact condition."
  },
  {
   "property": "C171",
   "status": "proved",
   "theorems": [
    "Verif.Props.raise_exclude",
    "Verif.Props.exclude_some",
    "Verif.Props.exclude_all"
   ],
   "note": "The exclude_ theorems are a concrete run with a limit between its levels and one below all of them."
  },
  {
   "property": "C172",
   "status": "proved",
   "theorems": [
    "Verif.Props.idle_settings",
    "Verif.Props.record_no_effect",
    "Verif.Props.idle_seven"
   ],
   "note": "record_no_effect is the part about the recorded settings. idle_seven is a concrete run with seven casts in reach."
  },
  {
   "property": "C173",
   "status": "proved",
   "theorems": [
    "Verif.Props.saved_error_bounds",
    "Verif.Props.two_stage_bounds",
    "Verif.Props.residual_variance",
    "Verif.Props.world_error"
   ],
   "note": "world_error is a concrete run over two profiles."
  },
  {
   "property": "C174",
   "status": "proved",
   "theorems": [
    "Verif.Props.idle_saf",
    "Verif.Props.applySaf_noSide",
    "Verif.Props.idle_saf_north",
    "Verif.Props.noSide_shallow",
    "Verif.Props.noSide_between"
   ],
   "note": "idle_saf_north is a concrete run over two profiles in which one of the chosen casts has no data. noSide_shallow and noSide_between are southern profiles that the criterion says nothing about."
  },
  {
   "property": "C175",
   "status": "proved",
   "theorems": [
    "Verif.Props.mapped_iff",
    "Verif.Props.mapped_iff_front",
    "Verif.Props.wider_keeps",
    "Verif.Props.wider_keeps_front",
    "Verif.Props.raise_delta",
    "Verif.Props.wide_kept",
    "Verif.Props.broad_kept",
    "Verif.Props.front_mapped"
   ],
   "note": "wide_kept and broad_kept are concrete pairs of runs."
  },
  {
   "property": "C176",
   "status": "proved",
   "theorems": [
    "Verif.Props.chance_idle",
    "Verif.Props.chance_same",
    "Verif.Props.chance_seven",
    "Verif.Props.chance_vorticity"
   ],
   "note": "chance_seven is a run that ends normally, chance_vorticity one that may use the potential vorticity."
  },
  {
   "property": "C177",
   "status": "proved",
   "theorems": [
    "Verif.Props.draws_pick",
    "Verif.Props.any_may_be_chosen",
    "Verif.Props.pick_chances",
    "Verif.Props.far_may_be_chosen"
   ],
   "note": "far_may_be_chosen is a concrete case with seven casts, five of which are asked for."
  },
  {
   "property": "C178",
   "status": "proved",
   "theorems": [
    "Verif.Props.closest_third_chosen",
    "Verif.Props.second_chosen"
   ],
   "note": "second_chosen is a concrete case with seven casts, five of which are asked for."
  },
  {
   "property": "C179",
   "status": "proved",
   "theorems": [
    "Verif.Props.larger_keeps",
    "Verif.Props.larger_five"
   ],
   "note": "larger_five is a concrete case in which casts are chosen at random first."
  },
  {
   "property": "C180",
   "status": "proved",
   "theorems": [
    "Verif.Props.value_needs_casts",
    "Verif.Props.level_needs_reach",
    "Verif.Props.six_of_seven"
   ],
   "note": "six_of_seven is a concrete run in which six of seven casts are chosen, partly at random."
  },
  {
   "property": "C181",
   "status": "proved",
   "theorems": [
    "Verif.Props.unconstrained_keeps",
    "Verif.Props.six_kept"
   ],
   "note": "six_kept is a concrete pair of runs, one of which chooses six of seven casts."
  },
  {
   "property": "C182",
   "status": "proved",
   "theorems": [
    "Verif.Props.selected_of_float",
    "Verif.Props.selected_of_run",
    "Verif.Props.seven_selected"
   ],
   "note": "selected_of_run is the same for any computation of the levels. seven_selected is a concrete run."
  },
  {
   "property": "C183",
   "status": "proved",
   "theorems": [
    "Verif.Props.selected_in_reach",
    "Verif.Props.seven_in_reach"
   ],
   "note": "seven_in_reach is a concrete run over two profiles, one of them without a position."
  }
 ]
}