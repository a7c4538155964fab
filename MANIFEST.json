{
 "claims": [
  {
   "property": "C01",
   "status": "partial",
   "theorems": [
    "Verif.Props.C01_sum_of_layers_partial",
    "Verif.Props.C01_counterexample",
    "Verif.Props.C01_exact"
   ],
   "note": "False of the code when surface_pressure <= midpoint of the two top levels (index end_level-1 wraps to -1): C01_counterexample. Proved for all other surface pressures; C01_exact: for positive surface pressures not above the column top the sum is right if and only if the surface is below that midpoint."
  },
  {
   "property": "C02",
   "status": "partial",
   "theorems": [
    "Verif.Props.C02_missing_iff_underground_partial",
    "Verif.Props.C02_counterexample",
    "Verif.Props.C02_exact"
   ],
   "note": "Same exclusion as C01; C02_counterexample shows a negative thickness. C02_exact: the non-missing layers are all positive exactly outside that exclusion."
  },
  {
   "property": "C03",
   "status": "partial",
   "theorems": [
    "Verif.Props.C03_layer_formula_partial",
    "Verif.Props.C03_top_layer_wraps"
   ],
   "note": "Same exclusion as C01; C03_top_layer_wraps gives the exact (wrong) result in the excluded region."
  },
  {
   "property": "C04",
   "status": "proved",
   "theorems": [
    "Verif.Props.C04_order_independent"
   ],
   "note": ""
  },
  {
   "property": "C05",
   "status": "proved",
   "theorems": [
    "Verif.Props.C05_nd_pointwise",
    "Verif.Props.C05_nd_error"
   ],
   "note": ""
  },
  {
   "property": "C06",
   "status": "proved",
   "theorems": [
    "Verif.Props.C06_error_contract",
    "Verif.Props.C06_short_arrays"
   ],
   "note": ""
  },
  {
   "property": "C07",
   "status": "proved",
   "theorems": [
    "Verif.Props.C07_unit_independent"
   ],
   "note": ""
  },
  {
   "property": "C08",
   "status": "proved",
   "theorems": [
    "Verif.Props.C08_types",
    "Verif.Props.C08_numpy",
    "Verif.Props.C08_xarray",
    "Verif.Props.C08_call_types",
    "Verif.Props.C08_call_numpy",
    "Verif.Props.C08_call_xarray",
    "Verif.Props.C08_call_shapes"
   ],
   "note": ""
  },
  {
   "property": "C09",
   "status": "partial",
   "theorems": [
    "Verif.Props.C09_counterexample",
    "Verif.Props.C09_rank2_partial",
    "Verif.Props.C09_rank_exact",
    "Verif.Props.C09_rank1",
    "Verif.Props.C09_rank3_error",
    "Verif.Props.C09_rank3_paired"
   ],
   "note": "For psfc of rank other than 2 expand_dims gives the wrong broadcast or shape; C09_rank2_partial is rank 2. C09_rank_exact says what the code does for every rank: the documented shape comes out exactly for rank 2, and a result always has rank max(3, rank)."
  },
  {
   "property": "C10",
   "status": "proved",
   "theorems": [
    "Verif.Props.C10_layers_numpy",
    "Verif.Props.C10_layers_xarray",
    "Verif.Props.C10_total",
    "Verif.Props.C10_reverse",
    "Verif.Props.C10_types",
    "Verif.Props.C10_call_types",
    "Verif.Props.C10_call_shapes",
    "Verif.Props.C10_total_xarray",
    "Verif.Props.C10_reverse_xarray"
   ],
   "note": ""
  },
  {
   "property": "C11",
   "status": "proved",
   "theorems": [
    "Verif.Props.C11_sigma",
    "Verif.Props.C11_pressure_field"
   ],
   "note": ""
  },
  {
   "property": "C12",
   "status": "proved",
   "theorems": [
    "Verif.Props.C12_nodes"
   ],
   "note": "The hypothesis of no missing value in the column is needed: a missing neighbour of smaller pressure makes the result at a level missing."
  },
  {
   "property": "C13",
   "status": "proved",
   "theorems": [
    "Verif.Props.C13_no_overshoot",
    "Verif.Props.C13_linear"
   ],
   "note": ""
  },
  {
   "property": "C14",
   "status": "proved",
   "theorems": [
    "Verif.Props.C14_outside_missing"
   ],
   "note": ""
  },
  {
   "property": "C15",
   "status": "partial",
   "theorems": [
    "Verif.Props.C15_chunking_partial",
    "Verif.Props.C15_counterexample"
   ],
   "note": "Proved: whenever data is chunked, for every division into chunks and whether or not the other arrays are chunked, the outcome is that of fully eager input (C15_chunking_partial). With eager data and a dask-backed surface pressure the call fails with TypeError (list(data.chunks) on None): C15_counterexample."
  },
  {
   "property": "C16",
   "status": "proved",
   "theorems": [
    "Verif.Props.C16_columns_independent"
   ],
   "note": ""
  },
  {
   "property": "C17",
   "status": "partial",
   "theorems": [
    "Verif.Props.C17_extrapolation_partial",
    "Verif.Props.C17_counterexample",
    "Verif.Props.C17_exact"
   ],
   "note": "Proved when the level coordinate labels increase downwards, so that the last level in label order is the one with the largest pressure. The code selects the lowest level by the largest coordinate label instead of the largest pressure; C17_counterexample gives a column where this selects the top level. C17_exact says what the code does for arbitrary labels."
  },
  {
   "property": "C18",
   "status": "proved",
   "theorems": [
    "Verif.Props.C18_formula",
    "Verif.Props.C18_anchored_monotone",
    "Verif.Props.C18_continuous"
   ],
   "note": ""
  },
  {
   "property": "C19",
   "status": "proved",
   "theorems": [
    "Verif.Props.C19_formula",
    "Verif.Props.C19_anchored_decreasing"
   ],
   "note": ""
  },
  {
   "property": "C20",
   "status": "proved",
   "theorems": [
    "Verif.Props.C20_validation",
    "Verif.Props.C20_call_rejected"
   ],
   "note": ""
  },
  {
   "property": "C21",
   "status": "partial",
   "theorems": [
    "Verif.Props.C21_columns_partial",
    "Verif.Props.C21_counterexample",
    "Verif.Props.C21_rejected",
    "Verif.Props.C21_missing_level"
   ],
   "note": "Proved when len(hyam) <= number of sigma levels. With more hybrid levels than sigma levels the pre-allocated output is too short and the call fails (C21_counterexample). The hlev coordinate of the result holds only the first column's sigma values. Integer data, which is truncated, is the subject of C123."
  },
  {
   "property": "C22",
   "status": "proved",
   "theorems": [
    "Verif.Props.C22_code_is_nan",
    "Verif.Props.C22_no_nan"
   ],
   "note": ""
  },
  {
   "property": "C23",
   "status": "proved",
   "theorems": [
    "Verif.Props.C23_missing_corner",
    "Verif.Props.C23_number_in_range"
   ],
   "note": ""
  },
  {
   "property": "C24",
   "status": "partial",
   "theorems": [
    "Verif.Props.C24_axis",
    "Verif.Props.C24_periodic",
    "Verif.Props.C24_gap",
    "Verif.Props.C24_interior",
    "Verif.Props.C24_nearest",
    "Verif.Props.C24_end_partial",
    "Verif.Props.C24_counterexample"
   ],
   "note": "In the gap and for method=nearest the statement holds in full, missing values included. At the very first point of the padded axis (360 degrees before the last longitude) linear interpolation uses the first column, so a missing value there makes the result missing although the last longitude itself is intact (C24_counterexample); without missing values it agrees (C24_end_partial)."
  },
  {
   "property": "C25",
   "status": "proved",
   "theorems": [
    "Verif.Props.C25_nodes"
   ],
   "note": "The hypothesis on surrounding values is needed: a missing left neighbour makes the result at a node missing."
  },
  {
   "property": "C26",
   "status": "partial",
   "theorems": [
    "Verif.Props.C26_xarray_partial",
    "Verif.Props.C26_counterexample"
   ],
   "note": "numpy input gives a DataArray (or an error for rank other than 2), and cyclic=True fails for rank other than 2: C26_counterexample. _partial: xarray input without cyclic keeps type, rank and gets the new axes."
  },
  {
   "property": "C27",
   "status": "proved",
   "theorems": [
    "Verif.Props.C27_no_flags_identity"
   ],
   "note": ""
  },
  {
   "property": "C28",
   "status": "proved",
   "theorems": [
    "Verif.Props.C28_real_part_exact",
    "Verif.Props.C28_bins"
   ],
   "note": ""
  },
  {
   "property": "C29",
   "status": "partial",
   "theorems": [
    "Verif.Props.C29_low_pass",
    "Verif.Props.C29_high_pass",
    "Verif.Props.C29_band_pass",
    "Verif.Props.C29_band_block_partial",
    "Verif.Props.C29_combined_partial",
    "Verif.Props.C29_band_block_counterexample",
    "Verif.Props.C29_band_block_bins",
    "Verif.Props.C29_band_block_exact"
   ],
   "note": "Low, high and band pass: full statement. Band-block (and flag combinations containing it) is false when the two cutoffs add up to more than the sampling rate: the middle slice then overlaps the wrong bins and harmonics below the low cutoff are removed (C29 counterexample). _partial assumes low cutoff <= high cutoff <= Nyquist frequency. C29_band_block_bins says which bins are removed for every pair of cutoffs, and C29_band_block_exact gives the exact condition (l+h <= n+1, or l = 0, or l = h, or n < l) under which band-block is right for every signal."
  },
  {
   "property": "C30",
   "status": "proved",
   "theorems": [
    "Verif.Props.C30_linear",
    "Verif.Props.C30_idempotent"
   ],
   "note": ""
  },
  {
   "property": "C31",
   "status": "partial",
   "theorems": [
    "Verif.Props.C31_band_complement_partial",
    "Verif.Props.C31_three_way_split",
    "Verif.Props.C31_low_high_complement_partial",
    "Verif.Props.C31_low_high_counterexample",
    "Verif.Props.C31_band_counterexample",
    "Verif.Props.C31_band_exact",
    "Verif.Props.C31_low_high_exact"
   ],
   "note": "The three-way split low+band+high is exact. band_pass+band_block is false for the same cutoffs as C29 (C31_band_exact: exact condition); low+high loses the bin between floor and ceil when the cutoff is not a multiple of the resolution (C31_low_high_exact: exactly that one harmonic is lost). Both refuted by counterexamples; _partial versions carry exactly those exclusions."
  },
  {
   "property": "C32",
   "status": "partial",
   "theorems": [
    "Verif.Props.C32_low_pass_keeps_mean",
    "Verif.Props.C32_high_pass_removes_mean",
    "Verif.Props.C32_band_pass_removes_mean",
    "Verif.Props.C32_band_block_partial",
    "Verif.Props.C32_band_block_exact",
    "Verif.Props.C32_counterexample"
   ],
   "note": "False of band_block with a high cutoff above the sample frequency, where the mirrored slice reaches bin 0 and the mean is removed (C32_counterexample); C32_band_block_partial assumes high cutoff <= frequency, C32_band_block_exact gives the mean for every pair of cutoffs. Low, high and band pass: full statement."
  },
  {
   "property": "C33",
   "status": "partial",
   "theorems": [
    "Verif.Props.C33_time_axis_partial",
    "Verif.Props.C33_axis0",
    "Verif.Props.C33_counterexample",
    "Verif.Props.C33_exact"
   ],
   "note": "The resolution is computed from len(signal) (axis 0) before the axes are swapped, so a non-square array filtered along axis 1 uses the wrong resolution (counterexample); proved for square arrays and for time_axis=0. C33_exact: for every a x b array, filtering along axis 1 is the 1-D filter run with frequency f*b/a."
  },
  {
   "property": "C34",
   "status": "partial",
   "theorems": [
    "Verif.Props.C34_calendar_average",
    "Verif.Props.C34_other_frequencies",
    "Verif.Props.C34_custom_seasons",
    "Verif.Props.C34_month_to_season_partial",
    "Verif.Props.C34_counterexample",
    "Verif.Props.C34_no_time"
   ],
   "note": "An unknown season raises KeyError, not ValueError, in month_to_season: the lookup error is caught as ValueError (see the C34 theorems)."
  },
  {
   "property": "C35",
   "status": "proved",
   "theorems": [
    "Verif.Props.C35_seasons",
    "Verif.Props.C35_all_starts",
    "Verif.Props.C35_month_to_season",
    "Verif.Props.C35_climatology_average",
    "Verif.Props.C35_other_names",
    "Verif.Props.C35_names"
   ],
   "note": ""
  },
  {
   "property": "C36",
   "status": "partial",
   "theorems": [
    "Verif.Props.C36_seasons_partial",
    "Verif.Props.C36_counterexample",
    "Verif.Props.C36_errors",
    "Verif.Props.C36_exact",
    "Verif.Props.C36_nothing_kept",
    "Verif.Props.C36_by_name_partial"
   ],
   "note": "Proved for records starting in January and for seasons inside a calendar year unless the record starts in the season's second or third month. Otherwise the code drops the wrong month (DJF, NDJ) or returns N+1 entries with a label outside the record: C36_counterexample. C36_exact gives the result for every record and season."
  },
  {
   "property": "C37",
   "status": "proved",
   "theorems": [
    "Verif.Props.C37_season",
    "Verif.Props.C37_year",
    "Verif.Props.C37_succeeds"
   ],
   "note": ""
  },
  {
   "property": "C38",
   "status": "proved",
   "theorems": [
    "Verif.Props.C38_season",
    "Verif.Props.C38_year",
    "Verif.Props.C38_climatology"
   ],
   "note": ""
  },
  {
   "property": "C39",
   "status": "partial",
   "theorems": [
    "Verif.Props.C39_calendar_partial",
    "Verif.Props.C39_climatology_partial",
    "Verif.Props.C39_counterexample"
   ],
   "note": "False: dropna removes a month or group for all cells if one cell is missing (C39_counterexample). _partial: holds when no month is dropped because of another cell."
  },
  {
   "property": "C40",
   "status": "partial",
   "theorems": [
    "Verif.Props.C40_groups_partial",
    "Verif.Props.C40_order",
    "Verif.Props.C40_succeeds",
    "Verif.Props.C40_counterexample",
    "Verif.Props.C40_labels_counterexample",
    "Verif.Props.C40_stamps_partial"
   ],
   "note": "Values and order are proved in full whenever the call returns. It raises ValueError when a calendar label between the first and the last one does not occur in the data (C40_counterexample: monthly data from November to February, 6-hourly data with freq='hour'); C40_succeeds gives the exact condition. _partial also because the time stamps are shown right only if every label exists in the median year; C40_labels_counterexample: a daily record from 2 March 2003 to 29 February 2004 gets the mean of 29 February stamped 1 March."
  },
  {
   "property": "C41",
   "status": "partial",
   "theorems": [
    "Verif.Props.C41_month",
    "Verif.Props.C41_day_partial",
    "Verif.Props.C41_day_counterexample",
    "Verif.Props.C41_day_whole_years",
    "Verif.Props.C41_day_median_partial"
   ],
   "note": "Months in full. Days: proved when every calendar day of the data exists in the median year (otherwise labels shift and groups do not match). C41_day_counterexample: a 365-day record ending on 29 February gets no anomaly for that day. C41_day_whole_years: for a record covering whole calendar years the anomalies are right whenever the call returns."
  },
  {
   "property": "C42",
   "status": "partial",
   "theorems": [
    "Verif.Props.C42_year_partial",
    "Verif.Props.C42_counterexample",
    "Verif.Props.C42_exact"
   ],
   "note": "False for records over a century (years are matched by their last two digits) and where a year is dropped because another cell is missing (C42_counterexample). _partial: less than a century and no dropped months. C42_exact says what is subtracted for every record: the sum of the averages of all years with the same last two digits, years without a complete month counting 0, and missing if the record has none between its first and last complete month."
  },
  {
   "property": "C43",
   "status": "partial",
   "theorems": [
    "Verif.Props.C43_exact",
    "Verif.Props.C43_alike_partial",
    "Verif.Props.C43_gregorian",
    "Verif.Props.C43_counterexample",
    "Verif.Props.C43_median",
    "Verif.Props.C43_gregorian_median"
   ],
   "note": "False: the daily climatology of complete Gregorian years 2001-2004 raises because the median year has no 29 February (C43_counterexample). _partial: calendars whose years are all alike. C43_exact and C43_gregorian give the exact condition."
  },
  {
   "property": "C44",
   "status": "proved",
   "theorems": [
    "Verif.Props.C44_true",
    "Verif.Props.C44_false",
    "Verif.Props.C44_none",
    "Verif.Props.C44_default",
    "Verif.Props.C44_numbers",
    "Verif.Props.C44_option_false"
   ],
   "note": "About the object's own attribute dictionary, for every setting of xarray's global option; with the option False, None is treated differently by the functions (C44_option_false)."
  },
  {
   "property": "C45",
   "status": "proved",
   "theorems": [
    "Verif.Props.C45_dew_point_bounds",
    "Verif.Props.C45_increasing_in_humidity",
    "Verif.Props.C45_increasing_in_temperature",
    "Verif.Props.C45_clausius_clapeyron",
    "Verif.Props.C45_calls_increasing"
   ],
   "note": ""
  },
  {
   "property": "C46",
   "status": "proved",
   "theorems": [
    "Verif.Props.C46_never_out_of_table",
    "Verif.Props.C46_exact_at_table_points",
    "Verif.Props.C46_between_neighbours",
    "Verif.Props.C46_call_value"
   ],
   "note": ""
  },
  {
   "property": "C47",
   "status": "proved",
   "theorems": [
    "Verif.Props.C47_lower_bound",
    "Verif.Props.C47_antitone_temperature",
    "Verif.Props.C47_monotone_mixing_ratio",
    "Verif.Props.C47_monotone_pressure",
    "Verif.Props.C47_ratio_to_saturation",
    "Verif.Props.C47_calls_monotone"
   ],
   "note": ""
  },
  {
   "property": "C48",
   "status": "proved",
   "theorems": [
    "Verif.Props.C48_ice_ratio",
    "Verif.Props.C48_water_ratio",
    "Verif.Props.C48_hundred_iff_saturated",
    "Verif.Props.C48_linear_in_mixing_ratio",
    "Verif.Props.C48_strictly_decreasing_in_temperature",
    "Verif.Props.C48_ice_vs_water",
    "Verif.Props.C48_elementwise",
    "Verif.Props.C48_call_values",
    "Verif.Props.C48_calls_decreasing"
   ],
   "note": ""
  },
  {
   "property": "C49",
   "status": "partial",
   "theorems": [
    "Verif.Props.C49_cold_is_temperature",
    "Verif.Props.C49_range_check_partial",
    "Verif.Props.C49_counterexample",
    "Verif.Props.C49_total",
    "Verif.Props.C49_call_values"
   ],
   "note": "Total and identity below 40F proved in full. The humidity range check is proved for xarray input and for numpy/list input without NaN; one NaN in a numpy array disables the check (C49_counterexample)."
  },
  {
   "property": "C50",
   "status": "partial",
   "theorems": [
    "Verif.Props.C50_counterexample",
    "Verif.Props.C50_documented_formula_partial",
    "Verif.Props.C50_call_counterexample"
   ],
   "note": "False between 80 and 81.2 F below 13 % humidity with default coefficients (C50_counterexample; C50_call_counterexample for a whole array call); the _partial theorem is an exact iff."
  },
  {
   "property": "C51",
   "status": "proved",
   "theorems": [
    "Verif.Props.C51_table_layout",
    "Verif.Props.C51_defined_up_to_66",
    "Verif.Props.C51_bounded",
    "Verif.Props.C51_equator",
    "Verif.Props.C51_hemispheres_add_to_24",
    "Verif.Props.C51_longer_toward_summer_pole",
    "Verif.Props.C51_call_values"
   ],
   "note": ""
  },
  {
   "property": "C52",
   "status": "proved",
   "theorems": [
    "Verif.Props.C52_fill_and_bound",
    "Verif.Props.C52_nan_iff_freezing",
    "Verif.Props.C52_strictly_increasing",
    "Verif.Props.C52_elementwise",
    "Verif.Props.C52_call_values",
    "Verif.Props.C52_calls_increasing"
   ],
   "note": ""
  },
  {
   "property": "C53",
   "status": "partial",
   "theorems": [
    "Verif.Props.C53_slope_within_0053_percent_partial",
    "Verif.Props.C53_counterexample",
    "Verif.Props.C53_fill",
    "Verif.Props.C53_call_values_partial"
   ],
   "note": "False everywhere: the constant 4096 should be 17.27*237.3=4098.171 (C53_counterexample for every temperature); _partial gives the exact ratio, a 0.053 % error."
  },
  {
   "property": "C54",
   "status": "proved",
   "theorems": [
    "Verif.Props.C54_linear",
    "Verif.Props.C54_elementwise",
    "Verif.Props.C54_calls_linear"
   ],
   "note": ""
  },
  {
   "property": "C55",
   "status": "partial",
   "theorems": [
    "Verif.Props.C55_shape_mismatch_rejected_partial",
    "Verif.Props.C55_counterexample",
    "Verif.Props.C55_dewtemp_broadcast_partial",
    "Verif.Props.C55_relhum_broadcast_partial"
   ],
   "note": "dewtemp and relhum test 'not (generator)', which is never true, so they broadcast instead of raising (C55_counterexample); relhum of a list of mixing ratios with a single temperature and pressure raises TypeError, because a list is multiplied by a numpy scalar. Proved for the other three; for dewtemp and relhum the exact error conditions are proved."
  },
  {
   "property": "C56",
   "status": "partial",
   "theorems": [
    "Verif.Props.C56_relhum_container",
    "Verif.Props.C56_container_preserved_partial",
    "Verif.Props.C56_mixed_types_rejected",
    "Verif.Props.C56_counterexample",
    "Verif.Props.C56_dewtemp_mixed_rejected",
    "Verif.Props.C56_dewtemp_container",
    "Verif.Props.C56_vapor_containers"
   ],
   "note": "relhum_water returns a numpy array for list input (C56_counterexample); proved for relhum_ice and heat_index, and the mixed-type TypeError for all three."
  },
  {
   "property": "C57",
   "status": "proved",
   "theorems": [
    "Verif.Props.C57_integral",
    "Verif.Props.C57_integral_layers",
    "Verif.Props.C57_order_independent",
    "Verif.Props.C57_below_surface",
    "Verif.Props.C57_call_order_independent",
    "Verif.Props.C57_call_below_surface",
    "Verif.Props.C57_call_values"
   ],
   "note": "For whole calls (C57_call_*) and for each column."
  },
  {
   "property": "C58",
   "status": "partial",
   "theorems": [
    "Verif.Props.C58_counterexample",
    "Verif.Props.C58_factor_partial",
    "Verif.Props.C58_equator_partial",
    "Verif.Props.C58_call_partial"
   ],
   "note": "np.cos is applied to latitudes in degrees (C58_counterexample: at 90 degrees the factor is negative instead of 0). _partial: the whole result is right exactly when at every latitude the two cosines agree or the column is zero (C58_call_partial); the equator."
  },
  {
   "property": "C59",
   "status": "proved",
   "theorems": [
    "Verif.Props.C59_priority",
    "Verif.Props.C59_result_present"
   ],
   "note": ""
  },
  {
   "property": "C60",
   "status": "partial",
   "theorems": [
    "Verif.Props.C60_exact",
    "Verif.Props.C60_counterexample",
    "Verif.Props.C60_deterministic_partial"
   ],
   "note": "The candidate names are put in a Python set and iterated (C60_counterexample with variables ps and PS). _partial: any data set where an attribute match exists or at most one candidate spelling is present; C60_exact: these are exactly the data sets with a determined result."
  },
  {
   "property": "C61",
   "status": "proved",
   "theorems": [
    "Verif.Props.C61_value",
    "Verif.Props.C61_nonneg",
    "Verif.Props.C61_finite",
    "Verif.Props.C61_mean_one",
    "Verif.Props.C61_units",
    "Verif.Props.C61_weights"
   ],
   "note": "Unit changes are proved for DataArrays; weight rescaling is proved for the specification nmseOf, to which C61_value ties the result."
  },
  {
   "property": "C62",
   "status": "partial",
   "theorems": [
    "Verif.Props.C62_rectangular_partial",
    "Verif.Props.C62_counterexample",
    "Verif.Props.C62_single_latitude",
    "Verif.Props.C62_exact"
   ],
   "note": "1-D coordinates: proved (C62_rectangular_partial). 2-D: violated, C62_counterexample; steps are only compared with the first row of steps. A single latitude raises AxisError. C62_exact states exactly when a result is returned, for 1-D and 2-D coordinates."
  },
  {
   "property": "C63",
   "status": "proved",
   "theorems": [
    "Verif.Props.C63_missing"
   ],
   "note": ""
  },
  {
   "property": "C64",
   "status": "proved",
   "theorems": [
    "Verif.Props.C64_value",
    "Verif.Props.C64_range",
    "Verif.Props.C64_symmetric",
    "Verif.Props.C64_affine",
    "Verif.Props.C64_weights",
    "Verif.Props.C64_perfect",
    "Verif.Props.C64_nan"
   ],
   "note": "C64_value identifies the result with the textbook weighted coefficient of the pairs without missing values; the other theorems are laws of the returned value. xskillscore's internal function is modelled after its source."
  },
  {
   "property": "C65",
   "status": "partial",
   "theorems": [
    "Verif.Props.C65_counterexample",
    "Verif.Props.C65_no_number_partial",
    "Verif.Props.C65_counterexample_single",
    "Verif.Props.C65_dataarray_counterexample"
   ],
   "note": "Violated: a mismatch prints a message and returns None (C65_counterexample); for two DataArrays every ValueError or AxisError of xskillscore ends the same way and other errors are passed on (C65_dataarray_counterexample); a single weight is broadcast and gives a wrong coefficient (C65_counterexample_single). What holds: no number is returned otherwise (C65_no_number_partial)."
  },
  {
   "property": "C66",
   "status": "partial",
   "theorems": [
    "Verif.Props.C66_axis_partial",
    "Verif.Props.C66_out_of_range",
    "Verif.Props.C66_counterexample"
   ],
   "note": "Proved for 0 <= time_dim < ndim (C66_axis_partial) and for out-of-range values (C66_out_of_range). Violated for the documented -1: ValueError (C66_counterexample)."
  },
  {
   "property": "C67",
   "status": "partial",
   "theorems": [
    "Verif.Props.C67_unchanged_partial",
    "Verif.Props.C67_counterexample"
   ],
   "note": "Violated by eofunc_eofs(meta=True) on a DataArray: its attrs dict is extended in place (C67_counterexample). Everything else leaves it alone (C67_unchanged_partial)."
  },
  {
   "property": "C68",
   "status": "proved",
   "theorems": [
    "Verif.Props.C68_pairs",
    "Verif.Props.C68_decomposition_order",
    "Verif.Props.C68_recomposition_order"
   ],
   "note": ""
  },
  {
   "property": "C69",
   "status": "proved",
   "theorems": [
    "Verif.Props.C69_decomposition_of_recomposition",
    "Verif.Props.C69_recomposition_of_decomposition"
   ],
   "note": "Y is any function with real order 0 and Y00^2 = 1/(4 pi); quadrature exactness is the hypothesis of the property; shown to be met by the true harmonics up to degree 1 on an octahedral grid."
  },
  {
   "property": "C70",
   "status": "proved",
   "theorems": [
    "Verif.Props.C70_decomposition_linear",
    "Verif.Props.C70_weight_scale_invariant",
    "Verif.Props.C70_recomposition_linear"
   ],
   "note": ""
  },
  {
   "property": "C71",
   "status": "proved",
   "theorems": [
    "Verif.Props.C71_decomposition_same",
    "Verif.Props.C71_recomposition_same",
    "Verif.Props.C71_angles"
   ],
   "note": ""
  },
  {
   "property": "C72",
   "status": "partial",
   "theorems": [
    "Verif.Props.C72_points_and_shape_partial",
    "Verif.Props.C72_counterexample"
   ],
   "note": "The container part is false: scale_voronoi never returns a DataArray (the second type test sees the converted array). Points, order, shape and error propagation are proved."
  },
  {
   "property": "C73",
   "status": "proved",
   "theorems": [
    "Verif.Props.C73_arc_derivative"
   ],
   "note": ""
  },
  {
   "property": "C74",
   "status": "proved",
   "theorems": [
    "Verif.Props.C74_arc_odd",
    "Verif.Props.C74_radius_even_positive",
    "Verif.Props.C74_arc_strictly_increasing",
    "Verif.Props.C74_arc_longitude"
   ],
   "note": ""
  },
  {
   "property": "C75",
   "status": "proved",
   "theorems": [
    "Verif.Props.C75_difference_quotients",
    "Verif.Props.C75_linear",
    "Verif.Props.C75_constant",
    "Verif.Props.C75_arc_latitude",
    "Verif.Props.C75_arc_longitude",
    "Verif.Props.C75_reverse_rows",
    "Verif.Props.C75_reverse_columns"
   ],
   "note": ""
  },
  {
   "property": "C76",
   "status": "partial",
   "theorems": [
    "Verif.Props.C76_given_coordinates_used",
    "Verif.Props.C76_own_coordinates",
    "Verif.Props.C76_one_dimensional_is_mesh",
    "Verif.Props.C76_rank_mismatch_rejected",
    "Verif.Props.C76_numpy_without_coordinates",
    "Verif.Props.C76_coordinates_partial",
    "Verif.Props.C76_latitude_ignored_counterexample",
    "Verif.Props.C76_no_coordinates_counterexample",
    "Verif.Props.C76_single_row_rejected",
    "Verif.Props.C76_single_value_rejected",
    "Verif.Props.C76_small_data_rejected",
    "Verif.Props.C76_dataarray_shapes"
   ],
   "note": "False parts: a lat (or lon) given alone is overwritten by the data's own coordinates; xarray data without lat/lon coordinates fail with AttributeError on None. Proved: both given are used, own coordinates used when none given, 1-D equals mesh, ranks checked, a single row or column rejected, numpy without coordinates rejected."
  },
  {
   "property": "C77",
   "status": "proved",
   "theorems": [
    "Verif.Props.C77_deprecated"
   ],
   "note": ""
  },
  {
   "property": "C78",
   "status": "proved",
   "theorems": [
    "Verif.Props.C78_sinusoid_passed",
    "Verif.Props.C78_sinusoid_stopped"
   ],
   "note": ""
  },
  {
   "property": "C79",
   "status": "partial",
   "theorems": [
    "Verif.Props.C79_counterexample",
    "Verif.Props.C79_uniform_band_partial",
    "Verif.Props.C79_exact"
   ],
   "note": "The checks use .all(): mixed latitudes give no warning (C79_counterexample); proved for latitudes in one band, and exactly which calls warn or fail (C79_exact)."
  },
  {
   "property": "C80",
   "status": "partial",
   "theorems": [
    "Verif.Props.C80_counterexample",
    "Verif.Props.C80_coord_attributes_ignored_partial"
   ],
   "note": "Only data variables are searched by attribute (C80_counterexample). _partial: coordinate attributes never influence the lookup."
  },
  {
   "property": "C81",
   "status": "proved",
   "theorems": [
    "Verif.Props.C81_explicit",
    "Verif.Props.C81_selection",
    "Verif.Props.C81_used",
    "Verif.Props.C81_rejected"
   ],
   "note": ""
  },
  {
   "property": "C82",
   "status": "partial",
   "theorems": [
    "Verif.Props.C82_counterexample",
    "Verif.Props.C82_plev_partial"
   ],
   "note": "The thickness array is always built with a dimension called plev (C82_counterexample). _partial: name plev, or hybrid interpolation."
  },
  {
   "property": "C83",
   "status": "partial",
   "theorems": [
    "Verif.Props.C83_labels_partial",
    "Verif.Props.C83_counterexample",
    "Verif.Props.C83_exact"
   ],
   "note": "Proved for sorted new_levels. For unsorted new_levels metpy returns values in sorted order, stored under unsorted labels: C83_counterexample. C83_exact says, for any order of new_levels, which value is stored under each label."
  },
  {
   "property": "C84",
   "status": "proved",
   "theorems": [
    "Verif.Props.C84_missing_neighbour"
   ],
   "note": ""
  },
  {
   "property": "C85",
   "status": "partial",
   "theorems": [
    "Verif.Props.C85_exact",
    "Verif.Props.C85_continuous_partial",
    "Verif.Props.C85_counterexample"
   ],
   "note": "Continuity proved for positive surface geopotential. At phi_sfc = 0 (sea) the height jumps when T* passes 290.5 K: C85_counterexample. C85_exact: below the surface, continuous if and only if the surface geopotential is positive."
  },
  {
   "property": "C86",
   "status": "partial",
   "theorems": [
    "Verif.Props.C86_order_partial",
    "Verif.Props.C86_cyclic_partial",
    "Verif.Props.C86_counterexample"
   ],
   "note": "False with cyclic=True: the padded longitudes assume increasing order (C86_counterexample). C86_order_partial: cyclic=False, every reordering of both axes. C86_cyclic_partial: cyclic=True, every reordering of the rows and every reordering of the columns that keeps the first and the last one in place."
  },
  {
   "property": "C87",
   "status": "proved",
   "theorems": [
    "Verif.Props.C87_outside_missing"
   ],
   "note": ""
  },
  {
   "property": "C88",
   "status": "proved",
   "theorems": [
    "Verif.Props.C88_nearest"
   ],
   "note": ""
  },
  {
   "property": "C89",
   "status": "proved",
   "theorems": [
    "Verif.Props.C89_linear_field"
   ],
   "note": ""
  },
  {
   "property": "C90",
   "status": "proved",
   "theorems": [
    "Verif.Props.C90_values",
    "Verif.Props.C90_succeeds"
   ],
   "note": ""
  },
  {
   "property": "C91",
   "status": "partial",
   "theorems": [
    "Verif.Props.C91_weighted",
    "Verif.Props.C91_bounds_partial",
    "Verif.Props.C91_none_full",
    "Verif.Props.C91_counterexample"
   ],
   "note": "C91_bounds_partial needs every season with samples to contain a full month; without it the value is 0 (C91_counterexample)."
  },
  {
   "property": "C92",
   "status": "proved",
   "theorems": [
    "Verif.Props.C92_values",
    "Verif.Props.C92_sum"
   ],
   "note": ""
  },
  {
   "property": "C93",
   "status": "partial",
   "theorems": [
    "Verif.Props.C93_kept_partial",
    "Verif.Props.C93_new_xarray_partial",
    "Verif.Props.C93_from_input",
    "Verif.Props.C93_counterexample"
   ],
   "note": "False for anomalies always and, with xarray before 2025.11, for seasonal and yearly averages and seasonal climatologies (C93_counterexample)."
  },
  {
   "property": "C94",
   "status": "partial",
   "theorems": [
    "Verif.Props.C94_diagonal_partial",
    "Verif.Props.C94_same_pattern",
    "Verif.Props.C94_counterexample"
   ],
   "note": "Violated: the weights of all variables become an extra dimension 'variable', so each variable also gets values computed with the missing cells of the other variables (C94_counterexample). The diagonal is right (C94_diagonal_partial), and without differing missing patterns the values only repeat (C94_same_pattern)."
  },
  {
   "property": "C95",
   "status": "proved",
   "theorems": [
    "Verif.Props.C95_accepts",
    "Verif.Props.C95_errors",
    "Verif.Props.C95_labels",
    "Verif.Props.C95_several"
   ],
   "note": "C95_labels: different labels raise ValueError; AxisError (a subclass of ValueError) when all latitudes or longitudes of the first field are equal. C95_several: several latitudes are a KeyError of cf_xarray; the ValueError written for this case in stats.py 105-108 is never reached."
  },
  {
   "property": "C96",
   "status": "partial",
   "theorems": [
    "Verif.Props.C96_counterexample",
    "Verif.Props.C96_dataarray_partial"
   ],
   "note": "Violated: two Datasets raise TypeError (C96_counterexample). DataArrays are passed on unchanged (C96_dataarray_partial)."
  },
  {
   "property": "C97",
   "status": "partial",
   "theorems": [
    "Verif.Props.C97_array_labels",
    "Verif.Props.C97_meta_partial",
    "Verif.Props.C97_counterexample_timeDim",
    "Verif.Props.C97_counterexample_array",
    "Verif.Props.C97_counterexample_aux",
    "Verif.Props.C97_eofs_values",
    "Verif.Props.C97_eofs_returns",
    "Verif.Props.C97_pcs_values"
   ],
   "note": "Violated in three ways (C97_counterexample_*): time_dim changes names although documented as ignored; meta=True mislabels arrays whose time axis is not first; an auxiliary coordinate along time raises ValueError. The default cases are proved."
  },
  {
   "property": "C98",
   "status": "partial",
   "theorems": [
    "Verif.Props.C98_arrays_partial",
    "Verif.Props.C98_counterexample",
    "Verif.Props.C98_counterexample_dims",
    "Verif.Props.C98_counterexample_ts"
   ],
   "note": "Violated: the conversion condition is always true, so DataArrays lose their metadata (C98_counterexample); eofunc_ts(meta=True) always fails (C98_counterexample_ts). Arrays: C98_arrays_partial."
  },
  {
   "property": "C99",
   "status": "partial",
   "theorems": [
    "Verif.Props.C99_wrong_number_rejected_partial",
    "Verif.Props.C99_counterexample"
   ],
   "note": "False for a single coefficient in a numpy array (or any container with scipy < 1.15), which is broadcast to every harmonic; proved for all other lengths and for DataArrays with new scipy."
  },
  {
   "property": "C100",
   "status": "partial",
   "theorems": [
    "Verif.Props.C100_no_poles_partial",
    "Verif.Props.C100_counterexample"
   ],
   "note": "False for grids with a row at a pole and at least two columns (all points of the row coincide and scipy's SphericalVoronoi rejects duplicates); proved for grids without poles."
  },
  {
   "property": "C101",
   "status": "proved",
   "theorems": [
    "Verif.Props.C101_radius_accurate",
    "Verif.Props.C101_arc_accurate"
   ],
   "note": ""
  },
  {
   "property": "C102",
   "status": "partial",
   "theorems": [
    "Verif.Props.C102_counterexample",
    "Verif.Props.C102_within_one_percent_partial"
   ],
   "note": "False: at the equator the distance is 0.67 percent too long for geodetic latitudes; proved: within 0.7 percent everywhere."
  },
  {
   "property": "C103",
   "status": "partial",
   "theorems": [
    "Verif.Props.C103_order_partial",
    "Verif.Props.C103_counterexample"
   ],
   "note": "False: the order is [latitudinal, longitudinal]; proved for every grid."
  },
  {
   "property": "C104",
   "status": "partial",
   "theorems": [
    "Verif.Props.C104_two_dimensional_partial",
    "Verif.Props.C104_counterexample",
    "Verif.Props.C104_one_dimensional_counterexample",
    "Verif.Props.C104_three_dimensional"
   ],
   "note": "False for numpy data with a leading dimension (differences along the wrong axes are divided by distances); proved: 2-D data always work."
  },
  {
   "property": "C105",
   "status": "partial",
   "theorems": [
    "Verif.Props.C105_counterexample",
    "Verif.Props.C105_dataset_type",
    "Verif.Props.C105_arrays_partial"
   ],
   "note": "False: no Dataset is accepted (numpy cannot convert it, TypeError); proved for numpy arrays and DataArrays."
  },
  {
   "property": "C106",
   "status": "partial",
   "theorems": [
    "Verif.Props.C106_transposed_rejected_counterexample",
    "Verif.Props.C106_transposed_square_counterexample",
    "Verif.Props.C106_latitude_first_partial"
   ],
   "note": "False: longitude-first data are rejected when nlat != nlon and silently wrong when nlat = nlon; proved for latitude-first data."
  },
  {
   "property": "C107",
   "status": "proved",
   "theorems": [
    "Verif.Props.C107_local",
    "Verif.Props.C107_missing"
   ],
   "note": ""
  },
  {
   "property": "C108",
   "status": "proved",
   "theorems": [
    "Verif.Props.C108_lines",
    "Verif.Props.C108_bad_axis",
    "Verif.Props.C108_true_frequency"
   ],
   "note": ""
  },
  {
   "property": "C109",
   "status": "partial",
   "theorems": [
    "Verif.Props.C109_container_partial",
    "Verif.Props.C109_value_error",
    "Verif.Props.C109_counterexample",
    "Verif.Props.C109_attrs_dropped"
   ],
   "note": "False: attributes are always dropped, and a time axis of another length than axis 0 raises ValueError; proved for time axes as long as axis 0."
  },
  {
   "property": "C110",
   "status": "partial",
   "theorems": [
    "Verif.Props.C110_rejects",
    "Verif.Props.C110_accepts_partial",
    "Verif.Props.C110_exact",
    "Verif.Props.C110_counterexample"
   ],
   "note": "C110_exact gives the exact set of accepted inputs, levels in any order. C110_accepts_partial: the thicknesses are as expected unless a zonal mean lies between the first level and the first layer interface, where a layer comes out negative (C110_counterexample)."
  },
  {
   "property": "C111",
   "status": "partial",
   "theorems": [
    "Verif.Props.C111_labels_partial",
    "Verif.Props.C111_counterexample"
   ],
   "note": "False: the description is stored under 'long name' (with a blank), so a long_name of the levels is kept; proved for everything else."
  },
  {
   "property": "C112",
   "status": "partial",
   "theorems": [
    "Verif.Props.C112_relhum_ice_partial",
    "Verif.Props.C112_transposed",
    "Verif.Props.C112_counterexample",
    "Verif.Props.C112_by_name",
    "Verif.Props.C112_numbers_partial",
    "Verif.Props.C112_numbers"
   ],
   "note": "False: relhum_ice and relhum_water silently use the transposed mixing ratio when its dimension order differs from the temperature's; proved for equal orders, and without restriction for dewtemp, relhum and heat_index."
  },
  {
   "property": "C113",
   "status": "partial",
   "theorems": [
    "Verif.Props.C113_units_partial",
    "Verif.Props.C113_counterexample"
   ],
   "note": "False for relhum_ice and relhum_water, which keep the temperature's attributes; proved for the others."
  },
  {
   "property": "C114",
   "status": "partial",
   "theorems": [
    "Verif.Props.C114_coordinates_partial",
    "Verif.Props.C114_auxiliary",
    "Verif.Props.C114_no_level_coordinate",
    "Verif.Props.C114_counterexample"
   ],
   "note": "False for data without level coordinate (no plev coordinate) and for data with a further coordinate along the levels (ValueError); proved otherwise."
  },
  {
   "property": "C115",
   "status": "partial",
   "theorems": [
    "Verif.Props.C115_extrapolated_partial",
    "Verif.Props.C115_skipped",
    "Verif.Props.C115_counterexample"
   ],
   "note": "False for data without level coordinate: the extrapolation is silently skipped; proved with a level coordinate."
  },
  {
   "property": "C116",
   "status": "proved",
   "theorems": [
    "Verif.Props.C116_default_levels",
    "Verif.Props.C116_default_call"
   ],
   "note": ""
  },
  {
   "property": "C117",
   "status": "partial",
   "theorems": [
    "Verif.Props.C117_labels_partial",
    "Verif.Props.C117_counterexample",
    "Verif.Props.C117_numbers_partial"
   ],
   "note": "False: a DataArray of days with a scalar latitude raises ValueError (and conversely); proved for one-dimensional arguments."
  },
  {
   "property": "C118",
   "status": "proved",
   "theorems": [
    "Verif.Props.C118_water",
    "Verif.Props.C118_ice"
   ],
   "note": "The 203 table entries are compared with the formulas by rational bounds of exp checked in the kernel; between the entries by convexity."
  },
  {
   "property": "C119",
   "status": "partial",
   "theorems": [
    "Verif.Props.C119_exact",
    "Verif.Props.C119_time_partial",
    "Verif.Props.C119_order_counterexample",
    "Verif.Props.C119_name_counterexample",
    "Verif.Props.C119_rank_counterexample"
   ],
   "note": "False: the result has the dimension order of the wind (time, plev, latitudes), a time dimension of another name gives an additional dimension, and data without time dimension fail; C119_exact says what is returned in each case, C119_time_partial is the case that works."
  },
  {
   "property": "C120",
   "status": "partial",
   "theorems": [
    "Verif.Props.C120_xarray",
    "Verif.Props.C120_numpy_coefficients_partial",
    "Verif.Props.C120_xarray_coefficients",
    "Verif.Props.C120_numpy",
    "Verif.Props.C120_names_counterexample",
    "Verif.Props.C120_coords_partial",
    "Verif.Props.C120_kept_index",
    "Verif.Props.C120_duplicate_labels",
    "Verif.Props.C120_counterexample"
   ],
   "note": "Proved for all four combinations of containers and for coefficients whose level coordinate, if any, comes first (C120_coords_partial). False if ps has a dimension called dim_0 and the coefficients are numpy arrays (C120_names_counterexample), and if another coordinate, such as a scalar time, comes before the level coordinate: only the first coordinate is dropped, the remaining index aligns the two shifted arrays and every layer is 0 (C120_kept_index, C120_counterexample)."
  },
  {
   "property": "C121",
   "status": "proved",
   "theorems": [
    "Verif.Props.C121_used",
    "Verif.Props.C121_found",
    "Verif.Props.C121_pressure_levels"
   ],
   "note": ""
  },
  {
   "property": "C122",
   "status": "proved",
   "theorems": [
    "Verif.Props.C122_rejected",
    "Verif.Props.C122_infer_raises",
    "Verif.Props.C122_accepted"
   ],
   "note": ""
  },
  {
   "property": "C123",
   "status": "partial",
   "theorems": [
    "Verif.Props.C123_exact",
    "Verif.Props.C123_whole_partial",
    "Verif.Props.C123_counterexample"
   ],
   "note": "False: the output array is a copy of the integer data, so the interpolated numbers are truncated when stored (C123_counterexample). C123_exact: the result is the float result with the decimals cut off, and arbitrary where the float result is missing; C123_whole_partial: whole numbers are right."
  },
  {
   "property": "C124",
   "status": "partial",
   "theorems": [
    "Verif.Props.C124_plain_partial",
    "Verif.Props.C124_missing",
    "Verif.Props.C124_cyclic",
    "Verif.Props.C124_exact",
    "Verif.Props.C124_numpy",
    "Verif.Props.C124_counterexample"
   ],
   "note": "False: missing_val drops the name and the attributes, cyclic also the attributes of the coordinates and all other coordinates (C124_missing, C124_cyclic, C124_counterexample). Proved for calls with neither (C124_plain_partial); C124_exact: nothing is lost exactly if there is nothing to lose."
  },
  {
   "property": "C125",
   "status": "partial",
   "theorems": [
    "Verif.Props.C125_climatology",
    "Verif.Props.C125_anomaly",
    "Verif.Props.C125_month_to_season",
    "Verif.Props.C125_calendar_partial",
    "Verif.Props.C125_season_partial",
    "Verif.Props.C125_anomaly_partial",
    "Verif.Props.C125_counterexample"
   ],
   "note": "false of the code with dropna: C125_counterexample (calendar_average, seasonal climatology; a variable loses the periods in which another variable has a gap). Proved without condition for climatology_average by hour, day, month, climate_anomaly by day, month and month_to_season; for the others if the selection has gaps in the same periods."
  },
  {
   "property": "C126",
   "status": "partial",
   "theorems": [
    "Verif.Props.C126_same_type",
    "Verif.Props.C126_climatology_partial",
    "Verif.Props.C126_climatology_datetime64",
    "Verif.Props.C126_counterexample"
   ],
   "note": "false of climatology_average by hour, day or month for datetime64 input (C126_counterexample): the result holds cftime objects. Proved for the other functions and for cftime input."
  },
  {
   "property": "C127",
   "status": "partial",
   "theorems": [
    "Verif.Props.C127_hybrid_profile",
    "Verif.Props.C127_hybrid_combination",
    "Verif.Props.C127_hybrid_order",
    "Verif.Props.C127_sigma_profile_partial",
    "Verif.Props.C127_sigma_combination_partial"
   ],
   "note": "Sigma to hybrid: proved for at most as many hybrid as sigma levels; for more the call raises ValueError (C21_counterexample)."
  },
  {
   "property": "C128",
   "status": "proved",
   "theorems": [
    "Verif.Props.C128_exact",
    "Verif.Props.C128_surface",
    "Verif.Props.C128_pure_pressure",
    "Verif.Props.C128_monotone",
    "Verif.Props.C128_layer",
    "Verif.Props.C128_accuracy",
    "Verif.Props.C128_layer_accuracy"
   ],
   "note": "Every operation is rounded by an arbitrary monotone rounding with gradual underflow (Basic/Rounding); float64 is round to nearest even with 53 bits, without overflow. C128_exact: with exact arithmetic these are the formulas of the exact model (C08, C10)."
  },
  {
   "property": "C129",
   "status": "partial",
   "theorems": [
    "Verif.Props.C129_exact",
    "Verif.Props.C129_between",
    "Verif.Props.C129_within_neighbours_partial",
    "Verif.Props.C129_counterexample",
    "Verif.Props.C129_accuracy",
    "Verif.Props.C129_monotone"
   ],
   "note": "The statement fails in one respect: the data are not reproduced at their own levels and the result can leave the range of its neighbours (C129_counterexample, float64 evaluated in the kernel: values 1 and 2^-60 at levels 1 and 2 give 0 at level 2), because metpy computes v_i + (v_j - v_i)*t. Proved: between v_i and fl(v_i + fl(v_j - v_i)) always (C129_between); between the neighbours if the values are positive and within a factor of two of each other (C129_within_neighbours_partial); monotone between two levels; error bound in float64."
  },
  {
   "property": "C130",
   "status": "proved",
   "theorems": [
    "Verif.Props.C130_exact",
    "Verif.Props.C130_layers",
    "Verif.Props.C130_accuracy"
   ],
   "note": "The thicknesses are those of a scalar surface pressure; an array of surface pressures applies this point by point (C05). Where the surface is at or above the first interface the exact model already shows a wrong top layer (C03_top_layer_wraps). C130_exact: with exact arithmetic this is the model of C01-C07."
  },
  {
   "property": "C131",
   "status": "partial",
   "theorems": [
    "Verif.Props.C131_mean_accuracy",
    "Verif.Props.C131_order",
    "Verif.Props.C131_monotone",
    "Verif.Props.C131_exact_partial",
    "Verif.Props.C131_counterexample"
   ],
   "note": "The statement fails in one respect: the float64 mean of a constant record is not always its value (C131_counterexample: three times 2^53-2 gives 2^53-3). Proved: the bounds for every order; exactness for multiples of a power of two whose absolute values add up to at most 2^53 of it (C131_exact_partial)."
  },
  {
   "property": "C132",
   "status": "proved",
   "theorems": [
    "Verif.Props.C132_shift",
    "Verif.Props.C132_reverse",
    "Verif.Props.C132_commute",
    "Verif.Props.C132_energy",
    "Verif.Props.C132_closest"
   ],
   "note": ""
  },
  {
   "property": "C133",
   "status": "proved",
   "theorems": [
    "Verif.Props.C133_calendar",
    "Verif.Props.C133_climatology",
    "Verif.Props.C133_season",
    "Verif.Props.C133_month_to_season",
    "Verif.Props.C133_anomaly",
    "Verif.Props.C133_combination",
    "Verif.Props.C133_order"
   ],
   "note": ""
  },
  {
   "property": "C134",
   "status": "partial",
   "theorems": [
    "Verif.Props.C134_calendar",
    "Verif.Props.C134_climatology",
    "Verif.Props.C134_month_to_season",
    "Verif.Props.C134_season_partial",
    "Verif.Props.C134_counterexample",
    "Verif.Props.C134_anomaly_partial"
   ],
   "note": "False of seasonal climatologies with an offset if no month of a season is full: the climatology is 0 in any unit (C134_counterexample: 5 degrees Celsius give 0, the same in Kelvin gives 0). _partial: seasons with a full month, or no offset; anomalies if each sample has a climatology of its own group, or no offset."
  },
  {
   "property": "C135",
   "status": "proved",
   "theorems": [
    "Verif.Props.C135_pressure",
    "Verif.Props.C135_sigma",
    "Verif.Props.C135_hybrid"
   ],
   "note": ""
  },
  {
   "property": "C136",
   "status": "partial",
   "theorems": [
    "Verif.Props.C136_hybrid",
    "Verif.Props.C136_sigma_partial"
   ],
   "note": "Sigma to hybrid: for at most as many hybrid as sigma levels; with more the call fails (C21). Extrapolated levels below the ground are outside the statement."
  },
  {
   "property": "C137",
   "status": "proved",
   "theorems": [
    "Verif.Props.C137_seam"
   ],
   "note": "C137_seam: for every number d of points (either direction) and every number m of turns; both methods, missing values included. Excluded: the left end of the padded axis, where C24_counterexample applies. Longitudes increasing, two-dimensional data (cyclic=True fails otherwise, C26)."
  },
  {
   "property": "C138",
   "status": "proved",
   "theorems": [
    "Verif.Props.C138_linear",
    "Verif.Props.C138_order"
   ],
   "note": "C138_linear for both methods, cyclic or not, extrapolation or the default fill value; C138_order for the default fill value (linear extrapolation does not keep order). missing_val=None; with a code the cells are first replaced by NaN (C22_code_is_nan). Exact arithmetic."
  },
  {
   "property": "C139",
   "status": "partial",
   "theorems": [
    "Verif.Props.C139_unit",
    "Verif.Props.C139_low",
    "Verif.Props.C139_high",
    "Verif.Props.C139_band",
    "Verif.Props.C139_split_partial",
    "Verif.Props.C139_counterexample"
   ],
   "note": "Units and chains of filters of one kind proved for all non-negative cutoffs. Band pass = low pass after high pass: false for cutoffs that are not multiples of frequency/n (C139_counterexample: band pass rounds outwards, low and high pass inwards); proved for multiples (C139_split_partial)."
  },
  {
   "property": "C140",
   "status": "partial",
   "theorems": [
    "Verif.Props.C140_origin_partial",
    "Verif.Props.C140_counterexample",
    "Verif.Props.C140_south",
    "Verif.Props.C140_west"
   ],
   "note": "Origin of longitude: false for 2-D coordinates whose latitude changes along a row (C140_counterexample: the distance is a difference of longitude*cos(latitude), so it depends on the origin of longitude); proved, for all data, if the latitude is constant along each row, which includes all 1-D coordinates (C140_origin_partial). Mirror symmetries proved for all spaced grids."
  },
  {
   "property": "C141",
   "status": "partial",
   "theorems": [
    "Verif.Props.C141_temperature_partial",
    "Verif.Props.C141_humidity_partial",
    "Verif.Props.C141_counterexample"
   ],
   "note": "False at 40 F for every humidity and both coefficient sets (39 F feels warmer than 40 F) and in dry air where the simple formula hands over to the regression (C141_counterexample). The _partial theorems prove strict increase in temperature for humidity 30-85 % (30-50 % with the alternate coefficients) on each side of 40 F, and in humidity for 30-80 % (30-50 %), including across the switch to the regression."
  },
  {
   "property": "C142",
   "status": "partial",
   "theorems": [
    "Verif.Props.C142_month_first",
    "Verif.Props.C142_repeat",
    "Verif.Props.C142_steps_partial",
    "Verif.Props.C142_counterexample"
   ],
   "note": "Month first, then month, season or year: exact, for all data (C142_month_first). Hour or day twice: exact (C142_repeat). Hour or day first, then a longer period: proved for records without missing values and with equally filled hours or days (C142_steps_partial); false with missing values (C142_counterexample), because the hourly mean of the remaining samples gets full weight."
  },
  {
   "property": "C143",
   "status": "partial",
   "theorems": [
    "Verif.Props.C143_cycle_partial",
    "Verif.Props.C143_zero_partial",
    "Verif.Props.C143_twice_partial",
    "Verif.Props.C143_counterexample"
   ],
   "note": "_partial: every sample has an average of its own group (always for freq='month'; for 'day' the calendar days of the data exist in the median year; for 'season' and 'year' each group has a complete month and the record covers less than a century). C143_counterexample: in a record over a century a constant added to the data changes the yearly anomalies and taking anomalies twice changes them again."
  },
  {
   "property": "C144",
   "status": "proved",
   "theorems": [
    "Verif.Props.C144_turn_decomposition",
    "Verif.Props.C144_turn_power",
    "Verif.Props.C144_turn_recomposition",
    "Verif.Props.C144_roll",
    "Verif.Props.C144_zonal",
    "Verif.Props.C144_mirror",
    "Verif.Props.C144_power"
   ],
   "note": ""
  },
  {
   "property": "C145",
   "status": "partial",
   "theorems": [
    "Verif.Props.C145_partial",
    "Verif.Props.C145_counterexample"
   ],
   "note": "False as stated (C145_counterexample, 365-day calendar): month_to_season averages the months equally, calendar_average weights them by days. C145_partial: each entry of month_to_season has its counterpart; the values are equal if the months of the season are equally long (360-day calendar) and otherwise, for months of 28 to 31 days, differ by at most 1/39 of the range of the data."
  },
  {
   "property": "C146",
   "status": "partial",
   "theorems": [
    "Verif.Props.C146_weighted",
    "Verif.Props.C146_partial",
    "Verif.Props.C146_counterexample"
   ],
   "note": "False of plain means when seasons are incomplete (C146_counterexample). C146_weighted holds for every record: the climatology is the mean of the seasonal averages weighted with the days of each season in months with data. C146_partial: plain mean if these numbers of days agree."
  },
  {
   "property": "C147",
   "status": "proved",
   "theorems": [
    "Verif.Props.C147_linear",
    "Verif.Props.C147_uniform",
    "Verif.Props.C147_bounds"
   ],
   "note": ""
  },
  {
   "property": "C148",
   "status": "proved",
   "theorems": [
    "Verif.Props.C148_vapor_pressure"
   ],
   "note": ""
  },
  {
   "property": "C149",
   "status": "proved",
   "theorems": [
    "Verif.Props.C149_solstice_day",
    "Verif.Props.C149_year"
   ],
   "note": ""
  },
  {
   "property": "C150",
   "status": "proved",
   "theorems": [
    "Verif.Props.C150_dataarray",
    "Verif.Props.C150_analysis",
    "Verif.Props.C150_two_calls",
    "Verif.Props.C150_leading",
    "Verif.Props.C150_scaled"
   ],
   "note": "The eofs package is not modelled: its documented behaviour for data without missing values is the hypothesis EofContract (Spec/EofLib.lean); contract_met shows by the spectral theorem that a solver with this behaviour exists."
  },
  {
   "property": "C151",
   "status": "proved",
   "theorems": [
    "Verif.Props.C151_level_in_layer",
    "Verif.Props.C151_surface_raised"
   ],
   "note": "Full for the surface pressures C01 holds for."
  },
  {
   "property": "C152",
   "status": "proved",
   "theorems": [
    "Verif.Props.C152_mean_value"
   ],
   "note": "C152_mean_value; the exact quotient is C75_difference_quotients."
  },
  {
   "property": "C153",
   "status": "proved",
   "theorems": [
    "Verif.Props.C153_pressure_levels",
    "Verif.Props.C153_hybrid_levels",
    "Verif.Props.C153_points"
   ],
   "note": "For requested levels in order; without order the values are stored under the wrong labels (C83). interp_sigma_to_hybrid: at most as many hybrid as sigma levels (C21)."
  },
  {
   "property": "C154",
   "status": "proved",
   "theorems": [
    "Verif.Props.C154_exact",
    "Verif.Props.C154_constant",
    "Verif.Props.C154_cyclic_inside",
    "Verif.Props.C154_accuracy",
    "Verif.Props.C154_nearest"
   ],
   "note": "Overflow is not modelled. At grid points the result agrees with the data only to this accuracy: an example in Props/FloatGrid gives 0 at a grid point of value 2^-60 next to a value 1."
  },
  {
   "property": "C155",
   "status": "proved",
   "theorems": [
    "Verif.Props.C155_never",
    "Verif.Props.C155_valueError",
    "Verif.Props.C155_old_names",
    "Verif.Props.C155_exact"
   ],
   "note": "The positive direction uses the documented contract of the eofs package."
  },
  {
   "property": "C156",
   "status": "proved",
   "theorems": [
    "Verif.Props.C156_exact",
    "Verif.Props.C156_order",
    "Verif.Props.C156_missing",
    "Verif.Props.C156_winds_monotone",
    "Verif.Props.C156_northward",
    "Verif.Props.C156_opposite",
    "Verif.Props.C156_accuracy"
   ],
   "note": "Overflow is not modelled; the latitude factor is the stored number c (C58 is about its formula)."
  },
  {
   "property": "C157",
   "status": "proved",
   "theorems": [
    "Verif.Props.C157_exact",
    "Verif.Props.C157_not_negative",
    "Verif.Props.C157_identical"
   ],
   "note": "Roundings are monotone and exact on representable numbers; overflow and fused multiply-add are not modelled. A positive numerator may underflow to 0, so 0 does not imply identical fields."
  },
  {
   "property": "C158",
   "status": "partial",
   "theorems": [
    "Verif.Props.C158_counterexample",
    "Verif.Props.C158_constant_partial"
   ],
   "note": "Fails: 273.15 everywhere on latitudes 0 and 60 has the computed mean 273.15000000000003 and gives 2.2e26 (C158_counterexample). Partial: holds whenever the computed mean is the constant."
  },
  {
   "property": "C159",
   "status": "proved",
   "theorems": [
    "Verif.Props.C159_exact",
    "Verif.Props.C159_labels",
    "Verif.Props.C159_order",
    "Verif.Props.C159_calendar_accuracy",
    "Verif.Props.C159_climatology_accuracy",
    "Verif.Props.C159_season_accuracy"
   ],
   "note": ""
  },
  {
   "property": "C160",
   "status": "partial",
   "theorems": [
    "Verif.Props.C160_constant_partial",
    "Verif.Props.C160_counterexample"
   ],
   "note": "Fails in float64: the yearly average of 1 in all twelve months of a year without leap day is 1 - 2^-53, and the JJA average of 0.1 is 0.10000000000000002 (C160_counterexample). Partial: exact for hourly, daily, monthly averages and climatologies and month_to_season if the multiples of the constant up to the number of samples can be stored."
  },
  {
   "property": "C161",
   "status": "proved",
   "theorems": [
    "Verif.Props.C161_exact",
    "Verif.Props.C161_labels",
    "Verif.Props.C161_accuracy",
    "Verif.Props.C161_similar_size"
   ],
   "note": ""
  },
  {
   "property": "C162",
   "status": "proved",
   "theorems": [
    "Verif.Props.C162_exact",
    "Verif.Props.C162_arc_lengths",
    "Verif.Props.C162_accuracy",
    "Verif.Props.C162_nine_digits",
    "Verif.Props.C162_constant"
   ],
   "note": "Accuracy of the library's power and cosine is a hypothesis (shown to be met by correctly rounded functions). No overflow."
  },
  {
   "property": "C163",
   "status": "proved",
   "theorems": [
    "Verif.Props.C163_exact",
    "Verif.Props.C163_never_out_of_table",
    "Verif.Props.C163_lower_bound",
    "Verif.Props.C163_saturation_pressure",
    "Verif.Props.C163_accuracy",
    "Verif.Props.C163_double_precision"
   ],
   "note": "Usable covers half, single and double precision; overflow is not modelled."
  },
  {
   "property": "C164",
   "status": "partial",
   "theorems": [
    "Verif.Props.C164_bins_partial",
    "Verif.Props.C164_one_bin",
    "Verif.Props.C164_on_bin_partial",
    "Verif.Props.C164_annual_cycle_counterexample"
   ],
   "note": "Fails in double precision: 49 years of monthly data, cutoff one cycle per year: the computed high cutoff bin is 50 instead of 49, so the annual cycle is removed by high pass and by low pass (C164_annual_cycle_counterexample). Proved: right bin unless the cutoff is within four units of rounding of a bin, right bin on a bin if the frequency step is stored exactly, never more than one bin off."
  },
  {
   "property": "C165",
   "status": "proved",
   "theorems": [
    "Verif.Props.C165_backward",
    "Verif.Props.C165_exact",
    "Verif.Props.C165_three_way_split",
    "Verif.Props.C165_accuracy",
    "Verif.Props.C165_no_flags"
   ],
   "note": "Overflow and underflow of the frequency step to 0 are not modelled."
  },
  {
   "property": "C166",
   "status": "partial",
   "theorems": [
    "Verif.Props.C166_accepted_partial",
    "Verif.Props.C166_exact_grid_partial",
    "Verif.Props.C166_call_partial",
    "Verif.Props.C166_counterexample",
    "Verif.Props.C166_double_partial"
   ],
   "note": "Fails in single precision: latitudes 45, 45.1, 45.2 are rejected with ValueError (C166_counterexample). Proved: accepted if 1e7 (u B + eta) <= 9 |d| for coordinates up to B (in double precision every step of at least 5e-8 degrees), and in any precision if the coordinates are stored exactly. The tolerance is computed in the precision of the coordinates (numpy 2); numpy 1 computes it in double precision, which does not matter for the counterexample."
  },
  {
   "property": "C167",
   "status": "proved",
   "theorems": [
    "Verif.Props.C167_exact",
    "Verif.Props.C167_range",
    "Verif.Props.C167_identical",
    "Verif.Props.C167_opposite",
    "Verif.Props.C167_double"
   ],
   "note": "C167_identical and C167_opposite hold for every binary format (p bits, exponent from emin) and every order of summation (AddsUp; for the negative the order must not depend on the signs). The key is that sqrt(x*x) = |x| in binary rounding to nearest (Lemmas/FloatSqrt). Overflow is not modelled."
  },
  {
   "property": "C168",
   "status": "partial",
   "theorems": [
    "Verif.Props.C168_symmetric_partial",
    "Verif.Props.C168_counterexample"
   ],
   "note": "C168_symmetric_partial: without weights, for all data including NaN and infinities. C168_counterexample: weights 0.1, [3,-3,7,-7] and [7,-7,3,-3] give 0.7241379310344827 one way and 0.7241379310344829 the other."
  },
  {
   "property": "C169",
   "status": "partial",
   "theorems": [
    "Verif.Props.C169_untouched_partial",
    "Verif.Props.C169_counterexample",
    "Verif.Props.C169_only_attrs"
   ],
   "note": "eofunc_eofs with meta=True on a DataArray writes the eigenvalues into the caller's attrs (C169_counterexample); C169_only_attrs shows that it changes nothing else; all other functions, in any session: C169_untouched_partial."
  },
  {
   "property": "C170",
   "status": "partial",
   "theorems": [
    "Verif.Props.C170_pure",
    "Verif.Props.C170_history_partial",
    "Verif.Props.C170_counterexample"
   ],
   "note": "Each call on its own: C170_pure. Sessions without eofunc_eofs(DataArray, meta=True): C170_history_partial; after such a call a later call on the same object differs (C170_counterexample)."
  },
  {
   "property": "C171",
   "status": "partial",
   "theorems": [
    "Verif.Props.C171_new_partial",
    "Verif.Props.C171_counterexample",
    "Verif.Props.C171_gradient"
   ],
   "note": "gradient returns the caller's two-dimensional longitudes and latitudes as the coordinates of its result (C171_counterexample); its values, attributes and mappings are new (C171_gradient); every other function: C171_new_partial."
  },
  {
   "property": "C172",
   "status": "partial",
   "theorems": [
    "Verif.Props.C172_schedules_partial",
    "Verif.Props.C172_already_ignored",
    "Verif.Props.C172_serial",
    "Verif.Props.C172_counterexample"
   ],
   "note": "Blocks computed one after the other: C172_serial (interp_sigma_to_hybrid, which loops over its columns, is of this kind). On several threads both halves fail (C172_counterexample); what is left is that the filters in force are at all times the caller's, possibly with the ignore filter in front (C172_schedules_partial). A caller who installs that filter first is safe under every schedule (C172_already_ignored). The xr.map_blocks path and the path without dask install no filter at all."
  },
  {
   "property": "C173",
   "status": "partial",
   "theorems": [
    "Verif.Props.C173_pieces",
    "Verif.Props.C173_months_partial",
    "Verif.Props.C173_months_counterexample"
   ],
   "note": "calendar_average: C173_pieces, with the condition for there being no empty row. month_to_season: all seasons within one calendar year, C173_months_partial; for DJF each piece drops its last December and the winter at the cut gets another value (C173_months_counterexample)."
  },
  {
   "property": "C174",
   "status": "proved",
   "theorems": [
    "Verif.Props.C174_exact",
    "Verif.Props.C174_accuracy",
    "Verif.Props.C174_monotone",
    "Verif.Props.C174_counterexample"
   ],
   "note": "C174_exact: without rounding this is the function of C45. C174_accuracy: 25 units of rounding, and at most 2.1 units above the temperature. C174_monotone. C174_counterexample: the dew point of saturated air at 251 K is above 251 K in float64. The logarithm is a parameter; a correctly rounded one meets the hypotheses in float32 and float64 (examples)."
  },
  {
   "property": "C175",
   "status": "partial",
   "theorems": [
    "Verif.Props.C175_exact",
    "Verif.Props.C175_psychrometric",
    "Verif.Props.C175_accuracy",
    "Verif.Props.C175_monotone_partial",
    "Verif.Props.C175_counterexample"
   ],
   "note": "C175_exact: without rounding these are the functions of C52-C54. C175_accuracy: fill values and error bounds. C175_psychrometric. C175_counterexample: in float64 the pressure at 203.25 degrees Fahrenheit is larger than at the next number above, whatever the (accurate) exponential. C175_monotone_partial: it increases between temperatures that differ by 6400 units of rounding (7e-13 degrees in float64)."
  },
  {
   "property": "C176",
   "status": "partial",
   "theorems": [
    "Verif.Props.C176_fits_partial",
    "Verif.Props.C176_signed_partial",
    "Verif.Props.C176_narrow",
    "Verif.Props.C176_unsigned_partial",
    "Verif.Props.C176_unsigned_gap",
    "Verif.Props.C176_counterexample"
   ],
   "note": "True for the signed types of at least 16 bits (C176_signed_partial) and whenever the two shifted longitudes fit the type (C176_fits_partial, all methods). False for the unsigned types (C176_counterexample): the padded longitude west of the first one wraps around to a large number, everything west of the first longitude is missing (C176_unsigned_gap), points far east of the grid get numbers; between the first longitude and 360 degrees east of it linear results are right (C176_unsigned_partial). 8-bit types raise OverflowError (C176_narrow)."
  },
  {
   "property": "C177",
   "status": "proved",
   "theorems": [
    "Verif.Props.C177_exact",
    "Verif.Props.C177_accuracy",
    "Verif.Props.C177_monotone",
    "Verif.Props.C177_order"
   ],
   "note": "C177_exact: without rounding these are the functions of C48. Pressures are assumed at most 1e7 Pa and mixing ratios 0 or at least 1e-20."
  },
  {
   "property": "C178",
   "status": "proved",
   "theorems": [
    "Verif.Props.C178_exact",
    "Verif.Props.C178_accuracy",
    "Verif.Props.C178_hemispheres"
   ],
   "note": "Days and latitudes of one precision, no overflow. The error constant is not sharp."
  },
  {
   "property": "C179",
   "status": "partial",
   "theorems": [
    "Verif.Props.C179_calendars",
    "Verif.Props.C179_calendar",
    "Verif.Props.C179_month_to_season",
    "Verif.Props.C179_season",
    "Verif.Props.C179_climatology_partial",
    "Verif.Props.C179_uniform_partial",
    "Verif.Props.C179_anomaly",
    "Verif.Props.C179_counterexample"
   ],
   "note": "False for the labels of hourly, daily and monthly climatologies moved by an odd number of years: the label year is the median year rounded half to even, so a climatology of 2000-2001 is labelled 2000 and that of 2001-2002 is labelled 2002 (C179_counterexample). Proved for even numbers of years (C179_climatology_partial), and otherwise up to one year of the label (C179_uniform_partial); values never change. infer_freq is assumed to recognise the moved record like the original; years have four or five digits."
  },
  {
   "property": "C180",
   "status": "proved",
   "theorems": [
    "Verif.Props.C180_exact",
    "Verif.Props.C180_checks",
    "Verif.Props.C180_cold",
    "Verif.Props.C180_accuracy",
    "Verif.Props.C180_double",
    "Verif.Props.C180_single"
   ],
   "note": "C180_single and C180_double state the bounds for numpy's two formats. The 1e-15 gap around 112 F in C180_accuracy is a property of those formats (gap_112), not a restriction on their users. Rounding of int arguments and mixed precisions are not modelled."
  },
  {
   "property": "C181",
   "status": "proved",
   "theorems": [
    "Verif.Props.C181_exact",
    "Verif.Props.C181_anchor",
    "Verif.Props.C181_temperature",
    "Verif.Props.C181_height",
    "Verif.Props.C181_height_low"
   ],
   "note": "Accuracy of the logarithm and the third power are hypotheses (both correctly rounded functions meet them); no overflow. Heights over ground between sea level and 10 m, where the slope R/phi of the exponent is unbounded, are not covered."
  },
  {
   "property": "C182",
   "status": "proved",
   "theorems": [
    "Verif.Props.C182_split",
    "Verif.Props.C182_bound",
    "Verif.Props.C182_correction"
   ],
   "note": "Real arithmetic. pearson_r is called on the flattened arrays with the expanded weights cos(latitude) and skipna=True. Model and observation have one variable each."
  },
  {
   "property": "C183",
   "status": "proved",
   "theorems": [
    "Verif.Props.C183_accuracy",
    "Verif.Props.C183_any_order",
    "Verif.Props.C183_double",
    "Verif.Props.C183_single"
   ],
   "note": "Overflow is not modelled and underflow is excluded by the hypothesis InRange (data between 2^-500 and 2^100 in double precision and not all equal). Series are arrays, not DataArrays. The exact coefficient r is the one C05 and C182 speak about."
  },
  {
   "property": "C184",
   "status": "proved",
   "theorems": [
    "Verif.Props.C184_accuracy",
    "Verif.Props.C184_any_order",
    "Verif.Props.C184_weights",
    "Verif.Props.C184_double",
    "Verif.Props.C184_single"
   ],
   "note": "Overflow is not modelled; underflow is accounted for by the absolute term (1e-150 in double precision). DataArrays only; for Datasets see C94 and C157. The weights theorem needs a relative error, which the stored cosine has away from the poles."
  },
  {
   "property": "C185",
   "status": "partial",
   "theorems": [
    "Verif.Props.C185_by_position",
    "Verif.Props.C185_partial",
    "Verif.Props.C185_extrapolate",
    "Verif.Props.C185_extrapolate_rejects",
    "Verif.Props.C185_points_counterexample",
    "Verif.Props.C185_levels_counterexample",
    "Verif.Props.C185_renamed",
    "Verif.Props.C185_extrapolate_values",
    "Verif.Props.C185_sigma_by_position",
    "Verif.Props.C185_sigma_partial",
    "Verif.Props.C185_sigma_counterexample"
   ],
   "note": "Violated by the code: surface pressure (and the level labels of data against those of the coefficients) are paired by position, without an error, see the three counterexamples. Proved: what the code does for any labels (by position), and the full property when the labels are listed in the same order; hyam and hybm are matched by label in any order, also when hybm names its dimension differently (C185_renamed); with extrapolate=True and variable='other' labels in different order are a ValueError."
  },
  {
   "property": "C186",
   "status": "partial",
   "theorems": [
    "Verif.Props.C186_dewtemp",
    "Verif.Props.C186_relhum",
    "Verif.Props.C186_ice_exact",
    "Verif.Props.C186_ice_ok",
    "Verif.Props.C186_ice_partial",
    "Verif.Props.C186_ice_counterexample",
    "Verif.Props.C186_heat_index",
    "Verif.Props.C186_heat_index_ok"
   ],
   "note": "Partial: relhum_ice and relhum_water with a mixing ratio whose labels stand in another order than those of the temperature give silently mislabelled values (C186_ice_counterexample); C186_ice_exact says exactly which values they are."
  },
  {
   "property": "C187",
   "status": "proved",
   "theorems": [
    "Verif.Props.C187_rejects",
    "Verif.Props.C187_slices",
    "Verif.Props.C187_labels",
    "Verif.Props.C187_nmse"
   ],
   "note": "Proved for arrays with named dimensions over any ordered field; the tests of lines 55-108 are those of C62 and C95. C187_nmse states the equality with separate calls for one-dimensional coordinates, C187_slices covers all coordinates."
  },
  {
   "property": "C188",
   "status": "proved",
   "theorems": [
    "Verif.Props.C188_extrapolated",
    "Verif.Props.C188_no_missing",
    "Verif.Props.C188_succeeds"
   ],
   "note": "all three theorems; the pressure of the lowest level is that of the level with the largest label common to hyam and hybm (see C17); every dimension carries labels; the points of data and ps themselves are matched by position before (see C185)"
  },
  {
   "property": "C189",
   "status": "partial",
   "theorems": [
    "Verif.Props.C189_partial",
    "Verif.Props.C189_missing",
    "Verif.Props.C189_counterexample"
   ],
   "note": "proved for weights listed in any order of labels and dimensions, with theta and phi listed like the data; missing: theta and phi are taken by position, so the property fails for other orders (C189_counterexample)"
  },
  {
   "property": "C190",
   "status": "partial",
   "theorems": [
    "Verif.Props.C190_partial",
    "Verif.Props.C190_each_series",
    "Verif.Props.C190_bad_axis",
    "Verif.Props.C190_axis_weights",
    "Verif.Props.C190_counterexample"
   ],
   "note": "partial: proved without weights and with a positive weight for every element (the result is the correlation of each pair of series, and equals the call for that pair); the documented weights along the axis are refuted (C190_counterexample, C190_axis_weights), and an axis the arrays do not have returns None instead of raising (C190_bad_axis)."
  },
  {
   "property": "C191",
   "status": "partial",
   "theorems": [
    "Verif.Props.C191_partial",
    "Verif.Props.C191_wide",
    "Verif.Props.C191_counterexample"
   ],
   "note": "partial: equal to the call with floating-point levels whenever all sums of two levels fit the integer type (C191_partial), in particular for 32 and 64 bit types (C191_wide); refuted for 16 bit types whose sums overflow (C191_counterexample)."
  },
  {
   "property": "C192",
   "status": "partial",
   "theorems": [
    "Verif.Props.C192_partial",
    "Verif.Props.C192_counterexample"
   ],
   "note": "Violated for gaps narrower than rounding errors: longitudes -300, -120 and the float64 just below 60 give NaN at the grid point -300 with cyclic=True (C192_counterexample). Proved for gaps of at least 2^-42 degrees, with error at most (2^-47 + 2^-42/gap) times the largest value. Gaps of longitudes from 0 to 360 are never too narrow, see C154."
  },
  {
   "property": "C193",
   "status": "partial",
   "theorems": [
    "Verif.Props.C193_by_position",
    "Verif.Props.C193_partial",
    "Verif.Props.C193_unlabelled_counterexample",
    "Verif.Props.C193_counterexample"
   ],
   "note": "Partial: values proved for equal label orders (C193_partial); C193_by_position says exactly what the code does for all labels; counterexamples for the missing labels and for a permuted phi."
  },
  {
   "property": "C194",
   "status": "partial",
   "theorems": [
    "Verif.Props.C194_profile_partial",
    "Verif.Props.C194_bounds_partial",
    "Verif.Props.C194_counterexample"
   ],
   "note": "Partial: proved for coefficients along a dimension called hlev and at most as many hybrid as sigma levels (C194_profile_partial, C194_bounds_partial); C194_counterexample: ValueError for every other name of that dimension."
  },
  {
   "property": "C195",
   "status": "proved",
   "theorems": [
    "Verif.Props.C195_dewtemp",
    "Verif.Props.C195_moister",
    "Verif.Props.C195_heat_index"
   ],
   "note": "Whole calls. Saturation is relhum's own, by its table."
  },
  {
   "property": "C196",
   "status": "proved",
   "theorems": [
    "Verif.Props.C196_through_finer",
    "Verif.Props.C196_there_and_back"
   ],
   "note": "Exact arithmetic; linear method, cyclic=False, no missing values."
  },
  {
   "property": "C197",
   "status": "proved",
   "theorems": [
    "Verif.Props.C197_calendar",
    "Verif.Props.C197_climatology",
    "Verif.Props.C197_anomaly",
    "Verif.Props.C197_month_to_season",
    "Verif.Props.C197_gap_matters"
   ],
   "note": "Linear method, no missing_val; data without gaps, as the claim says. The interpolated data are handed on as a series with the same times; the season labels of climatology_average by season are not compared."
  },
  {
   "property": "C198",
   "status": "proved",
   "theorems": [
    "Verif.Props.C198_calendar",
    "Verif.Props.C198_climatology",
    "Verif.Props.C198_anomaly",
    "Verif.Props.C198_month_to_season"
   ],
   "note": "Without extrapolation. Time steps are numbered along a dimension called time; the season labels of climatology_average by season are not compared."
  },
  {
   "property": "C199",
   "status": "proved",
   "theorems": [
    "Verif.Props.C199_calendar",
    "Verif.Props.C199_climatology",
    "Verif.Props.C199_anomaly",
    "Verif.Props.C199_month_to_season"
   ],
   "note": "Exact arithmetic; data without missing values. A step of the average without any value (month_to_season without a matching month) is missing in all three outputs."
  },
  {
   "property": "C200",
   "status": "proved",
   "theorems": [
    "Verif.Props.C200_calendar",
    "Verif.Props.C200_climatology",
    "Verif.Props.C200_anomaly",
    "Verif.Props.C200_month_to_season"
   ],
   "note": "Exact arithmetic; from the zonal means on, levels from the top down (as C147). A step of the average without any value is missing in both outputs."
  },
  {
   "property": "C201",
   "status": "proved",
   "theorems": [
    "Verif.Props.C201_same_layers",
    "Verif.Props.C201_above_ground"
   ],
   "note": "Levels from the top down (C04 gives the other order), surface below the first midpoint (C01). DataArray arguments of delta_pressure_hybrid; C10 relates the other containers."
  },
  {
   "property": "C202",
   "status": "proved",
   "theorems": [
    "Verif.Props.C202_pressures_calendar",
    "Verif.Props.C202_pressures_climatology",
    "Verif.Props.C202_pressures_month_to_season",
    "Verif.Props.C202_layers_calendar",
    "Verif.Props.C202_layers_climatology",
    "Verif.Props.C202_layers_month_to_season",
    "Verif.Props.C202_order_matters"
   ],
   "note": "Exact arithmetic. C202_order_matters: with layers that turn over between time steps it fails. Seasonal climatologies are left out (a season without data gives 0, C134_counterexample), anomalies too (an anomaly of pressure is not a pressure)."
  },
  {
   "property": "C203",
   "status": "proved",
   "theorems": [
    "Verif.Props.C203_pressure_unit",
    "Verif.Props.C203_wind_unit",
    "Verif.Props.C203_mirror"
   ],
   "note": "Exact numbers; the zonal means are given, as in C57."
  },
  {
   "property": "C204",
   "status": "proved",
   "theorems": [
    "Verif.Props.C204_either_order",
    "Verif.Props.C204_numbers"
   ],
   "note": "Exact numbers; cyclic=True accepts no leading dimensions (C24), so it is not part of the claim."
  },
  {
   "property": "C205",
   "status": "proved",
   "theorems": [
    "Verif.Props.C205_either_order",
    "Verif.Props.C205_exists"
   ],
   "note": "Exact numbers; the gradient is taken field by field, since gradient does not treat leading dimensions as such (C104)."
  },
  {
   "property": "C206",
   "status": "proved",
   "theorems": [
    "Verif.Props.C206_units",
    "Verif.Props.C206_rise"
   ],
   "note": "Exact numbers; numpy grids as in C08_numpy and C10_layers_numpy."
  },
  {
   "property": "C207",
   "status": "proved",
   "theorems": [
    "Verif.Props.C207_either_order"
   ],
   "note": "Exact numbers; stated for the zonal means, which are given, as in C57."
  },
  {
   "property": "C208",
   "status": "proved",
   "theorems": [
    "Verif.Props.C208_either_order",
    "Verif.Props.C208_months"
   ],
   "note": "Real arithmetic. Whole cycles are required: with a part of a year left over the groups are not of the same size. freq 'season' and 'year' are not covered (months are weighted by their number of days)."
  },
  {
   "property": "C209",
   "status": "proved",
   "theorems": [
    "Verif.Props.C209_hybrid",
    "Verif.Props.C209_sigma"
   ],
   "note": "Real arithmetic, no extrapolation (extrapolation is not linear in the data), without chunks (C15)."
  },
  {
   "property": "C210",
   "status": "proved",
   "theorems": [
    "Verif.Props.C210_decomposition",
    "Verif.Props.C210_recomposition"
   ],
   "note": "Real arithmetic; the spherical harmonics of scipy are an arbitrary function."
  },
  {
   "property": "C211",
   "status": "proved",
   "theorems": [
    "Verif.Props.C211_either_order",
    "Verif.Props.C211_winter"
   ],
   "note": "Exact arithmetic. C211_winter shows why seasons from November or December on are excluded."
  },
  {
   "property": "C212",
   "status": "proved",
   "theorems": [
    "Verif.Props.C212_decomposition",
    "Verif.Props.C212_recomposition"
   ],
   "note": "Proved over the real and complex numbers; complex coefficients are held as real parts followed by imaginary parts."
  },
  {
   "property": "C213",
   "status": "proved",
   "theorems": [
    "Verif.Props.C213_calendar",
    "Verif.Props.C213_climatology",
    "Verif.Props.C213_season",
    "Verif.Props.C213_month_to_season",
    "Verif.Props.C213_slope",
    "Verif.Props.C213_two"
   ],
   "note": "Temperature and vapour pressure are two variables of one record. Seasonal climatologies: for seasons of which the record has a month without gaps."
  },
  {
   "property": "C214",
   "status": "proved",
   "theorems": [
    "Verif.Props.C214_units"
   ],
   "note": "Relative to EofContract (the documented behaviour of the eofs package, a hypothesis); Lemmas/EofUnique proves that variances and simple patterns are unique."
  },
  {
   "property": "C215",
   "status": "proved",
   "theorems": [
    "Verif.Props.C215_rearranged"
   ],
   "note": "Relative to EofContract, as C214."
  },
  {
   "property": "C216",
   "status": "proved",
   "theorems": [
    "Verif.Props.C216_ensemble"
   ],
   "note": ""
  },
  {
   "property": "C217",
   "status": "proved",
   "theorems": [
    "Verif.Props.C217_pairs",
    "Verif.Props.C217_order",
    "Verif.Props.C217_repeated"
   ],
   "note": "C217_pairs is the general statement; C217_order and C217_repeated are the two cases users rely on. Exact real arithmetic: in floating point the order of a sum matters."
  },
  {
   "property": "C218",
   "status": "proved",
   "theorems": [
    "Verif.Props.C218_cells",
    "Verif.Props.C218_flipped",
    "Verif.Props.C218_direction_counterexample"
   ],
   "note": "C218_cells assumes both calls succeed: the spacing test compares with the first step only, so a grid at the edge of the tolerance may be accepted in one direction and rejected in the other (C218_direction_counterexample). C218_flipped proves success for exactly equal steps."
  },
  {
   "property": "C219",
   "status": "proved",
   "theorems": [
    "Verif.Props.C219_three",
    "Verif.Props.C219_perfect",
    "Verif.Props.C219_missing_counterexample"
   ],
   "note": "C219_three and C219_perfect for common missing cells; C219_missing_counterexample shows that the condition is needed (pairwise skipna)."
  },
  {
   "property": "C220",
   "status": "proved",
   "theorems": [
    "Verif.Props.C220_change"
   ],
   "note": "The bound is in exact arithmetic; rounding errors of nmse itself are the subject of C184."
  },
  {
   "property": "C221",
   "status": "proved",
   "theorems": [
    "Verif.Props.C221_line"
   ],
   "note": "Converse of C64_perfect, in exact arithmetic: rounding and the clip to [-1, 1] can give 1 for pairs close to a line."
  },
  {
   "property": "C222",
   "status": "proved",
   "theorems": [
    "Verif.Props.C222_calendar",
    "Verif.Props.C222_climatology",
    "Verif.Props.C222_season",
    "Verif.Props.C222_month_to_season"
   ],
   "note": "Both fields are cells of one record, as variables of a Dataset or grid points of an array are; by C125 this is the same as two calls. Exact arithmetic: rounding errors are the subject of C159."
  },
  {
   "property": "C223",
   "status": "partial",
   "theorems": [
    "Verif.Props.C223_hybrid",
    "Verif.Props.C223_sigma_partial"
   ],
   "note": "C223_hybrid covers interp_hybrid_to_pressure. C223_sigma_partial leaves out calls of interp_sigma_to_hybrid with more hybrid than sigma levels, for which the code fails (C21)."
  },
  {
   "property": "C224",
   "status": "proved",
   "theorems": [
    "Verif.Props.C224_error",
    "Verif.Props.C224_extrapolation_counterexample"
   ],
   "note": "C224_error is the bound for the default fill value. C224_extrapolation_counterexample: with fill_value='extrapolate' errors grow with the distance from the grid."
  },
  {
   "property": "C225",
   "status": "proved",
   "theorems": [
    "Verif.Props.C225_gradient",
    "Verif.Props.C225_gradient_attained",
    "Verif.Props.C225_gradient_attained_rows",
    "Verif.Props.C225_streamfunction"
   ],
   "note": "C225_gradient is the bound, C225_gradient_attained and C225_gradient_attained_rows say that it is attained in either direction. C225_streamfunction uses the factor as the code has it, with the cosine of the number of degrees (C58)."
  },
  {
   "property": "C226",
   "status": "proved",
   "theorems": [
    "Verif.Props.C226_squares",
    "Verif.Props.C226_each",
    "Verif.Props.C226_either",
    "Verif.Props.C226_single_counterexample"
   ],
   "note": "C226_squares, C226_each, C226_either. C226_single_counterexample: an error of 1 in each of three samples can become an error of 4/3 in one of the filtered samples."
  },
  {
   "property": "C227",
   "status": "proved",
   "theorems": [
    "Verif.Props.C227_filtered"
   ],
   "note": "Records as one-dimensional arrays, without weights. A coefficient is a number where both series vary (C64)."
  }
 ]
}