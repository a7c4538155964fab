{
 "C01": {
  "note": "False of the code when surface_pressure <= midpoint of the two top levels (index end_level-1 wraps to -1): C01_counterexample. Proved for all other surface pressures; C01_exact: for positive surface pressures not above the column top the sum is right if and only if the surface is below that midpoint."
 },
 "C02": {
  "note": "Same exclusion as C01; C02_counterexample shows a negative thickness. C02_exact: the non-missing layers are all positive exactly outside that exclusion."
 },
 "C03": {
  "note": "Same exclusion as C01; C03_top_layer_wraps gives the exact (wrong) result in the excluded region."
 },
 "C29": {
  "note": "Low, high and band pass: full statement. Band-block (and flag combinations containing it) is false when the two cutoffs add up to more than the sampling rate: the middle slice then overlaps the wrong bins and harmonics below the low cutoff are removed (C29 counterexample). _partial assumes low cutoff <= high cutoff <= Nyquist frequency. C29_band_block_bins says which bins are removed for every pair of cutoffs, and C29_band_block_exact gives the exact condition (l+h <= n+1, or l = 0, or l = h, or n < l) under which band-block is right for every signal."
 },
 "C31": {
  "note": "The three-way split low+band+high is exact. band_pass+band_block is false for the same cutoffs as C29 (C31_band_exact: exact condition); low+high loses the bin between floor and ceil when the cutoff is not a multiple of the resolution (C31_low_high_exact: exactly that one harmonic is lost). Both refuted by counterexamples; _partial versions carry exactly those exclusions."
 },
 "C33": {
  "note": "The resolution is computed from len(signal) (axis 0) before the axes are swapped, so a non-square array filtered along axis 1 uses the wrong resolution (counterexample); proved for square arrays and for time_axis=0. C33_exact: for every a x b array, filtering along axis 1 is the 1-D filter run with frequency f*b/a."
 },
 "C49": {
  "note": "Total and identity below 40F proved in full. The humidity range check is proved for xarray input and for numpy/list input without NaN; one NaN in a numpy array disables the check (C49_counterexample)."
 },
 "C50": {
  "note": "False between 80 and 81.2 F below 13 % humidity with default coefficients (C50_counterexample; C50_call_counterexample for a whole array call); the _partial theorem is an exact iff."
 },
 "C53": {
  "note": "False everywhere: the constant 4096 should be 17.27*237.3=4098.171 (C53_counterexample for every temperature); _partial gives the exact ratio, a 0.053 % error."
 },
 "C55": {
  "note": "dewtemp and relhum test 'not (generator)', which is never true, so they broadcast instead of raising (C55_counterexample); relhum of a list of mixing ratios with a single temperature and pressure raises TypeError, because a list is multiplied by a numpy scalar. Proved for the other three; for dewtemp and relhum the exact error conditions are proved."
 },
 "C56": {
  "note": "relhum_water returns a numpy array for list input (C56_counterexample); proved for relhum_ice and heat_index, and the mixed-type TypeError for all three."
 },
 "C79": {
  "note": "The checks use .all(): mixed latitudes give no warning (C79_counterexample); proved for latitudes in one band, and exactly which calls warn or fail (C79_exact)."
 },
 "C58": {
  "note": "np.cos is applied to latitudes in degrees (C58_counterexample: at 90 degrees the factor is negative instead of 0). _partial: the whole result is right exactly when at every latitude the two cosines agree or the column is zero (C58_call_partial); the equator."
 },
 "C60": {
  "note": "The candidate names are put in a Python set and iterated (C60_counterexample with variables ps and PS). _partial: any data set where an attribute match exists or at most one candidate spelling is present; C60_exact: these are exactly the data sets with a determined result."
 },
 "C80": {
  "note": "Only data variables are searched by attribute (C80_counterexample). _partial: coordinate attributes never influence the lookup."
 },
 "C82": {
  "note": "The thickness array is always built with a dimension called plev (C82_counterexample). _partial: name plev, or hybrid interpolation."
 },
 "C15": {
  "note": "Proved: whenever data is chunked, for every division into chunks and whether or not the other arrays are chunked, the outcome is that of fully eager input (C15_chunking_partial). With eager data and a dask-backed surface pressure the call fails with TypeError (list(data.chunks) on None): C15_counterexample."
 },
 "C17": {
  "note": "Proved when the level coordinate labels increase downwards, so that the last level in label order is the one with the largest pressure. The code selects the lowest level by the largest coordinate label instead of the largest pressure; C17_counterexample gives a column where this selects the top level. C17_exact says what the code does for arbitrary labels."
 },
 "C83": {
  "note": "Proved for sorted new_levels. For unsorted new_levels metpy returns values in sorted order, stored under unsorted labels: C83_counterexample. C83_exact says, for any order of new_levels, which value is stored under each label."
 },
 "C85": {
  "note": "Continuity proved for positive surface geopotential. At phi_sfc = 0 (sea) the height jumps when T* passes 290.5 K: C85_counterexample. C85_exact: below the surface, continuous if and only if the surface geopotential is positive."
 },
 "C12": {
  "note": "The hypothesis of no missing value in the column is needed: a missing neighbour of smaller pressure makes the result at a level missing."
 },
 "C21": {
  "note": "Proved when len(hyam) <= number of sigma levels. With more hybrid levels than sigma levels the pre-allocated output is too short and the call fails (C21_counterexample). The hlev coordinate of the result holds only the first column's sigma values. Integer data, which is truncated, is the subject of C123."
 },
 "C25": {
  "note": "The hypothesis on surrounding values is needed: a missing left neighbour makes the result at a node missing."
 },
 "C26": {
  "note": "numpy input gives a DataArray (or an error for rank other than 2), and cyclic=True fails for rank other than 2: C26_counterexample. _partial: xarray input without cyclic keeps type, rank and gets the new axes."
 },
 "C86": {
  "note": "False with cyclic=True: the padded longitudes assume increasing order (C86_counterexample). C86_order_partial: cyclic=False, every reordering of both axes. C86_cyclic_partial: cyclic=True, every reordering of the rows and every reordering of the columns that keeps the first and the last one in place."
 },
 "C34": {
  "note": "An unknown season raises KeyError, not ValueError, in month_to_season: the lookup error is caught as ValueError (see the C34 theorems)."
 },
 "C36": {
  "note": "Proved for records starting in January and for seasons inside a calendar year unless the record starts in the season's second or third month. Otherwise the code drops the wrong month (DJF, NDJ) or returns N+1 entries with a label outside the record: C36_counterexample. C36_exact gives the result for every record and season."
 },
 "C39": {
  "note": "False: dropna removes a month or group for all cells if one cell is missing (C39_counterexample). _partial: holds when no month is dropped because of another cell."
 },
 "C40": {
  "note": "Values and order are proved in full whenever the call returns. It raises ValueError when a calendar label between the first and the last one does not occur in the data (C40_counterexample: monthly data from November to February, 6-hourly data with freq='hour'); C40_succeeds gives the exact condition. _partial also because the time stamps are shown right only if every label exists in the median year; C40_labels_counterexample: a daily record from 2 March 2003 to 29 February 2004 gets the mean of 29 February stamped 1 March."
 },
 "C41": {
  "note": "Months in full. Days: proved when every calendar day of the data exists in the median year (otherwise labels shift and groups do not match). C41_day_counterexample: a 365-day record ending on 29 February gets no anomaly for that day. C41_day_whole_years: for a record covering whole calendar years the anomalies are right whenever the call returns."
 },
 "C42": {
  "note": "False for records over a century (years are matched by their last two digits) and where a year is dropped because another cell is missing (C42_counterexample). _partial: less than a century and no dropped months. C42_exact says what is subtracted for every record: the sum of the averages of all years with the same last two digits, years without a complete month counting 0, and missing if the record has none between its first and last complete month."
 },
 "C43": {
  "note": "False: the daily climatology of complete Gregorian years 2001-2004 raises because the median year has no 29 February (C43_counterexample). _partial: calendars whose years are all alike. C43_exact and C43_gregorian give the exact condition."
 },
 "C44": {
  "note": "About the object's own attribute dictionary, for every setting of xarray's global option; with the option False, None is treated differently by the functions (C44_option_false)."
 },
 "C93": {
  "note": "False for anomalies always and, with xarray before 2025.11, for seasonal and yearly averages and seasonal climatologies (C93_counterexample)."
 },
 "C62": {
  "note": "1-D coordinates: proved (C62_rectangular_partial). 2-D: violated, C62_counterexample; steps are only compared with the first row of steps. A single latitude raises AxisError. C62_exact states exactly when a result is returned, for 1-D and 2-D coordinates."
 },
 "C61": {
  "note": "Unit changes are proved for DataArrays; weight rescaling is proved for the specification nmseOf, to which C61_value ties the result."
 },
 "C94": {
  "note": "Violated: the weights of all variables become an extra dimension 'variable', so each variable also gets values computed with the missing cells of the other variables (C94_counterexample). The diagonal is right (C94_diagonal_partial), and without differing missing patterns the values only repeat (C94_same_pattern)."
 },
 "C65": {
  "note": "Violated: a mismatch prints a message and returns None (C65_counterexample); for two DataArrays every ValueError or AxisError of xskillscore ends the same way and other errors are passed on (C65_dataarray_counterexample); a single weight is broadcast and gives a wrong coefficient (C65_counterexample_single). What holds: no number is returned otherwise (C65_no_number_partial)."
 },
 "C96": {
  "note": "Violated: two Datasets raise TypeError (C96_counterexample). DataArrays are passed on unchanged (C96_dataarray_partial)."
 },
 "C64": {
  "note": "C64_value identifies the result with the textbook weighted coefficient of the pairs without missing values; the other theorems are laws of the returned value. xskillscore's internal function is modelled after its source."
 },
 "C66": {
  "note": "Proved for 0 <= time_dim < ndim (C66_axis_partial) and for out-of-range values (C66_out_of_range). Violated for the documented -1: ValueError (C66_counterexample)."
 },
 "C67": {
  "note": "Violated by eofunc_eofs(meta=True) on a DataArray: its attrs dict is extended in place (C67_counterexample). Everything else leaves it alone (C67_unchanged_partial)."
 },
 "C97": {
  "note": "Violated in three ways (C97_counterexample_*): time_dim changes names although documented as ignored; meta=True mislabels arrays whose time axis is not first; an auxiliary coordinate along time raises ValueError. The default cases are proved."
 },
 "C98": {
  "note": "Violated: the conversion condition is always true, so DataArrays lose their metadata (C98_counterexample); eofunc_ts(meta=True) always fails (C98_counterexample_ts). Arrays: C98_arrays_partial."
 },
 "C72": {
  "note": "The container part is false: scale_voronoi never returns a DataArray (the second type test sees the converted array). Points, order, shape and error propagation are proved."
 },
 "C99": {
  "note": "False for a single coefficient in a numpy array (or any container with scipy < 1.15), which is broadcast to every harmonic; proved for all other lengths and for DataArrays with new scipy."
 },
 "C100": {
  "note": "False for grids with a row at a pole and at least two columns (all points of the row coincide and scipy's SphericalVoronoi rejects duplicates); proved for grids without poles."
 },
 "C69": {
  "note": "Y is any function with real order 0 and Y00^2 = 1/(4 pi); quadrature exactness is the hypothesis of the property; shown to be met by the true harmonics up to degree 1 on an octahedral grid."
 },
 "C76": {
  "note": "False parts: a lat (or lon) given alone is overwritten by the data's own coordinates; xarray data without lat/lon coordinates fail with AttributeError on None. Proved: both given are used, own coordinates used when none given, 1-D equals mesh, ranks checked, a single row or column rejected, numpy without coordinates rejected."
 },
 "C102": {
  "note": "False: at the equator the distance is 0.67 percent too long for geodetic latitudes; proved: within 0.7 percent everywhere."
 },
 "C103": {
  "note": "False: the order is [latitudinal, longitudinal]; proved for every grid."
 },
 "C104": {
  "note": "False for numpy data with a leading dimension (differences along the wrong axes are divided by distances); proved: 2-D data always work."
 },
 "C105": {
  "note": "False: no Dataset is accepted (numpy cannot convert it, TypeError); proved for numpy arrays and DataArrays."
 },
 "C106": {
  "note": "False: longitude-first data are rejected when nlat != nlon and silently wrong when nlat = nlon; proved for latitude-first data."
 },
 "C09": {
  "note": "For psfc of rank other than 2 expand_dims gives the wrong broadcast or shape; C09_rank2_partial is rank 2. C09_rank_exact says what the code does for every rank: the documented shape comes out exactly for rank 2, and a result always has rank max(3, rank)."
 },
 "C109": {
  "note": "False: attributes are always dropped, and a time axis of another length than axis 0 raises ValueError; proved for time axes as long as axis 0."
 },
 "C111": {
  "note": "False: the description is stored under 'long name' (with a blank), so a long_name of the levels is kept; proved for everything else."
 },
 "C112": {
  "note": "False: relhum_ice and relhum_water silently use the transposed mixing ratio when its dimension order differs from the temperature's; proved for equal orders, and without restriction for dewtemp, relhum and heat_index."
 },
 "C113": {
  "note": "False for relhum_ice and relhum_water, which keep the temperature's attributes; proved for the others."
 },
 "C114": {
  "note": "False for data without level coordinate (no plev coordinate) and for data with a further coordinate along the levels (ValueError); proved otherwise."
 },
 "C115": {
  "note": "False for data without level coordinate: the extrapolation is silently skipped; proved with a level coordinate."
 },
 "C117": {
  "note": "False: a DataArray of days with a scalar latitude raises ValueError (and conversely); proved for one-dimensional arguments."
 },
 "C118": {
  "note": "The 203 table entries are compared with the formulas by rational bounds of exp checked in the kernel; between the entries by convexity."
 },
 "C119": {
  "note": "False: the result has the dimension order of the wind (time, plev, latitudes), a time dimension of another name gives an additional dimension, and data without time dimension fail; C119_exact says what is returned in each case, C119_time_partial is the case that works."
 },
 "C57": {
  "note": "For whole calls (C57_call_*) and for each column."
 },
 "C120": {
  "note": "Proved for all four combinations of containers and for coefficients whose level coordinate, if any, comes first (C120_coords_partial). False if ps has a dimension called dim_0 and the coefficients are numpy arrays (C120_names_counterexample), and if another coordinate, such as a scalar time, comes before the level coordinate: only the first coordinate is dropped, the remaining index aligns the two shifted arrays and every layer is 0 (C120_kept_index, C120_counterexample)."
 },
 "C24": {
  "note": "In the gap and for method=nearest the statement holds in full, missing values included. At the very first point of the padded axis (360 degrees before the last longitude) linear interpolation uses the first column, so a missing value there makes the result missing although the last longitude itself is intact (C24_counterexample); without missing values it agrees (C24_end_partial)."
 },
 "C123": {
  "note": "False: the output array is a copy of the integer data, so the interpolated numbers are truncated when stored (C123_counterexample). C123_exact: the result is the float result with the decimals cut off, and arbitrary where the float result is missing; C123_whole_partial: whole numbers are right."
 },
 "C124": {
  "note": "False: missing_val drops the name and the attributes, cyclic also the attributes of the coordinates and all other coordinates (C124_missing, C124_cyclic, C124_counterexample). Proved for calls with neither (C124_plain_partial); C124_exact: nothing is lost exactly if there is nothing to lose."
 },
 "C125": {
  "note": "false of the code with dropna: C125_counterexample (calendar_average, seasonal climatology; a variable loses the periods in which another variable has a gap). Proved without condition for climatology_average by hour, day, month, climate_anomaly by day, month and month_to_season; for the others if the selection has gaps in the same periods."
 },
 "C126": {
  "note": "false of climatology_average by hour, day or month for datetime64 input (C126_counterexample): the result holds cftime objects. Proved for the other functions and for cftime input."
 },
 "C32": {
  "note": "False of band_block with a high cutoff above the sample frequency, where the mirrored slice reaches bin 0 and the mean is removed (C32_counterexample); C32_band_block_partial assumes high cutoff <= frequency, C32_band_block_exact gives the mean for every pair of cutoffs. Low, high and band pass: full statement."
 },
 "C127": {
  "note": "Sigma to hybrid: proved for at most as many hybrid as sigma levels; for more the call raises ValueError (C21_counterexample)."
 },
 "C91": {
  "note": "C91_bounds_partial needs every season with samples to contain a full month; without it the value is 0 (C91_counterexample)."
 },
 "C95": {
  "note": "C95_labels: different labels raise ValueError; AxisError (a subclass of ValueError) when all latitudes or longitudes of the first field are equal. C95_several: several latitudes are a KeyError of cf_xarray; the ValueError written for this case in stats.py 105-108 is never reached."
 },
 "C110": {
  "note": "C110_exact gives the exact set of accepted inputs, levels in any order. C110_accepts_partial: the thicknesses are as expected unless a zonal mean lies between the first level and the first layer interface, where a layer comes out negative (C110_counterexample)."
 },
 "C128": {
  "note": "Every operation is rounded by an arbitrary monotone rounding with gradual underflow (Basic/Rounding); float64 is round to nearest even with 53 bits, without overflow. C128_exact: with exact arithmetic these are the formulas of the exact model (C08, C10)."
 },
 "C129": {
  "note": "The statement fails in one respect: the data are not reproduced at their own levels and the result can leave the range of its neighbours (C129_counterexample, float64 evaluated in the kernel: values 1 and 2^-60 at levels 1 and 2 give 0 at level 2), because metpy computes v_i + (v_j - v_i)*t. Proved: between v_i and fl(v_i + fl(v_j - v_i)) always (C129_between); between the neighbours if the values are positive and within a factor of two of each other (C129_within_neighbours_partial); monotone between two levels; error bound in float64."
 },
 "C130": {
  "note": "The thicknesses are those of a scalar surface pressure; an array of surface pressures applies this point by point (C05). Where the surface is at or above the first interface the exact model already shows a wrong top layer (C03_top_layer_wraps). C130_exact: with exact arithmetic this is the model of C01-C07."
 },
 "C131": {
  "note": "The statement fails in one respect: the float64 mean of a constant record is not always its value (C131_counterexample: three times 2^53-2 gives 2^53-3). Proved: the bounds for every order; exactness for multiples of a power of two whose absolute values add up to at most 2^53 of it (C131_exact_partial)."
 },
 "C134": {
  "note": "False of seasonal climatologies with an offset if no month of a season is full: the climatology is 0 in any unit (C134_counterexample: 5 degrees Celsius give 0, the same in Kelvin gives 0). _partial: seasons with a full month, or no offset; anomalies if each sample has a climatology of its own group, or no offset."
 },
 "C136": {
  "note": "Sigma to hybrid: for at most as many hybrid as sigma levels; with more the call fails (C21). Extrapolated levels below the ground are outside the statement."
 },
 "C137": {
  "note": "C137_seam: for every number d of points (either direction) and every number m of turns; both methods, missing values included. Excluded: the left end of the padded axis, where C24_counterexample applies. Longitudes increasing, two-dimensional data (cyclic=True fails otherwise, C26)."
 },
 "C138": {
  "note": "C138_linear for both methods, cyclic or not, extrapolation or the default fill value; C138_order for the default fill value (linear extrapolation does not keep order). missing_val=None; with a code the cells are first replaced by NaN (C22_code_is_nan). Exact arithmetic."
 },
 "C139": {
  "note": "Units and chains of filters of one kind proved for all non-negative cutoffs. Band pass = low pass after high pass: false for cutoffs that are not multiples of frequency/n (C139_counterexample: band pass rounds outwards, low and high pass inwards); proved for multiples (C139_split_partial)."
 },
 "C140": {
  "note": "Origin of longitude: false for 2-D coordinates whose latitude changes along a row (C140_counterexample: the distance is a difference of longitude*cos(latitude), so it depends on the origin of longitude); proved, for all data, if the latitude is constant along each row, which includes all 1-D coordinates (C140_origin_partial). Mirror symmetries proved for all spaced grids."
 },
 "C141": {
  "note": "False at 40 F for every humidity and both coefficient sets (39 F feels warmer than 40 F) and in dry air where the simple formula hands over to the regression (C141_counterexample). The _partial theorems prove strict increase in temperature for humidity 30-85 % (30-50 % with the alternate coefficients) on each side of 40 F, and in humidity for 30-80 % (30-50 %), including across the switch to the regression."
 },
 "C142": {
  "note": "Month first, then month, season or year: exact, for all data (C142_month_first). Hour or day twice: exact (C142_repeat). Hour or day first, then a longer period: proved for records without missing values and with equally filled hours or days (C142_steps_partial); false with missing values (C142_counterexample), because the hourly mean of the remaining samples gets full weight."
 },
 "C143": {
  "note": "_partial: every sample has an average of its own group (always for freq='month'; for 'day' the calendar days of the data exist in the median year; for 'season' and 'year' each group has a complete month and the record covers less than a century). C143_counterexample: in a record over a century a constant added to the data changes the yearly anomalies and taking anomalies twice changes them again."
 },
 "C145": {
  "note": "False as stated (C145_counterexample, 365-day calendar): month_to_season averages the months equally, calendar_average weights them by days. C145_partial: each entry of month_to_season has its counterpart; the values are equal if the months of the season are equally long (360-day calendar) and otherwise, for months of 28 to 31 days, differ by at most 1/39 of the range of the data."
 },
 "C146": {
  "note": "False of plain means when seasons are incomplete (C146_counterexample). C146_weighted holds for every record: the climatology is the mean of the seasonal averages weighted with the days of each season in months with data. C146_partial: plain mean if these numbers of days agree."
 },
 "C150": {
  "note": "The eofs package is not modelled: its documented behaviour for data without missing values is the hypothesis EofContract (Spec/EofLib.lean); contract_met shows by the spectral theorem that a solver with this behaviour exists."
 },
 "C151": {
  "note": "Full for the surface pressures C01 holds for."
 },
 "C152": {
  "note": "C152_mean_value; the exact quotient is C75_difference_quotients."
 },
 "C153": {
  "note": "For requested levels in order; without order the values are stored under the wrong labels (C83). interp_sigma_to_hybrid: at most as many hybrid as sigma levels (C21)."
 },
 "C154": {
  "note": "Overflow is not modelled. At grid points the result agrees with the data only to this accuracy: an example in Props/FloatGrid gives 0 at a grid point of value 2^-60 next to a value 1."
 },
 "C155": {
  "note": "The positive direction uses the documented contract of the eofs package."
 },
 "C156": {
  "note": "Overflow is not modelled; the latitude factor is the stored number c (C58 is about its formula)."
 },
 "C157": {
  "note": "Roundings are monotone and exact on representable numbers; overflow and fused multiply-add are not modelled. A positive numerator may underflow to 0, so 0 does not imply identical fields."
 },
 "C158": {
  "note": "Fails: 273.15 everywhere on latitudes 0 and 60 has the computed mean 273.15000000000003 and gives 2.2e26 (C158_counterexample). Partial: holds whenever the computed mean is the constant."
 },
 "C160": {
  "note": "Fails in float64: the yearly average of 1 in all twelve months of a year without leap day is 1 - 2^-53, and the JJA average of 0.1 is 0.10000000000000002 (C160_counterexample). Partial: exact for hourly, daily, monthly averages and climatologies and month_to_season if the multiples of the constant up to the number of samples can be stored."
 },
 "C162": {
  "note": "Accuracy of the library's power and cosine is a hypothesis (shown to be met by correctly rounded functions). No overflow."
 },
 "C163": {
  "note": "Usable covers half, single and double precision; overflow is not modelled."
 },
 "C164": {
  "note": "Fails in double precision: 49 years of monthly data, cutoff one cycle per year: the computed high cutoff bin is 50 instead of 49, so the annual cycle is removed by high pass and by low pass (C164_annual_cycle_counterexample). Proved: right bin unless the cutoff is within four units of rounding of a bin, right bin on a bin if the frequency step is stored exactly, never more than one bin off."
 },
 "C165": {
  "note": "Overflow and underflow of the frequency step to 0 are not modelled."
 },
 "C166": {
  "note": "Fails in single precision: latitudes 45, 45.1, 45.2 are rejected with ValueError (C166_counterexample). Proved: accepted if 1e7 (u B + eta) <= 9 |d| for coordinates up to B (in double precision every step of at least 5e-8 degrees), and in any precision if the coordinates are stored exactly. The tolerance is computed in the precision of the coordinates (numpy 2); numpy 1 computes it in double precision, which does not matter for the counterexample."
 },
 "C167": {
  "note": "C167_identical and C167_opposite hold for every binary format (p bits, exponent from emin) and every order of summation (AddsUp; for the negative the order must not depend on the signs). The key is that sqrt(x*x) = |x| in binary rounding to nearest (Lemmas/FloatSqrt). Overflow is not modelled."
 },
 "C168": {
  "note": "C168_symmetric_partial: without weights, for all data including NaN and infinities. C168_counterexample: weights 0.1, [3,-3,7,-7] and [7,-7,3,-3] give 0.7241379310344827 one way and 0.7241379310344829 the other."
 },
 "C169": {
  "note": "eofunc_eofs with meta=True on a DataArray writes the eigenvalues into the caller's attrs (C169_counterexample); C169_only_attrs shows that it changes nothing else; all other functions, in any session: C169_untouched_partial."
 },
 "C170": {
  "note": "Each call on its own: C170_pure. Sessions without eofunc_eofs(DataArray, meta=True): C170_history_partial; after such a call a later call on the same object differs (C170_counterexample)."
 },
 "C171": {
  "note": "gradient returns the caller's two-dimensional longitudes and latitudes as the coordinates of its result (C171_counterexample); its values, attributes and mappings are new (C171_gradient); every other function: C171_new_partial."
 },
 "C172": {
  "note": "Blocks computed one after the other: C172_serial (interp_sigma_to_hybrid, which loops over its columns, is of this kind). On several threads both halves fail (C172_counterexample); what is left is that the filters in force are at all times the caller's, possibly with the ignore filter in front (C172_schedules_partial). A caller who installs that filter first is safe under every schedule (C172_already_ignored). The xr.map_blocks path and the path without dask install no filter at all."
 },
 "C173": {
  "note": "calendar_average: C173_pieces, with the condition for there being no empty row. month_to_season: all seasons within one calendar year, C173_months_partial; for DJF each piece drops its last December and the winter at the cut gets another value (C173_months_counterexample)."
 },
 "C174": {
  "note": "C174_exact: without rounding this is the function of C45. C174_accuracy: 25 units of rounding, and at most 2.1 units above the temperature. C174_monotone. C174_counterexample: the dew point of saturated air at 251 K is above 251 K in float64. The logarithm is a parameter; a correctly rounded one meets the hypotheses in float32 and float64 (examples)."
 },
 "C175": {
  "note": "C175_exact: without rounding these are the functions of C52-C54. C175_accuracy: fill values and error bounds. C175_psychrometric. C175_counterexample: in float64 the pressure at 203.25 degrees Fahrenheit is larger than at the next number above, whatever the (accurate) exponential. C175_monotone_partial: it increases between temperatures that differ by 6400 units of rounding (7e-13 degrees in float64)."
 },
 "C176": {
  "note": "True for the signed types of at least 16 bits (C176_signed_partial) and whenever the two shifted longitudes fit the type (C176_fits_partial, all methods). False for the unsigned types (C176_counterexample): the padded longitude west of the first one wraps around to a large number, everything west of the first longitude is missing (C176_unsigned_gap), points far east of the grid get numbers; between the first longitude and 360 degrees east of it linear results are right (C176_unsigned_partial). 8-bit types raise OverflowError (C176_narrow)."
 },
 "C177": {
  "note": "C177_exact: without rounding these are the functions of C48. Pressures are assumed at most 1e7 Pa and mixing ratios 0 or at least 1e-20."
 },
 "C178": {
  "note": "Days and latitudes of one precision, no overflow. The error constant is not sharp."
 },
 "C179": {
  "note": "False for the labels of hourly, daily and monthly climatologies moved by an odd number of years: the label year is the median year rounded half to even, so a climatology of 2000-2001 is labelled 2000 and that of 2001-2002 is labelled 2002 (C179_counterexample). Proved for even numbers of years (C179_climatology_partial), and otherwise up to one year of the label (C179_uniform_partial); values never change. infer_freq is assumed to recognise the moved record like the original; years have four or five digits."
 },
 "C180": {
  "note": "C180_single and C180_double state the bounds for numpy's two formats. The 1e-15 gap around 112 F in C180_accuracy is a property of those formats (gap_112), not a restriction on their users. Rounding of int arguments and mixed precisions are not modelled."
 },
 "C181": {
  "note": "Accuracy of the logarithm and the third power are hypotheses (both correctly rounded functions meet them); no overflow. Heights over ground between sea level and 10 m, where the slope R/phi of the exponent is unbounded, are not covered."
 },
 "C182": {
  "note": "Real arithmetic. pearson_r is called on the flattened arrays with the expanded weights cos(latitude) and skipna=True. Model and observation have one variable each."
 },
 "C183": {
  "note": "Overflow is not modelled and underflow is excluded by the hypothesis InRange (data between 2^-500 and 2^100 in double precision and not all equal). Series are arrays, not DataArrays. The exact coefficient r is the one C05 and C182 speak about."
 },
 "C184": {
  "note": "Overflow is not modelled; underflow is accounted for by the absolute term (1e-150 in double precision). DataArrays only; for Datasets see C94 and C157. The weights theorem needs a relative error, which the stored cosine has away from the poles."
 },
 "C185": {
  "note": "Violated by the code: surface pressure (and the level labels of data against those of the coefficients) are paired by position, without an error, see the three counterexamples. Proved: what the code does for any labels (by position), and the full property when the labels are listed in the same order; hyam and hybm are matched by label in any order, also when hybm names its dimension differently (C185_renamed); with extrapolate=True and variable='other' labels in different order are a ValueError."
 },
 "C186": {
  "note": "Partial: relhum_ice and relhum_water with a mixing ratio whose labels stand in another order than those of the temperature give silently mislabelled values (C186_ice_counterexample); C186_ice_exact says exactly which values they are."
 },
 "C187": {
  "note": "Proved for arrays with named dimensions over any ordered field; the tests of lines 55-108 are those of C62 and C95. C187_nmse states the equality with separate calls for one-dimensional coordinates, C187_slices covers all coordinates."
 },
 "C188": {
  "note": "all three theorems; the pressure of the lowest level is that of the level with the largest label common to hyam and hybm (see C17); every dimension carries labels; the points of data and ps themselves are matched by position before (see C185)"
 },
 "C189": {
  "note": "proved for weights listed in any order of labels and dimensions, with theta and phi listed like the data; missing: theta and phi are taken by position, so the property fails for other orders (C189_counterexample)"
 },
 "C190": {
  "note": "partial: proved without weights and with a positive weight for every element (the result is the correlation of each pair of series, and equals the call for that pair); the documented weights along the axis are refuted (C190_counterexample, C190_axis_weights), and an axis the arrays do not have returns None instead of raising (C190_bad_axis)."
 },
 "C191": {
  "note": "partial: equal to the call with floating-point levels whenever all sums of two levels fit the integer type (C191_partial), in particular for 32 and 64 bit types (C191_wide); refuted for 16 bit types whose sums overflow (C191_counterexample)."
 },
 "C192": {
  "note": "Violated for gaps narrower than rounding errors: longitudes -300, -120 and the float64 just below 60 give NaN at the grid point -300 with cyclic=True (C192_counterexample). Proved for gaps of at least 2^-42 degrees, with error at most (2^-47 + 2^-42/gap) times the largest value. Gaps of longitudes from 0 to 360 are never too narrow, see C154."
 },
 "C193": {
  "note": "Partial: values proved for equal label orders (C193_partial); C193_by_position says exactly what the code does for all labels; counterexamples for the missing labels and for a permuted phi."
 },
 "C194": {
  "note": "Partial: proved for coefficients along a dimension called hlev and at most as many hybrid as sigma levels (C194_profile_partial, C194_bounds_partial); C194_counterexample: ValueError for every other name of that dimension."
 },
 "C195": {
  "note": "Whole calls. Saturation is relhum's own, by its table."
 },
 "C196": {
  "note": "Exact arithmetic; linear method, cyclic=False, no missing values."
 },
 "C197": {
  "note": "Linear method, no missing_val; data without gaps, as the claim says. The interpolated data are handed on as a series with the same times; the season labels of climatology_average by season are not compared."
 },
 "C198": {
  "note": "Without extrapolation. Time steps are numbered along a dimension called time; the season labels of climatology_average by season are not compared."
 },
 "C199": {
  "note": "Exact arithmetic; data without missing values. A step of the average without any value (month_to_season without a matching month) is missing in all three outputs."
 },
 "C200": {
  "note": "Exact arithmetic; from the zonal means on, levels from the top down (as C147). A step of the average without any value is missing in both outputs."
 },
 "C201": {
  "note": "Levels from the top down (C04 gives the other order), surface below the first midpoint (C01). DataArray arguments of delta_pressure_hybrid; C10 relates the other containers."
 },
 "C202": {
  "note": "Exact arithmetic. C202_order_matters: with layers that turn over between time steps it fails. Seasonal climatologies are left out (a season without data gives 0, C134_counterexample), anomalies too (an anomaly of pressure is not a pressure)."
 },
 "C203": {
  "note": "Exact numbers; the zonal means are given, as in C57."
 },
 "C204": {
  "note": "Exact numbers; cyclic=True accepts no leading dimensions (C24), so it is not part of the claim."
 },
 "C205": {
  "note": "Exact numbers; the gradient is taken field by field, since gradient does not treat leading dimensions as such (C104)."
 },
 "C206": {
  "note": "Exact numbers; numpy grids as in C08_numpy and C10_layers_numpy."
 },
 "C207": {
  "note": "Exact numbers; stated for the zonal means, which are given, as in C57."
 },
 "C208": {
  "note": "Real arithmetic. Whole cycles are required: with a part of a year left over the groups are not of the same size. freq 'season' and 'year' are not covered (months are weighted by their number of days)."
 },
 "C209": {
  "note": "Real arithmetic, no extrapolation (extrapolation is not linear in the data), without chunks (C15)."
 },
 "C210": {
  "note": "Real arithmetic; the spherical harmonics of scipy are an arbitrary function."
 },
 "C211": {
  "note": "Exact arithmetic. C211_winter shows why seasons from November or December on are excluded."
 },
 "C212": {
  "note": "Proved over the real and complex numbers; complex coefficients are held as real parts followed by imaginary parts."
 },
 "C213": {
  "note": "Temperature and vapour pressure are two variables of one record. Seasonal climatologies: for seasons of which the record has a month without gaps."
 },
 "C214": {
  "note": "Relative to EofContract (the documented behaviour of the eofs package, a hypothesis); Lemmas/EofUnique proves that variances and simple patterns are unique."
 },
 "C215": {
  "note": "Relative to EofContract, as C214."
 },
 "C217": {
  "note": "C217_pairs is the general statement; C217_order and C217_repeated are the two cases users rely on. Exact real arithmetic: in floating point the order of a sum matters."
 },
 "C218": {
  "note": "C218_cells assumes both calls succeed: the spacing test compares with the first step only, so a grid at the edge of the tolerance may be accepted in one direction and rejected in the other (C218_direction_counterexample). C218_flipped proves success for exactly equal steps."
 },
 "C219": {
  "note": "C219_three and C219_perfect for common missing cells; C219_missing_counterexample shows that the condition is needed (pairwise skipna)."
 },
 "C220": {
  "note": "The bound is in exact arithmetic; rounding errors of nmse itself are the subject of C184."
 },
 "C221": {
  "note": "Converse of C64_perfect, in exact arithmetic: rounding and the clip to [-1, 1] can give 1 for pairs close to a line."
 },
 "C222": {
  "note": "Both fields are cells of one record, as variables of a Dataset or grid points of an array are; by C125 this is the same as two calls. Exact arithmetic: rounding errors are the subject of C159."
 },
 "C223": {
  "note": "C223_hybrid covers interp_hybrid_to_pressure. C223_sigma_partial leaves out calls of interp_sigma_to_hybrid with more hybrid than sigma levels, for which the code fails (C21)."
 },
 "C224": {
  "note": "C224_error is the bound for the default fill value. C224_extrapolation_counterexample: with fill_value='extrapolate' errors grow with the distance from the grid."
 },
 "C225": {
  "note": "C225_gradient is the bound, C225_gradient_attained and C225_gradient_attained_rows say that it is attained in either direction. C225_streamfunction uses the factor as the code has it, with the cosine of the number of degrees (C58)."
 },
 "C226": {
  "note": "C226_squares, C226_each, C226_either. C226_single_counterexample: an error of 1 in each of three samples can become an error of 4/3 in one of the filtered samples."
 },
 "C227": {
  "note": "Records as one-dimensional arrays, without weights. A coefficient is a number where both series vary (C64)."
 }
}