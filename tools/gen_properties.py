#!/usr/bin/env python3
"""Writes ../properties.jsonl. Kept as a script so that the list stays easy to extend."""
import json, os
P = []
def p(id, title, statement, quantifier, why, anchors):
    P.append(dict(id=id, title=title, statement=statement, quantifier=quantifier,
                  why_tests_cant=why, anchors=anchors))
M = "geocat/comp/meteorology.py"; I = "geocat/comp/interpolation.py"; F = "geocat/comp/fourier_filters.py"
C = "geocat/comp/climatologies.py"; S = "geocat/comp/stats.py"; SP = "geocat/comp/spherical.py"
G = "geocat/comp/gradient.py"; U = "geocat/comp/gc_util.py"; D = "geocat/comp/deprecated.py"

# ---------------------------------------------------------------- delta_pressure
p("C01", "delta_pressure conserves column mass",
  "For a monotone pressure column, the layer thicknesses returned by delta_pressure (ignoring the NaN layers below the surface) add up to surface_pressure - pressure_top.",
  "every column length >= 2, every strictly monotone level array in either order, every surface pressure, every admissible pressure_top",
  "The sum involves every layer and depends on where the surface falls between levels; a test fixes a handful of columns.",
  [M+":delta_pressure", M+":_delta_pressure1D"])
p("C02", "delta_pressure marks exactly the underground layers missing and the rest positive",
  "A layer of delta_pressure is NaN exactly when its upper interface (the midpoint with the level above) lies at or below the surface, i.e. has pressure >= surface_pressure; every other layer thickness is strictly positive.",
  "every strictly monotone level array, every surface pressure, every admissible pressure_top",
  "The boundary between valid and missing layers moves with the surface pressure and must be right for every position of it.",
  [M+":delta_pressure", M+":_delta_pressure1D"])
p("C03", "delta_pressure layer formula",
  "Above the surface layer, thickness k equals half-level pressure k+1/2 minus half-level pressure k-1/2, where half levels are midpoints of adjacent levels, the top half level is pressure_top and the bottom half level of the lowest valid layer is the surface pressure.",
  "every layer of every strictly monotone column and every surface pressure",
  "Slice arithmetic has off-by-one failure modes that only show at particular column lengths and surface positions.",
  [M+":_delta_pressure1D"])
p("C04", "delta_pressure does not depend on level ordering",
  "Giving the levels top-down or bottom-up gives the same thickness for the same level: delta_pressure(reversed levels) is the reverse of delta_pressure(levels).",
  "every strictly monotone level array, surface pressure and pressure_top (errors included)",
  "Needs an equality over all arrays, including the error outcome.",
  [M+":_delta_pressure1D", M+":delta_pressure"])
p("C05", "delta_pressure on an N-dimensional surface pressure is the 1-D result at every point",
  "For surface pressure of any shape, the result has shape (shape..., nlev) and its entry at any multi-index is the 1-D result for the surface pressure at that index.",
  "every rank, every shape (including zero-length axes) and every multi-index",
  "Flatten/reshape bookkeeping must be right for every rank and shape.",
  [M+":delta_pressure"])
p("C06", "delta_pressure error contract",
  "delta_pressure with a scalar surface pressure and at least two levels raises ValueError exactly when pressure_top exceeds the smallest level, or is negative, or exceeds the surface pressure, or no layer midpoint lies above the surface (surface pressure <= 0 or NaN); otherwise it returns an array.",
  "every level array of length >= 2, every surface pressure (NaN included), every pressure_top",
  "The absence of an exception cannot be established by sampling.",
  [M+":delta_pressure", M+":_delta_pressure1D"])
p("C07", "delta_pressure is unit independent",
  "Converting levels, surface pressure and top by the same positive factor (Pa to hPa) converts every thickness by that factor, keeping the same NaN layers and the same errors.",
  "every positive factor, every level array, surface pressure and pressure_top",
  "A hard-coded constant with units would only show for some scales.",
  [M+":delta_pressure"])

# ---------------------------------------------------------------- hybrid coordinates
p("C08", "pressure_at_hybrid_levels formula, layout and input validation",
  "The result at level k and horizontal point x is hya[k]*p0 + hyb[k]*psfc[x]; the call raises TypeError exactly for non-array or mixed numpy/xarray inputs and ValueError exactly when hya and hyb differ in shape or are multi-dimensional numpy arrays.",
  "every number of levels, every 2-D surface pressure grid, every p0, every combination of input types and shapes",
  "The decision table crosses input types and shapes; the formula must hold for all sizes.",
  [I+":pressure_at_hybrid_levels"])
p("C09", "pressure_at_hybrid_levels numpy output always has one level axis in front of psfc's axes",
  "For numpy inputs the result has shape (nlev,) + psfc.shape, with the C08 formula, for surface pressure of any rank.",
  "every rank and shape of psfc",
  "Broadcasting rules accept some wrong shapes silently; only particular coincidences of sizes expose it.",
  [I+":pressure_at_hybrid_levels", I+":delta_pressure_hybrid"])
p("C10", "delta_pressure_hybrid is the non-negative difference of interface pressures",
  "delta_pressure_hybrid returns nlev-1 layers, each equal to |p(k+1)-p(k)| of pressure_at_hybrid_levels and hence >= 0; if interface pressure is monotone down the column the layers add up to |p(bottom)-p(top)|; reversing the coefficients reverses the layers.",
  "every coefficient array, surface pressure, p0",
  "Telescoping over every column length.",
  [I+":delta_pressure_hybrid", I+":pressure_at_hybrid_levels"])
p("C11", "sigma and pressure of a hybrid level agree",
  "The sigma value used by interp_sigma_to_hybrid, times the surface pressure, is exactly the pressure pressure_at_hybrid_levels gives for the same level (surface pressure non-zero); so interpolating the pressure field of the sigma levels to the hybrid levels gives the pressures of the hybrid levels.",
  "every coefficient, p0 and non-zero surface pressure (for the interpolated field: at most as many hybrid as sigma levels, every hybrid level inside the sigma levels)",
  "Two code paths must agree for all inputs.",
  [I+":_sigma_from_hybrid", I+":pressure_at_hybrid_levels"])

# ---------------------------------------------------------------- interp_hybrid_to_pressure
p("C12", "hybrid-to-pressure interpolation reproduces the data at the model levels",
  "If a requested pressure equals the pressure of a model level, the output there is that level's data value (linear and log methods), for a column without missing values.",
  "every column length >= 2, every column of pairwise distinct level pressures in any order, every data column",
  "Must hold at every node of every column.",
  [I+":interp_hybrid_to_pressure", I+":_func_interpolate", I+":_vertical_remap"])
p("C13", "hybrid-to-pressure interpolation never overshoots",
  "Every interpolated value lies between the data values of the two model levels that bracket the requested pressure; in particular within the column's data range.",
  "every column, every requested pressure inside the column's pressure range, both methods",
  "A universally quantified inequality.",
  [I+":interp_hybrid_to_pressure", I+":_func_interpolate"])
p("C14", "without extrapolation, values outside the model column are missing",
  "With extrapolate=False, a requested pressure smaller than every model-level pressure or larger than every model-level pressure gives NaN, and one inside the range of a NaN-free column does not.",
  "every column and requested pressure",
  "Boundary exactness (<= versus <) for all columns.",
  [I+":interp_hybrid_to_pressure"])
p("C15", "hybrid-to-pressure result does not depend on chunking",
  "The values returned are the same for eager input and for every chunking of the input, along horizontal axes or along the level axis.",
  "every partition of every axis into chunks, every data set",
  "The number of chunkings is unbounded and the code has three execution paths.",
  [I+":interp_hybrid_to_pressure", I+":_interpolate_mb", I+":_vertical_remap"])
p("C16", "columns are interpolated independently",
  "The output column at a horizontal point depends only on data and surface pressure at that point.",
  "every pair of inputs agreeing at that point",
  "A non-interference property over pairs of inputs.",
  [I+":interp_hybrid_to_pressure"])
p("C17", "extrapolation only touches points below the lowest model level",
  "With extrapolate=True, outputs at pressures <= the lowest model level's pressure equal the outputs with extrapolate=False; below it, variable='other' gives the lowest model level's data value and 'temperature'/'geopotential' give the ECMWF formula.",
  "every column, every requested pressure, every variable setting",
  "Masking correctness at every point.",
  [I+":_vertical_remap_extrap", I+":interp_hybrid_to_pressure"])
p("C18", "below-ground temperature extrapolation is finite, continuous at the surface and monotone",
  "For finite positive temperature and pressures the extrapolated temperature is a finite number for every surface geopotential (zero and negative included); at pressure ps it equals the surface temperature T*; it does not decrease with pressure; and the high-terrain reference temperature changes continuously between the three terrain regimes.",
  "every finite t_bot, lev, p_sfc, ps > 0 and every finite phi_sfc",
  "NaN placeholders and a division by phi_sfc sit in branches that must never be selected; testing cannot cover all geopotentials.",
  [I+":_temp_extrapolate"])
p("C19", "below-ground geopotential height extrapolation is finite, anchored and strictly decreasing",
  "The extrapolated height is finite for every surface geopotential, equals phi_sfc/g at pressure ps and strictly decreases as pressure grows.",
  "every finite positive t_bot, lev, p_sfc, ps and every finite phi_sfc",
  "Same as C18: regime boundaries and division by phi_sfc.",
  [I+":_geo_height_extrapolate"])
p("C20", "interp_hybrid_to_pressure argument validation",
  "The call is rejected exactly when the array arguments are not all DataArrays (TypeError), extrapolate is set without variable, variable is temperature/geopotential without both t_bot and phi_sfc, variable is not an accepted value, or the method is unknown (ValueError) - also when extrapolate is False.",
  "every combination of argument presence, types and strings",
  "Decision logic over all strings and option combinations.",
  [I+":interp_hybrid_to_pressure", I+":_func_interpolate"])

# ---------------------------------------------------------------- interp_sigma_to_hybrid
p("C21", "interp_sigma_to_hybrid interpolates each column at its own sigma values and returns one value per hybrid level",
  "For multi-dimensional data each column of the result is the 1-D interpolation of that column from sig_coords to that column's own hybrid sigma values, in the original dimension order, with len(hyam) levels; the call succeeds whenever the inputs are consistent.",
  "every number of sigma levels, hybrid levels and columns",
  "Stack/loop/unstack bookkeeping and the level-count pre-allocation fail only for some size combinations.",
  [I+":interp_sigma_to_hybrid"])

# ---------------------------------------------------------------- interp_multidim
p("C22", "interp_multidim missing-value code never leaks",
  "With missing_val given, no input cell equal to missing_val takes part in interpolation as a number, and no output cell is NaN: every missing result carries missing_val; with missing_val=None NaNs are left as they are.",
  "every grid, every missing_val, every output grid",
  "Sentinel handling must hold for every cell.",
  [I+":_pre_interp_multidim", I+":_post_interp_multidim", I+":interp_multidim"])
p("C23", "interp_multidim output is missing when a surrounding point is missing",
  "With linear interpolation, if any of the four grid points surrounding an output location is missing the output is missing; if none is, and the location is inside the grid, the output is a number within the range of those four values.",
  "every grid with strictly increasing axes, every output location",
  "All cells, all locations, all missing patterns.",
  [I+":interp_multidim"])
p("C24", "cyclic=True makes the interpolation periodic in longitude",
  "With cyclic=True the padded longitude axis is strictly increasing with n+2 points whenever the input axis is strictly increasing and spans less than 360 degrees, and output at longitude x and x+360 (both inside the padded range) agree; the wrap-around gap is interpolated between the last and the first column.",
  "every longitude axis, grid and location",
  "Periodicity is a statement about all axes and locations.",
  [I+":_pre_interp_multidim", I+":interp_multidim"])
p("C25", "interp_multidim reproduces the data at grid points",
  "If an output location coincides with an input grid point and no surrounding value is missing, the output is the input value.",
  "every grid and every grid point",
  "All nodes, including the edges.",
  [I+":interp_multidim"])
p("C26", "interp_multidim returns the same type of object as its input",
  "For numpy input the output is a numpy array, for xarray input an xarray.DataArray (as its documentation promises), and cyclic=True works for every input rank >= 2.",
  "every input type and rank",
  "Type and rank dispatch over all inputs.",
  [I+":interp_multidim", I+":_pre_interp_multidim"])

# ---------------------------------------------------------------- Fourier filters
p("C27", "fourier_filter without any filter flag returns the signal",
  "With all four flags False the output equals the input for every real signal.",
  "every signal length >= 1 and every real signal, frequency and cutoffs",
  "Round trip through forward and inverse transform for all lengths.",
  [F+":fourier_filter"])
p("C28", "filtering real data discards nothing through the real part",
  "For real input the set of zeroed Fourier bins is symmetric under k -> n-k, so the inverse transform is already real and np.real only removes rounding.",
  "every length, every non-negative cutoff pair, every flag combination",
  "The slice arithmetic with negative indices has edge cases (cutoff bin 0, 1, Nyquist, beyond) that must all be symmetric.",
  [F+":fourier_filter"])
p("C29", "each filter keeps exactly the documented band of bins",
  "Let l = floor(low cutoff / resolution), h = ceil(high cutoff / resolution) and |k| = min(k, n-k) the harmonic number of bin k. Low-pass keeps exactly |k| < l, high-pass keeps exactly |k| >= h, band-pass keeps exactly l <= |k| < h, band-block removes exactly those; flags combine by intersection.",
  "every n, every bin, all non-negative cutoffs, every flag combination",
  "Boundary and wrap-around bins for every n.",
  [F+":fourier_filter", F+":fourier_low_pass", F+":fourier_high_pass", F+":fourier_band_pass", F+":fourier_band_block"])
p("C30", "filters are linear and idempotent",
  "Filtering a linear combination of signals gives the same combination of the filtered signals, and filtering twice gives the same result as filtering once.",
  "every pair of real signals, every scalar, all parameters",
  "Algebraic laws over all signals.",
  [F+":fourier_filter"])
p("C31", "complementary filters add up to the signal",
  "fourier_band_pass plus fourier_band_block with the same cutoffs returns the original signal; fourier_low_pass plus fourier_high_pass with the same cutoff does too.",
  "every signal and every non-negative cutoff",
  "For all cutoffs - including those that are not multiples of the resolution, where floor and ceil differ.",
  [F+":fourier_band_pass", F+":fourier_band_block", F+":fourier_low_pass", F+":fourier_high_pass"])
p("C32", "filters act on the mean as documented",
  "Low-pass with a cutoff of at least one resolution step keeps the time mean; high-pass with any positive cutoff returns zero-mean data; band-pass with low cutoff of at least one step returns zero mean; band-block with low cutoff of at least one step keeps the mean.",
  "every signal and cutoff",
  "All signals and lengths.",
  [F+":fourier_filter"])
p("C33", "fourier_filter along time_axis equals filtering the transposed data along axis 0",
  "Filtering a 2-D array along axis 1 gives the transpose of filtering its transpose along axis 0 with the same sample frequency and cutoffs.",
  "every array shape, signal, frequency and cutoff",
  "Only shows when the two axes have different lengths.",
  [F+":fourier_filter"])

# ---------------------------------------------------------------- climatologies
p("C34", "frequency and season arguments are validated",
  "calendar_average accepts exactly hour/day/month/season/year, climatology_average exactly hour/day/month/season, climate_anomaly exactly day/month/season/year; anything else raises ValueError; an unknown season raises ValueError in month_to_season and climatology_average.",
  "every string",
  "Ranges over all strings.",
  [C+":calendar_average", C+":climatology_average", C+":climate_anomaly", C+":month_to_season"])
p("C35", "season names denote three consecutive months",
  "For every accepted season name the months used are three cyclically consecutive calendar months whose initials spell the name, both functions use the same months, and the resampling quarter anchor is the first of them.",
  "every accepted season name",
  "Whole-table statement tied to the code's two copies of the table.",
  [C+":month_to_season", C+":climatology_average"])
p("C36", "month_to_season averages exactly the months of each season instance",
  "For monthly data covering whole years, the result has one entry per year, stamped with the season's middle month, and each entry is the plain mean of those of the three season months that lie in the data (three everywhere except at the two ends of the record).",
  "every start month, every number of years, every season, every data series",
  "End-of-record handling depends on the start month and season combination.",
  [C+":month_to_season"])
p("C37", "calendar_average season/year values are day-weighted means with weights adding to one",
  "Each seasonal/yearly value is sum(days_i * x_i)/sum(days_i) over the months present in the period; so a constant series gives that constant and every value lies between the smallest and largest monthly mean of its period.",
  "every calendar (month length table), every NaN-free series, every period",
  "For all calendars and partial periods.",
  [C+":calendar_average"])
p("C38", "seasonal and yearly averages of complete daily data equal the plain mean over days",
  "For data with one value per day and complete months, calendar_average(season/year) and climatology_average(season) equal the unweighted mean of the daily values of the period.",
  "every calendar, every period, every daily series",
  "Two-stage averaging equals one-stage averaging only because of the weights; must hold for all inputs.",
  [C+":calendar_average", C+":climatology_average"])
p("C39", "a missing grid cell does not affect other grid cells' averages",
  "The average computed for a grid cell by calendar_average(season) and climatology_average(season) depends only on that cell's own series.",
  "every data set, every other cell's content including NaN",
  "Non-interference over all missing-data patterns.",
  [C+":calendar_average", C+":climatology_average"])
p("C40", "climatology_average groups are complete and in calendar order",
  "climatology_average(month/day/hour) returns one value per distinct calendar key in the data, in calendar order, each being the mean over all samples with that key, independent of the order of the samples.",
  "every sample set and order",
  "Grouping must be right for all timestamps.",
  [C+":climatology_average"])
p("C41", "anomalies of a group average to zero and reconstruct the data",
  "For climate_anomaly(day/month), data = anomaly + climatology of its group at every sample, and the anomalies of each group sum to zero.",
  "every data set with at least one sample, every group",
  "Sum over all groups and samples.",
  [C+":climate_anomaly", C+":climatology_average"])
p("C42", "yearly anomalies subtract that year's own average",
  "climate_anomaly(freq='year') subtracts from each sample the yearly average of the sample's own year.",
  "every set of years covered by the data",
  "Year grouping keys collide only for records longer than a century.",
  [C+":climate_anomaly"])
p("C43", "daily climatology works for every multi-year record",
  "climatology_average(freq='day') of a complete multi-year daily record returns one value per calendar day whatever the years covered.",
  "every start year, every number of years, every calendar",
  "Depends on leap-year status of the median year.",
  [C+":climatology_average", C+":_calculate_center_of_time_bounds"])
p("C44", "keep_attrs decides attributes uniformly",
  "In calendar_average, climatology_average and climate_anomaly, keep_attrs=True and None keep the attribute dictionary of the input object on the result and keep_attrs=False drops them; the documented default behaves like None.",
  "every attribute dictionary and every accepted keep_attrs value (xarray's global keep_attrs option not set to False)",
  "Decision logic over all values and code paths.",
  [C+":calendar_average", C+":climatology_average", C+":climate_anomaly"])

# ---------------------------------------------------------------- meteorology formulas
p("C45", "dewtemp is a dew point",
  "For temperature in (0, 1320] K and relative humidity in (0,100], the dew point is positive and at most the temperature, equal to it exactly at 100%, and strictly increasing in relative humidity; at fixed humidity (at least 0.001%) it strictly increases with temperature up to 373 K.",
  "every real temperature and humidity in the stated range",
  "Inequalities over a continuum.",
  [M+":dewtemp", M+":_dewtemp"])
p("C46", "relhum never indexes outside its table",
  "For every finite temperature (however extreme) the lookup stays inside the table and the interpolated saturation vapour pressure lies between the two neighbouring table entries and equals the table entry at a tabulated temperature.",
  "every real temperature",
  "Boundary temperatures 173.16 and 375.16 and everything beyond.",
  [M+":relhum"])
p("C47", "relhum is bounded below and monotone",
  "relhum is at least 0.0001, does not increase with temperature, does not decrease with mixing ratio or with pressure (non-negative mixing ratio and pressure).",
  "every real temperature, mixing ratio and pressure in range",
  "Monotonicity over a continuum with a 203-piece table and clipping.",
  [M+":relhum"])
p("C48", "relhum_ice and relhum_water are proportional to mixing ratio, reach 100 at saturation and are consistently ordered",
  "Relative humidity is 100*w/qsat, linear in w, 100 exactly when w is the saturation mixing ratio, strictly decreasing in temperature; ice and water versions agree at 273.15 K and over ice is at least over water between 154.5 K and 273.15 K.",
  "every temperature above 35.86 K (the pole of the formula over water), every pressure exceeding 0.378 times the saturation vapour pressure, every mixing ratio (positive for the comparisons)",
  "Inequalities over a continuum.",
  [M+":relhum_ice", M+":relhum_water", M+":_relhum_ice", M+":_relhum_water"])
p("C49", "heat_index equals temperature below 40F and is total",
  "For temperatures below 40F heat_index returns the temperature itself for every humidity; for all finite temperature and humidity in [0,100] the result is a finite number; humidity outside [0,100] anywhere raises ValueError.",
  "every temperature and humidity, every array size",
  "Chained where() calls and a square root over all inputs.",
  [M+":heat_index", M+":_nws_eqn"])
p("C50", "heat_index adjustments are applied only together with the Rothfusz regression",
  "As documented, the low-humidity and high-humidity adjustments are applied only to points where the regression equation is used (simple heat index at or above the threshold).",
  "every temperature and humidity, both coefficient sets",
  "A small corner of the (t, rh) plane.",
  [M+":heat_index"])
p("C51", "max_daylight is defined, bounded and symmetric",
  "For |lat| <= 66 the result is a number for every day; every defined result is within [0,24]; it is 12 at the equator; hours at lat and -lat add up to 24; the result at [i,j] depends only on day i and latitude j.",
  "every day (any real) and latitude, every array length",
  "Trigonometric domain conditions over a continuum.",
  [M+":max_daylight"])
p("C52", "saturation_vapor_pressure fill and monotonicity",
  "The result is tfill exactly for temperature <= 32F (and NaN), otherwise it is above 0.6108 kPa and strictly increasing in temperature; actual_saturation_vapor_pressure returns the same numbers.",
  "every temperature and tfill",
  "Continuum and threshold exactness.",
  [M+":saturation_vapor_pressure", M+":actual_saturation_vapor_pressure"])
p("C53", "saturation_vapor_pressure_slope is the slope of saturation_vapor_pressure",
  "At every temperature above freezing the returned slope is the derivative with respect to Celsius temperature of the curve saturation_vapor_pressure computes.",
  "every temperature above 32F",
  "Derivative identity over a continuum.",
  [M+":saturation_vapor_pressure_slope", M+":saturation_vapor_pressure"])
p("C54", "psychrometric_constant is linear",
  "psychrometric_constant(a*p+b*q) = a*psychrometric_constant(p)+b*psychrometric_constant(q), zero at zero, and elementwise.",
  "every pressure array",
  "Law over all inputs.",
  [M+":psychrometric_constant"])
p("C55", "mismatched input shapes are rejected by the humidity functions",
  "dewtemp, relhum, relhum_ice, relhum_water and heat_index raise ValueError when their inputs have different shapes, as their documentation requires equal dimensions.",
  "every pair/triple of shapes",
  "All shape combinations, including broadcastable ones.",
  [M+":dewtemp", M+":relhum", M+":relhum_ice", M+":relhum_water", M+":heat_index"])
p("C56", "input container type is preserved",
  "relhum_ice, relhum_water and heat_index return the container type they were given: list for list, float for float, numpy for numpy, DataArray for DataArray; mixed types raise TypeError.",
  "every combination of container types",
  "Decision table over types.",
  [M+":relhum_ice", M+":relhum_water", M+":heat_index"])
p("C57", "zonal_meridional_psi integrates from the top of the atmosphere and is ordering independent",
  "At each level the streamfunction is the scaling factor times the sum of v*dp over that level and all levels above it, whatever the order of the levels, and does not depend on winds at levels below the surface.",
  "every column length, both orders, all winds and surface pressures",
  "Cumulative-sum orientation over all columns.",
  [M+":zonal_meridional_psi", M+":delta_pressure"])
p("C58", "zonal_meridional_psi scales with the cosine of latitude in degrees",
  "The streamfunction at latitude lat (degrees) carries the factor 2*pi*a*cos(lat)/g and therefore vanishes at the poles.",
  "every latitude in [-90,90]",
  "Unit errors in trigonometric functions cannot be excluded on a sample that was computed with the same code.",
  [M+":zonal_meridional_psi"])

# ---------------------------------------------------------------- gc_util
p("C59", "variable lookup returns an existing variable by priority or reports failure",
  "The CF variable lookup behind zonal_meridional_psi returns a name present in the data set; a standard-name match wins over a long-name match, which wins over a plain name match; it raises KeyError exactly when nothing matches, in which case the optional form returns None.",
  "every data set (any number of variables and attributes) and every query",
  "Priority must hold for all data sets.",
  [U+":_find_var", U+":_find_optional_var"])
p("C60", "variable lookup is deterministic",
  "The name returned does not depend on the iteration order of Python sets (string hash randomisation).",
  "every iteration order of the candidate-name set, every data set",
  "Hash-seed dependence is invisible within one process.",
  [U+":_find_var"])

# ---------------------------------------------------------------- stats
p("C61", "nmse is a normalised error",
  "nmse is >= 0; it is 0 exactly when modeled equals observed on every positively weighted valid cell; predicting the weighted observed mean everywhere gives exactly 1; it is unchanged by adding a constant to both fields, by multiplying both by a non-zero constant and by rescaling all weights.",
  "every grid size, every pair of fields with non-constant observations, every latitude set",
  "Algebraic laws over all fields.",
  [S+":nmse"])
p("C62", "nmse rejects unevenly spaced grids",
  "nmse raises ValueError whenever the latitude or longitude coordinate is not evenly spaced (1-D or 2-D coordinates).",
  "every 1-D and 2-D coordinate array",
  "All coordinate layouts, in particular curvilinear ones.",
  [S+":nmse"])
p("C63", "nmse ignores missing cells",
  "Cells where either field is NaN do not influence the result: their other value may be changed arbitrarily, and the result equals that computed on the remaining cells alone.",
  "every missing pattern and field",
  "All missing-data patterns.",
  [S+":nmse"])
p("C64", "pearson_r is a correlation coefficient",
  "For array inputs with positive weights the result lies in [-1,1], is symmetric in its arguments, is unchanged by positive affine rescaling of either input and by rescaling the weights, is 1 for b = k*a+c with k>0 and -1 for k<0.",
  "every pair of series of any length with non-zero variance",
  "Cauchy-Schwarz type statement over all series.",
  [S+":pearson_r"])
p("C65", "pearson_r reports weight mismatches as an error",
  "When weights do not match the data the call raises an error instead of returning a value.",
  "every shape mismatch",
  "Exception flow for all mismatching shapes.",
  [S+":pearson_r"])
p("C66", "EOF functions move the requested time axis to the front",
  "For array input and any time_dim accepted by the documentation (0..ndim-1 or -1) the data handed to the EOF solver has the requested axis first and the remaining axes in their original order; out-of-range time_dim raises ValueError.",
  "every rank and time_dim",
  "All ranks and axis positions, including negative ones.",
  [S+":_generate_eofs_solver", S+":eofunc_eofs", S+":eofunc_pcs"])
p("C67", "EOF functions do not modify their input",
  "Calling eofunc_eofs or eofunc_pcs leaves the input object, its attributes included, unchanged.",
  "every input object and option setting, every sequence of calls",
  "Aliasing shows only on later reads of the input.",
  [S+":eofunc_eofs", S+":eofunc_pcs"])

# ---------------------------------------------------------------- spherical
p("C68", "spherical harmonic coefficients are complete and ordered",
  "decomposition and recomposition use the same list of (n,m) pairs: each pair 0<=m<=n<=max_harm exactly once, ordered by n then m, (max_harm+1)(max_harm+2)/2 in total; pair (n,m) sits at index n(n+1)/2+m.",
  "every max_harm",
  "Nested loops over all truncations.",
  [SP+":decomposition", SP+":recomposition"])
p("C69", "decomposition inverts recomposition on quadrature-exact grids",
  "If the grid's weights integrate products of the sampled harmonics exactly, then decomposition(recomposition(c)) = c for every admissible coefficient vector c, and recomposition(decomposition(f)) = f for every field f in the span of the harmonics.",
  "every grid with that property, every max_harm, every coefficient vector",
  "Round trip for all coefficient vectors and grids.",
  [SP+":decomposition", SP+":recomposition"])
p("C70", "decomposition is linear and independent of the total weight",
  "decomposition is linear in the data and unchanged if all weights are multiplied by a non-zero constant; recomposition is linear in the coefficients.",
  "every grid, data, factor",
  "Algebraic laws over all inputs.",
  [SP+":decomposition", SP+":recomposition"])
p("C71", "numpy and xarray inputs, old and new scipy, give the same harmonics",
  "The coefficients computed do not depend on whether inputs are numpy or xarray nor on whether scipy is older or newer than 1.15.",
  "every data set and grid, both scipy generations",
  "Four code paths must agree for all inputs.",
  [SP+":decomposition", SP+":recomposition", SP+":sph_harm_y"])
p("C72", "scale_voronoi preserves container type and samples the unit sphere",
  "The points handed to the Voronoi computation all lie on the unit sphere at the given angles in row-major order, the result has the input's shape, and xarray input gives xarray output.",
  "every grid shape and angles",
  "All angles and shapes.",
  [SP+":scale_voronoi"])

# ---------------------------------------------------------------- gradient
p("C73", "arc length along a meridian is the integral of the ellipsoid radius",
  "The derivative of the latitude arc length used by gradient equals the radius function times pi/180, to within 1e-9 relative error, for every latitude in [-90,90].",
  "every real latitude in [-90,90]",
  "Two degree-48/49 polynomials must be consistent everywhere.",
  [G+":_arc_lat_wgs84", G+":_rad_lat_wgs84"])
p("C74", "arc lengths are odd, strictly monotone and correctly oriented",
  "Latitude arc length is odd and strictly increasing on [-90,90]; the radius is positive there; longitude arc length is linear in longitude and strictly increasing away from the poles.",
  "every latitude/longitude",
  "Monotonicity of a degree-49 polynomial over an interval.",
  [G+":_arc_lat_wgs84", G+":_arc_lon_wgs84", G+":_rad_lat_wgs84"])
p("C75", "gradient laws",
  "gradient is linear in the data, zero for constant data, exactly one in the matching direction for data equal to the arc-length coordinate, and unchanged by reversing the order of the rows together with their latitudes (or columns with longitudes).",
  "every grid of at least 2x2 points, every data field",
  "Laws over all fields and grids including edges.",
  [G+":gradient"])
p("C76", "gradient coordinate handling",
  "User-supplied lat and lon are always the ones used; inputs where no coordinates are available, or whose ranks differ, are rejected with an explanatory error; 1-D coordinates behave like their 2-D mesh.",
  "every combination of data type, presence of lat/lon arguments and dataset coordinates, and ranks",
  "Decision table over presence/rank combinations.",
  [G+":gradient"])

# ---------------------------------------------------------------- deprecated
p("C77", "deprecated functions never compute",
  "Every deprecated entry point (grid_to_triple, linint1, linint2, linint2pts, moc_globe_atl, rcm2points, rcm2rgrid, rgrid2rcm, triple_to_grid) accepts any arguments, warns naming its geocat.f2py replacement and returns None.",
  "every function and every argument list",
  "All argument lists.",
  [D+":grid_to_triple", D+":linint1", D+":linint2", D+":linint2pts", D+":moc_globe_atl", D+":rcm2points", D+":rcm2rgrid", D+":rgrid2rcm", D+":triple_to_grid"])

# ---------------------------------------------------------------- appended as the model grew
p("C78", "a whole-cycle sinusoid is either returned unchanged or removed",
  "A cosine of any amplitude and phase with a whole number of cycles in the record is returned unchanged by low/high/band-pass when its harmonic lies in the pass band, and returned as zero when it lies in the stop band.",
  "every record length, harmonic, amplitude, phase and cutoff",
  "All lengths, phases and cutoffs.",
  [F+":fourier_filter", F+":fourier_low_pass", F+":fourier_high_pass", F+":fourier_band_pass"])

p("C79", "max_daylight warns about every latitude outside its validity",
  "max_daylight warns whenever some latitude is beyond 55 degrees, with the stronger warning whenever some latitude is beyond 66 degrees.",
  "every list of latitudes",
  "All latitude lists, mixed bands included.",
  [M+":max_daylight"])

p("C80", "variable lookup honours standard names of coordinates",
  "A pressure coordinate that carries standard_name 'air_pressure' is found by zonal_meridional_psi whatever its name, as documented.",
  "every data set",
  "All data sets and names.", [f"{M}:zonal_meridional_psi", f"{U}:_find_var", f"{U}:_find_optional_var"])
p("C81", "zonal_meridional_psi uses the variables it was told to use",
  "Names given explicitly are the ones used; the wind is used on its own levels exactly when the pressure coordinate is one of its dimensions, otherwise it is interpolated from hybrid levels when both coefficients are available, otherwise AttributeError.",
  "every data set and every combination of given and missing names",
  "Decision table over all data sets and arguments.", [f"{M}:zonal_meridional_psi"])
p("C82", "the pressure coordinate may have any name",
  "zonal_meridional_psi accepts winds whose pressure coordinate has the name passed as plev_coordname (or one of the names it searches for).",
  "every coordinate name",
  "All names.", [f"{M}:zonal_meridional_psi"])

p("C83", "values are stored under the pressure label they belong to",
  "For new_levels in any order, the value stored under each output pressure label is the interpolation at that pressure.",
  "every list of new_levels, sorted or not, every column",
  "Order bookkeeping between labels and values over all permutations.",
  [f"{I}:interp_hybrid_to_pressure", f"{I}:_func_interpolate"])
p("C84", "a missing neighbouring level makes the interpolated value missing",
  "At a pressure strictly between two neighbouring model levels of which one is missing, the result is missing.",
  "every column with any pattern of missing values, every requested pressure, both methods",
  "All missing-value patterns and all positions.",
  [f"{I}:interp_hybrid_to_pressure", f"{I}:_func_interpolate"])
p("C85", "extrapolated geopotential height depends continuously on temperature",
  "A small change of the bottom-level temperature changes the extrapolated geopotential height only a little, for every surface geopotential.",
  "every t_bot and every phi_sfc",
  "Regime switches at threshold temperatures produce jumps only at exact boundaries.",
  [f"{I}:_geo_height_extrapolate"])

p("C86", "interp_multidim does not depend on how rows and columns are ordered",
  "Storing the same grid with its latitudes or longitudes in another order (for instance north to south) does not change the interpolated values.",
  "every grid with distinct coordinates, every reordering, both methods, cyclic or not",
  "All permutations of all grids.", [f"{I}:interp_multidim", f"{I}:_pre_interp_multidim"])
p("C87", "interp_multidim outside the grid is missing",
  "With the default fill_value every output location outside the range of the latitudes or of the longitudes is missing (NaN, or missing_val when given).",
  "every grid, every location outside it, both methods", "All locations outside all grids.", [f"{I}:interp_multidim"])
p("C88", "interp_multidim with method nearest returns a nearest grid point",
  "method='nearest' returns the value of a grid point nearest in latitude and nearest in longitude, missing exactly when that point is missing; with fill_value='extrapolate' also outside the grid.",
  "every grid and every location", "Nearest-neighbour choice over all axes and locations, including ties.", [f"{I}:interp_multidim"])
p("C89", "interp_multidim reproduces bilinear fields",
  "A field a + b*lat + c*lon + d*lat*lon is reproduced exactly at every location inside the grid, and everywhere with fill_value='extrapolate'.",
  "all coefficients, grids and locations", "Exactness over all fields and locations.", [f"{I}:interp_multidim"])

p("C90", "hourly, daily and monthly averages are plain means of each period",
  "calendar_average(hour/day/month) returns, for every period in which every cell has a value, in time order, the plain mean of that period's samples in each cell, stamped at the centre of the period, and nothing else; a gap between two such periods raises ValueError.",
  "every uniformly spaced series, every calendar and cell",
  "Binning must be right for all timestamps and all patterns of missing values.",
  [f"{C}:calendar_average"])

p("C91", "seasonal climatologies are day-weighted means over all years",
  "climatology_average(season) gives for each requested season the mean over all its complete months in all years, each month weighted with its number of days; the value lies between the smallest and the largest sample of the season.",
  "every series, every choice of seasons, every calendar and cell",
  "Weights and months vary with calendar, start and gaps.",
  [f"{C}:climatology_average"])

p("C92", "seasonal anomalies subtract the climatology of the sample's season",
  "climate_anomaly(season) subtracts from every sample the seasonal climatology of the season its month belongs to and leaves missing samples missing; with complete months of daily data the anomalies of each season sum to zero.",
  "every series, calendar and cell",
  "Sum over all samples of a season.",
  [f"{C}:climate_anomaly"])

p("C93", "keep_attrs=True keeps the attributes of a Dataset's variables",
  "With keep_attrs=True the data variables of a Dataset keep their own attributes (units, names) in calendar_average, climatology_average, climate_anomaly and month_to_season.",
  "every Dataset, frequency and xarray attribute policy",
  "Decision logic over all values and code paths.",
  [f"{C}:calendar_average", f"{C}:climatology_average", f"{C}:climate_anomaly", f"{C}:month_to_season"])

p("C94", "nmse of a Dataset is the nmse of each of its variables", "For Dataset inputs the result holds, for each variable, exactly the value which nmse gives for that variable as a DataArray.", "every Dataset pair, every number of variables and missing pattern", "tests compare one Dataset without missing values against constants; the extra dimension and the mixing of missing patterns between variables do not show", [f"{S}:nmse"])
p("C95", "nmse rejects fields that do not belong together", "nmse raises TypeError for anything but two DataArrays or two Datasets, KeyError if the coordinate names differ, ValueError if latitude/longitude cannot be determined or the coordinate labels differ; it never compares cells by position only or on a silent intersection. An observed field with several latitude or longitude coordinates is rejected too.", "every pair of inputs", "tests try one example of each error; that nothing else slips through needs all inputs", [f"{S}:nmse"])

p("C96", "pearson_r accepts every documented input kind", "pearson_r computes a correlation for arrays, DataArrays and Datasets, as documented; two Datasets are handled by the xarray path.", "every combination of input kinds", "tests use arrays and DataArrays; Datasets are documented but not tested", [f"{S}:pearson_r"])

p("C97", "EOF results are labelled with the right dimensions and metadata", "The result of eofunc_eofs has the dimension 'eof' followed by the non-time dimensions of the input in order, named by their axis numbers (or by their own names, with their coordinates and the input's attributes, for DataArrays with meta=True); time_dim is ignored for DataArrays, and meta=True never makes a valid call fail.", "every rank, time_dim, DataArray with any coordinates, both settings of meta", "tests check labels for one rank and time_dim; the mislabelling needs other ranks, time_dim or coordinates", [f"{S}:eofunc_eofs", f"{S}:_generate_eofs_solver"])
p("C98", "eofunc and eofunc_ts are transparent wrappers", "eofunc(data, n, time_dim, meta) and eofunc_ts return what eofunc_eofs and eofunc_pcs return for the same data and options, the last axis being the default time axis.", "every input kind, rank and option", "tests compare arrays without metadata; the loss of metadata and the failure of eofunc_ts with meta do not show", [f"{S}:eofunc", f"{S}:eofunc_ts"])

p("C99", "recomposition rejects coefficient vectors of the wrong length", "recomposition succeeds only for (max_harm+1)(max_harm+2)/2 coefficients; any other number of coefficients is rejected with an error instead of being broadcast.", "every list of coefficients, max_harm, container type and scipy generation", "All lengths and truncations; broadcasting makes some wrong lengths succeed silently.", [f"{SP}:recomposition"])
p("C100", "scale_voronoi accepts every grid of distinct grid points", "scale_voronoi computes areas for every latitude-longitude grid whose (theta, phi) pairs are distinct, including grids with rows at the poles (phi = 0 or pi).", "every grid of at least three points", "All grids, including degenerate rows at the poles.", [f"{SP}:scale_voronoi"])

p("C101", "arc-length and radius polynomials are accurate", "On [-90,90] the radius used by gradient equals sqrt(a^2 cos^2 + b^2 sin^2) with the WGS84 axes to a relative error of 1e-16, and the latitude arc length equals its integral from the equator to 1e-9 m, as the documentation claims (accurate to within floating point error).", "every real latitude in [-90,90]", "A degree-48 Taylor polynomial must be accurate on a whole interval, including the poles.", [f"{G}:_rad_lat_wgs84", f"{G}:_arc_lat_wgs84"])
p("C102", "north-south distances are distances on the WGS84 ellipsoid", "The distance per degree of latitude used by gradient is that of the WGS84 ellipsoid at the given (geodetic) latitude, to 0.1 percent.", "every latitude in [-90,90]", "Continuous range of latitudes; a wrong formula is invisible at the tolerance of the tests.", [f"{G}:gradient", f"{G}:_arc_lat_wgs84"])
p("C103", "gradient returns the documented order", "gradient returns [longitudinal gradient, latitudinal gradient], as documented.", "every data field and grid", "The existing test compares tiny numbers to 3 decimals and cannot distinguish the two.", [f"{G}:gradient"])
p("C104", "gradient of n-dimensional data", "For data with leading dimensions before latitude and longitude, gradient returns the horizontal gradients of each 2-D slice, or rejects the input.", "every rank and shape", "All ranks; broadcasting silently combines the wrong axes.", [f"{G}:gradient"])
p("C105", "gradient accepts every documented data type", "gradient accepts numpy arrays, DataArrays and Datasets; numpy input gives numpy output and xarray input gives DataArrays with the coordinates used.", "every input of the documented types", "All inputs of each type.", [f"{G}:gradient"])
p("C106", "gradient of a DataArray does not depend on its dimension order", "For a DataArray with 1-D lat and lon coordinates the gradients are those of the field whatever the order of its dimensions.", "every DataArray with lat and lon coordinates", "Square grids make the mistake silent.", [f"{G}:gradient"])
p("C107", "gradient is local", "The gradients at a point depend only on the data at its neighbours in the same column and row; a missing value makes exactly the results that use it missing.", "every data field of at least 2x2 points, with missing and infinite values", "All positions of missing values, including edges.", [f"{G}:gradient"])

p("C108", "fourier_filter filters each series along the chosen axis independently",
  "For an array of any number of dimensions, filtering along an axis keeps the shape and gives at each position the one-dimensional filter of the series through that position; no series influences another, and a negative axis means the same axis counted from the end. The sample frequency in effect is the given one times len(axis)/len(axis 0).",
  "every array with non-empty axes, every axis, every choice of flags and cutoffs, every non-zero frequency",
  "All shapes and axes; tests use one or two fixed shapes.", [f"{F}:fourier_filter"])
p("C109", "fourier_filter keeps the container",
  "Filtering a DataArray gives a DataArray with the same dimensions, coordinates, name and attributes and the values of the array call.",
  "every DataArray of any rank, every time axis",
  "All shapes and axes, in particular axes of a length different from axis 0.", [f"{F}:fourier_filter"])
p("C110", "zonal_meridional_psi rejects exactly the surface pressures it cannot use",
  "A missing zonal mean of the surface pressure, a cell of non-positive surface pressure, or a zonal mean smaller than the smallest level pressure raises ValueError whatever the rest of the data; all other inputs give the documented grid of integrals.",
  "every number of times, latitudes, levels and cells and all values",
  "One bad cell among arbitrarily many decides; tests try single examples.", [f"{M}:zonal_meridional_psi", f"{M}:_zonal_meridional_psi_wrapped"])
p("C111", "delta_pressure labels its result",
  "For a DataArray the result has the extra last dimension lev, labelled with the given levels in the given order, and attributes describing pressure thickness.",
  "every level array, every shape of surface pressure, all attributes",
  "All shapes, orders and attribute dictionaries.", [f"{M}:delta_pressure"])
p("C112", "humidity functions combine values of the same labelled point",
  "For DataArray arguments with the same dimensions in any order, the value of relhum, relhum_ice, relhum_water, dewtemp and heat_index at a labelled point is computed from the inputs at that point.",
  "all arrays and all orders of their dimensions",
  "All permutations of dimensions for every number of dimensions.", [f"{M}:relhum", f"{M}:relhum_ice", f"{M}:relhum_water", f"{M}:dewtemp", f"{M}:heat_index"])
p("C113", "meteorology results carry their own units",
  "Whatever attributes the inputs have, a DataArray result states the units and description of the computed quantity.",
  "all attribute dictionaries of the inputs",
  "All attribute dictionaries, including inputs that already have units.", [f"{M}:dewtemp", f"{M}:heat_index", f"{M}:relhum", f"{M}:relhum_ice", f"{M}:relhum_water", f"{M}:actual_saturation_vapor_pressure", f"{M}:max_daylight", f"{M}:psychrometric_constant", f"{M}:saturation_vapor_pressure", f"{M}:saturation_vapor_pressure_slope"])
p("C114", "interp_hybrid_to_pressure labels its result with the requested pressures",
  "The result has a coordinate plev holding the requested pressures and keeps all other coordinates of the data.",
  "all accepted calls, all sets of coordinates of the data",
  "All combinations of coordinates.", [f"{I}:interp_hybrid_to_pressure"])
p("C115", "extrapolation does not depend on the labelling of the levels",
  "With extrapolate=True every requested pressure below the lowest level gets an extrapolated value, whether or not the data has a level coordinate.",
  "all accepted calls with extrapolation, with and without level coordinate",
  "All inputs; tests use data that carries a level coordinate.", [f"{I}:interp_hybrid_to_pressure", f"{I}:_vertical_remap_extrap"])
p("C116", "the default pressure levels",
  "Without new_levels the result is given at the 21 mandatory levels from 1000 to 1 hPa, expressed in Pa, in decreasing order, each value under the label of its pressure.",
  "all accepted calls without new_levels",
  "All data; the order and units of the default decide whether values land under the right label.", [f"{I}:interp_hybrid_to_pressure", f"{I}:__pres_lev_mandatory__"])
p("C117", "max_daylight labels its result",
  "For DataArray days or latitudes the result is labelled by the given days and latitudes, and each entry belongs to its labels; scalars are allowed for either argument.",
  "all days and latitudes, scalars and one-dimensional arrays of every length",
  "All lengths and combinations of scalar and array arguments.", [f"{M}:max_daylight"])

p("C118", "relhum's lookup table agrees with the closed formulas of relhum_water and relhum_ice",
  "For inputs of one type and shape with mixing ratios not negative: above 253.16 K, as long as the pressure is at least the saturation pressure over water, relhum never returns less than relhum_water; from 273.16 K to 338.16 K it returns at most 0.36 % more and up to 375.16 K at most 1.71 % more. Below 273.16 K, as long as the pressure is at least the saturation pressure over ice, relhum returns at most 0.57 % more than relhum_ice; from 193.16 K to 253.16 K at most 0.65 % less and from 173.16 K to 193.16 K at most 2.1 % less. (All up to the least value 0.0001 that relhum returns.)",
  "all arrays of real temperatures in the stated ranges, all real mixing ratios >= 0 and pressures above saturation, between the table's entries as well as at them",
  "The table has 203 entries and is interpolated over a continuum of temperatures; one wrong digit shows only at the one-degree interval around it, which a test must happen to hit.",
  [f"{M}:relhum", f"{M}:_relhum", f"{M}:relhum_ice", f"{M}:_relhum_ice", f"{M}:relhum_water", f"{M}:_relhum_water"])

p("C119", "zonal_meridional_psi returns one value per time, latitude and level, labelled as documented",
  "Whatever the time dimension of the data is called, and also without one, the result has the documented dimensions (time, latitudes, plev), each wind is combined with the surface pressure of its own time and latitude, and the values do not depend on whether the levels are listed from the top or from the surface.",
  "all dimension names and orders of the zonal mean wind, all sizes, levels, winds (missing values included) and surface pressures below the first layer interface",
  "Tests use one data set with the names and the order the code happens to assume.",
  [f"{M}:zonal_meridional_psi", f"{M}:delta_pressure"])

p("C120", "delta_pressure_hybrid gives the layers between neighbouring levels whatever the containers and coordinates of the coefficients",
 "For n coefficients delta_pressure_hybrid returns n-1 layers along one level axis in front of the axes of ps, layer k being |p(k+1)-p(k)|, whether the coefficients are numpy arrays or DataArrays, whatever ps is, and whatever coordinates are attached to the coefficients.",
 "every combination of containers, every list of coordinates on the coefficients, every coefficients, ps and p0",
 "The answer depends on which coordinate comes first and on dimension names; tests use one combination each.",
 [f"{I}:delta_pressure_hybrid"])

p("C121", "zonal_meridional_psi finds its variables by the documented names",
 "Without explicit names, the wind is the first data variable with standard name northward_wind, else the first with long name 'Meridional wind', else one named V, vs or meridional_wind (in any of the listed spellings), and likewise for the surface pressure, the pressure coordinate and the hybrid coefficients with the names in the documentation; if the wind or the surface pressure is not there the call is a KeyError, and whatever is there under these names is found.",
 "every data set, every iteration order of Python's sets",
 "The search combines attributes, names and spellings of all variables of arbitrary data sets.",
 [f"{M}:zonal_meridional_psi", f"{U}:_find_var", f"{U}:_find_optional_var"])

p("C122", "irregular records are rejected", "calendar_average, climatology_average and climate_anomaly accept a record only if its times are evenly spaced (xarray infers a frequency) or there is exactly one sample in every month from the first to the last; any other record raises ValueError for every frequency, and an error raised by the inference reaches the caller. A regular record with samples in all twelve months has a monthly climatology with twelve entries.", "every record, calendar, frequency and outcome of the frequency inference", "Ranges over all time axes; the fallback check counts samples per month.", [f"{C}:calendar_average", f"{C}:climatology_average", f"{C}:climate_anomaly"])

p("C123", "integer data are interpolated like floats by interp_sigma_to_hybrid", "For data of an integer type interp_sigma_to_hybrid returns the same numbers as for the same data stored as floats.", "all integer arrays, sigma values, coefficients and surface pressures", "Rounding shows only for particular positions between levels; must hold for all data.", [f"{I}:interp_sigma_to_hybrid"])
p("C124", "interp_multidim keeps metadata whatever its options", "For a DataArray the result of interp_multidim has the input's name and attributes, the attributes of its latitude and longitude coordinates and its other coordinates, whatever cyclic and missing_val are.", "all metadata and option combinations", "Ranges over all attribute dictionaries and coordinates; tests look at values.", [f"{I}:interp_multidim", f"{I}:_pre_interp_multidim", f"{I}:_post_interp_multidim"])

p("C125", "A Dataset is averaged like each of its variables", "Applying calendar_average, climatology_average, climate_anomaly or month_to_season to a Dataset (or a whole grid) gives, for every variable (or any selection of grid cells), exactly what applying the function to that variable alone gives: the same values, time stamps and errors.", "all frequencies and calendars, all time axes, all data with or without missing values, all choices of a variable or of cells", "a test compares a few fixed Datasets, usually without missing values; dropping time steps in which any variable is missing only shows up when variables have different gaps", [f"{C}:calendar_average", f"{C}:climatology_average", f"{C}:climate_anomaly", f"{C}:month_to_season"])
p("C126", "Averages keep the name and the type of the time coordinate", "The climatology functions use the time coordinate that is named, or otherwise the one the metadata marks as time, and reject one that holds no time stamps; the time coordinate of the result has the same name and the same type (datetime64, or cftime of the same calendar).", "all sets of coordinates, all metadata, all values of time_dim (given, None or empty), all calendars", "tests use one coordinate called time and compare time stamps that were generated with the type the function happens to return", [f"{C}:_get_time_coordinate_info", f"{C}:_infer_calendar_name", f"{C}:_calculate_center_of_time_bounds", f"{C}:calendar_average", f"{C}:climatology_average", f"{C}:climate_anomaly", f"{C}:month_to_season"])

p("C127", "Vertical interpolation is linear in the data and reproduces linear profiles", "interp_hybrid_to_pressure (without extrapolation) and interp_sigma_to_hybrid return c + d*x where the column is c + d*x in the coordinate of the method (pressure or sigma, or its logarithm); interpolating c*A + d*B gives c times the result for A plus d times the result for B; and if A is nowhere larger than B in a column, its interpolated values are not larger.", "all columns without missing values at a grid point, all coefficients c and d, both methods, all chunkings and dimension orders, all requested levels inside the column (outside, both sides are missing)", "Identities between different calls that must hold for all data.", [f"{I}:interp_hybrid_to_pressure", f"{I}:interp_sigma_to_hybrid"])

p("C128", "Hybrid pressures in floating-point arithmetic", "When every operation of hya*p0 + hyb*ps is rounded (no overflow), pressure_at_hybrid_levels still returns the surface pressure bit for bit where hya=0 and hyb=1, does not depend on the surface pressure where hyb=0, never decreases when the surface pressure or the coefficients increase, and in float64 differs from the exact pressure by at most 3*2^-53 of |hya*p0|+|hyb*ps| (up to underflow). The thickness returned by delta_pressure_hybrid is never negative, is zero exactly if the two rounded pressures coincide, and has a float64 error of at most 8*2^-53 of the terms involved.", "every rounding mode with gradual underflow (error bounds: float64, round to nearest even) and all coefficients, reference and surface pressures without overflow", "tests compare a few columns with assert_allclose and cannot show monotonicity or an error bound for every float", [f"{I}:pressure_at_hybrid_levels", f"{I}:delta_pressure_hybrid"])
p("C129", "Vertical interpolation in floating-point arithmetic", "Linear interpolation of a column of floats to pressure levels with every operation rounded gives missing values exactly outside the column; inside, the result lies between the values of the two neighbouring levels, equals the data at the data's own levels, changes monotonically between two levels, and in float64 differs from the exact interpolation by at most 2^-49 of the larger neighbour in absolute value (up to underflow).", "every column of at least two pairwise different levels, finite values, every sorted list of requested levels, every rounding mode with gradual underflow (error bound: float64)", "rounding errors depend on every bit of the input; tests use assert_allclose on one field", [f"{I}:interp_hybrid_to_pressure", f"{I}:interp_sigma_to_hybrid", f"{I}:_func_interpolate"])
p("C130", "Layer thicknesses in floating-point arithmetic", "delta_pressure with every operation rounded succeeds for levels in either direction, a top not below the first level and a surface below the first computed interface; a layer is missing exactly if its computed upper interface is at or below the surface; no thickness is negative; in float64 every thickness differs from the exact one, and the sum of the column from surface minus top, by at most 6*2^-53 of the surface pressure (up to underflow), independently of the number of levels.", "every strictly monotone column of at least two nonnegative float levels, every float surface pressure below the first interface, every admissible top, every rounding mode with gradual underflow (error bounds: float64)", "tests check one column of round numbers with exact sums", [f"{M}:delta_pressure", f"{M}:_delta_pressure1D"])
p("C131", "Averages in floating-point arithmetic do not depend on the order of summation beyond rounding", "In whatever order numpy, dask or a compiled reduction adds up the values of a season, month or day, the float64 mean differs from the exact mean by at most (1+2^-53)^n - 1 of the mean absolute value (up to underflow), two orders differ by at most twice that, larger values never give a smaller mean in the same order, and the mean of a constant record is its value.", "every finite list of floats and every order of summation (any binary tree of additions)", "the order of summation depends on library versions, chunk sizes and data layout; tests see one order", [f"{C}:month_to_season", f"{C}:calendar_average", f"{C}:climatology_average"])

p("C132", "Fourier filters commute with shifts, reversal and each other, and split the energy",
  "Filtering a record moved cyclically in time gives the filtered record moved by as many steps; filtering a reversed record gives the reversed filtered record; two filters can be applied in either order; the sum of squares of the record is that of the filtered record plus that of what was removed, so filtering never adds variance; the filtered record is the closest one, in least squares, among all records the filter leaves unchanged.",
  "every length, record, kind of filter, positive sampling frequency and nonnegative cutoffs",
  "a zero-phase filter that conserves energy is an identity over all records and cutoffs; tests compare one filtered series with one stored result",
  [f"{F}:fourier_filter", f"{F}:fourier_low_pass", f"{F}:fourier_high_pass", f"{F}:fourier_band_pass", f"{F}:fourier_band_block"])

p("C133", "averages keep linear relations and order between variables",
  "If one variable of a Dataset is a linear combination of two others in every sample, or never exceeds another, and they are missing at the same places, then the same relation holds in every result of calendar_average, climatology_average and month_to_season; linear relations hold for climate_anomaly as well. More generally any relation closed under averaging is kept.",
  "every series, calendar, frequency, choice of cells and every convex relation between any number of variables",
  "budget identities (net = down - up) and bounds (minimum <= maximum) must survive the averaging for all data and all patterns of missing values; tests average single variables",
  [f"{C}:calendar_average", f"{C}:climatology_average", f"{C}:climate_anomaly", f"{C}:month_to_season"])
p("C134", "changing units before or after averaging makes no difference",
  "Averaging a x + b gives a times the average of x plus b, with the same labels and the same errors, for calendar_average, climatology_average and month_to_season; the anomalies of a x + b are a times the anomalies of x.",
  "every series, calendar, frequency, factor and offset",
  "must hold for all factors and offsets and all patterns of missing values",
  [f"{C}:calendar_average", f"{C}:climatology_average", f"{C}:climate_anomaly", f"{C}:month_to_season"])

p("C135", "Vertical interpolation does not depend on the unit of pressure",
  "Giving reference pressure, surface pressure and requested pressure levels in another unit (all multiplied by the same positive number) changes the pressures returned by pressure_at_hybrid_levels by exactly that factor and changes nothing in the results of interp_hybrid_to_pressure (linear or logarithmic, with or without extrapolation below the ground, chunked or not, and with the same errors) or of interp_sigma_to_hybrid.",
  "all fields, levels, coefficients, grids, chunkings, methods and unit factors; for the logarithmic method pressures must be positive",
  "tests use Pa (or hPa) throughout; a constant hidden in the code that assumes a unit would show only in comparisons over all inputs",
  [f"{I}:interp_hybrid_to_pressure", f"{I}:interp_sigma_to_hybrid", f"{I}:_pressure_from_hybrid", f"{I}:_sigma_from_hybrid", f"{I}:_temp_extrapolate", f"{I}:_geo_height_extrapolate"])
p("C136", "Vertical interpolation keeps monotone profiles monotone and does not steepen them",
  "At one grid point and inside the column, if the data increase (decrease) with pressure then the values interpolated by interp_hybrid_to_pressure increase (decrease) with the requested pressure; and if the data change by at most L per unit of the method's coordinate (pressure or its logarithm), so do the interpolated values. The same holds for interp_sigma_to_hybrid in sigma.",
  "all columns, levels in any order, requested levels, methods and chunkings",
  "overshooting between levels depends on the data; tests compare single profiles with stored output",
  [f"{I}:interp_hybrid_to_pressure", f"{I}:interp_sigma_to_hybrid", f"{I}:_vertical_remap"])

p("C137", "With cyclic=True it does not matter where the longitudes start", "Storing the same global grid starting at another longitude (for instance -180..180 instead of 0..360) does not change what interp_multidim with cyclic=True returns at a given place, whichever whole turns are added to the requested longitude, as long as it lies on both padded axes (their left end excluded), missing values included.", "every grid with increasing longitudes spanning less than 360 degrees, every number of points by which the start is moved, every number of turns, data with missing values, methods linear and nearest, every fill value and missing_val", "Tests use one grid with one start; the equality must hold for every pair of starts and every requested place.", [f"{I}:interp_multidim", f"{I}:_pre_interp_multidim"])
p("C138", "interp_multidim is linear in the data and keeps inequalities", "Interpolating a*U + b*V gives a times the result for U plus b times the result for V, missing where one of them is missing; and if U lies nowhere above V then, with the default fill_value, no result for U lies above that for V.", "every grid with increasing axes, all data of numbers and NaNs, all coefficients and requested locations, cyclic or not, methods linear and nearest", "Unit conversions and differences of fields are made before or after interpolation; equality for all data and coefficients cannot be sampled.", [f"{I}:interp_multidim"])

p("C139", "Fourier filters depend only on frequency ratios and combine as their names say", "Expressing the sampling frequency and the cutoffs in another unit changes nothing; two low-pass (high-pass) filters after each other are the one with the lower (higher) cutoff; two band passes after each other are the band pass of the common band; a band pass is the low pass with its upper cutoff after the high pass with its lower cutoff.", "every record, sampling frequency, unit and non-negative cutoffs", "Equality of whole filter chains for all records and cutoffs; the rounding of cutoffs to bins differs between the filters and shows only for cutoffs between bins.", [f"{F}:fourier_filter", f"{F}:fourier_low_pass", f"{F}:fourier_high_pass", f"{F}:fourier_band_pass"])

p("C140", "gradient does not depend on the origin of longitude and treats all hemispheres alike", "Counting longitudes from another meridian does not change the gradients; turning all latitudes round the equator changes only the sign of the latitudinal gradient; turning all longitudes round changes only the sign of the longitudinal gradient.", "all data and coordinates, 1-D and 2-D", "Symmetries relate two calls for every field and every grid; a curvilinear grid crossing meridians far from Greenwich is needed to see them fail.", [f"{G}:gradient", f"{G}:_arc_lon_wgs84", f"{G}:_arc_lat_wgs84"])

p("C141", "warmer or more humid air never gets a lower heat index",
  "At a fixed humidity heat_index does not decrease when the temperature rises, and at a fixed temperature it does not decrease when the humidity rises.",
  "every pair of temperatures, every pair of humidities in [0,100], both coefficient sets",
  "The function is pieced together from three formulas and two adjustments; whether the pieces fit together at every one of the uncountably many switching points cannot be sampled.",
  [f"{M}:heat_index", f"{M}:_nws_eqn"])

p("C142", "averages can be taken in steps",
  "Applying calendar_average with a longer period to the result of calendar_average with a shorter period gives the same averages and time stamps as applying it to the data directly; applying it twice with the same period changes nothing.",
  "every record, every calendar, hour/day/month followed by any longer period",
  "A relation between compositions of calls over every record, every number of samples per period, every pattern of missing values.",
  [f"{C}:calendar_average"])

p("C143", "anomalies ignore what all samples of a group have in common", "climate_anomaly gives the same anomalies for the data and for the data plus an annual cycle (for freq='month' and 'day': anything that depends only on the calendar month or day; 'season': on the season; 'year': on the year). A record consisting of such a cycle alone has anomalies 0, and the anomalies of anomalies are the anomalies.", "every series with any missing values, every such cycle, every frequency and calendar", "relates runs on different inputs, over all cycles and records", [f"{C}:climate_anomaly", f"{C}:climatology_average", f"{C}:calendar_average"])

p("C144","Spherical harmonics: zero meridian, symmetries and Parseval",
 "Given that scipy's harmonics obey the two symmetries of spherical harmonics (a turn by a multiplies the harmonic of order m by e^{ima}; mirroring at the equator multiplies it by (-1)^(n+m)): measuring longitudes from another meridian multiplies each coefficient of decomposition by a phase of modulus 1 and so leaves the power of every coefficient unchanged; coefficients turned by the opposite phase recompose to the same field on the turned longitudes; on a grid with equally spaced longitudes and with weights and colatitudes that depend on the row only, rolling the data by k columns multiplies the coefficient of order m by the phase of k grid steps; data and weights that do not vary with longitude have zero coefficients for every order m that is not a multiple of the number of longitudes; data and weights symmetric (antisymmetric) about the equator have zero coefficients for odd (even) n+m. Given a grid with exact quadrature up to degree N, the weighted sum of squares of a recomposed field equals total weight/(4 pi) times the sum of squared coefficient magnitudes, those with m>0 counting half.",
 "Every grid, data, weights, angle, number of columns, degree and order; every admissible coefficient list (Parseval); both scipy interfaces.",
 "Tests compare coefficients of one or two fields on one grid.",
 [f"{SP}:decomposition", f"{SP}:recomposition"])

p("C145","month_to_season and calendar_average(freq='season') give the same seasonal means",
 "For a complete monthly record of whole calendar years, the value month_to_season gives for DJF, MAM, JJA or SON of a year equals the value calendar_average(freq='season') gives for that season.",
 "Every such record, calendar and number of cells.",
 "Needs arbitrary values and calendars; one function averages months equally, the other weights them with their lengths.",
 [f"{C}:month_to_season", f"{C}:calendar_average"])

p("C146","The seasonal climatology is the mean over the years of the seasonal averages",
 "The climatology climatology_average(freq='season') gives for a meteorological season equals the mean, over the years, of the averages calendar_average(freq='season') gives for that season.",
 "Every record both functions accept, every calendar, cell and season.",
 "Quantifies over records with gaps, incomplete seasons and leap years.",
 [f"{C}:climatology_average", f"{C}:calendar_average"])

p("C147","zonal_meridional_psi is linear and monotone in the wind",
 "For winds with values at the same places, the streamfunction of a linear combination is the linear combination of the streamfunctions; under a uniform wind V the streamfunction at a level is 2 pi a cos / g times V times the pressure difference between the top level and the lower boundary of that level's layer (the surface for the lowest); a wind of at most V in magnitude gives at most this magnitude; where cos is not negative a wind that is nowhere southward gives a streamfunction that is nonnegative and nondecreasing downwards.",
 "All numbers of times, latitudes and levels, all increasing pressure levels, all winds (missing values allowed), all positive surface pressures with the surface below the first layer boundary.",
 "Tests compare one dataset with stored NCL output.",
 [f"{M}:zonal_meridional_psi", f"{M}:delta_pressure"])

p("C148","dewtemp and saturation_vapor_pressure agree",
"dewtemp inverts a Clausius-Clapeyron law while saturation_vapor_pressure uses the FAO 56 fit. For air between 273.15 K and 313.15 K, wherever the dew point returned by dewtemp is above freezing, actual_saturation_vapor_pressure at the dew point (turned into Fahrenheit) is at most rh/100 times saturation_vapor_pressure at the air temperature, and at least 94.5 per cent of it.",
"every array of air temperatures in (273.15 K, 313.15 K], every array of relative humidities in (0, 100], every index whose dew point is above freezing, every fill value",
"The two functions use different laws, constants and units; tests compare each with its own reference table and never one with the other.",
[f"{M}:dewtemp", f"{M}:_dewtemp", f"{M}:saturation_vapor_pressure", f"{M}:actual_saturation_vapor_pressure"])

p("C149","The course of the day length through the year",
"The tables of max_daylight have the period 365 days and are symmetric about the June solstice, which falls on day 172; of two days half a year apart one is as long as the night of the other; in the northern hemisphere a day nearer to the June solstice is strictly longer, in the southern strictly shorter.",
"every list of real days, every list of latitudes of at most 66 degrees, every pair of days and every latitude in them",
"Quantifies over all pairs of days and latitudes; tests compare a few days and latitudes with stored values.",
[f"{M}:max_daylight"])

p("C150","EOFs and principal components from separate calls describe one analysis of the data",
"Given the documented behaviour of the eofs solver, whichever axis is time: all calls of eofunc_eofs and eofunc_pcs with the same data and options return parts of one EOF analysis of the centred, weighted series. The patterns are orthonormal; component k at a time is the projection of the field at that time on pattern k; components are uncorrelated with the sums of squares (n - ddof) times the stored eigenvalues, which are non-negative and do not increase; what q modes leave unexplained is (n - ddof) times the stored total variance minus the stored eigenvalues, and with as many modes as grid points the modes add up to the data; no unit pattern explains more than the first; normalised components (scaling 1) with patterns of scaling 2 give the same modes.",
"every array of rank at least two without missing values, every time axis, every number of modes, weights per grid point or none, center on or off, every ddof below the number of times, every solver with the documented behaviour",
"The claims relate results of separate calls, in the layout of the caller's array, for all sizes and axes; tests compare one small matrix with stored numbers.",
[f"{S}:eofunc_eofs", f"{S}:eofunc_pcs", f"{S}:_generate_eofs_solver"])

p("C151", "delta_pressure layers contain their levels and react to the surface pressure only near the surface", "Stacking the layers of a column from the top downwards, each level above the ground lies inside its own layer. Raising the surface pressure leaves every layer that ends above the old surface unchanged, makes none thinner or missing, and thickens none by more than the surface pressure was raised.", "every strictly monotone column, column top and pair of surface pressures (below the first midpoint, see C01)", "Tests check a few columns with one surface pressure each; the statement relates the results of two calls for all surface pressures.", [f"{M}:delta_pressure", f"{M}:_delta_pressure1D"])
p("C152", "gradient of a sampled smooth field is its rate of change per metre", "For values taken from a differentiable field the northward result equals the derivative of the field per metre at a latitude between the neighbouring rows, and the eastward result the derivative per metre at a longitude between the neighbouring columns (rows within 89 degrees of the equator), up to relative errors of 1e-14 from the polynomials and constants used for the ellipsoid.", "all differentiable fields, all rectangular grids with monotone latitudes and longitudes, all points including the edges", "Tests compare with a stored result for one field; the statement is about all differentiable fields and grids.", [f"{G}:gradient", f"{G}:_arc_lat_wgs84", f"{G}:_arc_lon_wgs84"])

p("C153", "the value at a requested level or point does not depend on what else is requested", "Two calls that differ only in the requested pressures (interp_hybrid_to_pressure, with or without extrapolation), hybrid coefficients (interp_sigma_to_hybrid) or latitudes and longitudes (interp_multidim, with or without cyclic) give the same value at every pressure, sigma or point that both request.", "all data, all pairs of requests in increasing or decreasing order, all methods, missing-value codes and chunkings", "The statement compares all pairs of calls; tests make one request per data set.", [f"{I}:interp_hybrid_to_pressure", f"{I}:interp_sigma_to_hybrid", f"{I}:interp_multidim"])

p("C154", "Horizontal interpolation in floating-point arithmetic", "In float64 (without overflow), interp_multidim differs from bilinear interpolation in exact arithmetic by at most 2^-47 times the largest corner value in absolute value (up to underflow); it reproduces a constant field bit for bit, also across the seam of a cyclic grid with longitudes in [0, 360); cyclic=True does not change a bit between the first and the last longitude; method nearest returns, bit for bit, the value of a grid point, and no other row or column is nearer by more than 2^-50 times the largest coordinate.", "all strictly increasing grids, all data and requested points stored in float64 (the bit-for-bit statements in every rounding mode), all missing-value codes", "Rounding errors depend on every operand; tests compare a few points with a tolerance.", [f"{I}:interp_multidim", f"{I}:_pre_interp_multidim"])

p("C155", "The number of EOF modes must be positive", "eofunc_eofs and eofunc_pcs (and eofunc, eofunc_ts) never return a result for zero or a negative number of modes: they raise ValueError whenever the data can be analysed, and the attributes of the input stay as they were. For data that can be analysed they return exactly when the number is positive.", "every data array, axis, scaling, option and number of modes", "The tests ask for a few positive numbers of modes only.", [f"{S}:eofunc_eofs", f"{S}:eofunc_pcs", f"{S}:eofunc", f"{S}:eofunc_ts"])

p("C156", "The streamfunction in floating-point arithmetic", "With every operation of the pressure integral of zonal_meridional_psi rounded (no overflow): listing the levels upwards or downwards gives bit for bit the same values; missing winds and layers below the surface leave the value exactly unchanged; stronger northward winds never give a smaller value and winds that are nowhere southward give values that never decrease downwards (positive factor); opposite winds give exactly opposite values; zero winds give exactly zero; and the result differs from the exact integral by at most 10(n+1) units of 2^-53 of |factor| * largest wind * surface pressure.", "every column of levels and winds stored as floats, every monotone rounding (accuracy and sign symmetry: float64)", "Rounding depends on every bit of the data; a test sees a few columns and compares with a tolerance.", [f"{M}:zonal_meridional_psi", f"{M}:delta_pressure"])

p("C157", "nmse is never negative and exactly 0 for identical fields, in floating-point arithmetic", "With every product, difference, quotient and addition rounded, and the additions in any order, every number returned by nmse is at least 0 (NaN or plus infinity otherwise), for DataArrays and Datasets; and a field compared with itself gives exactly 0 (or NaN), not a remainder of rounding.", "all grids, fields, missing values, weights that are not negative, roundings and orders of summation", "A unit test sees a few fields in one order of summation; rounding could produce a tiny negative or non-zero remainder for others.", [f"{S}:nmse"])
p("C158", "nmse gives no number for observations without spread, in floating-point arithmetic", "If the observations have the same value in every cell, there is nothing to normalise by, and nmse returns NaN or infinity, also when its mean is computed with rounding.", "all constant observed fields, all models, all weights", "Whether the rounded mean of a constant field is the constant depends on the value, the number of cells and the weights; tests use fields that vary.", [f"{S}:nmse"])

p("C159", "Averages and climatologies in floating-point arithmetic",
  "With every operation rounded and sums added up in any order, calendar_average, climatology_average and month_to_season succeed or fail as in exact arithmetic, return the same periods, labels and missing values, and in float64 every number is within 2 (N + M + 2) 2^-53 times the largest absolute value of the exact average (N samples averaged at a time, M months weighted; 12 for calendar_average). Larger data never have a smaller average, if the order of summation does not depend on the values.",
  "all calendars, frequencies, records, missing values, roundings (accuracy: float64) and orders of summation",
  "A unit test compares a few records within a tolerance; the bound and the order statement hold for every record.",
  [f"{C}:calendar_average", f"{C}:climatology_average", f"{C}:month_to_season"])
p("C160", "The average of a constant record is that constant, in floating-point arithmetic",
  "If every value of a record is c, then every average returned is exactly c.",
  "all records of one value, all frequencies",
  "Whether it holds depends on the constant, the number of samples and the numbers of days of the months.",
  [f"{C}:calendar_average", f"{C}:climatology_average", f"{C}:month_to_season"])

p("C161", "Anomalies in floating-point arithmetic",
  "With every operation rounded, climate_anomaly succeeds or fails as in exact arithmetic, with the same time stamps and missing values; in float64 each anomaly has at most one rounding error of its own plus the error of the average it is compared with (bounded as in C159). Where a sample and the average of its day or month are within a factor of two of each other (temperatures in Kelvin, pressures) the anomaly is the exact difference of the two stored numbers and adding the average gives the sample back exactly.",
  "all calendars, frequencies, records, missing values and orders of summation; accuracy: float64, averages found by their own group (C41, C42)",
  "Cancellation makes anomalies the place where rounding shows; tests compare a few records within a tolerance.",
  [f"{C}:climate_anomaly"])

p("C162","Gradient in floating-point arithmetic","With every operation of gradient rounded to double precision (constants, powers, the sums of the two polynomials, cosine, differences, halves and quotients) and a library whose power and cosine are right to two units of rounding, the computed arc lengths are within 7e-8 m (from the equator) and 4e-7 m (from the Greenwich meridian) of the exact polynomial values; where neighbours are at least a metre apart, the result differs from the exact difference quotient by a relative error of at most 8 units of rounding plus 2.1e-7 m (northward) or 1.2e-6 m (eastward) divided by the distance between the neighbours, so nine digits are right if neighbours are 2 km apart; the gradient of a constant field is exactly zero; without rounding the result is the exact one.","every grid of at least 2x2 points with latitudes in [-90,90] and longitudes in [-360,360] spaced by at least a metre, every finite field, numpy arrays and DataArrays, every library within the stated accuracy","the error bound must hold for every grid and field; cancellation between terms of size 1e7 metres limits the accuracy on fine grids in a way tests on coarse grids do not show",[f"{G}:gradient",f"{G}:_arc_lat_wgs84",f"{G}:_arc_lon_wgs84",f"{G}:_rad_lat_wgs84"])

p("C163", "Relative humidity in floating-point arithmetic",
"relhum looks the saturation vapour pressure up in a table after arithmetic in the precision of the temperatures. In half, single and double precision alike, for every temperature (infinite, far out of range or next to a table node), the lookup never leaves the table and the call returns an array of the same shape. No returned number is below the stored 0.0001. The looked-up pressure has relative error at most 1600 units of rounding of the temperatures plus 1e-12. With everything in double precision, non-negative mixing ratio and pressure, the returned humidity is within 3e-12 of 100 w (p + 0.378 e)/(0.622 e), plus 1e-19, of the exact result. Without rounding the computation is that of C46 and C47.",
"all temperatures, mixing ratios and pressures, all array shapes; every rounding that is monotone and accurate to at least half precision",
"whether an index can run past the end of the table or a sum can lose accuracy next to a node depends on the last bit of the input; tests use a few temperatures",
[f"{M}:relhum", f"{M}:_relhum", f"{M}:_xrelhum"])

p("C164", "A cutoff that lies on a frequency bin is recognised as that bin",
"fourier_filter turns cutoff frequencies into bin numbers by two divisions, rounded down or up. A cutoff that is a whole number of cycles over the record should give that bin whatever the rounding of the divisions, so that the documented band is kept.",
"all sample frequencies, record lengths and cutoffs; every floating-point format",
"whether a quotient that is mathematically an integer is computed as that integer depends on the record length; the tests use a few lengths",
[f"{F}:fourier_filter", f"{F}:fourier_high_pass", f"{F}:fourier_low_pass"])
p("C165", "Fourier filters in floating-point arithmetic",
"With the bins computed in floating-point arithmetic, fourier_filter does what exact arithmetic does for cutoff frequencies changed by at most four units of rounding; in particular low-pass, band-pass and high-pass still add up to the signal. If the computed Fourier transforms have relative error eps (in energy), the filtered signal has error at most 2 eps + eps^2 times the signal, whatever the filter; without any flag the signal is returned to that accuracy.",
"all signals, frequencies, cutoffs, flags; every floating-point format; every implementation of the transforms with relative error eps",
"accuracy must hold for every signal and record length, not for the sinusoids used in tests",
[f"{F}:fourier_filter"])

p("C166", "nmse accepts every evenly spaced grid in the precision it is stored in",
"nmse tests the spacing of latitudes and longitudes with np.allclose on the computed differences. Coordinates a, a+d, a+2d, ... that were rounded to the precision of the coordinate variable should pass the test.",
"all evenly spaced 1-D coordinates, every floating-point format",
"whether the rounding of stored coordinates exceeds the relative tolerance 1e-5 depends on format, origin and step; tests use grids with few digits in double precision",
[f"{S}:nmse"])

p("C167","pearson_r of a field with itself is exactly 1 in floating-point arithmetic","In floating-point arithmetic (binary, rounding to nearest, ties to even, any precision) pearson_r of an array with itself returns exactly 1.0 and of an array with its negative exactly -1.0 - not 0.9999999999999998 - with or without weights and missing values and whatever the order of summation, provided two values are far enough apart that the squares do not underflow (2**-200 for float64). Every number returned for arrays lies between -1 and 1 or is NaN. With exact arithmetic the computation is that of C64.","every binary format, order of summation, array with missing values and positive weights; every rounding for the bound","that the rounding errors of the mean, the products, the sums, the square root and the quotient always cancel exactly is a fact about all floating-point data; tests with a tolerance do not even look at it",[f"{S}:pearson_r"])
p("C168","pearson_r(a, b) and pearson_r(b, a) are the same floating-point number","Swapping the two arrays does not change the floating-point number returned by pearson_r. (True without weights; with weights the products are computed as (w * a) * b and the last bit may change.)","every pair of arrays of the same length, every rounding and order of summation","a difference in the last bit occurs for few data and is hidden by test tolerances",[f"{S}:pearson_r"])

p("C169", "No call changes an object the caller already had",
  "Whatever functions of the library a program calls, in whatever order and on whatever objects (results of earlier calls included), and wherever a call raises, every array, attribute dictionary and coordinate mapping that existed before still has the content it had.",
  "every session: every finite sequence of calls of the public functions, every memory, every choice of argument objects (shared or not), every outcome of the numerical operations, every point at which a call raises",
  "in-place statements (x[i] = ..., x.attrs[k] = ..., x -= ...) occur in almost every module; whether one of them reaches the caller's object depends on aliasing along every path, and on which calls were made before",
  [f"{M}:delta_pressure", f"{M}:actual_saturation_vapor_pressure", f"{F}:fourier_filter", f"{I}:interp_sigma_to_hybrid", f"{I}:interp_multidim", f"{C}:climatology_average", f"{C}:month_to_season", f"{S}:eofunc_eofs"])
p("C170", "A call's result does not depend on the calls made before it",
  "What a call returns, including whether it raises, is determined by the contents of its arguments: the same call on the same objects gives the same result at the start of a session and after any other calls.",
  "every session, every function, every choice of argument objects existing at the start, every outcome of the numerical operations",
  "tests make one call on fresh data; hidden state or a changed input shows only in a longer history",
  [f"{S}:eofunc_eofs", f"{C}:climatology_average", f"{C}:climate_anomaly", f"{M}:delta_pressure", f"{F}:fourier_filter"])
p("C171", "A result shares no memory with the arguments",
  "The values, the attributes and the coordinate mapping of a result are new objects, so changing the result later never changes anything the caller passed in.",
  "every function, every memory, every choice of argument objects, every outcome of the numerical operations",
  "an aliased result equals a copied one until somebody writes to it",
  [f"{G}:gradient", f"{F}:fourier_filter", f"{I}:interp_hybrid_to_pressure", f"{S}:eofunc_eofs"])

p("C172", "Computing the blocks leaves the process's warning filters alone",
  "When dask blocks of an interpolation from hybrid levels are computed through dask.array.map_blocks (data in several chunks along the levels, or only the surface pressure chunked), no block prints an out-of-bounds warning, and afterwards the warning filters of the process are those the caller had, whatever the order in which the threads of the scheduler make their steps.",
  "every number of blocks, every initial filter list, every interleaving of the steps of the threads",
  "the filters are one mutable list of the process, saved and restored by each block; whether two blocks overlap, and how, is up to the scheduler and differs from run to run",
  [f"{I}:_vertical_remap", f"{I}:interp_hybrid_to_pressure"])

p("C173", "A long record can be averaged piece by piece",
  "If a record is cut where a period (hour, day, month, season or year; for month_to_season a calendar year) ends, the averages of the whole record are those of the first piece followed by those of the second, the same floating-point numbers under the same labels; in between there can only be rows without any value, for seasons or years in which neither piece has a complete month.",
  "every record, every cut between two periods, every frequency, every calendar, every arithmetic (exact or rounded), every call that returns",
  "the cut can be anywhere and the periods are recomputed from the first and last sample of each piece; tests use one short record",
  [f"{C}:calendar_average", f"{C}:month_to_season", f"{C}:_calculate_center_of_time_bounds"])

p("C174","dewtemp in floating-point arithmetic","For temperatures of 100 to 400 K and humidities of 0.001 to 100 percent the dew points computed in floating-point arithmetic (rounded constants, rounded operations, a library logarithm with an error of at most one unit in the last place) agree with those of exact arithmetic up to 25 units of rounding. They never decrease when the humidity increases, provided the library's logarithm never decreases. They exceed the temperature by at most 2.1 units of rounding - but they can exceed it: saturated air at 251 K has the computed dew point 251.00000000000003 K.","all arrays of temperatures in 100..400 K and humidities in 0.001..100 percent; float32 and float64 and every rounding of relative error at most 1e-6","the error accumulated over the chain of rounded operations has to be bounded for every input; tests compare a few values with a tolerance",[f"{M}:dewtemp", f"{M}:_dewtemp"])

p("C175","Vapour pressure formulas in floating-point arithmetic","saturation_vapor_pressure (and actual_saturation_vapor_pressure) and saturation_vapor_pressure_slope computed in floating-point arithmetic return the fill value exactly for the temperatures for which exact arithmetic does, at most 32 degrees Fahrenheit. Above, up to 212 degrees, they return positive numbers that agree with those of exact arithmetic up to 63 and 75 units of rounding, and psychrometric_constant up to 3.1 units, for a library exponential with an error of at most one unit in the last place. The computed pressure increases with temperature.","all arrays of temperatures and pressures; float32 and float64 and every rounding of relative error at most 1e-6; every library exponential with an error of at most one unit in the last place","rounding errors of seven operations are amplified by the exponential; the bound has to hold for every stored temperature, and the neighbouring numbers for which the pressure decreases are not found by sampling",[f"{M}:saturation_vapor_pressure", f"{M}:actual_saturation_vapor_pressure", f"{M}:saturation_vapor_pressure_slope", f"{M}:psychrometric_constant"])

p("C176", "Cyclic points for integer longitudes", "interp_multidim with cyclic=True gives the same result whether the longitudes of the input are stored as integers or as floating-point numbers: the longitudes padded on both sides are the outer ones shifted by 360 degrees.", "all grids with whole-number longitudes, all numpy integer types, methods, missing and fill values and output points", "signed types agree on every realistic grid; the unsigned ones wrap around at the padded longitude only and differ only west of the first longitude and far east of the last, the 8-bit ones fail always", [f"{I}:interp_multidim", f"{I}:_pre_interp_multidim"])

p("C177", "Relative humidity over ice and water in floating-point arithmetic", "relhum_ice and relhum_water computed in floating-point arithmetic agree with exact arithmetic up to 364 units of rounding (5e-14 of the value in double, 3e-5 in single precision), never decrease when only the mixing ratio grows, and keep their order: below 273 K the humidity over ice is at least that over water, from 273.3 K on it is at most that, for a library exponential with an error of at most one unit in the last place.", "all arrays of temperatures from 180 K to 330 K, mixing ratios and pressures of at least twice the saturation vapour pressure; float32 and float64 and every rounding of relative error at most 2.5e-7; every library exponential with an error of at most one unit in the last place", "the subtraction of 273.15 and the exponential amplify the errors of stored constants; the bound has to hold for every stored triple", [f"{M}:relhum_ice", f"{M}:relhum_water", f"{M}:_relhum_ice", f"{M}:_relhum_water"])

p("C178", "max_daylight in floating-point arithmetic", "In single or double precision, for days 0 to 366 and latitudes between -66 and 66 degrees, the hours of daylight returned by max_daylight are a number between 1 and 23 that differs from the exact formula by at most 5100 units of rounding (about 1.1 s in single precision); the values at opposite latitudes add up to 24 hours within twice that; the warnings are those of the exact function.", "all lists of days in [0, 366] and of latitudes in [-66, 66], every format whose relative error is at most 1e-6, every sine, tangent and arc cosine accurate to two units", "The tangent of the latitude and the arc cosine both amplify rounding errors near 66 degrees; tests compare a few table entries with a tolerance.", [f"{M}:max_daylight"])

p("C179", "Moving a record by whole years moves the averages with it", "If a record is moved by a number of years after which its calendar looks the same (any number of 365- or 360-day years, 4 Julian years, 400 Gregorian years), calendar_average, month_to_season, climatology_average and climate_anomaly return the same values, to the last bit, under labels moved by the same number of years; seasonal climatologies are unchanged.", "all records, all calendars that repeat after the given number of years, all frequencies, any arithmetic (exact or rounded)", "A test uses records of one period; independence from the epoch concerns every record, shift and calendar.", [f"{C}:calendar_average", f"{C}:climatology_average", f"{C}:climate_anomaly", f"{C}:month_to_season"])

p("C180", "heat_index in floating-point arithmetic",
  "With every operation rounded, heat_index raises the same exceptions, gives the same warning and the same type and shape as in exact arithmetic. Below 40 F it returns the temperature to the last bit. For humidities from 0 to 100 % and temperatures up to 130 F the computed simple heat index is within 590 units of roundoff of the exact one, and the result is within 90000 units (0.0054 F in single, 1e-11 F in double precision) of the exact heat index, except where the exact simple index is within 590 units of the threshold; there the result is within that bound of one of the two formulas.",
  "all array shapes, all representable temperatures and humidities in these ranges, both coefficient sets, every rounding mode of an IEEE format with unit roundoff at most 1e-6",
  "The regression cancels terms of several thousand degrees, and the choice between two formulas that do not meet depends on a rounded value; tests compare a few points with a tolerance.",
  [f"{M}:heat_index", f"{M}:_nws_eqn"])

p("C181", "Extrapolation below ground in floating-point arithmetic",
  "With every operation rounded to single or double precision, extrapolation below ground gives finite temperatures and heights close to the exact ECMWF formulas even where a rounding error makes the code take another branch: temperatures are within 210000 unit roundoffs (in kelvin; 2.4e-11 K in double precision, 0.0126 K in single) and within 3500 unit roundoffs below 1999 m; heights over ground at least 10 m above sea level are within 221000 + 2.04e9/phi unit roundoffs (in metres), and at or below sea level within 219000 unit roundoffs except where the temperature reduced to sea level is within 1600 unit roundoffs of 290.5 K, where the formula itself jumps. At the surface pressure the results are exactly the computed surface temperature and the computed height of the ground.",
  "all temperatures of the lowest level up to 340 K, all surface pressures between 0.9 and 1.2 times the pressure of that level, all target pressures between half and twice the surface pressure, all surface geopotentials up to 60000 m2/s2 in size, every rounding, logarithm and third power of the stated accuracy",
  "The formulas have seven thresholds (2000 m, 2500 m, 298 K, 290.5 K, 255 K, the sign of the correction); a rounding error can move a point across any of them, and tests on one field do not reach the points next to the thresholds.",
  [f"{I}:_temp_extrapolate", f"{I}:_geo_height_extrapolate", f"{I}:interp_hybrid_to_pressure"])

p("C182", "nmse and pearson_r describe the same error",
  "For two fields on one grid, nmse splits into what the correlation explains: with r = pearson_r of the flattened fields with weights cos(latitude), nmse = (1 - r^2) + (r - ratio of the standard deviations)^2 + (difference of the means / observed standard deviation)^2. So nmse is never below 1 - r^2, an nmse below 1 guarantees a correlation of at least sqrt(1 - nmse), no linear correction k*modeled + c of the modeled field brings nmse below 1 - r^2, and the regression line reaches it. Where the modeled field has no spread pearson_r is NaN and nmse is 1 + (bias/observed standard deviation)^2.",
  "all pairs of fields, any missing cells, any grid of latitudes between the poles (poles included) on which nmse gives a number; all linear corrections",
  "The two functions are written independently (one through xarray weighted means and a mask, the other through numpy flattening or xskillscore); that they agree on weights, on missing cells and on normalisation for every field is an algebraic identity, not a table of values.",
  [f"{S}:nmse", f"{S}:pearson_r"])

p("C183", "How accurate pearson_r is in floating-point arithmetic",
  "When every operation rounds, pearson_r returns the correlation coefficient up to a few units in the last place for each addition a value goes through, plus a second-order term which grows with the square of the ratio of the size of the data to its standard deviation. The size of the means therefore costs accuracy only in the square of the rounding unit: temperatures in kelvin need not be centred first. The bounds hold whatever the order of the additions, with or without weights and missing values, and are spelled out for double precision (up to a million values in any order: 3.4e-10 + 2e-19 times the squared ratios) and for single precision with pairwise summation (9e-6 + 1.1e-10 times the squared ratios).",
  "all weights, all pairs of series with any pattern of missing values, all sizes and means of the data, both settings of skipna, all orders of summation, all rounding functions of a given precision",
  "tests compare with a tolerance on a few fixed series; an error bound concerns every series, every order of summation and every rounding",
  [f"{S}:pearson_r"])

p("C184", "How accurate nmse is in floating-point arithmetic",
  "When every operation rounds, the number nmse returns is the normalised mean squared error of the cells in which both fields have a value, up to a relative error of a few units in the last place for each addition a value goes through, plus a second-order term with the square of the ratio of the size of the observations to their standard deviation. The bound holds whatever the order of the additions and whatever the missing cells, and is spelled out for double precision (up to a million cells: 3e-10 + 1.4e-19 times the squared ratio) and single precision with pairwise summation. Weights that differ from cos(latitude) by a relative error change the result by at most 9/4 of that relative error.",
  "all grids, fields and missing cells that nmse accepts with observations that are not constant, all orders of summation, all rounding functions of a given precision, all weights between 0 and 1",
  "tests compare with a tolerance on a few fixed fields; an error bound concerns every field, every order of summation and every rounding",
  [f"{S}:nmse"])

p("C185", "Values that belong together are recognised by their labels",
  "When data, surface pressure and hybrid coefficients are labelled arrays, interp_hybrid_to_pressure and interp_sigma_to_hybrid combine the values that carry the same labels: the column at a labelled point is interpolated with the surface pressure of that labelled point, and each level with the coefficients of the level of that label. Arrays whose labels cannot be matched are an error.",
  "all labelled arrays with any coordinate labels in any order, any number of dimensions and levels, linear and log interpolation, with and without extrapolation",
  "test data come from one file, so every array lists its points in the same order; a file with latitudes from north to south combined with one from south to north gives plausible but wrong numbers and no error",
  [f"{I}:interp_hybrid_to_pressure", f"{I}:interp_sigma_to_hybrid", f"{I}:pressure_at_hybrid_levels", f"{I}:_vertical_remap_extrap"])

p("C186", "Humidity functions and DataArrays whose labels differ",
  "Temperature, humidity, mixing ratio and pressure may carry labels (latitudes, times, ...) that differ or stand in different orders. dewtemp and relhum return a value at exactly the labelled points all arguments have in common, computed from the arguments at that point, whatever the order of the labels. heat_index raises an error unless the labels agree. relhum_ice and relhum_water do the same as relhum if the mixing ratio carries the labels of the temperature in the same order; otherwise the values come out in the label order of the mixing ratio but are labelled like the temperature.",
  "all labelled arrays with any number of named dimensions, sizes and real labels without repetition; all values including NaN and infinities",
  "tests use one fixed grid shared by all arguments; only a statement about all label lists shows which function pairs by label and which by position",
  [f"{M}:dewtemp", f"{M}:relhum", f"{M}:relhum_ice", f"{M}:relhum_water", f"{M}:heat_index"])

p("C187", "nmse of fields with times, levels or ensemble members",
  "For DataArrays with dimensions besides those of latitude and longitude, nmse returns one value for every index of the remaining dimensions, and each is what nmse returns for the two fields over latitude and longitude at that index: no other slice, and no value missing in another slice, has any influence. Along a dimension only one of the fields has, the other field is compared with every slice. The order of the dimensions plays no role. If two fields share a dimension whose labels differ, or stand in another order, the call is rejected; the result keeps the labels of its dimensions.",
  "all DataArrays with any named dimensions, sizes, labels and missing values; one- and two-dimensional latitude and longitude coordinates",
  "tests use one or two fixed fields; independence of slices and of dimension order is a statement about all shapes, masks and label lists",
  [f"{S}:nmse"])

p("C188", "Labels of bottom temperature, surface pressure and surface geopotential in extrapolation",
  "interp_hybrid_to_pressure with extrapolate=True for temperature or geopotential, on DataArrays with coordinate labels: if the call succeeds the result keeps every label of the interpolated field, and at each labelled point the value is the interpolated one where the requested pressure is at most the pressure of the lowest level, and otherwise the ECMWF formula evaluated with the bottom temperature, surface pressure and surface geopotential carrying those same labels. A label of the data missing in t_bot, ps or phi_sfc is an error, not a dropped point or a value from elsewhere; with labels in the same order the call succeeds whenever it does without extrapolation.",
  "all labelled arrays, dimension orders, sizes, level coefficients, requested pressures and values including NaN and infinities; for the values, all interpolation methods",
  "Unit tests use arrays with identical coordinates; a pairing by position or a silent inner join only shows when labels differ.",
  [f"{I}:interp_hybrid_to_pressure", f"{I}:_vertical_remap_extrap", f"{I}:_temp_extrapolate", f"{I}:_geo_height_extrapolate"])

p("C189", "Labels of data, weights and angles in the spherical harmonic decomposition",
  "decomposition of DataArrays with coordinate labels combines, for every labelled point, the datum, the weight and the angles theta and phi of that same point, whatever order the arrays list the labels in; a label of the data that the weights lack is an error.",
  "all labelled 2-D data, weights and angles, all orders of their labels and of the dimensions of the weights, all max_harm, both scipy versions",
  "Unit tests pass arrays with identical or no coordinates; a pairing by position needs arrays that list the same labels differently.",
  [f"{SP}:decomposition"])

p("C190", "pearson_r along an axis is pearson_r of each series", "For two N-D arrays of the same shape and any of their axes, positive or negative, pearson_r(axis=axis) has the shape of the other axes, and its value at each position is what the function returns for the two series along the axis at that position: the weighted correlation of the pairs in which both have a value (NaN if either is constant there), whatever is missing at other positions. Weights may be given for the samples along the axis or for every element. (Violated for weights given for the samples: for any axis but the first nothing is returned, and for a square array and the first axis the weights are silently spread over the other axis.)", "every shape, axis, pattern of missing values and choice of positive weights", "tests use 2-D arrays of one shape; missing values at one position must not affect another", [f"{S}:pearson_r"])

p("C191", "delta_pressure of levels stored as integers", "delta_pressure gives the same layer thicknesses whether the pressure levels are stored as integers or as floating-point numbers, whatever the integer type and the order of the levels. (True when the sum of any two levels is a number of the type, which covers all 32 and 64 bit types; violated otherwise: levels up to 500 hPa given in pascals as 16 bit unsigned integers overflow when neighbouring levels are added, and the layers get negative thicknesses without an error.)", "every signed or unsigned integer type, every list of levels, surface pressure and top", "tests use floats or 64 bit integers; overflow depends on type and values", [f"{M}:delta_pressure", f"{M}:_delta_pressure1D"])

p("C192", "Interpolating across the last and first longitude in floating-point arithmetic",
  "With cyclic=True, for any distinct longitudes that span less than 360 degrees (0..360, -180..180 or others), every longitude in the gap between the last and the first one gets a number wherever the surrounding values are numbers, and that number is bilinear interpolation across the gap up to rounding errors.",
  "all float64 grids with longitudes between -360 and 360, all gaps, all requested longitudes in the gap on either side, ends included, all values",
  "The added longitudes are computed with rounding; whether they stay apart from the neighbouring ones depends on the digits of the first and last longitude.",
  [f"{I}:interp_multidim", f"{I}:_pre_interp_multidim"])

p("C193", "Labels of the grid in spherical harmonic recomposition", "recomposition of labelled theta and phi gives, at the point with given labels, the field at the longitude and the colatitude which theta and phi hold for these labels, and the result carries the labels of theta. (The code goes by position and returns no labels: the claim about values holds when theta and phi list the labels in the same order; a phi listing the same latitudes in another order gives values of the wrong points without an error.)", "all grids, labels, orders of the labels, coefficient lists and truncations, both versions of the scipy function", "tests pass theta and phi built by one meshgrid call, without labels", [f"{SP}:recomposition"])

p("C194", "From sigma levels to pressure levels in two steps", "data on sigma levels can be taken to hybrid levels by interp_sigma_to_hybrid and the result to pressures by interp_hybrid_to_pressure with the same coefficients: a profile linear in sigma (method 'linear') or in log sigma ('log') then has at pressure p its value at sigma = p / ps, and any column's result stays between the smallest and the largest of its values. (The first call names the level dimension of its result hlev; with coefficients along a dimension of any other name, such as lev, the second call raises ValueError.)", "all grids, columns, coefficients, surface pressures and requested pressures within the levels, both methods", "each function is tested alone, on one file; that one call's output is the other's input is not tested", [f"{I}:interp_sigma_to_hybrid", f"{I}:interp_hybrid_to_pressure"])

p("C195", "Humidity computed by relhum as an argument of dewtemp and heat_index", "what relhum returns can be passed on: of air that is nowhere supersaturated, dewtemp gives a positive dew point not above the temperature, equal to it exactly where relhum gives 100 %, and higher for moister air; heat_index accepts the humidities exactly if the air is nowhere supersaturated, and otherwise raises ValueError for the whole array.", "all arrays of temperatures, mixing ratios and pressures (numbers), numpy and xarray, both coefficient sets", "each function is tested alone, with humidities typed in by hand; relhum has no upper bound and heat_index has one", [f"{M}:relhum", f"{M}:dewtemp", f"{M}:heat_index"])

p("C196", "interp_multidim by way of a finer grid", "interpolating a field without missing values to a grid that contains all its latitudes and longitudes (and goes no further), and from there to any points, gives the same as interpolating to these points directly; in particular going to the finer grid and back gives the data.", "all grids, refinements of both axes, requested points within the grid, fields of numbers and any leading dimensions", "the refinement, its irregular spacing and the points are arbitrary; a test compares a few numbers on one grid", [f"{I}:interp_multidim"])

p("C197", "Averages in time and interpolation in space can be done in either order",
"For gridded data without missing values, interpolating every time step with interp_multidim to points within the grid and then calling calendar_average, climatology_average, climate_anomaly or month_to_season gives the same as calling that function first and interpolating its result: the same errors, the same times and the same values. With a missing value this fails: the two orders give different means.",
"all grids with increasing latitudes and longitudes, all values, all output points within the grid, all time axes, calendars, frequencies and seasons",
"Users choose the order by convenience or size; that both orders agree for every grid, time axis and frequency cannot be sampled",
[f"{I}:interp_multidim", f"{C}:calendar_average", f"{C}:climatology_average", f"{C}:climate_anomaly", f"{C}:month_to_season"])

p("C198", "Averages in time and interpolation to pressure levels can be done in either order if the surface pressure is steady",
"For data on hybrid levels without missing values, a surface pressure that does not change in time and requested pressures within the columns, interp_hybrid_to_pressure followed by calendar_average, climatology_average, climate_anomaly or month_to_season gives the same as that function followed by interp_hybrid_to_pressure with the same surface pressure: the same errors, the same times and the same values.",
"all grids, level coefficients, methods, requested pressures within the columns, values, time axes, calendars, frequencies and seasons",
"Users choose the order by convenience or size; that both orders agree for every column, time axis and frequency cannot be sampled",
[f"{I}:interp_hybrid_to_pressure", f"{C}:calendar_average", f"{C}:climatology_average", f"{C}:climate_anomaly", f"{C}:month_to_season"])

p("C199", "Averages in time and the gradient can be taken in either order",
"For data on a latitude-longitude grid without missing values, gradient of every time step followed by calendar_average, climatology_average, climate_anomaly or month_to_season gives the same as that function followed by gradient: the same errors, the same times and, at every grid point including the edges, the same two components.",
"all fields, time axes, calendars, frequencies and seasons, and all grids of at least 2 by 2 points whose neighbours have different arc lengths",
"Users compute gradients of climatologies and climatologies of gradients interchangeably; that both agree for every grid, time axis and frequency, edges included, cannot be sampled",
[f"{G}:gradient", f"{C}:calendar_average", f"{C}:climatology_average", f"{C}:climate_anomaly", f"{C}:month_to_season"])

p("C200", "Averages in time and the meridional streamfunction can be taken in either order if the surface pressure is steady",
"For winds without missing values over a surface pressure that does not change in time, zonal_meridional_psi at every time step followed by calendar_average, climatology_average, climate_anomaly or month_to_season gives the same as that function applied to the wind followed by zonal_meridional_psi with the same surface pressure: the same errors, the same times and the same values at every latitude and level.",
"all winds, level sets (also partly below the ground), latitudes, surface pressures below the second half level, time axes, calendars, frequencies and seasons",
"A mean streamfunction is usually computed from a mean wind; that this is exact for every column and every way of averaging, also where the ground cuts levels off, cannot be sampled",
[f"{M}:zonal_meridional_psi", f"{C}:calendar_average", f"{C}:climatology_average", f"{C}:climate_anomaly", f"{C}:month_to_season"])

p("C201", "delta_pressure and delta_pressure_hybrid describe the same layers",
"For pressure levels ordered from the top down, the thicknesses from delta_pressure are those from delta_pressure_hybrid when its coefficients describe the interfaces of the same layers (the top, the midpoints between neighbouring levels as pure pressures, and the surface): at every point of the surface pressure, in exactly those layers that end above the ground and in the lowest layer where it begins above the ground; in particular everywhere if the lowest midpoint is above the ground.",
"all level sets of at least two levels, pressures of the top (given or the first level), reference pressures and surface pressures below the first midpoint",
"Two independent implementations of one quantity must agree for every set of levels and every surface pressure, and where they may differ has to be stated exactly",
[f"{M}:delta_pressure", f"{I}:delta_pressure_hybrid", f"{M}:_delta_pressure1D"])

p("C202", "Hybrid pressures and layers of an averaged surface pressure are the averaged pressures and layers",
"pressure_at_hybrid_levels of the calendar_average, climatology_average (by hour, day or month) or month_to_season of a surface pressure without missing values is that average of the pressures of the single times, with the same errors and times; delta_pressure_hybrid likewise, provided the pressures increase from level to level at all times. Without that condition it is false.",
"all hybrid coefficients, reference pressures, surface pressures, grids, time axes, calendars, frequencies and seasons",
"Model output often holds only averaged surface pressures; that the pressures and layer thicknesses rebuilt from them are the averaged ones is a statement about all records and coefficients",
[f"{I}:pressure_at_hybrid_levels", f"{I}:delta_pressure_hybrid", f"{C}:calendar_average", f"{C}:climatology_average", f"{C}:month_to_season"])

p("C203", "zonal_meridional_psi follows the units of its inputs", "If the pressure levels and surface pressures are given in another unit (multiplied by the same positive number), every value of the streamfunction is multiplied by that number; if the wind is multiplied by any number other than zero (another unit, or the opposite direction), so is every value; the values at opposite latitudes are the same. The call fails on the converted input exactly when it fails on the original, with the same error.", "all inputs: any numbers of times, latitudes and levels, levels in any order, missing and infinite values, inputs that are rejected", "Tests compare one dataset with stored results; a threshold or constant tied to one unit would only show for other units.", [f"{M}:zonal_meridional_psi", f"{M}:delta_pressure"])

p("C204", "Filtering in time and interpolation in space can be done in either order", "For complete data on a latitude-longitude grid, applying fourier_filter along any other dimension and then interp_multidim gives, wherever the interpolation is defined, the same values as interp_multidim first and fourier_filter then; with either method, with extrapolation or the default fill value. Within the grid, or with extrapolation, it is defined everywhere.", "all filters with nonnegative cutoffs, all leading shapes, time axes, grids, target points and data without gaps", "A law between two functions over all records, grids, filters and target points.", [f"{F}:fourier_filter", f"{I}:interp_multidim"])

p("C205", "Filtering in time and the gradient can be taken in either order", "For complete data on a grid whose neighbouring points are distinct, the gradient of every field of the data filtered with fourier_filter along any other dimension has as its components the filtered components of the gradients of the original fields.", "all filters with nonnegative cutoffs, all leading shapes, time axes, grids of at least two by two points and data without gaps", "A law between two functions over all records, grids and filters.", [f"{F}:fourier_filter", f"{G}:gradient"])

p("C206", "Hybrid pressures and layers follow the unit of pressure and rise with the surface pressure", "If the reference and surface pressures are given in another unit, all level pressures and layer thicknesses are in that unit. Where the surface pressure is higher, the pressure of a level with nonnegative hyb is not lower; it changes by hyb times the change. Where pressures grow downwards, a layer's thickness changes by the difference of hyb across it times the change of the surface pressure, and the whole column by hyb[-1] - hyb[0] times that change.", "all coefficient arrays of one length, surface pressure grids and reference pressures", "Relations between calls for every set of coefficients and every pair of surface pressures.", [f"{I}:pressure_at_hybrid_levels", f"{I}:delta_pressure_hybrid"])

p("C207", "Filtering in time and the meridional streamfunction can be taken in either order if the surface pressure is steady", "If the zonal-mean surface pressure does not change in time, the streamfunction computed by zonal_meridional_psi from the zonal-mean wind filtered in time with fourier_filter is the filtered streamfunction of the original wind, at every latitude and level.", "all filters with nonnegative cutoffs, numbers of times and latitudes, increasing pressure levels, positive surface pressures below the first layer boundary and winds without gaps", "A law between two functions over all records, level sets and filters.", [f"{F}:fourier_filter", f"{M}:zonal_meridional_psi"])

p("C208", "Filtering in time and removing the seasonal cycle in either order", "If a record without gaps is a whole number of cycles (every P samples the same calendar days, or months, come back), then climate_anomaly (freq 'day' or 'month') of the fourier_filter-ed record equals the fourier_filter of its climate_anomaly, at every time and in every cell; the call fails for the filtered record exactly as for the record. Monthly records of whole years, starting in any month of any calendar, are such records.", "every filter (low, high, band pass, band block; any cutoffs and frequency), calendar, number of samples and cells, and real values", "Tests filter one record or take one anomaly; the order of the two operations for every record, filter and calendar needs the shift invariance of the filter and the group structure of the climatology.", [f"{C}:climate_anomaly", f"{F}:fourier_filter"])

p("C209", "Filtering in time and vertical interpolation in either order if the surface pressure is steady", "If the surface pressure does not change in time and the data have no gaps, interp_hybrid_to_pressure (without extrapolation) and interp_sigma_to_hybrid of the fourier_filter-ed data give the fourier_filter of the interpolated data, at every grid point and at every requested level within the column; outside the column both are missing at all times.", "every filter, number of times, grid, set of model levels and requested levels (linear and log), and real data", "Tests interpolate single snapshots and filter single series; that the two commute for every column, bracket and filter is a statement about all of them.", [f"{I}:interp_hybrid_to_pressure", f"{I}:interp_sigma_to_hybrid", f"{F}:fourier_filter"])

p("C210", "Filtering in time and spherical harmonics in either order", "The harmonic coefficients (decomposition) of a field filtered in time with fourier_filter are the filtered coefficients (real and imaginary parts filtered), and recomposition of filtered coefficients is the filtered recomposition, at every time, grid point and harmonic.", "every filter, number of times, grid, weights, angles, truncation, old or new scipy, and real fields or complex coefficients", "Tests decompose single fields; the statement is about every sequence of fields and every filter.", [f"{SP}:decomposition", f"{SP}:recomposition", f"{F}:fourier_filter"])

p("C211", "Seasonal means of monthly anomalies are the anomalies of the seasonal means", "For a record of whole years of monthly values and a season that the record's start does not cut, month_to_season of the monthly anomalies (climate_anomaly, freq 'month') gives, for each year, the seasonal mean of that year minus the average of the seasonal means over all years, with the same time stamps, in every cell without gaps. For seasons over the turn of the year it does not hold, because the first one is cut off.", "every calendar, start month, number of years, season inside the year and record", "Tests compute one anomaly or one seasonal mean of one record; the relation between the two calls for all records needs an argument about sums over years and months.", [f"{C}:climate_anomaly", f"{C}:month_to_season"])

p("C212", "Averages in time and spherical harmonics can be taken in either order",
"For fields without missing values, decomposition of every time step followed by an average in time (calendar_average, climatology_average, climate_anomaly or month_to_season, of the real and the imaginary parts of the coefficients) gives the coefficients that decomposition gives for the averaged fields, and recomposition of every time step followed by the average gives the field that recomposition gives for the averaged coefficients: the same errors, the same times and the same values, missing exactly where the average is missing.",
"all grids, weights, angles, truncations and containers, all fields and coefficients, time axes, calendars, frequencies and seasons",
"Users compute spectra of climatologies and climatologies of spectra interchangeably; that both agree for every grid, weight, truncation and time axis cannot be sampled",
[f"{SP}:decomposition", f"{SP}:recomposition", f"{C}:calendar_average", f"{C}:climatology_average", f"{C}:climate_anomaly", f"{C}:month_to_season"])

p("C213", "Saturation vapour pressure and averages in time",
"For temperatures above freezing (and below 3200F) saturation_vapor_pressure of an averaged temperature is never larger than the average of saturation_vapor_pressure, for calendar_average, climatology_average and month_to_season, and it is strictly smaller for the mean of two different temperatures; saturation_vapor_pressure_slope is positive and strictly increasing with temperature.",
"all records of temperatures between 32F and 3200F with or without gaps, all calendars, frequencies and seasons",
"An inequality over all records and weights: a convexity statement over a continuum",
[f"{M}:saturation_vapor_pressure", f"{M}:saturation_vapor_pressure_slope", f"{C}:calendar_average", f"{C}:climatology_average", f"{C}:month_to_season"])

p("C214", "EOFs of data in other units, and how far EOFs are determined by the data",
"If data without missing values are multiplied by a constant (and, with center=True, any field constant in time is added), eofunc_eofs stores variances multiplied by the square of the constant and the same variance fractions; every pattern whose variance differs from that of its neighbours is the same up to its sign, and eofunc_pcs returns its time series multiplied by the constant and that sign. The same holds, with constant 1, between any two implementations of the documented EOF solver.",
"all arrays, time axes, weights, degrees of freedom, numbers of modes, factors and added fields, and all solvers that do what the eofs documentation says",
"A uniqueness statement about every decomposition of every data set (it rests on the min-max characterisation of eigenvalues)",
[f"{S}:eofunc_eofs", f"{S}:eofunc_pcs"])

p("C215", "EOFs do not depend on how samples and grid points are arranged",
"For data without missing values, putting the times in another order, moving time to another axis (with time_dim), or putting the grid points in another order or on a grid of another shape (together with their weights) does not change the variances, total variance and variance fractions that eofunc_eofs stores; every pattern whose variance differs from that of its neighbours is the same up to its sign, rearranged like the grid points, and eofunc_pcs returns the same time series up to that sign, rearranged like the times.",
"all arrays, permutations of the times, bijections between grids, time axes, weights, numbers of modes, and all solvers that do what the eofs documentation says",
"All permutations and reshapings of all data sets cannot be sampled; the statement needs the uniqueness of the analysis",
[f"{S}:eofunc_eofs", f"{S}:eofunc_pcs"])

p("C216", "nmse of the mean of several model fields",
"If nmse gives a number for each of several model fields that are missing in the same cells, it gives a number for their mean (weighted with any non-negative weights that add up to 1), and that number is at most the mean of the numbers, weighted alike.",
"all observed fields and all finite families of model fields on evenly spaced grids with latitudes within 90 degrees, all weights",
"An inequality over all fields, grids, patterns of missing cells and numbers of members",
[f"{S}:nmse"])

p("C217", "pearson_r depends only on the weight each pair of values has",
  "Two calls of pearson_r in which every pair of values has the same total weight give the same result. So the order of the samples does not matter, nor do extra samples with a missing value when skipna is set, nor whether a pair comes once with its weight or several times with parts of it. In particular, with whole-number weights the weighted result is the unweighted result of the samples with each pair repeated as often as its weight says.",
  "all non-empty samples of any length with or without missing values, all positive weights or none, and all other samples with the same total weight for each pair",
  "A test compares a few samples with a reference value. That the result is a function of the weight of each pair alone is a statement about all samples, all orders and all ways of repeating pairs.",
  [f"{S}:pearson_r"])

p("C218", "nmse does not depend on the order in which the cells are stored",
  "Two successful calls of nmse whose cells (distance from the equator, observed value, modeled value) are the same in some order give the same value, missing cells included. In particular, for a rectangular grid with exactly equal latitude steps, a call that succeeds still succeeds and gives the same value after the latitude axis of both fields is turned from south-north to north-south.",
  "all grids of any size, all fields with or without missing cells, all orders of the cells",
  "A test compares one grid with one reordered copy. That no order of storage matters is a statement about all grids and all rearrangements.",
  [f"{S}:nmse"])

p("C219", "The correlations of three series fit together",
  "If three series have their missing values at the same places, the three results of pearson_r with the same weights satisfy (r_ac - r_ab * r_bc)^2 <= (1 - r_ab^2) * (1 - r_bc^2). So a table of correlations made with pearson_r is a possible correlation table, and series that are perfectly correlated have the same correlation with every third one. If the missing values differ this can fail: three series can have the coefficients 1, 1 and -1.",
  "all triples of series of any length with values missing at the same places, all positive weights or none",
  "A test checks single coefficients against reference values. The relation links three calls on arbitrary data.",
  [f"{S}:pearson_r"])

p("C220", "Small changes of the model change nmse by small amounts",
  "If two model fields have values in the same cells and differ by at most eps in each of them, and nmse gives a number for both, then the square roots of the two numbers differ by at most eps divided by the (area weighted) standard deviation of the observations.",
  "all grids with latitudes from -90 to 90, all observed fields, all pairs of model fields with the same missing cells, all eps >= 0",
  "A test evaluates nmse for a few fields. A bound on the effect of any change is a statement about all pairs of fields.",
  [f"{S}:nmse"])

p("C221", "pearson_r is 1 or -1 only for pairs on a line",
  "If pearson_r gives exactly 1, all pairs of values in which neither is missing lie on one rising straight line; if it gives exactly -1, they lie on one falling line. (That pairs on such a line give 1 or -1 is part of C64.)",
  "all pairs of non-empty series of the same length, with missing values if skipna is set, all positive weights or none",
  "A test can show that points on a line give 1. That nothing else does is a statement about all data.",
  [f"{S}:pearson_r"])

p("C222", "Averages do not amplify errors",
  "If two fields have values at the same times and differ by at most eps at each of them, then their results of calendar_average, climatology_average and month_to_season have values at the same times and differ by at most eps there.",
  "all records in all calendars, all frequencies and seasons, all fields, all eps; seasonal climatologies for the seasons of which the record has a month without gaps",
  "A test averages a few records. A bound for all records, groupings and errors needs a proof.",
  [f"{C}:calendar_average", f"{C}:climatology_average", f"{C}:month_to_season"])

p("C223", "Vertical interpolation does not amplify errors",
  "If two columns have a value at every level and differ by at most eps at each of them, then the values that interp_hybrid_to_pressure (without extrapolation) and interp_sigma_to_hybrid return at a requested level inside the column exist and differ by at most eps.",
  "all columns without missing values at a grid point, all eps, both methods, all chunkings and dimension orders, all requested levels inside the column",
  "A test interpolates a few columns. A bound for all data, levels and errors needs a proof.",
  [f"{I}:interp_hybrid_to_pressure", f"{I}:interp_sigma_to_hybrid"])

p("C224", "Horizontal interpolation does not amplify errors",
  "If two DataArrays on one grid are missing at the same points and differ by at most eps everywhere else, then the results of interp_multidim are missing at the same places and differ by at most eps everywhere else.",
  "all grids with increasing coordinates, all data of numbers and NaN, all eps, both methods, with and without cyclic=True, all requested locations, default fill value (with fill_value='extrapolate' it is false)",
  "A test interpolates a few fields. A bound for all data, locations and errors needs a proof.",
  [f"{I}:interp_multidim"])

p("C225", "Errors of the data in the gradient and the streamfunction",
  "If two fields differ by at most eps at every point, their gradients differ by at most 2*eps divided by the distance of the two neighbours between which the difference is taken, and this bound is attained. If two winds are missing at the same places and differ by at most eps elsewhere, their results of zonal_meridional_psi differ at every level by at most eps times the absolute value of the factor of the code (2*pi*a*cos(lat)/g) times the pressure difference between the top level and the lower boundary of the level's layer.",
  "all grids of at least 2 by 2 points on which neighbours do not coincide, all finite fields, all eps; all columns of at least two increasing levels with the surface below the first layer, all winds with or without missing values",
  "A test computes a few fields. A bound for all data, grids and errors needs a proof.",
  [f"{G}:gradient", f"{M}:zonal_meridional_psi"])

p("C226", "Errors of the data after Fourier filters",
  "Filtering does not increase the sum of the squared differences of two records. If two records of n samples differ by at most eps at every time, the filtered records differ by at most sqrt(n)*eps (not always by at most eps). The scalar product of a filtered record with another record is the same whichever of the two is filtered, and the same if both are.",
  "all records, all combinations of filter flags, all positive frequencies and cutoffs that are not negative",
  "A test filters a few records. Inequalities for all records, filters and errors need a proof.",
  [f"{F}:fourier_filter", f"{F}:fourier_high_pass"])

p("C227", "Correlations of filtered records",
  "Let one record be filtered. pearson_r of it with an unfiltered second record has the same sign as pearson_r of it with the second record filtered in the same way (or one of them is 0), and is not larger in size, wherever both are numbers.",
  "all pairs of records of equal length without missing values, all combinations of filter flags, all positive frequencies and cutoffs that are not negative, no weights",
  "A test filters a few records. A comparison for all records and filters needs a proof.",
  [f"{F}:fourier_filter", f"{S}:pearson_r"])

here = os.path.dirname(os.path.abspath(__file__))
with open(os.path.join(here, "..", "properties.jsonl"), "w") as f:
    for q in P:
        f.write(json.dumps(q, ensure_ascii=False) + "\n")
print(len(P))
