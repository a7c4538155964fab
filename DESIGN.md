# Formal model of NCAR/geocat-comp in Lean 4: design

Source modelled: `/repo/geocat/comp/*.py` at the pinned commit. The Lean project is `/verif/lean`.
Properties are listed in `properties.jsonl`; `MANIFEST.json` says which theorem carries which property.

## 1. How the code is modelled

* **Shallow embedding.** Each Python function is a total Lean function mirroring it branch by branch.
  Every model definition cites file and lines. Exceptions are values: `Except PyErr α`.
* **Numbers.** Algebraic code is generic over a linearly ordered field `K` (instances ℚ for witnesses and
  examples, ℝ for theorems that need `exp`, `log`, `cos`). Floating-point *rounding* is modelled
  for C128–C131, C154, C156–C168, C174, C175, C177, C178, C180, C181, C183 and C184 only (`Basic/Rounding`, `Model/Floats*`: every operation rounded, no overflow); *signed zero* is not modelled. NaN and infinities **are** modelled where the code relies on them: `XF K` has
  `fin x | pinf | ninf | nan` with the IEEE rules for `+ - * /`, comparisons (false on NaN) and `where`.
* **Arrays.** 1-D arrays are `List`. N-D arrays are a shape plus row-major flat data where
  `ravel`/`reshape`/broadcasting matter; functions on index tuples where only pointwise behaviour matters.
  Python indexing and slicing (negative indices, clamping) are modelled by `Py.idx`, `Py.slice`.
* **Dynamic types.** Where the code branches on `isinstance`/`type(...)`, the model has an explicit tag
  argument (`Kind`), so decision tables are theorems over all combinations.
* **Third-party calls** are modelled by their documented behaviour (see trusted base).

Layout: `Verif/Basic` (numbers, Python lists), `Verif/Model` (code), `Verif/Spec` (independent
specifications, no import of the model), `Verif/Lemmas`, `Verif/Props` (one file per property group; every
property theorem has a non-vacuity `example` beside it).

When the code violates a listed property we prove the negation with a concrete witness
(`..._counterexample`), and keep the strongest true weakening under the suffix `_partial`.

## 2. Trusted base

**Lean.** The Lean 4.33.0 kernel. No axiom is added. `#print axioms` on all theorems listed in `MANIFEST.json`
reports only subsets of `propext`, `Classical.choice`, `Quot.sound` (a few theorems need none). No `sorry`, no `native_decide`,
no `bv_decide`; finite tables and rational witnesses use `decide`/`decide +kernel`, which the kernel evaluates.

**Faithfulness of the model.** The definitions in `Verif/Model` are written by hand from the Python text. Each cites its lines. The code cannot be run
here, but the repository's own unit tests contain expected numbers. As a check outside the proofs, the model was evaluated on them: the climatology
model (over ℚ, in Lean) reproduces all literal expectations of `test/test_climatologies.py`, and a floating-point transcription of the definitions of
`dewtemp`, `heat_index`, `relhum`, `relhum_ice`, `relhum_water`, the vapor pressure functions, `psychrometric_constant` and `max_daylight` agrees
with the expectations of `test/test_meteorology.py` to the tolerances used there.
`Verif/Check/UnitTests.lean` keeps the cheap ones of these (`delta_pressure`, `month_to_season`, monthly `calendar_average` and `climatology_average`)
in the build, evaluated by the kernel; they are tests and no claim rests on them.

**Dependencies, modelled by their documented behaviour (or published source), not verified:**

| dependency | assumption | used in |
|---|---|---|
| numpy indexing, slicing, broadcasting, `where`, `clip`, `roll`, `nonzero`, `searchsorted`, `pad(mode="wrap")`, `expand_dims`, `transpose`, `outer` | as documented; defined in `Basic/Py`, `Basic/Tensor` and beside their use | all |
| numpy `fft.fft`, `fft.ifft` | the documented sums, exact | C27–C33, C78 |
| numpy `gradient` | unit spacing, one-sided at the edges, ValueError for an axis shorter than 2 | C75, C76, C103–C107 |
| `np.asanyarray(Dataset)`, `np.ravel(Dataset)` | TypeError | C96, C105 |
| conversion of NaN to an integer | the smallest integer (x86-64) | C46 |
| metpy `interpolate_1d`, `log_interpolate_1d` | source: sort the column, sort the targets, `searchsorted`, linear formula, NaN outside, reversal if the first target exceeds the last | C12–C17, C21, C83, C84 |
| xarray `interp` with scipy `interp1d` | sort by coordinate, one axis after the other, linear or nearest, fill or extrapolation | C22–C26, C86–C89 |
| dask `map_blocks`, `drop_axis` | every block computed separately, results put together; the level axis is one chunk after `drop_axis` concatenation | C15 |
| xarray `stack`, `unstack` | enumerate the other dimensions once each and put them back | C21 |
| xarray arithmetic | broadcasting by dimension name; alignment by labels is outside the model except in `nmse` (`where(cond, other)` uses `join="exact"`) | C08, C10, C21, C95 |
| xarray `resample` | consecutive bins from first to last sample; needs increasing times; empty bins give NaN for mean, sum and count | C36–C39, C90, C91 |
| xarray `groupby(strftime)` | one group per distinct string, in string order; the sum of a group of NaN is 0; a binary operation with a missing group gives NaN | C40–C43, C92 |
| xarray `infer_freq` | an arbitrary function (finds a frequency, finds none or raises) | C34, C37–C43 |
| xarray `dropna` | `how="any"` | C39 |
| xarray attributes | `_get_keep_attrs` rules; the default of arithmetic (drop before 2025.11, keep since) is a parameter `XrOptions.arithKeeps` | C44, C93 |
| calendars (cftime, pandas) | a calendar is any month-length function (`Basic/Cal`); Gregorian, 360-day and others are instances | C36–C43, C90–C92 |
| uxarray `zonal_mean` | its results are inputs of the model | C57, C58, C110, C119 |
| cf_xarray | what it finds is an input of the model | C20, C21, C95 |
| xskillscore `_pearson_r` | source; `xskillscore.pearson_r` for DataArrays is a parameter | C64, C65, C96 |
| `eofs.xarray.Eof` | an arbitrary function of the data and options; C150 assumes its documented behaviour for data without missing values (`EofContract` in Spec/EofLib, satisfiable: `contract_met`) | C66, C67, C97, C98, C150 |
| scipy `sph_harm`, `sph_harm_y` | arbitrary functions; C71 assumes they agree up to argument order | C68–C71, C99 |
| scipy `SphericalVoronoi` | an arbitrary function; C100 uses that duplicate points raise ValueError and that three or more different points of the sphere are accepted (scipy also counts points less than 1e-6 apart as duplicates) | C72, C100 |
| numpy/xarray wrapping | `np.swapaxes(DataArray)` keeps dims, coords and name by position and drops attrs; `.data =` demands the same shape; `xr.DataArray(data=DataArray, dims=...)` takes the bare values; a 0-d coordinate for a dimension raises ValueError; `arr.dim` without coordinate is 0, 1, 2, …; `assign_coords` along a foreign dimension raises ValueError | C109, C111, C112, C114, C115, C117 |
| Python set iteration | an arbitrary order | C59, C60, C80–C82 |
| object identity | numpy `flip`, `swapaxes`, `transpose`, `reshape`, `ravel`, `asarray(ndarray)` and `.values` give views; arithmetic, `np.pad`, `np.full_like`, `fft`, `copy()`, `xr.where`, `clip`, `sel`, `resample`, `groupby`, `interp`, `rename`, `assign_coords`, `assign_attrs` and the `DataArray` constructor give objects with their own attribute dictionary and coordinate mapping; `cf.guess_coord_axis()` works on a deep copy; `_match_nans` of xskillscore copies before it writes | C169–C171 |

**Not modelled:** floating-point rounding except in C128–C131, C154, C156–C168, C174, C175, C177, C178, C180, C181, C183 and C184, overflow and signed zero (numbers are exact, with NaN and infinities where the code
relies on them); dtypes (integer truncation and overflow) except in C46, C123, C176 and C191; memory layout (object identity and in-place writes: C169–C171); dask scheduling (except C172); pint units; attributes other than those named in a property; printed
text and warnings except where a property is about them (C77, C79); packaging (`__init__.py`, `_version`).

**Modelled code, function by function.**

| file | functions | model |
|---|---|---|
| `meteorology.py` | `_delta_pressure1D`, `delta_pressure`, `dpres_plev` | `Model/DeltaPressure` |
| | `_dewtemp`, `dewtemp`, `relhum`, `_relhum_ice`, `relhum_ice`, `_relhum_water`, `relhum_water` | `Model/Humidity` |
| | `_nws_eqn`, `heat_index` | `Model/HeatIndex` |
| | `max_daylight`, `psychrometric_constant`, `saturation_vapor_pressure`, `actual_saturation_vapor_pressure`, `saturation_vapor_pressure_slope` | `Model/Evap` |
| | `zonal_meridional_psi` | `Model/Psi` (integration), `Model/PsiLabels` (dimensions), `Model/Lookup` (choice of variables) |
| `gc_util.py` | `_find_var`, `_find_optional_var` | `Model/Lookup` |
| `interpolation.py` | `pressure_at_hybrid_levels`, `delta_pressure_hybrid`, `_func_interpolate`, `_vertical_remap`, `_sigma_from_hybrid`, `interp_hybrid_to_pressure` | `Model/Hybrid`, `Model/HybridCall`, `Model/Interp1d` |
| | `_temp_extrapolate`, `_geo_height_extrapolate`, `_vertical_remap_extrap` | `Model/Extrap` |
| | `interp_sigma_to_hybrid` | `Model/Sigma`, `Model/SigmaInt` (integer data) |
| | `_pre_interp_multidim`, `_post_interp_multidim`, `interp_multidim` | `Model/Multidim`, `Model/MultidimMeta` (metadata) |
| `fourier_filters.py` | all | `Model/Fourier` |
| `climatologies.py` | all (attributes and the type of the time stamps separately) | `Model/Climatology`, `Model/ClimAttrs`, `Model/TimeKind` |
| `stats.py` | `nmse`; `pearson_r`; the EOF functions | `Model/Nmse`, `Model/Pearson`, `Model/Eof` |
| `spherical.py` | all | `Model/Spherical` |
| `gradient.py` | all | `Model/Gradient` |
| `deprecated.py` | all | `Model/Deprecated` |
| labels and attributes | DataArray results of `meteorology.py`; coordinates of `interp_hybrid_to_pressure`; n-dimensional and DataArray `fourier_filter` | `Model/MetLabels`, `Model/HybridLabels`, `Model/FourierNd` |
| rounding | the arithmetic of `pressure_at_hybrid_levels`, `delta_pressure_hybrid`, metpy's interpolation formula, `_delta_pressure1D`, means, `interp_multidim`, the integral of `zonal_meridional_psi`, `nmse`, `calendar_average`, `climatology_average`, `month_to_season`, `climate_anomaly`, `gradient`, `relhum`, `fourier_filter`, `pearson_r` (arrays), `dewtemp`, the vapor pressure functions and `psychrometric_constant`, `relhum_ice`, `relhum_water`, `max_daylight`, `heat_index`, `_temp_extrapolate` and `_geo_height_extrapolate` | `Model/Floats`, `FloatsGrid`, `FloatsPsi`, `FloatsNmse`, `ClimArith`, `FloatsGrad`, `FloatsRelhum`, `FloatsFourier`, `FloatsPearson`, `FloatsDewtemp`, `FloatsEvap`, `FloatsRelhumIce`, `FloatsDaylight`, `FloatsHeat`, `FloatsExtrap` over `Basic/Rounding` |
| object identity | allocations, views, in-place writes, loops and exceptions of every public function outside `deprecated.py` (whose functions only raise) | `Model/Memory` |
| `gc_util.py` | `_generate_wrapper_docstring` | not modelled (docstrings only) |

## 3. Plan per property

| id | modelled | proof |
|----|----------|-------|
| C01 | `_delta_pressure1D`, `delta_pressure` over `K`, NaN as `XF.nan` / `none` | telescoping sum by induction; the surface-in-top-layer case is refuted by a witness (index -1 wraps) and excluded in `_partial` |
| C02 | same | characterisation of `end_level` (last midpoint above surface); positivity from monotonicity; `_partial` for same reason |
| C03 | same | entrywise computation of the four slice assignments |
| C04 | same, with the `flip` branch | `reverse` lemmas; errors equal because `min` is order independent |
| C05 | flat row-major model of `ravel`/`reshape` | index arithmetic over arbitrary shape |
| C06 | `Except` model, surface pressure in `XF K` | case analysis, both directions |
| C07 | same | homomorphism lemma for `c > 0` |
| C08 | decision table on kinds/shapes + broadcasting function | case analysis, pointwise |
| C09 | numpy broadcasting of `expand_dims(hya,(1,2))` with N-D psfc | witness for 3-D; `_partial` for 2-D |
| C10 | `abs(diff(...))` | telescoping, reverse lemmas |
| C11 | both formulas | field algebra |
| C12–C14 | metpy `interpolate_1d` contract: sort, searchsorted, linear formula, NaN fill | list/sorting lemmas |
| C15 | blocks as lists, `map_blocks` as concatenation of per-block results | induction over blocks |
| C16 | pointwise model | congruence |
| C17 | `_vertical_remap_extrap` masking | pointwise case analysis |
| C18, C19 | the ECMWF formulas over `XF ℝ` with `where` semantics | case analysis on terrain; analysis lemmas on the cubic/exponential polynomials |
| C20 | validation logic | decision table, both directions |
| C21 | stack/loop/unstack | pointwise; failing size combination as witness |
| C22–C26 | `_pre`, `interpn`-style bilinear, `_post` over `XF K` | pointwise algebra; witnesses for type/rank findings |
| C27–C33 | `fourier_filter` with Mathlib's DFT on `ZMod n` and a Boolean mask computed by Python slice semantics | mask arithmetic; DFT linearity/inversion; conjugate symmetry |
| C34, C35 | string validation and the season tables | decision tables; table-wide `decide` |
| C36 | monthly series, quarter bins anchored at season start | list induction |
| C37, C38 | two-stage averaging with day weights | finite sums |
| C39 | `dropna(how="any")` across cells | witness; `_partial` for NaN-free data |
| C40–C43 | group-by as partition by key | permutation invariance; sums; witnesses |
| C44 | decision logic | case analysis |
| C45 | `_dewtemp` over ℝ | real inequalities |
| C46, C47 | 204-entry table over ℚ/ℝ, clip, floor index | `decide` on the whole table for monotonicity, then piecewise-linear interpolation lemmas |
| C48 | formulas over ℝ | exp monotonicity |
| C49, C50 | the where-chain over ℝ | case analysis; witness |
| C51 | formula over ℝ with arccos domain check | trig inequalities |
| C52–C54 | formulas over ℝ | exp monotonicity, `HasDerivAt`; C53 refuted (4096 vs 4098.171) with error bound as `_partial` |
| C55, C56 | type/shape decision logic | witnesses + case analysis |
| C57, C58 | cumsum orientation model | induction; witness for degrees/radians |
| C59, C60 | lookup with explicit set-iteration order | list lemmas; witness |
| C61–C63 | weighted sums over lists of cells | algebra, Cauchy–Schwarz not needed |
| C64, C65 | weighted Pearson formula; exception flow | Cauchy–Schwarz; witness |
| C66, C67 | axis permutation; attribute store | list lemmas; witness |
| C68 | nested-loop list | induction |
| C69–C71 | sums over the harmonic list with arbitrary sampled basis | linear algebra |
| C72 | coordinates, type decision | trig identity; witness |
| C73, C74 | polynomial coefficients as rationals | coefficientwise bounds, derivative; interval bounds |
| C75, C76 | `np.gradient` non-uniform formula; decision table | algebra; case analysis |
| C77 | warn-and-return-None | table |
| C78 | `fourier_filter` applied to sampled cosines | DFT of a whole-cycle cosine, mask lemmas of C29 |
| C79 | `all()`-based warnings | witness; case analysis for one band |
| C80–C82 | attribute search, explicit names, coordinate construction | case analysis over the lookup stages; witnesses |
| C83, C84 | order handling of metpy and the assignment of labels | sorting lemmas; witness for unsorted levels |
| C85 | geopotential formula over `XF ℝ` | continuity by pieces; witness at `phi = 0` |
| C86–C89 | `interp` after sorting | permutation invariance of the sorted column; bilinear algebra; nearest-point lemma |
| C90 | first stage of `calendar_average` | bins partition the samples |
| C91, C92 | `climatology_average(season)`, anomalies | weighted sums; group sums |
| C93 | attributes of Dataset variables | case analysis over options and flags |
| C94, C95 | Dataset branch and validation of `nmse` | case analysis; witness |
| C96 | dispatch of `pearson_r` | case analysis; witness |
| C97, C98 | labels and attributes of EOF results; deprecated wrappers | case analysis; witnesses |
| C99, C100 | length check of `recomposition`; duplicate points | case analysis; witnesses |
| C101, C102 | coefficient lists over ℚ | Taylor/Chebyshev style bounds with rational arithmetic evaluated in the kernel, transferred to ℝ; integral comparison |
| C103–C107 | `gradient` as a whole | difference quotients; witnesses for order, rank, Dataset and dimension order |
| C108, C109 | `fourier_filter` over tensors of any rank, swap of axes; DataArray container | lines along an axis; shape comparison |
| C110 | validation and result grid of `zonal_meridional_psi` | case analysis; C57 entrywise |
| C111–C113, C117 | labelled arrays with named dimensions, attribute dictionaries | index maps between dimension orders; witnesses |
| C118 | the table of `relhum` against the closed formulas over ℝ | rational bounds of `exp` at the 203 entries, evaluated in the kernel; convexity between entries; algebra |
| C119 | integration part of `zonal_meridional_psi` on arrays with named dimensions | reduction to the column sums of C57; witnesses for order, name and rank |
| C114–C116 | wrapper of `interp_hybrid_to_pressure` with the data's coordinates; default levels | reduction to C12–C19; witnesses |
| C120 | whole call of `delta_pressure_hybrid`: containers, conversion, first coordinate dropped, index alignment | reduction to C10; positions combined by the inner join of shifted labels; witnesses |
| C121 | `_find_var`, `_find_optional_var` and the searches of `zonal_meridional_psi` | the three stages of the search as list lemmas; case analysis |
| C122 | the check for evenly spaced or monthly data | one sample in every month iff the month numbers form a chain of successors; all three functions run the check first |
| C123 | storing into a copy of integer data | truncation characterized independently; the rest of the call is that of C21 |
| C124 | `_pre_interp_multidim`, `interp`, `_post_interp_multidim` on name, attributes and coordinates | case analysis on the two options |
| C125 | `Model/Climatology` on a `Series` and on a selection of its cells | every step commutes with the selection; `dropna` under a condition on the gaps |
| C126 | choice of the time coordinate and type of the centred stamps (`Model/TimeKind`) | case analysis on the coordinate's type |
| C127 | the models of C12-C14 and C21 | the value in a column does not depend on the pair of neighbouring levels chosen (`Lemmas/Columns`), so it is a fixed convex combination of two levels |
| C128 | `Model/Floats`: each operation rounded by a `Rounding` (representable numbers, monotone, gradual underflow, Sterbenz); `float64` is an instance | monotonicity of rounding; standard error analysis; gradual underflow for the zero thickness |
| C129 | metpy's formula with rounding inside the search of `Model/Interp1d` | the weight lies in [0,1]; Sterbenz for values within a factor of two; float64 counterexample evaluated by the kernel |
| C130 | `_delta_pressure1D` with rounding | same structure as C01–C03; telescoping with error terms |
| C131 | a mean as a binary tree of rounded additions | induction over the tree; exactness for multiples of a power of two; kernel-evaluated counterexample |
| C132 | `fourierFilter` as for C30 | shift, reversal and Parseval for the discrete transform; the filter multiplies the spectrum by 0 or 1 |
| C133 | `Model/Climatology` on the cells of one `Series` | convex sets are closed under the (weighted) means that C37, C40, C90 and C91 give; anomalies for linear subspaces |
| C134 | two calls, on a record and on its converted copy | both records as cells of one record (C125), then C133 for the relation y = a x + b; kernel-evaluated counterexample |
| C135 | whole calls of both vertical interpolations and of the pressure function, over any field where no logarithm is needed | congruence through every step of the call: scaled pressures, the interpolation weights as quotients, the below-ground formulas as functions of pressure ratios; equality of the whole `Except` results |
| C136 | results of the calls as specified by C10/C21, at two levels of one column | order of lines on consecutive brackets; the Lipschitz part is monotonicity of `L t ± f` |
| C137 | interp_multidim with `cyclic=True` on two grids that are windows of one periodic grid (`Spec/Globe.lean`) | the padded axis is a window of the periodic continuation; the cell of a location is unique by strict monotonicity over the integers |
| C138 | interp_multidim as a function of the data | along one axis the result is the fill value, one of the values, or the line through two neighbours, chosen independently of the data; each keeps linear combinations and order |
| C139 | compositions of `fourier_filter` calls | spectra: a chain removes the union of the bins removed; floor and ceiling commute with min and max. Last part false between bins, counterexample and partial theorem |
| C140 | gradient with shifted or negated coordinates | the arc lengths are odd/even and linear in longitude; false for the origin of longitude on curvilinear grids (counterexample), partial theorem for latitudes constant along rows |
| C141 | `heatIndex` on pairs of calls | polynomial factoring of differences of the regression; value at the switch bounded below by a quartic identity; counterexamples at 40 F and at 80.4 F |
| C142 | `calendarAverage` applied to its own result | the resampled monthly series of the result equals that of the data; regrouping of sums by nested periods; counterexample with one missing half-hour |
| C143 | `climate_anomaly` on a record and on the record plus a function of the group | both runs embedded in one record with twice as many cells (C125), averages of groups shift by the added number, uniqueness of the group average; idempotence because the anomalies are the data plus a function of the group |
| C144 | `decomposition`, `recomposition`; scipy's harmonics only through the stated symmetries (`Symmetric`), satisfied by the true harmonics up to degree 1 (`lowY_symmetric`) | turn: the phase factors out of the sums; roll: reindexing the columns with `Fin` addition and periodicity of the phase; zonal: the rolled data are the data, so (phase - 1) times the coefficient is 0; mirror: reindexing rows by `Fin.rev`; Parseval: C69 turns each inner product with a harmonic into a coefficient |
| C145 | `month_to_season` and `calendar_average` as for C36 and C37 | counterexample in the 365-day calendar; C36 and C37 give both values as means over the same months, plain and day-weighted; the difference is bounded by the case distinction over the signs of (n w_i - W) |
| C146 | `climatology_average` and `calendar_average` as for C37 and C91 | the months of the climatology are the concatenation of the months of the seasons; sums over the concatenation; counterexample in the 365-day calendar |
| C147 | `zonal_meridional_psi` from the zonal means on (as C57); levels from the top down, C57 gives the other order; the factor is that of the code (cosine of the number of degrees, C58) | C57 gives the closed form; telescoping of layer thicknesses (C01) |
| C148 | the calls of dewtemp and (actual_)saturation_vapor_pressure over ℝ | the log of the ratio of the two pressures is a rational function of the two temperatures; its numerator is affine in the dew point and a cubic in the air temperature, bounded on [0, 40] °C |
| C149 | calls of max_daylight over ℝ | the declination is 0.409 cos of the offset from the solstice; periodicity, evenness and strict decrease of cos, then tan and arccos strictly monotone |
| C150 | eofunc_eofs, eofunc_pcs with the solver as a parameter; its documented behaviour as a separate specification (Spec/EofLib), shown to be satisfiable by the spectral theorem | transposition of indices (C66), then Parseval, Bessel and orthogonality sums |
| C151 | `delta_pressure` as C01 | `Props/LayersPs`: prefix sums of the layer formula; comparison of the formula for two surface pressures |
| C152 | `gradient` as C75 | `Props/GradientMean`: Cauchy's mean value theorem for the field and the arc length polynomial, whose derivative is the metres per degree up to 1e-16 (C73, C101) |
| C153 | the interpolation functions as C12, C21, C24 | `Props/Requested`: metpy's result for an ordered request is the pointwise one (`interpolate1d_points`), so equal coordinates get equal values |
| C154 | `Model/FloatsGrid`: the operations of `Model/Multidim` with a rounding after each | `Lemmas/FloatGrid`: error of scipy's line (slope first) `segNum_error`, composed over two axes; midpoints monotone up to rounding for nearest |
| C155 | the four EOF functions around an arbitrary eofs solver | case analysis; positive direction from the eofs contract of C150 |
| C156 | the integral of zonal_meridional_psi with each operation rounded (`Model/FloatsPsi`) | monotone rounding for order and sign statements; running error analysis, with the thickness errors of C130, for the accuracy |
| C157 | nmse with every operation rounded, sums in any order (Model/FloatsNmse) | sums of non-negative roundings are non-negative; differences of equal numbers are 0 |
| C158 | as C157 | kernel-evaluated float64 counterexample; partial theorem if the computed mean is exact |
| C159 | climatologies with the arithmetic as a parameter (`Model/ClimArith`), rounded or exact | `Lemmas/ClimRel`: related data and arithmetics give related results; instantiated with error bounds, with the order, with nothing |
| C160 | as C159 | kernel-evaluated float64 counterexample; partial theorem by the same relation |
| C161 | `climateAnomalyBy` (`Model/ClimArith`), rounded | `Lemmas/AnomRel` on top of `ClimRel`; Sterbenz' lemma for the exact subtraction |
| C162 | gradient.py with every operation rounded (Model/FloatsGrad): the 25-term sums of signed products, cosine, differences, halves, quotients; power and cosine any functions of stated accuracy | forward error analysis: terms, sums (addsUp_error), products with the cosine, differences of neighbours, rounded quotient; coefficient totals by norm_num |
| C163 | relhum with a rounding after each operation, the temperatures in one precision and the rest in another | table index from monotonicity of rounding; neighbouring table entries differ by a bounded factor, so errors in the temperature become relative errors in the pressure |
| C164 | the divisions of fourier_filter rounded (Model/FloatsFourier) | error of two roundings; floor and ceiling are stable away from integers; exact when the step is representable; 49 years of monthly data as counterexample, evaluated over ℚ |
| C165 | the same with arbitrary transforms | the computed bins are the exact bins of perturbed cutoffs, so C27–C33, C78 apply; Parseval and the triangle inequality for the transforms |
| C166 | lines 83-98 of nmse in the precision of the coordinates (Model/FloatsNmse: evenSpacingFl) | error bounds for the computed steps against the computed tolerance; single-precision latitudes 45, 45.1, 45.2 as counterexample, evaluated in the kernel |
| C167, C168 | xskillscore's formula with every operation rounded, over any order of summation | `round(sqrt(round(x*x))) = x` for binary rounding to nearest; the sums of the two series are the same numbers up to sign; witness evaluated over ℚ and transported to ℝ |
| C169 | memory cells (buffers, attribute dictionaries, coordinate mappings) and, for each public function, its allocations, views and in-place writes in source order, loops, branches and exceptions included (`Model/Memory`) | an ownership analysis of programs, its soundness by induction on the program and the loop count, checked for each function; induction on the session |
| C170 | the same programs | a simulation between two runs whose memories differ in everything but the argument contents |
| C171 | the same programs | the analysis shows that the names returned denote new cells; `eofunc_eofs` by following its last statements |
| C172 | the four steps of `_vertical_remap` on the process-wide filter list, threads interleaved by an arbitrary schedule | invariant over all schedules: every filter list is the caller's or the caller's with the filter in front; serial schedules by induction over the blocks; two racing schedules as counterexample |
| C173 | calendar_average and month_to_season with the arithmetic left open | the bins of a joined list are the bins of the parts with empty bins in between; missing rows vanish in dropna, labels depend on the period only |
| C174 | dewtemp with every operation and constant rounded, the library's logarithm a parameter (FloatsDewtemp) | relative errors chained through sums, products, quotients (FloatRel); the error of the logarithm near 1 bounded against lambda; monotonicity from the monotonicity of rounding; the counterexample evaluated step by step |
| C175 | the three vapour-pressure functions with every operation and constant rounded, the library's exponential a parameter (FloatsEvap) | relative errors chained (FloatRel), absolute error of the argument carried through the exponential; stored numbers above 32 stay above after rounding; the counterexample evaluated step by step up to the argument of the exponential and separated by 8 units of rounding |
| C176 | `_pre_interp_multidim` with the in-place shifts computed in an integer type: 360 has to fit, results modulo 2^bits (MultidimInt) | int_form gives every result as interpolation on the padded integer axis; where the shifted longitudes fit that axis is the exact one; for unsigned types the axis is sorted by a rotation and the cells east of the first longitude coincide; witness by evaluation |
| C177 | `relhum_ice` and `relhum_water` with every operation and constant rounded, the library's exponential a parameter (FloatsRelhumIce) | absolute error of the argument of the exponential (FloatRelhumIce), then relative errors in units of four roundings; the order follows because the two saturation pressures differ by more than the error outside 273-273.3 K |
| C178 | max_daylight with rounded constants, products and trigonometric functions (`maxDaylightFl`) | error propagation; the tangent with cosine ≥ 0.4, the arc cosine Lipschitz on [-0.9905, 0.9905] since the hour argument stays below 0.9902 |
| C179 | records moved in time (`later`), calendars that repeat (`Repeats`), on the model with open arithmetic | every step (resample, group, weight, label) commutes with the shift; median and half-even rounding of the year |
| C180 | heat_index with rounded coefficients, products, sums and square root (`heatIndexFl`) | error propagation through the nine terms; |t-95| exact by Sterbenz' lemma, so the square root keeps its relative accuracy down to the end of the range; comparison of the two branches at the threshold |
| C181 | `_temp_extrapolate`, `_geo_height_extrapolate` with every operation rounded (`Model/FloatsExtrap.lean`) | absolute error bounds step by step; at each threshold the exact formula is continuous (C85), so a flipped branch costs at most a Lipschitz constant times the error of the tested quantity |
| C182 | the models of nmse and pearson_r side by side | weighted means of squares expanded around the means; both functions reduced to sums over the cells valid in both fields |
| C183 | pearson_r with every operation rounded (`Model/FloatsPearson`), sums as arbitrary trees of rounded additions | error of a sum of products by tree depth; the error of the means enters only squared because the sum of the deviations from the exact mean is zero (corr_shift); quotient and square roots by relative bounds; numbers for float64 and float32 |
| C184 | nmse with every operation rounded (`Model/FloatsNmse`), sums as arbitrary trees of rounded additions | as C183: errors of sums by tree depth; the error of the computed mean enters squared because the mean minimises the sum of squares; the weights by the same minimum property |
| C185 | Arrays with labels along their dimensions (`IArr`), xarray arithmetic that pairs positions by label (`joinLabels`), `pressure_at_hybrid_levels`, `interp_hybrid_to_pressure` and `interp_sigma_to_hybrid` on such arrays, the exact join of `where` | The specification reads `ps` and the coefficients at the labels of `data`. False: counterexamples with reversed latitudes and reversed levels; partial theorem when labels are in the same order (hybm in any order); exact description by position; rejection with extrapolation |
| C186 | `dewtempIdx`, `relhumTableIdx`, `relhumIdx`, `heatIndexIdx` on `IArr` (xarray inner join, exact join in `xr.where`, relabelling with the coordinates of the temperature) | `izip_at`: arithmetic on labelled arrays is arithmetic at every common labelled point; composed per function; two latitudes reversed as counterexample |
| C187 | `nmseDims`: lines 111-143 as operations on named, labelled arrays (`zipExact` for `where(cond, other)`, `IArr.zip` for arithmetic, `meanOver` for `weighted().mean()`) | arrays that fit one frame of sizes and labels (`Fits`) combine index by index; the three means are shown to be those of the slice; exact join forces equal labels |
| C188 | `_temp_extrapolate`, `_geo_height_extrapolate`, `_vertical_remap_extrap` and the extrapolating call, operation by operation on labelled arrays (arithmetic joins by label, `where` requires equal labels) (`Model/ExtrapAlign.lean`) | values at labelled points are followed through every operation: the result at a point is the one-point formula of the inputs at that point; labels that agree never raise |
| C189 | `decomposition` on four labelled arrays: data and weights are joined by label, theta and phi taken by position (`Model/SphericalAlign.lean`) | sums over positions are rewritten as sums over labels; filtered labels change the size, hence the error; witness with one pole's datum put at the other pole |
| C190 | `pearson_r` of N-D arrays along an axis: `_match_nans`, `_check_weights`, `np.rollaxis` and the broadcast sums over axis 0 | values of every intermediate array at every index, then the one-dimensional lemmas of C64 along each line; witness for one-dimensional weights on a square array |
| C191 | `delta_pressure` with the sums and differences of levels computed in a numpy integer type, modulo 2^bits (`Model/DeltaInt.lean`) | sums and differences that fit are not reduced; pointwise comparison with the model of C01-C06; witness in 16 bits |
| C192 | `interpMultidimFl` (FloatsGrid): the padded longitudes rounded | the cyclic call is the plain call on the padded grid; error of C154 plus the effect of the shifted longitude on the weight; counterexample by evaluation |
| C193 | recomposition of DataArrays with index labels (Model/RecompAlign): labels ignored, result unlabelled | closed form by position for all labels; labelled reading under equal label order; two counterexamples |
| C194 | composition of the existing models of interp_sigma_to_hybrid and interp_hybrid_to_pressure | composition of the closed forms C21 and C12-C14; counterexample for every other dimension name |
| C195 | composition of the existing models of relhum, dewtemp and heat_index | saturation criterion for relhum's closed form, then C45 and C49 |
| C196 | composition of two calls of the existing model of interp_multidim | every fine cell lies in a coarse cell, on which the field is bilinear; fractions compose |
| C197 | interp_multidim with the functions of climatologies.py | both fields are joined into one Dataset; cells are averaged independently (C125) and linear relations between cells survive (C133), here the bilinear relation of an output point to the four corners of its cell; a missing value gives different results (C197_gap_matters) |
| C198 | interp_hybrid_to_pressure with the functions of climatologies.py | as C197: the relation between an interpolated value and the two levels around it is linear with weights that do not depend on time |
| C199 | gradient with the functions of climatologies.py | as C197: each component is a difference quotient of two cells, a linear relation whose weights do not depend on time, so it passes through the averages |
| C200 | zonal_meridional_psi (from the zonal means on, as C57) with the functions of climatologies.py | whatever is computed linearly and in the same way from every time step passes through the averages (`computed_mean`); the closed form C57 is linear in the wind for a fixed surface pressure |
| C201 | the existing models of delta_pressure and delta_pressure_hybrid | closed forms C03 and C120; case split at the lowest layer |
| C202 | pressure_at_hybrid_levels and delta_pressure_hybrid (numpy) with the functions of climatologies.py | relations between single cells that form convex sets pass through the averages (`cellwise_mean`, from C125 and C133); for layers the convex set is that of non-negative differences |
| C203 | The calls of C57 and C110 on inputs in other units of pressure and wind | Equivariance of the thicknesses (C07), of the running sum and of the final product under multiplication, for all extended numbers |
| C204 | The calls of C108 and C25 one after the other, in both orders | The filter is a weighted sum over time (from its linearity); each interpolated value is linear in the field (C138), hence commutes with the sum |
| C205 | The calls of C108 and, field by field, of C75, in both orders | The filter as a weighted sum over time (C204) commutes with the difference quotients of C75 |
| C206 | The calls of C08 and C10 on two surface pressures and in two units | From the formulas of C08 and C10; telescoping sum for the column |
| C207 | The calls of C57 and of the one-dimensional filter in both orders | The filter as a weighted sum over time (C204) commutes with the sum over layers of C57 |
| C208 | `climateAnomaly` of a gapless record and `fourierFilter` over `ZMod T` | the group of a sample is a coset of the subgroup of the multiples of P; the filter is linear and commutes with cyclic shifts (C132) |
| C209 | `interpHybridToPressure`, `interpSigmaToHybrid` of data with a time dimension; `fourierFilter` of every series | the bracketing levels are the same at all times; the value between them is a fixed combination of two series; the filter is linear |
| C210 | `decomposition`, `recomposition` at every time; `fourierFilter` | each coefficient (grid value) is a fixed linear combination of grid values (coefficients); the filter is a weighted sum over the times |
| C211 | `climateAnomaly` (month) followed by `monthToSeason` | the month groups and seasons as sums over sample numbers (C36, C41); exchange of sums |
| C212 | `decomposition`, `recomposition` at every time with the functions of climatologies.py | as C199: every part of a coefficient (every grid value) is a fixed linear functional of the grid values (parts of the coefficients); its graph is a subspace, which the averages keep |
| C213 | `svpPoint`, `svpSlopePoint` with the functions of climatologies.py | the derivative of the curve increases (second derivative), so the points on or above the curve form a convex set, which the averages keep (C133) |
| C214 | `eofuncEofs`, `eofuncPcs` with the solver contract of C150 | min-max: a combination of the first k+1 patterns of one analysis orthogonal to the first k of the other; a pattern with its own variance spans the eigenspace of the covariance |
| C215 | as C214 | an analysis of rearranged data with everything put back in place is an analysis of the data; uniqueness as in C214 |
| C216 | `nmse` | the cells that count are the same for all members; the squared error of a mean is at most the mean of the squared errors, cell by cell |
| C217 | pearson_r on arrays, with and without weights and missing values | all sums in the correlation are linear in the weight of each pair, so they are sums over the finitely supported weight function; positive weights decide whether the series vary |
| C218 | nmse on DataArrays with 1-D or 2-D coordinates | masked weights and values are maps over the list of cells, so every weighted mean is invariant under permutation; the reversed axis passes the spacing test |
| C219 | pearson_r on arrays, three calls | Cauchy-Schwarz for the parts of two series that are not explained by the third |
| C220 | nmse on DataArrays, two calls with the same observations | the root of a weighted sum of squares is a norm (Minkowski, from Cauchy-Schwarz) |
| C221 | pearson_r on arrays | equality case of Cauchy-Schwarz: the weighted sum of squared residuals is 0 |
| C222 | calendar_average, climatology_average and month_to_season | averages stay in convex sets (C133); pairs that differ by at most eps form a convex set |
| C223 | interp_hybrid_to_pressure without extrapolation, interp_sigma_to_hybrid with at most as many hybrid as sigma levels | the value is a convex combination of two levels with weights that do not depend on the data |
| C224 | interp_multidim on DataArrays | each axis gives the fill value, a grid value or a convex combination of two neighbours; once per axis |
| C225 | gradient of 2-D data; zonal_meridional_psi | difference quotients (C75) and sums over layers (C57, C147): triangle inequality |
| C226 | fourier_filter on one series | filters are orthogonal projections (C30, C132); a high pass below the first frequency subtracts the mean |
| C227 | fourier_filter on one series, pearson_r on arrays | filters are orthogonal projections (C226): equal covariances, smaller variance |

All properties can be expressed in the model; none is marked `not_applicable`.

## 4. Disagreements between the code and the listed properties

Each is proved with a concrete witness; the corresponding `_partial` theorem says what does hold. (Generated from the notes in `MANIFEST.json`.)

* **C01** delta_pressure conserves column mass. False of the code when surface_pressure <= midpoint of the two top levels (index end_level-1 wraps to -1): C01_counterexample. Proved for all other surface pressures; C01_exact: for positive surface pressures not above the column top the sum is right if and only if the surface is below that midpoint. Theorems: `C01_counterexample`.
* **C02** delta_pressure marks exactly the underground layers missing and the rest positive. Same exclusion as C01; C02_counterexample shows a negative thickness. C02_exact: the non-missing layers are all positive exactly outside that exclusion. Theorems: `C02_counterexample`.
* **C03** delta_pressure layer formula. Same exclusion as C01; C03_top_layer_wraps gives the exact (wrong) result in the excluded region. Theorems: `C03_top_layer_wraps`.
* **C09** pressure_at_hybrid_levels numpy output always has one level axis in front of psfc's axes. For psfc of rank other than 2 expand_dims gives the wrong broadcast or shape; C09_rank2_partial is rank 2. C09_rank_exact says what the code does for every rank: the documented shape comes out exactly for rank 2, and a result always has rank max(3, rank). Theorems: `C09_counterexample`.
* **C15** hybrid-to-pressure result does not depend on chunking. Proved: whenever data is chunked, for every division into chunks and whether or not the other arrays are chunked, the outcome is that of fully eager input (C15_chunking_partial). With eager data and a dask-backed surface pressure the call fails with TypeError (list(data.chunks) on None): C15_counterexample. Theorems: `C15_counterexample`.
* **C17** extrapolation only touches points below the lowest model level. Proved when the level coordinate labels increase downwards, so that the last level in label order is the one with the largest pressure. The code selects the lowest level by the largest coordinate label instead of the largest pressure; C17_counterexample gives a column where this selects the top level. C17_exact says what the code does for arbitrary labels. Theorems: `C17_counterexample`.
* **C21** interp_sigma_to_hybrid interpolates each column at its own sigma values and returns one value per hybrid level. Proved when len(hyam) <= number of sigma levels. With more hybrid levels than sigma levels the pre-allocated output is too short and the call fails (C21_counterexample). The hlev coordinate of the result holds only the first column's sigma values. Integer data, which is truncated, is the subject of C123. Theorems: `C21_counterexample`.
* **C24** cyclic=True makes the interpolation periodic in longitude. In the gap and for method=nearest the statement holds in full, missing values included. At the very first point of the padded axis (360 degrees before the last longitude) linear interpolation uses the first column, so a missing value there makes the result missing although the last longitude itself is intact (C24_counterexample); without missing values it agrees (C24_end_partial). Theorems: `C24_counterexample`.
* **C26** interp_multidim returns the same type of object as its input. numpy input gives a DataArray (or an error for rank other than 2), and cyclic=True fails for rank other than 2: C26_counterexample. _partial: xarray input without cyclic keeps type, rank and gets the new axes. Theorems: `C26_counterexample`.
* **C29** each filter keeps exactly the documented band of bins. Low, high and band pass: full statement. Band-block (and flag combinations containing it) is false when the two cutoffs add up to more than the sampling rate: the middle slice then overlaps the wrong bins and harmonics below the low cutoff are removed (C29 counterexample). _partial assumes low cutoff <= high cutoff <= Nyquist frequency. C29_band_block_bins says which bins are removed for every pair of cutoffs, and C29_band_block_exact gives the exact condition (l+h <= n+1, or l = 0, or l = h, or n < l) under which band-block is right for every signal. Theorems: `C29_band_block_counterexample`.
* **C31** complementary filters add up to the signal. The three-way split low+band+high is exact. band_pass+band_block is false for the same cutoffs as C29 (C31_band_exact: exact condition); low+high loses the bin between floor and ceil when the cutoff is not a multiple of the resolution (C31_low_high_exact: exactly that one harmonic is lost). Both refuted by counterexamples; _partial versions carry exactly those exclusions. Theorems: `C31_low_high_counterexample`, `C31_band_counterexample`.
* **C32** filters act on the mean as documented. False of band_block with a high cutoff above the sample frequency, where the mirrored slice reaches bin 0 and the mean is removed (C32_counterexample); C32_band_block_partial assumes high cutoff <= frequency, C32_band_block_exact gives the mean for every pair of cutoffs. Low, high and band pass: full statement. Theorems: `C32_counterexample`.
* **C33** fourier_filter along time_axis equals filtering the transposed data along axis 0. The resolution is computed from len(signal) (axis 0) before the axes are swapped, so a non-square array filtered along axis 1 uses the wrong resolution (counterexample); proved for square arrays and for time_axis=0. C33_exact: for every a x b array, filtering along axis 1 is the 1-D filter run with frequency f*b/a. Theorems: `C33_counterexample`.
* **C34** frequency and season arguments are validated. An unknown season raises KeyError, not ValueError, in month_to_season: the lookup error is caught as ValueError (see the C34 theorems). Theorems: `C34_counterexample`.
* **C36** month_to_season averages exactly the months of each season instance. Proved for records starting in January and for seasons inside a calendar year unless the record starts in the season's second or third month. Otherwise the code drops the wrong month (DJF, NDJ) or returns N+1 entries with a label outside the record: C36_counterexample. C36_exact gives the result for every record and season. Theorems: `C36_counterexample`.
* **C39** a missing grid cell does not affect other grid cells' averages. False: dropna removes a month or group for all cells if one cell is missing (C39_counterexample). _partial: holds when no month is dropped because of another cell. Theorems: `C39_counterexample`.
* **C40** climatology_average groups are complete and in calendar order. Values and order are proved in full whenever the call returns. It raises ValueError when a calendar label between the first and the last one does not occur in the data (C40_counterexample: monthly data from November to February, 6-hourly data with freq='hour'); C40_succeeds gives the exact condition. _partial also because the time stamps are shown right only if every label exists in the median year; C40_labels_counterexample: a daily record from 2 March 2003 to 29 February 2004 gets the mean of 29 February stamped 1 March. Theorems: `C40_counterexample`, `C40_labels_counterexample`.
* **C41** anomalies of a group average to zero and reconstruct the data. Months in full. Days: proved when every calendar day of the data exists in the median year (otherwise labels shift and groups do not match). C41_day_counterexample: a 365-day record ending on 29 February gets no anomaly for that day. C41_day_whole_years: for a record covering whole calendar years the anomalies are right whenever the call returns. Theorems: `C41_day_counterexample`.
* **C42** yearly anomalies subtract that year's own average. False for records over a century (years are matched by their last two digits) and where a year is dropped because another cell is missing (C42_counterexample). _partial: less than a century and no dropped months. C42_exact says what is subtracted for every record: the sum of the averages of all years with the same last two digits, years without a complete month counting 0, and missing if the record has none between its first and last complete month. Theorems: `C42_counterexample`.
* **C43** daily climatology works for every multi-year record. False: the daily climatology of complete Gregorian years 2001-2004 raises because the median year has no 29 February (C43_counterexample). _partial: calendars whose years are all alike. C43_exact and C43_gregorian give the exact condition. Theorems: `C43_counterexample`.
* **C49** heat_index equals temperature below 40F and is total. Total and identity below 40F proved in full. The humidity range check is proved for xarray input and for numpy/list input without NaN; one NaN in a numpy array disables the check (C49_counterexample). Theorems: `C49_counterexample`.
* **C50** heat_index adjustments are applied only together with the Rothfusz regression. False between 80 and 81.2 F below 13 % humidity with default coefficients (C50_counterexample; C50_call_counterexample for a whole array call); the _partial theorem is an exact iff. Theorems: `C50_counterexample`, `C50_call_counterexample`.
* **C53** saturation_vapor_pressure_slope is the slope of saturation_vapor_pressure. False everywhere: the constant 4096 should be 17.27*237.3=4098.171 (C53_counterexample for every temperature); _partial gives the exact ratio, a 0.053 % error. Theorems: `C53_counterexample`.
* **C55** mismatched input shapes are rejected by the humidity functions. dewtemp and relhum test 'not (generator)', which is never true, so they broadcast instead of raising (C55_counterexample); relhum of a list of mixing ratios with a single temperature and pressure raises TypeError, because a list is multiplied by a numpy scalar. Proved for the other three; for dewtemp and relhum the exact error conditions are proved. Theorems: `C55_counterexample`.
* **C56** input container type is preserved. relhum_water returns a numpy array for list input (C56_counterexample); proved for relhum_ice and heat_index, and the mixed-type TypeError for all three. Theorems: `C56_counterexample`.
* **C58** zonal_meridional_psi scales with the cosine of latitude in degrees. np.cos is applied to latitudes in degrees (C58_counterexample: at 90 degrees the factor is negative instead of 0). _partial: the whole result is right exactly when at every latitude the two cosines agree or the column is zero (C58_call_partial); the equator. Theorems: `C58_counterexample`.
* **C60** variable lookup is deterministic. The candidate names are put in a Python set and iterated (C60_counterexample with variables ps and PS). _partial: any data set where an attribute match exists or at most one candidate spelling is present; C60_exact: these are exactly the data sets with a determined result. Theorems: `C60_counterexample`.
* **C62** nmse rejects unevenly spaced grids. 1-D coordinates: proved (C62_rectangular_partial). 2-D: violated, C62_counterexample; steps are only compared with the first row of steps. A single latitude raises AxisError. C62_exact states exactly when a result is returned, for 1-D and 2-D coordinates. Theorems: `C62_counterexample`.
* **C65** pearson_r reports weight mismatches as an error. Violated: a mismatch prints a message and returns None (C65_counterexample); for two DataArrays every ValueError or AxisError of xskillscore ends the same way and other errors are passed on (C65_dataarray_counterexample); a single weight is broadcast and gives a wrong coefficient (C65_counterexample_single). What holds: no number is returned otherwise (C65_no_number_partial). Theorems: `C65_counterexample`, `C65_counterexample_single`, `C65_dataarray_counterexample`.
* **C66** EOF functions move the requested time axis to the front. Proved for 0 <= time_dim < ndim (C66_axis_partial) and for out-of-range values (C66_out_of_range). Violated for the documented -1: ValueError (C66_counterexample). Theorems: `C66_counterexample`.
* **C67** EOF functions do not modify their input. Violated by eofunc_eofs(meta=True) on a DataArray: its attrs dict is extended in place (C67_counterexample). Everything else leaves it alone (C67_unchanged_partial). Theorems: `C67_counterexample`.
* **C72** scale_voronoi preserves container type and samples the unit sphere. The container part is false: scale_voronoi never returns a DataArray (the second type test sees the converted array). Points, order, shape and error propagation are proved. Theorems: `C72_counterexample`.
* **C76** gradient coordinate handling. False parts: a lat (or lon) given alone is overwritten by the data's own coordinates; xarray data without lat/lon coordinates fail with AttributeError on None. Proved: both given are used, own coordinates used when none given, 1-D equals mesh, ranks checked, a single row or column rejected, numpy without coordinates rejected. Theorems: `C76_latitude_ignored_counterexample`, `C76_no_coordinates_counterexample`.
* **C79** max_daylight warns about every latitude outside its validity. The checks use .all(): mixed latitudes give no warning (C79_counterexample); proved for latitudes in one band, and exactly which calls warn or fail (C79_exact). Theorems: `C79_counterexample`.
* **C80** variable lookup honours standard names of coordinates. Only data variables are searched by attribute (C80_counterexample). _partial: coordinate attributes never influence the lookup. Theorems: `C80_counterexample`.
* **C82** the pressure coordinate may have any name. The thickness array is always built with a dimension called plev (C82_counterexample). _partial: name plev, or hybrid interpolation. Theorems: `C82_counterexample`.
* **C83** values are stored under the pressure label they belong to. Proved for sorted new_levels. For unsorted new_levels metpy returns values in sorted order, stored under unsorted labels: C83_counterexample. C83_exact says, for any order of new_levels, which value is stored under each label. Theorems: `C83_counterexample`.
* **C85** extrapolated geopotential height depends continuously on temperature. Continuity proved for positive surface geopotential. At phi_sfc = 0 (sea) the height jumps when T* passes 290.5 K: C85_counterexample. C85_exact: below the surface, continuous if and only if the surface geopotential is positive. Theorems: `C85_counterexample`.
* **C86** interp_multidim does not depend on how rows and columns are ordered. False with cyclic=True: the padded longitudes assume increasing order (C86_counterexample). C86_order_partial: cyclic=False, every reordering of both axes. C86_cyclic_partial: cyclic=True, every reordering of the rows and every reordering of the columns that keeps the first and the last one in place. Theorems: `C86_counterexample`.
* **C91** seasonal climatologies are day-weighted means over all years. C91_bounds_partial needs every season with samples to contain a full month; without it the value is 0 (C91_counterexample). Theorems: `C91_counterexample`.
* **C93** keep_attrs=True keeps the attributes of a Dataset's variables. False for anomalies always and, with xarray before 2025.11, for seasonal and yearly averages and seasonal climatologies (C93_counterexample). Theorems: `C93_counterexample`.
* **C94** nmse of a Dataset is the nmse of each of its variables. Violated: the weights of all variables become an extra dimension 'variable', so each variable also gets values computed with the missing cells of the other variables (C94_counterexample). The diagonal is right (C94_diagonal_partial), and without differing missing patterns the values only repeat (C94_same_pattern). Theorems: `C94_counterexample`.
* **C96** pearson_r accepts every documented input kind. Violated: two Datasets raise TypeError (C96_counterexample). DataArrays are passed on unchanged (C96_dataarray_partial). Theorems: `C96_counterexample`.
* **C97** EOF results are labelled with the right dimensions and metadata. Violated in three ways (C97_counterexample_*): time_dim changes names although documented as ignored; meta=True mislabels arrays whose time axis is not first; an auxiliary coordinate along time raises ValueError. The default cases are proved. Theorems: `C97_counterexample_timeDim`, `C97_counterexample_array`, `C97_counterexample_aux`.
* **C98** eofunc and eofunc_ts are transparent wrappers. Violated: the conversion condition is always true, so DataArrays lose their metadata (C98_counterexample); eofunc_ts(meta=True) always fails (C98_counterexample_ts). Arrays: C98_arrays_partial. Theorems: `C98_counterexample`, `C98_counterexample_dims`, `C98_counterexample_ts`.
* **C99** recomposition rejects coefficient vectors of the wrong length. False for a single coefficient in a numpy array (or any container with scipy < 1.15), which is broadcast to every harmonic; proved for all other lengths and for DataArrays with new scipy. Theorems: `C99_counterexample`.
* **C100** scale_voronoi accepts every grid of distinct grid points. False for grids with a row at a pole and at least two columns (all points of the row coincide and scipy's SphericalVoronoi rejects duplicates); proved for grids without poles. Theorems: `C100_counterexample`.
* **C102** north-south distances are distances on the WGS84 ellipsoid. False: at the equator the distance is 0.67 percent too long for geodetic latitudes; proved: within 0.7 percent everywhere. Theorems: `C102_counterexample`.
* **C103** gradient returns the documented order. False: the order is [latitudinal, longitudinal]; proved for every grid. Theorems: `C103_counterexample`.
* **C104** gradient of n-dimensional data. False for numpy data with a leading dimension (differences along the wrong axes are divided by distances); proved: 2-D data always work. Theorems: `C104_counterexample`, `C104_one_dimensional_counterexample`.
* **C105** gradient accepts every documented data type. False: no Dataset is accepted (numpy cannot convert it, TypeError); proved for numpy arrays and DataArrays. Theorems: `C105_counterexample`.
* **C106** gradient of a DataArray does not depend on its dimension order. False: longitude-first data are rejected when nlat != nlon and silently wrong when nlat = nlon; proved for latitude-first data. Theorems: `C106_transposed_rejected_counterexample`, `C106_transposed_square_counterexample`.
* **C109** fourier_filter keeps the container. False: attributes are always dropped, and a time axis of another length than axis 0 raises ValueError; proved for time axes as long as axis 0. Theorems: `C109_counterexample`.
* **C110** zonal_meridional_psi rejects exactly the surface pressures it cannot use. C110_exact gives the exact set of accepted inputs, levels in any order. C110_accepts_partial: the thicknesses are as expected unless a zonal mean lies between the first level and the first layer interface, where a layer comes out negative (C110_counterexample). Theorems: `C110_counterexample`.
* **C111** delta_pressure labels its result. False: the description is stored under 'long name' (with a blank), so a long_name of the levels is kept; proved for everything else. Theorems: `C111_counterexample`.
* **C112** humidity functions combine values of the same labelled point. False: relhum_ice and relhum_water silently use the transposed mixing ratio when its dimension order differs from the temperature's; proved for equal orders, and without restriction for dewtemp, relhum and heat_index. Theorems: `C112_counterexample`.
* **C113** meteorology results carry their own units. False for relhum_ice and relhum_water, which keep the temperature's attributes; proved for the others. Theorems: `C113_counterexample`.
* **C114** interp_hybrid_to_pressure labels its result with the requested pressures. False for data without level coordinate (no plev coordinate) and for data with a further coordinate along the levels (ValueError); proved otherwise. Theorems: `C114_counterexample`.
* **C115** extrapolation does not depend on the labelling of the levels. False for data without level coordinate: the extrapolation is silently skipped; proved with a level coordinate. Theorems: `C115_counterexample`.
* **C117** max_daylight labels its result. False: a DataArray of days with a scalar latitude raises ValueError (and conversely); proved for one-dimensional arguments. Theorems: `C117_counterexample`.
* **C119** zonal_meridional_psi returns one value per time, latitude and level, labelled as documented. False: the result has the dimension order of the wind (time, plev, latitudes), a time dimension of another name gives an additional dimension, and data without time dimension fail; C119_exact says what is returned in each case, C119_time_partial is the case that works. Theorems: `C119_order_counterexample`, `C119_name_counterexample`, `C119_rank_counterexample`.
* **C120** delta_pressure_hybrid gives the layers between neighbouring levels whatever the containers and coordinates of the coefficients. Proved for all four combinations of containers and for coefficients whose level coordinate, if any, comes first (C120_coords_partial). False if ps has a dimension called dim_0 and the coefficients are numpy arrays (C120_names_counterexample), and if another coordinate, such as a scalar time, comes before the level coordinate: only the first coordinate is dropped, the remaining index aligns the two shifted arrays and every layer is 0 (C120_kept_index, C120_counterexample). Theorems: `C120_names_counterexample`, `C120_counterexample`.
* **C123** integer data are interpolated like floats by interp_sigma_to_hybrid. False: the output array is a copy of the integer data, so the interpolated numbers are truncated when stored (C123_counterexample). C123_exact: the result is the float result with the decimals cut off, and arbitrary where the float result is missing; C123_whole_partial: whole numbers are right. Theorems: `C123_counterexample`.
* **C124** interp_multidim keeps metadata whatever its options. False: missing_val drops the name and the attributes, cyclic also the attributes of the coordinates and all other coordinates (C124_missing, C124_cyclic, C124_counterexample). Proved for calls with neither (C124_plain_partial); C124_exact: nothing is lost exactly if there is nothing to lose. Theorems: `C124_counterexample`.
* **C125** A Dataset is averaged like each of its variables. false of the code with dropna: C125_counterexample (calendar_average, seasonal climatology; a variable loses the periods in which another variable has a gap). Proved without condition for climatology_average by hour, day, month, climate_anomaly by day, month and month_to_season; for the others if the selection has gaps in the same periods. Theorems: `C125_counterexample`.
* **C126** Averages keep the name and the type of the time coordinate. false of climatology_average by hour, day or month for datetime64 input (C126_counterexample): the result holds cftime objects. Proved for the other functions and for cftime input. Theorems: `C126_counterexample`.
* **C127** Vertical interpolation is linear in the data and reproduces linear profiles. Sigma to hybrid: proved for at most as many hybrid as sigma levels; for more the call raises ValueError (C21_counterexample).
* **C129** Vertical interpolation in floating-point arithmetic. The statement fails in one respect: the data are not reproduced at their own levels and the result can leave the range of its neighbours (C129_counterexample, float64 evaluated in the kernel: values 1 and 2^-60 at levels 1 and 2 give 0 at level 2), because metpy computes v_i + (v_j - v_i)*t. Proved: between v_i and fl(v_i + fl(v_j - v_i)) always (C129_between); between the neighbours if the values are positive and within a factor of two of each other (C129_within_neighbours_partial); monotone between two levels; error bound in float64. Theorems: `C129_counterexample`.
* **C131** Averages in floating-point arithmetic do not depend on the order of summation beyond rounding. The statement fails in one respect: the float64 mean of a constant record is not always its value (C131_counterexample: three times 2^53-2 gives 2^53-3). Proved: the bounds for every order; exactness for multiples of a power of two whose absolute values add up to at most 2^53 of it (C131_exact_partial). Theorems: `C131_counterexample`.
* **C134** changing units before or after averaging makes no difference. False of seasonal climatologies with an offset if no month of a season is full: the climatology is 0 in any unit (C134_counterexample: 5 degrees Celsius give 0, the same in Kelvin gives 0). _partial: seasons with a full month, or no offset; anomalies if each sample has a climatology of its own group, or no offset. Theorems: `C134_counterexample`.
* **C136** Vertical interpolation keeps monotone profiles monotone and does not steepen them. Sigma to hybrid: for at most as many hybrid as sigma levels; with more the call fails (C21). Extrapolated levels below the ground are outside the statement.
* **C139** Fourier filters depend only on frequency ratios and combine as their names say. Units and chains of filters of one kind proved for all non-negative cutoffs. Band pass = low pass after high pass: false for cutoffs that are not multiples of frequency/n (C139_counterexample: band pass rounds outwards, low and high pass inwards); proved for multiples (C139_split_partial). Theorems: `C139_counterexample`.
* **C140** gradient does not depend on the origin of longitude and treats all hemispheres alike. Origin of longitude: false for 2-D coordinates whose latitude changes along a row (C140_counterexample: the distance is a difference of longitude*cos(latitude), so it depends on the origin of longitude); proved, for all data, if the latitude is constant along each row, which includes all 1-D coordinates (C140_origin_partial). Mirror symmetries proved for all spaced grids. Theorems: `C140_counterexample`.
* **C141** warmer or more humid air never gets a lower heat index. False at 40 F for every humidity and both coefficient sets (39 F feels warmer than 40 F) and in dry air where the simple formula hands over to the regression (C141_counterexample). The _partial theorems prove strict increase in temperature for humidity 30-85 % (30-50 % with the alternate coefficients) on each side of 40 F, and in humidity for 30-80 % (30-50 %), including across the switch to the regression. Theorems: `C141_counterexample`.
* **C142** averages can be taken in steps. Month first, then month, season or year: exact, for all data (C142_month_first). Hour or day twice: exact (C142_repeat). Hour or day first, then a longer period: proved for records without missing values and with equally filled hours or days (C142_steps_partial); false with missing values (C142_counterexample), because the hourly mean of the remaining samples gets full weight. Theorems: `C142_counterexample`.
* **C143** anomalies ignore what all samples of a group have in common. _partial: every sample has an average of its own group (always for freq='month'; for 'day' the calendar days of the data exist in the median year; for 'season' and 'year' each group has a complete month and the record covers less than a century). C143_counterexample: in a record over a century a constant added to the data changes the yearly anomalies and taking anomalies twice changes them again. Theorems: `C143_counterexample`.
* **C145** month_to_season and calendar_average(freq='season') give the same seasonal means. False as stated (C145_counterexample, 365-day calendar): month_to_season averages the months equally, calendar_average weights them by days. C145_partial: each entry of month_to_season has its counterpart; the values are equal if the months of the season are equally long (360-day calendar) and otherwise, for months of 28 to 31 days, differ by at most 1/39 of the range of the data. Theorems: `C145_counterexample`.
* **C146** The seasonal climatology is the mean over the years of the seasonal averages. False of plain means when seasons are incomplete (C146_counterexample). C146_weighted holds for every record: the climatology is the mean of the seasonal averages weighted with the days of each season in months with data. C146_partial: plain mean if these numbers of days agree. Theorems: `C146_counterexample`.
* **C158** nmse gives no number for observations without spread, in floating-point arithmetic. Fails: 273.15 everywhere on latitudes 0 and 60 has the computed mean 273.15000000000003 and gives 2.2e26 (C158_counterexample). Partial: holds whenever the computed mean is the constant. Theorems: `C158_counterexample`.
* **C160** The average of a constant record is that constant, in floating-point arithmetic. Fails in float64: the yearly average of 1 in all twelve months of a year without leap day is 1 - 2^-53, and the JJA average of 0.1 is 0.10000000000000002 (C160_counterexample). Partial: exact for hourly, daily, monthly averages and climatologies and month_to_season if the multiples of the constant up to the number of samples can be stored. Theorems: `C160_counterexample`.
* **C164** A cutoff that lies on a frequency bin is recognised as that bin. Fails in double precision: 49 years of monthly data, cutoff one cycle per year: the computed high cutoff bin is 50 instead of 49, so the annual cycle is removed by high pass and by low pass (C164_annual_cycle_counterexample). Proved: right bin unless the cutoff is within four units of rounding of a bin, right bin on a bin if the frequency step is stored exactly, never more than one bin off. Theorems: `C164_annual_cycle_counterexample`.
* **C166** nmse accepts every evenly spaced grid in the precision it is stored in. Fails in single precision: latitudes 45, 45.1, 45.2 are rejected with ValueError (C166_counterexample). Proved: accepted if 1e7 (u B + eta) <= 9 |d| for coordinates up to B (in double precision every step of at least 5e-8 degrees), and in any precision if the coordinates are stored exactly. The tolerance is computed in the precision of the coordinates (numpy 2); numpy 1 computes it in double precision, which does not matter for the counterexample. Theorems: `C166_counterexample`.
* **C168** pearson_r(a, b) and pearson_r(b, a) are the same floating-point number. C168_symmetric_partial: without weights, for all data including NaN and infinities. C168_counterexample: weights 0.1, [3,-3,7,-7] and [7,-7,3,-3] give 0.7241379310344827 one way and 0.7241379310344829 the other. Theorems: `C168_counterexample`.
* **C169** No call changes an object the caller already had. eofunc_eofs with meta=True on a DataArray writes the eigenvalues into the caller's attrs (C169_counterexample); C169_only_attrs shows that it changes nothing else; all other functions, in any session: C169_untouched_partial. Theorems: `C169_counterexample`.
* **C170** A call's result does not depend on the calls made before it. Each call on its own: C170_pure. Sessions without eofunc_eofs(DataArray, meta=True): C170_history_partial; after such a call a later call on the same object differs (C170_counterexample). Theorems: `C170_counterexample`.
* **C171** A result shares no memory with the arguments. gradient returns the caller's two-dimensional longitudes and latitudes as the coordinates of its result (C171_counterexample); its values, attributes and mappings are new (C171_gradient); every other function: C171_new_partial. Theorems: `C171_counterexample`.
* **C172** Computing the blocks leaves the process's warning filters alone. Blocks computed one after the other: C172_serial (interp_sigma_to_hybrid, which loops over its columns, is of this kind). On several threads both halves fail (C172_counterexample); what is left is that the filters in force are at all times the caller's, possibly with the ignore filter in front (C172_schedules_partial). A caller who installs that filter first is safe under every schedule (C172_already_ignored). The xr.map_blocks path and the path without dask install no filter at all. Theorems: `C172_counterexample`.
* **C173** A long record can be averaged piece by piece. calendar_average: C173_pieces, with the condition for there being no empty row. month_to_season: all seasons within one calendar year, C173_months_partial; for DJF each piece drops its last December and the winter at the cut gets another value (C173_months_counterexample). Theorems: `C173_months_counterexample`.
* **C175** Vapour pressure formulas in floating-point arithmetic. C175_exact: without rounding these are the functions of C52-C54. C175_accuracy: fill values and error bounds. C175_psychrometric. C175_counterexample: in float64 the pressure at 203.25 degrees Fahrenheit is larger than at the next number above, whatever the (accurate) exponential. C175_monotone_partial: it increases between temperatures that differ by 6400 units of rounding (7e-13 degrees in float64). Theorems: `C175_counterexample`.
* **C176** Cyclic points for integer longitudes. True for the signed types of at least 16 bits (C176_signed_partial) and whenever the two shifted longitudes fit the type (C176_fits_partial, all methods). False for the unsigned types (C176_counterexample): the padded longitude west of the first one wraps around to a large number, everything west of the first longitude is missing (C176_unsigned_gap), points far east of the grid get numbers; between the first longitude and 360 degrees east of it linear results are right (C176_unsigned_partial). 8-bit types raise OverflowError (C176_narrow). Theorems: `C176_counterexample`.
* **C179** Moving a record by whole years moves the averages with it. False for the labels of hourly, daily and monthly climatologies moved by an odd number of years: the label year is the median year rounded half to even, so a climatology of 2000-2001 is labelled 2000 and that of 2001-2002 is labelled 2002 (C179_counterexample). Proved for even numbers of years (C179_climatology_partial), and otherwise up to one year of the label (C179_uniform_partial); values never change. infer_freq is assumed to recognise the moved record like the original; years have four or five digits. Theorems: `C179_counterexample`.
* **C185** Values that belong together are recognised by their labels. Violated by the code: surface pressure (and the level labels of data against those of the coefficients) are paired by position, without an error, see the three counterexamples. Proved: what the code does for any labels (by position), and the full property when the labels are listed in the same order; hyam and hybm are matched by label in any order, also when hybm names its dimension differently (C185_renamed); with extrapolate=True and variable='other' labels in different order are a ValueError. Theorems: `C185_points_counterexample`, `C185_levels_counterexample`, `C185_sigma_counterexample`.
* **C186** Humidity functions and DataArrays whose labels differ. Partial: relhum_ice and relhum_water with a mixing ratio whose labels stand in another order than those of the temperature give silently mislabelled values (C186_ice_counterexample); C186_ice_exact says exactly which values they are. Theorems: `C186_ice_counterexample`.
* **C189** Labels of data, weights and angles in the spherical harmonic decomposition. proved for weights listed in any order of labels and dimensions, with theta and phi listed like the data; missing: theta and phi are taken by position, so the property fails for other orders (C189_counterexample) Theorems: `C189_counterexample`.
* **C190** pearson_r along an axis is pearson_r of each series. partial: proved without weights and with a positive weight for every element (the result is the correlation of each pair of series, and equals the call for that pair); the documented weights along the axis are refuted (C190_counterexample, C190_axis_weights), and an axis the arrays do not have returns None instead of raising (C190_bad_axis). Theorems: `C190_counterexample`.
* **C191** delta_pressure of levels stored as integers. partial: equal to the call with floating-point levels whenever all sums of two levels fit the integer type (C191_partial), in particular for 32 and 64 bit types (C191_wide); refuted for 16 bit types whose sums overflow (C191_counterexample). Theorems: `C191_counterexample`.
* **C192** Interpolating across the last and first longitude in floating-point arithmetic. Violated for gaps narrower than rounding errors: longitudes -300, -120 and the float64 just below 60 give NaN at the grid point -300 with cyclic=True (C192_counterexample). Proved for gaps of at least 2^-42 degrees, with error at most (2^-47 + 2^-42/gap) times the largest value. Gaps of longitudes from 0 to 360 are never too narrow, see C154. Theorems: `C192_counterexample`.
* **C193** Labels of the grid in spherical harmonic recomposition. Partial: values proved for equal label orders (C193_partial); C193_by_position says exactly what the code does for all labels; counterexamples for the missing labels and for a permuted phi. Theorems: `C193_unlabelled_counterexample`, `C193_counterexample`.
* **C194** From sigma levels to pressure levels in two steps. Partial: proved for coefficients along a dimension called hlev and at most as many hybrid as sigma levels (C194_profile_partial, C194_bounds_partial); C194_counterexample: ValueError for every other name of that dimension. Theorems: `C194_counterexample`.
* **C223** Vertical interpolation does not amplify errors. C223_hybrid covers interp_hybrid_to_pressure. C223_sigma_partial leaves out calls of interp_sigma_to_hybrid with more hybrid than sigma levels, for which the code fails (C21).

Further observations, without a theorem of their own:

* The documented formula `sqrt(a^2 cos^2 + b^2 sin^2)` of gradient.py is not the meridian speed for geodetic latitude
  nor for parametric latitude (there cos and sin change places); C102 measures the error against geodetic latitude.
* `interp_hybrid_to_pressure` computes its `map_blocks` attempt in vain (its function returns no DataArray, the exception is caught).
* `eofunc_pcs` builds the solver twice.

## 5. Mutation tests

`seeded/LOG.jsonl` has one line per wrong program tried: the definition edited, the edit, the claim it should break, the theorems
that failed, and what was tightened. Edits named "the corrected program" repair a defect; then a `_counterexample` must fail.
A mutant that changes no observable behaviour (dead branch, clipping that exact arithmetic never needs) is marked as equivalent.
