/-
The objects a call can reach in memory: which arrays, attribute dictionaries and coordinate
mappings are created during a call, which are the caller's own, and which are written in place.

Source: every public function listed in `/repo/geocat/comp/__init__.py`, lines 1–50.

Every function of the library is written as a short program over memory cells.  A cell is one
mutable Python object (its location is a number): the buffer of an array, an `attrs` dictionary, or a coordinate mapping.
The numerical work is left abstract (`Interp`): the theorems about these programs hold whatever
the numpy/xarray operations compute.  What is concrete is the flow of *references*: a statement
`x = expr` that allocates (`Stmt.new`), one that makes `x` another name for an existing object
(`Stmt.view`: `np.flip`, `np.swapaxes`, `np.asarray` of an array, `attrs = data.attrs`), and one
that changes an object in place (`Stmt.put`: `x[i] = …`, `x += …`, `x.attrs[k] = …`).

Simplifications, stated once: a numpy view is the cell it views (offsets and strides are part of
the operation applied to it); reading any part of a cell reads all of it; an exception inside a
numpy/xarray operation is a `raiseIf` (so is `pearson_r` printing a message and returning `None`); the arrays inside a coordinate mapping are the cell `lonlat`
only where the source hands them on (`gradient`).  xarray operations used here (arithmetic,
`xr.where`, `clip`, `sel`, `resample().mean()`, `copy()`, `rename`, the `DataArray` constructor)
return objects with their own attribute dictionary and coordinate mapping.
-/

namespace Verif.Model.Memory

/-- The names used in the functions below: parameters and local variables of the source. -/
inductive Obj
  | temperature | relative_humidity | mixing_ratio | pressure | tfill | dew | heatindex | steadman
  | rothfusz | rh | it | es | jday | lat | lon | dlm | ws | psy_const | svp | temp_c
  | pressure_lev | surface_pressure | pressure_top | delta | midpoints | indices | da
  | signal | res_fft | result | cutoff | data | data_in | lat_in | lon_in | lat_out | lon_out
  | missing_val | padded_data | padded_longitudes | data_out
  | ps | hya | hyb | p0 | pa | pb | dph | new_levels | output | t_bot | phi_sfc | sig_coords
  | sigma | data_stacked | sigma_stacked | h_coords | idx | out_chunks | coords
  | dset | season | means | data_filter | attrs | climates | month_length | clim | anom | time
  | theta | phi | scale | theta_1d | data_locs | mlist | harmonics | scale_dat | max_harm
  | modeled | observed | weights | metric | num | denom | spatial
  | a | b | solver | eofs | neofs | pcs | uxds | ux_ipress | da_v_zonal | da_PS_zonal | lats
  | da_mpsi | axis0loc | axis1loc | lon2d | lat2d | grad | axis0grad | axis1grad
  deriving DecidableEq

/-- The mutable parts of an object: its buffer, its `attrs`, its coordinate mapping, and the
memory of the longitude/latitude arrays a coordinate mapping refers to. -/
inductive Part
  | buf | attrs | coords | lonlat
  deriving DecidableEq

/-- A name together with the part of the object it denotes. -/
abbrev Var := Obj × Part

/-- Programs over memory cells.  Operations and conditions are named by the source text they stand
for; an interpretation gives them meaning. -/
inductive Stmt
  | skip
  /-- `x = op(ys)`, a newly allocated object -/
  | new (x : Var) (op : String) (ys : List Var)
  /-- `x = y`, or a view of `y`: the same object -/
  | view (x y : Var)
  /-- an in-place change of the object `x` -/
  | put (x : Var) (op : String) (ys : List Var)
  /-- raise an exception when the condition holds -/
  | raiseIf (c : String) (ys : List Var)
  | ifte (c : String) (ys : List Var) (t e : Stmt)
  /-- `for i in range(n(ys)): body` -/
  | rep (i : Var) (n : String) (ys : List Var) (body : Stmt)
  | seq (s t : Stmt)

@[inherit_doc] infixr:60 " ;; " => Stmt.seq

/-- What the numpy/xarray operations compute, left arbitrary: the new content of a cell, the outcome
of a test, the number of iterations of a loop, and the content of a loop counter. -/
structure Interp (V : Type) where
  op : String → List V → V
  test : String → List V → Bool
  count : String → List V → Nat
  num : Nat → V

/-- The memory and the local names of a running call. -/
structure St (V : Type) where
  heap : List V
  env : Var → Option Nat

/-- The contents of the cells the names refer to; `none` when a name is unbound. -/
def reads {V : Type} (s : St V) : List Var → Option (List V)
  | [] => some []
  | y :: ys =>
    match s.env y with
    | none => none
    | some r =>
      match s.heap[r]? with
      | none => none
      | some v =>
        match reads s ys with
        | none => none
        | some vs => some (v :: vs)

/-- `x` now names the cell `r`. -/
def bindVar (e : Var → Option Nat) (x : Var) (r : Nat) : Var → Option Nat :=
  fun y => if y = x then some r else e y

/-- A new cell with content `v`, named `x`. -/
def alloc {V : Type} (s : St V) (x : Var) (v : V) : St V :=
  { heap := s.heap ++ [v], env := bindVar s.env x s.heap.length }

/-- `for k in range(start, start + n)`: run `f` with the counter bound each time; stop at an
exception. -/
def loop {V : Type} (f : Nat → St V → St V × Bool) : Nat → Nat → St V → St V × Bool
  | _, 0, s => (s, true)
  | k, n + 1, s =>
    match f k s with
    | (s', true) => loop f (k + 1) n s'
    | (s', false) => (s', false)

/-- Run a program.  The flag is `false` when an exception was raised: the memory is then what it was
at that moment. -/
def exec {V : Type} (I : Interp V) : Stmt → St V → St V × Bool
  | .skip, s => (s, true)
  | .new x op ys, s =>
    match reads s ys with
    | none => (s, false)
    | some vs => (alloc s x (I.op op vs), true)
  | .view x y, s =>
    match s.env y with
    | none => (s, false)
    | some r => ({ s with env := bindVar s.env x r }, true)
  | .put x op ys, s =>
    match s.env x, reads s (x :: ys) with
    | some r, some vs => ({ s with heap := s.heap.set r (I.op op vs) }, true)
    | _, _ => (s, false)
  | .raiseIf c ys, s =>
    match reads s ys with
    | none => (s, false)
    | some vs => (s, !I.test c vs)
  | .ifte c ys t e, s =>
    match reads s ys with
    | none => (s, false)
    | some vs => if I.test c vs then exec I t s else exec I e s
  | .rep i n ys body, s =>
    match reads s ys with
    | none => (s, false)
    | some vs => loop (fun k s => exec I body (alloc s i (I.num k))) 0 (I.count n vs) s
  | .seq p q, s =>
    match exec I p s with
    | (s', true) => exec I q s'
    | (s', false) => (s', false)

/-- A function of the library: its parameters (the parts of the objects it can reach), its body, and
the parts of the object it returns. -/
structure Fn where
  params : List Var
  body : Stmt
  rets : List Var

/-! ### Shorthand -/

/-- The buffer of an array, or a plain value. -/
abbrev B (x : Obj) : Var := (x, .buf)
/-- The `attrs` of an `xarray` object. -/
abbrev A (x : Obj) : Var := (x, .attrs)
/-- The coordinate mapping of an `xarray` object. -/
abbrev K (x : Obj) : Var := (x, .coords)
/-- An `xarray` object: its three parts. -/
abbrev X (x : Obj) : List Var := [(x, .buf), (x, .attrs), (x, .coords)]

/-- `x = op(ys)` where the result is a new `xarray` object. -/
def newX (x : Obj) (op : String) (ys : List Var) : Stmt :=
  .new (B x) op ys ;; .new (A x) (op ++ " attrs") ys ;; .new (K x) (op ++ " coords") ys

/-- `x = y` for `xarray` objects. -/
def viewX (x y : Obj) : Stmt :=
  .view (B x) (B y) ;; .view (A x) (A y) ;; .view (K x) (K y)

/-- `x = np.asarray(x)`: the same object when `x` is an array already. -/
def asarray (x : Obj) : Stmt :=
  .ifte "isinstance(x, np.ndarray)" [B x] .skip (.new (B x) "np.asarray" [B x])

/-- `x.attrs[key] = value`, once for each key. -/
def setAttrs (x : Obj) : List String → Stmt
  | [] => .skip
  | k :: ks => .put (A x) k [] ;; setAttrs x ks

/-! ### `meteorology.py` -/

/-- meteorology.py, `dewtemp`, lines 284–318. -/
def dewtemp : Fn where
  params := X .temperature ++ X .relative_humidity
  body :=
    .ifte "xr.DataArray in in_types" [B .temperature, B .relative_humidity]
      (.raiseIf "any(x != xr.DataArray for x in in_types)" [B .temperature, B .relative_humidity] ;;
       newX .dew "_dewtemp" (X .temperature ++ X .relative_humidity) ;;
       setAttrs .dew ["long_name", "units"])
      (asarray .temperature ;; asarray .relative_humidity ;;
       newX .dew "_dewtemp" [B .temperature, B .relative_humidity])
  rets := X .dew

/-- meteorology.py, `heat_index`, lines 372–492. -/
def heatIndex : Fn where
  params := X .temperature ++ X .relative_humidity
  body :=
    .raiseIf "len(set(in_types)) != 1" [B .temperature, B .relative_humidity] ;;
    .ifte "not xarray and not numpy" [B .temperature]
      (asarray .temperature ;; asarray .relative_humidity) .skip ;;
    .raiseIf "shapes differ" [B .temperature, B .relative_humidity] ;;
    .raiseIf "relative humidity outside 0..100" [B .relative_humidity] ;;
    newX .steadman "61 + (t - 68) * 1.2 + rh * 0.094" (X .temperature ++ X .relative_humidity) ;;
    newX .rothfusz "_nws_eqn" (X .temperature ++ X .relative_humidity) ;;
    newX .heatindex "(steadman + temperature) / 2" (X .steadman ++ X .temperature) ;;
    newX .heatindex "xr.where(t < 40, t, hi)" (X .temperature ++ X .heatindex) ;;
    newX .heatindex "xr.where(hi >= crit, rothfusz, hi)" (X .rothfusz ++ X .heatindex) ;;
    newX .heatindex "xr.where(rh <= 13 ...)"
      (X .relative_humidity ++ X .temperature ++ X .heatindex) ;;
    newX .heatindex "xr.where(rh > 85 ...)"
      (X .relative_humidity ++ X .temperature ++ X .heatindex) ;;
    .ifte "in_types[0] in {list, float, int}" [B .heatindex]
      (.new (B .heatindex) "tolist" [B .heatindex]) .skip ;;
    .ifte "in_types[0] == xr.DataArray" [B .heatindex]
      (setAttrs .heatindex ["long_name", "units", "www", "info", "tag"]) .skip
  rets := X .heatindex

/-- meteorology.py, `relhum`, lines 561–597. -/
def relhum : Fn where
  params := X .temperature ++ X .mixing_ratio ++ X .pressure
  body :=
    .ifte "hasattr(temperature, 'clip')" [B .temperature] .skip
      (.new (B .temperature) "np.asarray" [B .temperature]) ;;
    newX .temperature "clip(173.16, 375.16)" (X .temperature) ;;
    newX .it "(temperature - mintemp).astype(int)" (X .temperature) ;;
    newX .es "table interpolation" (X .temperature ++ X .it) ;;
    newX .es "es * 0.1" (X .es) ;;
    newX .rh "(q * (p - 0.378 es) / (0.622 es)) * 100" (X .mixing_ratio ++ X .pressure ++ X .es) ;;
    newX .rh "clip(0.0001, None)" (X .rh) ;;
    .ifte "isinstance(relative_humidity, xr.DataArray)" [B .rh]
      (setAttrs .rh ["long_name", "units", "info"]) .skip
  rets := X .rh

/-- meteorology.py, `relhum_ice` (lines 644–693) and `relhum_water` (lines 744–796): `save_attrs` and
`save_coords` are the caller's objects; the `DataArray` constructor copies them. -/
def relhumIceWater : Fn where
  params := X .temperature ++ X .mixing_ratio ++ X .pressure
  body :=
    .ifte "not xarray and not numpy" [B .temperature]
      (asarray .temperature ;; asarray .mixing_ratio ;; asarray .pressure) .skip ;;
    .ifte "isinstance(temperature, xr.DataArray)" [B .temperature]
      (.view (A .attrs) (A .temperature) ;; .view (K .attrs) (K .temperature))
      (.new (A .attrs) "None" [] ;; .new (K .attrs) "None" []) ;;
    .raiseIf "shapes differ" [B .temperature, B .mixing_ratio, B .pressure] ;;
    newX .rh "_relhum_ice / _relhum_water" (X .temperature ++ X .mixing_ratio ++ X .pressure) ;;
    .ifte "x_out" [B .temperature]
      (newX .rh "xr.DataArray(rh, coords, dims, attrs)" ([B .rh, A .attrs, K .attrs])) .skip ;;
    .ifte "in_types[0] in {list, float, int}" [B .rh] (.new (B .rh) "tolist" [B .rh]) .skip
  rets := X .rh

/-- meteorology.py, `max_daylight`, lines 829–879. -/
def maxDaylight : Fn where
  params := X .jday ++ X .lat
  body :=
    .ifte "is_duck_array(jday)" [B .jday] .skip (.new (B .jday) "np.asarray float32" [B .jday]) ;;
    .ifte "is_duck_array(lat)" [B .lat] .skip (.new (B .lat) "np.asarray float32" [B .lat]) ;;
    .raiseIf "lat.ndim > 1 or jday.ndim > 1" [B .lat, B .jday] ;;
    newX .ws "np.arccos(np.outer(...))" (X .lat ++ X .jday) ;;
    newX .dlm "np.transpose(con * ws)" (X .ws) ;;
    .ifte "x_out" [B .jday]
      (newX .dlm "xr.DataArray(dlm, coords=[jday, lat])" ([B .dlm] ++ X .jday ++ X .lat) ;;
       setAttrs .dlm ["long_name", "units", "url", "info"]) .skip
  rets := X .dlm

/-- meteorology.py, `psychrometric_constant`, lines 930–949. -/
def psychrometricConstant : Fn where
  params := X .pressure
  body :=
    .ifte "in_type is not xr.DataArray" [B .pressure]
      (asarray .pressure ;; newX .psy_const "con * pressure" [B .pressure])
      (newX .psy_const "con * pressure" (X .pressure) ;;
       setAttrs .psy_const ["long_name", "units", "url", "info"])
  rets := X .psy_const

/-- meteorology.py, the body of `saturation_vapor_pressure`, lines 1003–1030. -/
def svpBody : Stmt :=
  .ifte "in_type is xr.DataArray" [B .temperature]
    (newX .temp_c "(temperature - 32) * 5 / 9" (X .temperature) ;;
     newX .svp "xr.where(temp_c > 0, ..., tfill)" (X .temp_c ++ [B .tfill]) ;;
     setAttrs .svp ["long_name", "units", "url", "info"])
    (asarray .temperature ;;
     newX .temp_c "(temperature - 32) * 5 / 9" [B .temperature] ;;
     newX .svp "np.where(temp_c > 0, ..., tfill)" [B .temp_c, B .tfill])

/-- meteorology.py, `saturation_vapor_pressure` (lines 1003–1030) and
`saturation_vapor_pressure_slope` (lines 1137–1178), which has the same shape. -/
def saturationVaporPressure : Fn where
  params := X .temperature ++ [B .tfill]
  body := svpBody
  rets := X .svp

/-- meteorology.py, `actual_saturation_vapor_pressure`, lines 1080–1091: the attributes written are
those of the object `saturation_vapor_pressure` returned. -/
def actualSaturationVaporPressure : Fn where
  params := X .temperature ++ [B .tfill]
  body :=
    svpBody ;;
    .ifte "in_type is xr.DataArray" [B .temperature]
      (setAttrs .svp ["long_name", "units", "url", "info"]) .skip
  rets := X .svp

/-- meteorology.py, `_delta_pressure1D`, lines 1210–1259; `e` is the surface pressure of one column. -/
def deltaPressure1D (lev e out : Obj) : Stmt :=
  .raiseIf "pressure_top < 0" [B .pressure_top] ;;
  .raiseIf "pressure_top > surface_pressure" [B .pressure_top, B e] ;;
  -- `pressure_lev = np.flip(pressure_lev)`: a view, and only the local name changes
  .view (B .a) (B lev) ;;
  .new (B out) "np.full_like(pressure_lev, np.nan)" [B .a] ;;
  .new (B .midpoints) "np.array((pressure_lev + np.roll(pressure_lev)) / 2)" [B .a] ;;
  .put (B .midpoints) "midpoints[0] = 0.0" [] ;;
  .new (B .indices) "np.nonzero(midpoints < surface_pressure)" [B .midpoints, B e] ;;
  .raiseIf "min() of an empty sequence" [B .indices] ;;
  .put (B out) "delta_pressure[start_level] = ..." [B .a, B .indices, B .pressure_top] ;;
  .put (B out) "delta_pressure[start_level + 1 : end_level] = ..." [B .a, B .indices] ;;
  .put (B out) "delta_pressure[end_level] = ..." [B .a, B .indices, B e]
  -- `np.flip(delta_pressure)` at the end is a view of the same new array

/-- meteorology.py, `delta_pressure` (= `dpres_plev`), lines 1298–1370. -/
def deltaPressureBody : Stmt :=
  .ifte "xarray or ndarray" [B .pressure_lev] .skip
    (.new (B .pressure_lev) "np.asarray" [B .pressure_lev]) ;;
  -- `dict(surface_pressure.coords)`, `dict(….attrs)`: new dictionaries
  .ifte "type_surface_pressure == xr.DataArray" [B .surface_pressure]
    (.new (K .da) "dict(surface_pressure.coords)" [K .surface_pressure] ;;
     .new (A .da) "dict(surface_pressure.attrs)" [A .surface_pressure])
    (.new (K .da) "unbound" [] ;; .new (A .da) "unbound" []) ;;
  .ifte "type_pressure_level == xr.DataArray" [B .pressure_lev]
    (.new (A .da) "dict(pressure_lev.attrs)" [A .pressure_lev]) .skip ;;
  .ifte "pressure_top is None" [B .pressure_top]
    (.new (B .pressure_top) "pressure_lev.min()" [B .pressure_lev])
    (.raiseIf "pressure_top > pressure_lev.min()" [B .pressure_top, B .pressure_lev]) ;;
  .ifte "np.isscalar(surface_pressure)" [B .surface_pressure]
    (deltaPressure1D .pressure_lev .surface_pressure .delta)
    (.raiseIf "surface_pressure.shape" [B .surface_pressure] ;;
     .new (B .b) "np.ravel(surface_pressure)" [B .surface_pressure] ;;
     .new (B .output) "[]" [] ;;
     .rep (B .idx) "len(surface_pressure_flattened)" [B .b]
       (.new (B .temp_c) "surface_pressure_flattened[idx]" [B .b, B .idx] ;;
        deltaPressure1D .pressure_lev .temp_c .delta ;;
        .put (B .output) "append" [B .delta]) ;;
     .new (B .delta) "np.array(delta_pressure).reshape(...)" [B .output]) ;;
  .ifte "type_surface_pressure == xr.DataArray" [B .surface_pressure]
    (.put (K .da) "da_coords['lev'] = pressure_lev" [B .pressure_lev] ;;
     .put (A .da) "da_attrs.update({'long name': ...})" [] ;;
     .new (B .da) "xr.DataArray data" [B .delta] ;;
     .new (A .da) "xr.DataArray attrs" [A .da] ;;
     .new (K .da) "xr.DataArray coords" [K .da])
    (.new (B .da) "delta_pressure" [B .delta])

/-- meteorology.py, `delta_pressure`, lines 1261–1370, and its alias `dpres_plev`. -/
def deltaPressure : Fn where
  params := X .pressure_lev ++ X .surface_pressure ++ [B .pressure_top]
  body := deltaPressureBody
  rets := X .da

/-! ### `interpolation.py` -/

/-- interpolation.py, `pressure_at_hybrid_levels`, lines 365–420. -/
def pressureAtHybridLevels : Fn where
  params := X .ps ++ X .hya ++ X .hyb ++ [B .p0]
  body :=
    .raiseIf "hya and hyb differ in type or shape" [B .hya, B .hyb] ;;
    .ifte "all ndarray" [B .ps, B .hya]
      (.new (B .hya) "np.expand_dims" [B .hya] ;; .new (B .hyb) "np.expand_dims" [B .hyb]) .skip ;;
    newX .output "hya * p0 + hyb * ps" (X .ps ++ X .hya ++ X .hyb ++ [B .p0])
  rets := X .output

/-- interpolation.py, `delta_pressure_hybrid`, lines 455–518. -/
def deltaPressureHybrid : Fn where
  params := X .ps ++ X .hya ++ X .hyb ++ [B .p0]
  body :=
    .raiseIf "hya and hyb differ in type or shape" [B .hya, B .hyb] ;;
    .ifte "ps ndarray, hya xarray" [B .ps, B .hya]
      (.view (B .hya) (B .hya) ;; .view (B .hyb) (B .hyb))
      (.ifte "ps xarray, hya not" [B .ps, B .hya]
        (newX .hya "xr.DataArray(hya)" [B .hya] ;; newX .hyb "xr.DataArray(hyb)" [B .hyb]) .skip) ;;
    .ifte "isinstance(hya, np.ndarray)" [B .hya]
      (.new (B .hya) "np.expand_dims" [B .hya] ;; .new (B .hyb) "np.expand_dims" [B .hyb])
      (newX .hya "hya.drop" (X .hya) ;; newX .hyb "hyb.drop / rename" (X .hyb ++ X .hya)) ;;
    newX .pa "p0 * hya[:-1] + hyb[:-1] * ps" (X .ps ++ X .hya ++ X .hyb ++ [B .p0]) ;;
    newX .pb "p0 * hya[1:] + hyb[1:] * ps" (X .ps ++ X .hya ++ X .hyb ++ [B .p0]) ;;
    newX .dph "abs(pa - pb)" (X .pa ++ X .pb) ;;
    .ifte "out_type == xr.DataArray" [B .dph]
      (.new (A .dph) "dph.drop_attrs()" [] ;;
       .put (B .dph) "dph.name = 'dph'" [] ;;
       setAttrs .dph ["long_name", "units"]) .skip
  rets := X .dph

/-- interpolation.py, `interp_hybrid_to_pressure`, lines 613–765. -/
def interpHybridBody : Stmt :=
  .raiseIf "types" [B .data, B .ps, B .hya, B .hyb] ;;
  .raiseIf "extrapolate and variable" [B .data, B .t_bot, B .phi_sfc] ;;
  .ifte "lev_dim is None" [B .data] 
    (newX .data "data.cf.guess_coord_axis()" (X .data) ;;
     .put (K .data) "attrs of the guessed coordinates" []) .skip ;;
  .raiseIf "lev_dim / method" [B .data] ;;
  newX .pressure "pressure_at_hybrid_levels" (X .ps ++ X .hya ++ X .hyb ++ [B .p0]) ;;
  newX .pressure "transpose" (X .pressure ++ X .data) ;;
  .ifte "in_dask and output is None" [B .data]
    (newX .pressure "pressure.chunk" (X .pressure) ;;
     .new (B .out_chunks) "list(data.chunks)" [B .data] ;;
     .put (B .out_chunks) "out_chunks[interp_axis] = (new_levels.size,)" [B .new_levels] ;;
     .new (B .output) "map_blocks" [B .new_levels, B .pressure, B .data, B .out_chunks])
    (.new (B .output) "func_interpolate" [B .new_levels, B .pressure, B .data]) ;;
  newX .output "xr.DataArray(output, name, attrs=data.attrs)" [B .output, A .data] ;;
  .ifte "pint" [B .output] (.put (B .output) "output.data = magnitude" []) .skip ;;
  newX .output "rename" (X .output) ;;
  .new (K .coords) "{}" [] ;;
  .rep (B .idx) "len(data.coords)" [K .data]
    (.put (K .coords) "coords.update({k: v})" [K .data, B .new_levels, B .idx]) ;;
  newX .output "transpose, assign_coords" (X .output ++ [K .coords]) ;;
  .ifte "extrapolate" [B .data]
    (newX .output "_vertical_remap_extrap"
       (X .output ++ X .data ++ X .pressure ++ X .ps ++ X .t_bot ++ X .phi_sfc ++
         [B .new_levels]) ;;
     .ifte "pint" [B .output] (.put (B .output) "output.data = magnitude" []) .skip) .skip

/-- interpolation.py, `interp_hybrid_to_pressure`, lines 520–766. -/
def interpHybridToPressure : Fn where
  params := X .data ++ X .ps ++ X .hya ++ X .hyb ++ [B .p0, B .new_levels] ++ X .t_bot ++ X .phi_sfc
  body := interpHybridBody
  rets := X .output

/-- interpolation.py, `interp_sigma_to_hybrid`, lines 815–862. -/
def interpSigmaToHybrid : Fn where
  params := X .data ++ X .sig_coords ++ X .ps ++ X .hya ++ X .hyb ++ [B .p0]
  body :=
    .raiseIf "lev_dim / method" [B .data] ;;
    newX .sigma "_sigma_from_hybrid" (X .ps ++ X .hya ++ X .hyb ++ [B .p0]) ;;
    .ifte "data.ndim > 1" [B .data]
      (newX .data_stacked "data.stack().transpose()" (X .data) ;;
       newX .sigma_stacked "sigma.stack().transpose()" (X .sigma) ;;
       newX .h_coords "sigma_stacked[0, :].copy()" (X .sigma_stacked) ;;
       newX .output "data_stacked[:, : len(hyam)].copy()" (X .data_stacked ++ X .hya) ;;
       .rep (B .idx) "len(data_stacked)" [B .data_stacked]
         (.new (B .b) "_vertical_remap" [B .sigma_stacked, B .sig_coords, B .data_stacked, B .idx] ;;
          .put (B .output) "output[idx, :] = ..." [B .b, B .idx]) ;;
       newX .output "unstack().transpose()" (X .output ++ X .data))
      (viewX .h_coords .sigma ;;
       newX .output "data[: len(hyam)].copy()" (X .data ++ X .hya) ;;
       .new (B .b) "_vertical_remap" [B .sigma, B .sig_coords, B .data] ;;
       .put (B .output) "output[: len(hyam)] = ..." [B .b]) ;;
    newX .output "rename({lev_dim: 'hlev'})" (X .output) ;;
    newX .output "assign_coords" (X .output ++ X .h_coords)
  rets := X .output

/-- interpolation.py, `_pre_interp_multidim` (lines 77–126), `interp_multidim` (lines 963–989) and
`_post_interp_multidim` (lines 129–153). -/
def interpMultidim : Fn where
  params := X .data_in ++ [B .lat_in, B .lon_in, B .lat_out, B .lon_out, B .missing_val]
  body :=
    .ifte "isinstance(data_in, xr.DataArray)" [B .data_in] .skip
      (.raiseIf "lat_in is None or lon_in is None" [B .lat_in, B .lon_in] ;;
       -- `xr.DataArray(data_in, …)` wraps the caller's array without copying it
       .new (A .data_in) "{}" [] ;;
       .new (K .data_in) "coords={'lat': lat_in, 'lon': lon_in}" [B .lat_in, B .lon_in]) ;;
    viewX .data .data_in ;;
    .ifte "missing_val is not None" [B .missing_val]
      (newX .data "xr.DataArray(np.where(== missing_val))" (X .data ++ [B .missing_val])) .skip ;;
    .ifte "cyclic" [B .data]
      (.new (B .padded_data) "np.pad(data_in.values, wrap)" [B .data] ;;
       .new (B .padded_longitudes) "np.pad(lon, wrap)" [K .data] ;;
       .put (B .padded_longitudes) "padded_longitudes[0] -= 360" [] ;;
       .put (B .padded_longitudes) "padded_longitudes[-1] += 360" [] ;;
       newX .data "xr.DataArray(padded_data)" ([B .padded_data, B .padded_longitudes] ++ X .data))
      .skip ;;
    newX .data_out "data_in_modified.interp" (X .data ++ [B .lat_out, B .lon_out]) ;;
    .ifte "missing_val is not None" [B .missing_val]
      (newX .data_out "xr.DataArray(np.where(isnan))" (X .data_out ++ [B .missing_val])) .skip
  rets := X .data_out

/-! ### `fourier_filters.py` -/

/-- fourier_filters.py, `fourier_filter`, lines 128–173, and the four functions calling it
(lines 176–330). -/
def fourierFilter : Fn where
  params := X .signal ++ [B .cutoff]
  body :=
    -- `np.swapaxes`: a view of the caller's array
    viewX .signal .signal ;;
    .new (B .res_fft) "np.fft.fft" [B .signal] ;;
    .ifte "low_pass" [B .cutoff] (.put (B .res_fft) "res_fft[cfl:cfln] = 0" [B .cutoff]) .skip ;;
    .ifte "high_pass" [B .cutoff]
      (.put (B .res_fft) "res_fft[:cfh] = 0" [B .cutoff] ;;
       .put (B .res_fft) "res_fft[cfhn:] = 0" [B .cutoff]) .skip ;;
    .ifte "band_pass" [B .cutoff]
      (.put (B .res_fft) "res_fft[:cfl] = 0" [B .cutoff] ;;
       .put (B .res_fft) "res_fft[cfh:cfhn] = 0" [B .cutoff] ;;
       .put (B .res_fft) "res_fft[cfln:] = 0" [B .cutoff]) .skip ;;
    .ifte "band_block" [B .cutoff]
      (.put (B .res_fft) "res_fft[cfl:cfh] = 0" [B .cutoff] ;;
       .put (B .res_fft) "res_fft[cfhn:cfln] = 0" [B .cutoff]) .skip ;;
    .new (B .result) "np.fft.ifft" [B .res_fft] ;;
    .new (B .result) "np.real, np.swapaxes" [B .result] ;;
    .ifte "type(signal) is xr.DataArray" [B .signal]
      (newX .output "signal.copy()" (X .signal) ;;
       .put (B .output) "xr_result.data = result" [B .result])
      (newX .output "result" [B .result])
  rets := X .output

/-! ### `climatologies.py` -/

/-- climatologies.py, `month_to_season`, lines 280–341. -/
def monthToSeason : Fn where
  params := X .dset ++ [B .season]
  body :=
    .raiseIf "time coordinate / length / season" (X .dset ++ [B .season]) ;;
    newX .data_filter "dset.sel" (X .dset ++ [B .season]) ;;
    newX .data_filter "isel" (X .data_filter ++ [B .season]) ;;
    newX .means "resample().mean()" (X .data_filter) ;;
    .raiseIf "unsupported array type" (X .means) ;;
    .put (K .means) "means[time_coord_name] = index + offset" [] ;;
    newX .means "means.sel" (X .means)
  rets := X .means

/-- climatologies.py, `calendar_average`, lines 400–469.  `attrs = dset.attrs` names the dictionary of
the resampled data. -/
def calendarAverageBody : Stmt :=
  .raiseIf "bad period / time coordinate / spacing" (X .dset ++ [B .season]) ;;
  newX .dset "resample().mean().dropna()" (X .dset) ;;
  .new (A .attrs) "{}" [] ;;
  .ifte "freq in ['season', 'year']" [B .season]
    (.ifte "keep_attrs" [B .season] (.view (A .attrs) (A .dset)) .skip ;;
     newX .month_length "days_in_month.resample" (X .dset) ;;
     newX .weights "month_length.map" (X .month_length) ;;
     newX .dset "dset * weights, resample().sum()" (X .dset ++ X .weights)) .skip ;;
  newX .time "date_range midpoints" (X .dset) ;;
  newX .dset "assign_coords" (X .dset ++ X .time) ;;
  .ifte "freq in ['season', 'year']" [B .season]
    (newX .dset "assign_attrs" (X .dset ++ [A .attrs])) .skip ;;
  viewX .clim .dset

/-- climatologies.py, `calendar_average`, lines 344–469. -/
def calendarAverage : Fn where
  params := X .dset ++ [B .season]
  body := calendarAverageBody
  rets := X .clim

/-- climatologies.py, `climatology_average`, lines 549–690.  `attrs = dset.attrs` is the caller's own
dictionary; it is only read. -/
def climatologyAverageBody : Stmt :=
  .raiseIf "bad period / time coordinate / spacing" (X .dset ++ [B .season]) ;;
  .new (A .attrs) "{}" [] ;;
  .ifte "keep_attrs in {True, None}" [B .season] (.view (A .attrs) (A .dset)) .skip ;;
  .ifte "freq == 'season'" [B .season]
    (.raiseIf "bad season(s)" [B .season] ;;
     .new (B .climates) "[]" [] ;;
     .rep (B .idx) "len(seasons)" [B .season]
       (newX .data_filter "dset.sel" (X .dset ++ [B .season, B .idx]) ;;
        newX .data_filter "resample().mean().dropna()" (X .data_filter) ;;
        newX .month_length "days_in_month" (X .data_filter) ;;
        newX .weights "month_length / month_length.sum()" (X .month_length) ;;
        newX .means "(dset_filter * weights).sum()" (X .data_filter ++ X .weights) ;;
        .put (B .climates) "append" (X .means)) ;;
     newX .clim "xr.concat" [B .climates] ;;
     .put (K .clim) "dset.coords['season'] = seasons" [B .season] ;;
     newX .clim "assign_attrs" (X .clim ++ [A .attrs]))
    (newX .clim "groupby().mean().rename()" (X .dset) ;;
     newX .time "date_range midpoints" (X .clim) ;;
     newX .clim "assign_coords, assign_attrs" (X .clim ++ X .time ++ [A .attrs]))

/-- climatologies.py, `climatology_average`, lines 472–690. -/
def climatologyAverage : Fn where
  params := X .dset ++ [B .season]
  body := climatologyAverageBody
  rets := X .clim

/-- climatologies.py, `climate_anomaly`, lines 176–215. -/
def climateAnomaly : Fn where
  params := X .dset ++ [B .season]
  body :=
    .raiseIf "time coordinate / bad period" (X .dset ++ [B .season]) ;;
    .new (A .anom) "{}" [] ;;
    .ifte "keep_attrs or keep_attrs is None" [B .season] (.view (A .anom) (A .dset)) .skip ;;
    viewX .data .dset ;;
    .ifte "freq == 'year'" [B .season] calendarAverageBody climatologyAverageBody ;;
    .new (B .anom) "groupby - clim" (X .data ++ X .clim) ;;
    .new (K .anom) "groupby - clim coords" (X .data ++ X .clim) ;;
    newX .anom "drop_attrs().assign_attrs(attrs)" [B .anom, K .anom, A .anom]
  rets := X .anom

/-! ### `spherical.py`, `gradient.py` -/

/-- spherical.py, `decomposition`, lines 59–126. -/
def decomposition : Fn where
  params := X .data ++ X .scale ++ X .theta ++ X .phi ++ [B .max_harm]
  body :=
    .new (B .scale_dat) "scale_val" [B .scale] ;;
    .new (B .mlist) "[]" [] ;;
    .rep (B .idx) "number of harmonics" [B .max_harm]
      (.put (B .mlist) "append (m, n, multiplier)" [B .idx]) ;;
    newX .scale_dat "np.multiply(data, scale)" (X .data ++ X .scale ++ [B .scale_dat]) ;;
    newX .theta "expand_dims / xr.DataArray" (X .theta ++ X .data) ;;
    newX .phi "expand_dims / xr.DataArray" (X .phi ++ X .data) ;;
    newX .harmonics "sph_harm_y" ([B .mlist] ++ X .theta ++ X .phi) ;;
    newX .result "np.sum(np.multiply(...)) * scale_res" (X .scale_dat ++ X .harmonics ++ [B .mlist])
  rets := X .result

/-- spherical.py, `recomposition`, lines 160–208. -/
def recomposition : Fn where
  params := X .data ++ X .theta ++ X .phi ++ [B .max_harm]
  body :=
    newX .data "rename / expand_dims" (X .data) ;;
    .new (B .mlist) "[]" [] ;;
    .rep (B .idx) "number of harmonics" [B .max_harm]
      (.put (B .mlist) "append (m, n)" [B .idx]) ;;
    newX .theta "expand_dims" (X .theta) ;;
    newX .phi "expand_dims" (X .phi) ;;
    newX .harmonics "sph_harm_y" ([B .mlist] ++ X .theta ++ X .phi) ;;
    newX .result "np.sum(real) + np.sum(imag)" (X .harmonics ++ X .data)
  rets := X .result

/-- spherical.py, `scale_voronoi`, lines 232–259. -/
def scaleVoronoi : Fn where
  params := X .theta ++ X .phi
  body :=
    -- `to_numpy` and `reshape` give views of the caller's arrays
    .view (B .theta_1d) (B .theta) ;;
    .view (B .a) (B .phi) ;;
    .new (B .data_locs) "np.zeros((len(phi_1d), 3))" [B .a] ;;
    .put (B .data_locs) "data_locs_3d[:, 0] = ..." [B .a, B .theta_1d] ;;
    .put (B .data_locs) "data_locs_3d[:, 1] = ..." [B .a, B .theta_1d] ;;
    .put (B .data_locs) "data_locs_3d[:, 2] = ..." [B .a] ;;
    newX .scale "np.array(calculate_areas()).reshape(...)" [B .data_locs, B .theta]
  rets := X .scale

/-- gradient.py, `gradient`, lines 230–287.  The returned object's longitudes and latitudes are
`lon2d.data` and `lat2d.data`: the caller's own arrays when those are two-dimensional.  (Both results
carry both; the model gives the longitudes to the first and the latitudes to the second.) -/
def gradient : Fn where
  params := X .data ++ [B .lat, B .lon] ++ [(.data, .lonlat)]
  body :=
    .ifte "lat is None or lon is None" [B .lat, B .lon]
      (.raiseIf "no lat or lon" (X .data) ;;
       .view (B .lon) (.data, .lonlat) ;; .view (B .lat) (.data, .lonlat)) .skip ;;
    .ifte "both one-dimensional" [B .lat, B .lon]
      (.new (B .lon2d) "np.meshgrid" [B .lat, B .lon] ;;
       .new (B .lat2d) "np.meshgrid" [B .lat, B .lon])
      (.raiseIf "not both 2d" [B .lat, B .lon] ;;
       .view (B .lon2d) (B .lon) ;; .view (B .lat2d) (B .lat)) ;;
    .new (B .axis0loc) "_arc_lat_wgs84" [B .lat2d] ;;
    .new (B .axis1loc) "_arc_lon_wgs84" [B .lon2d, B .lat2d] ;;
    .new (B .grad) "np.gradient" [B .data] ;;
    newX .axis0grad "grad[0] / axis0dist" [B .grad, B .axis0loc, B .lon2d, B .lat2d] ;;
    newX .axis1grad "grad[1] / axis1dist" [B .grad, B .axis1loc, B .lon2d, B .lat2d] ;;
    .view (.axis0grad, .lonlat) (B .lon2d) ;;
    .view (.axis1grad, .lonlat) (B .lat2d)
  rets := X .axis0grad ++ X .axis1grad ++ [(.axis0grad, .lonlat), (.axis1grad, .lonlat)]

/-! ### `stats.py` -/

/-- stats.py, `nmse`, lines 54–152. -/
def nmse : Fn where
  params := X .modeled ++ X .observed
  body :=
    .raiseIf "types, coordinate names" (X .modeled ++ X .observed) ;;
    -- `cf.guess_coord_axis()` works on a deep copy
    newX .observed "observed.cf.guess_coord_axis()" (X .observed) ;;
    .put (K .observed) "attrs of the guessed coordinates" [] ;;
    newX .modeled "modeled.cf.guess_coord_axis()" (X .modeled) ;;
    .put (K .modeled) "attrs of the guessed coordinates" [] ;;
    .raiseIf "latitude, longitude, spacing" (X .modeled ++ X .observed) ;;
    newX .weights "np.cos(np.deg2rad(lat))" (X .observed) ;;
    newX .weights "weights.where(...)" (X .weights ++ X .observed ++ X .modeled) ;;
    newX .observed "observed.where(weights != 0, 0)" (X .observed ++ X .weights) ;;
    newX .modeled "modeled.where(weights != 0, 0)" (X .modeled ++ X .weights) ;;
    newX .spatial "observed.weighted(weights).mean()" (X .observed ++ X .weights) ;;
    newX .num "(modeled - observed)**2, weighted mean" (X .modeled ++ X .observed ++ X .weights) ;;
    newX .denom "(observed - observed_w)**2, weighted mean"
      (X .observed ++ X .spatial ++ X .weights) ;;
    newX .metric "num / denom" (X .num ++ X .denom) ;;
    newX .metric "drop_attrs()" (X .metric) ;;
    setAttrs .metric ["description"]
  rets := X .metric

/-- stats.py, `pearson_r`, lines 186–207.  `np.ravel` gives views of the caller's arrays; `_match_nans`
of `xskillscore` blanks unpaired points in copies. -/
def pearsonR : Fn where
  params := X .a ++ X .b ++ X .weights
  body :=
    .raiseIf "types of a and b" [B .a, B .b] ;;
    .ifte "isinstance(a, np.ndarray)" [B .a]
      (.view (B .data) (B .a) ;; .view (B .data_in) (B .b) ;; .view (B .scale) (B .weights) ;;
       .ifte "skipna and some value is NaN" [B .data, B .data_in]
         (.new (B .data) "a.copy()" [B .data] ;;
          .new (B .data_in) "b.copy()" [B .data_in] ;;
          .new (B .indices) "isnan(a) | isnan(b)" [B .data, B .data_in] ;;
          .put (B .data) "a[idx] = np.nan" [B .indices] ;;
          .put (B .data_in) "b[idx] = np.nan" [B .indices] ;;
          .new (B .scale) "weights.copy()" [B .scale] ;;
          .put (B .scale) "weights[idx] = np.nan" [B .indices]) .skip ;;
       .raiseIf "axis" [B .data, B .data_in, B .scale] ;;
       newX .result "_pearson_r" [B .data, B .data_in, B .scale])
      (.raiseIf "dim" (X .a ++ X .b) ;;
       newX .result "xs.pearson_r" (X .a ++ X .b ++ X .weights))
  rets := X .result

/-- stats.py, `_generate_eofs_solver`, lines 211–242; `isDA` is whether `data` is an
`xr.DataArray`, in which case it is used as it is. -/
def eofsSolver (isDA : Bool) : Stmt :=
  (if isDA then Stmt.skip
   else
    asarray .data ;;
    .raiseIf "`time_dim` out of bound" [B .data] ;;
    -- `np.transpose` is a view; the wrapping `DataArray` has its own attrs and coords
    .new (A .data) "{}" [] ;;
    .new (K .data) "{}" []) ;;
  .new (B .solver) "Eof(data, weights, center, ddof)" ([B .weights] ++ X .data)

/-- stats.py, `eofunc_eofs`, lines 371–402. -/
def eofuncEofs (isDA metaFlag : Bool) : Fn where
  params := X .data ++ [B .neofs, B .weights]
  body :=
    eofsSolver isDA ;;
    .raiseIf "neofs <= 0" [B .neofs] ;;
    .new (B .eofs) "solver.eofs" [B .solver, B .neofs] ;;
    .new (A .attrs) "{}" [] ;;
    (if metaFlag then Stmt.view (A .attrs) (A .data) else .skip) ;;
    .put (A .attrs) "attrs['eigenvalues'] = ..." [B .solver, B .neofs] ;;
    .put (A .attrs) "attrs['northTest'] = ..." [B .solver, B .neofs] ;;
    .put (A .attrs) "attrs['totalAnomalyVariance'] = ..." [B .solver] ;;
    .put (A .attrs) "attrs['varianceFraction'] = ..." [B .solver, B .neofs] ;;
    newX .output "xr.DataArray(eofs, attrs, dims, coords)" [B .eofs, A .attrs, K .data]
  rets := X .output

/-- stats.py, `eofunc_pcs`, lines 496–524. -/
def eofuncPcs (isDA metaFlag : Bool) : Fn where
  params := X .data ++ [B .neofs, B .weights]
  body :=
    eofsSolver isDA ;;
    .raiseIf "npcs <= 0" [B .neofs] ;;
    .new (B .solver) "Eof(data, weights, center, ddof)" ([B .weights] ++ X .data) ;;
    .new (B .pcs) "solver.pcs().transpose()" [B .solver, B .neofs] ;;
    .new (A .attrs) "{}" [] ;;
    (if metaFlag then Stmt.view (A .attrs) (A .data) else .skip) ;;
    newX .output "xr.DataArray(pcs, attrs, dims, coords)" [B .pcs, A .attrs, K .data]
  rets := X .output

/-- stats.py, `eofunc`, lines 530–546: `np.asarray(data)` first, so never a `DataArray`. -/
def eofunc (metaFlag : Bool) : Fn where
  params := (eofuncEofs false metaFlag).params
  body := asarray .data ;; (eofuncEofs false metaFlag).body
  rets := (eofuncEofs false metaFlag).rets

/-- stats.py, `eofunc_ts`, lines 549–565. -/
def eofuncTs (metaFlag : Bool) : Fn where
  params := (eofuncPcs false metaFlag).params
  body := asarray .data ;; (eofuncPcs false metaFlag).body
  rets := (eofuncPcs false metaFlag).rets

/-! ### `zonal_meridional_psi` -/

/-- meteorology.py, `zonal_meridional_psi` (= `zonal_mpsi`), lines 1494–1564.  `uxds` stands for the
variables of the dataset. -/
def zonalMeridionalPsi : Fn where
  params := X .uxds ++ [B .lat]
  body :=
    .ifte "plev_coordname in dims" (X .uxds)
      -- `uxds[name]`: a new object around the same buffer
      (.view (B .ux_ipress) (B .uxds) ;;
       .new (A .ux_ipress) "uxds[name].attrs" [A .uxds] ;;
       .new (K .ux_ipress) "uxds[name].coords" [K .uxds])
      (.raiseIf "no pressure coordinate or hybrid coefficients" (X .uxds) ;;
       newX .ux_ipress "interp_hybrid_to_pressure" (X .uxds)) ;;
    newX .da_v_zonal "zonal_mean(lat=lat)" (X .ux_ipress ++ [B .lat]) ;;
    .put (K .da_v_zonal) "da_v_zonal['plev'] = ux_ipress[plev]" [K .ux_ipress] ;;
    newX .da_PS_zonal "zonal_mean(lat=lat)" (X .uxds ++ [B .lat]) ;;
    .raiseIf "surface pressure missing, NaN or not positive" (X .da_PS_zonal ++ X .uxds) ;;
    -- `delta_pressure(da_v_zonal.plev, da_PS_zonal)`
    newX .pressure_lev "da_v_zonal.plev" (X .da_v_zonal) ;;
    viewX .surface_pressure .da_PS_zonal ;;
    .new (B .pressure_top) "None" [] ;;
    deltaPressureBody ;;
    newX .da "xr.DataArray(np_dp_zonal, ...)" (X .da ++ X .da_v_zonal ++ X .da_PS_zonal) ;;
    newX .da_mpsi "(v * dp).cumsum('plev')" (X .da_v_zonal ++ X .da) ;;
    newX .lats "2 pi a cos(lats) / g" (X .da_PS_zonal) ;;
    newX .da_mpsi "da_mpsi * scaling" (X .da_mpsi ++ X .lats) ;;
    .put (A .da_mpsi) "attrs.update({...})" []
  rets := X .da_mpsi

/-! ### The library -/

/-- `__init__.py`, lines 1–40: the functions of the library, the two Boolean arguments of the EOF functions
that decide about aliasing made explicit. -/
inductive Api
  | dewtemp | heat_index | relhum | relhum_ice | relhum_water | actual_saturation_vapor_pressure
  | max_daylight | psychrometric_constant | saturation_vapor_pressure
  | saturation_vapor_pressure_slope | delta_pressure | dpres_plev | zonal_meridional_psi
  | zonal_mpsi | interp_hybrid_to_pressure | interp_sigma_to_hybrid | interp_multidim
  | pressure_at_hybrid_levels | delta_pressure_hybrid | fourier_filter | fourier_low_pass
  | fourier_high_pass | fourier_band_pass | fourier_band_block | month_to_season
  | calendar_average | climatology_average | climate_anomaly | decomposition | recomposition
  | scale_voronoi | gradient | nmse | pearson_r
  | eofunc_eofs (isDataArray meta_ : Bool) | eofunc_pcs (isDataArray meta_ : Bool)
  | eofunc (meta_ : Bool) | eofunc_ts (meta_ : Bool)
  deriving DecidableEq

/-- The program of each function. -/
def Api.fn : Api → Fn
  | .dewtemp => Memory.dewtemp
  | .heat_index => heatIndex
  | .relhum => Memory.relhum
  | .relhum_ice | .relhum_water => relhumIceWater
  | .actual_saturation_vapor_pressure => actualSaturationVaporPressure
  | .max_daylight => maxDaylight
  | .psychrometric_constant => psychrometricConstant
  | .saturation_vapor_pressure | .saturation_vapor_pressure_slope => saturationVaporPressure
  | .delta_pressure | .dpres_plev => deltaPressure
  | .zonal_meridional_psi | .zonal_mpsi => zonalMeridionalPsi
  | .interp_hybrid_to_pressure => interpHybridToPressure
  | .interp_sigma_to_hybrid => interpSigmaToHybrid
  | .interp_multidim => interpMultidim
  | .pressure_at_hybrid_levels => pressureAtHybridLevels
  | .delta_pressure_hybrid => deltaPressureHybrid
  | .fourier_filter | .fourier_low_pass | .fourier_high_pass | .fourier_band_pass
  | .fourier_band_block => fourierFilter
  | .month_to_season => monthToSeason
  | .calendar_average => calendarAverage
  | .climatology_average => climatologyAverage
  | .climate_anomaly => climateAnomaly
  | .decomposition => Memory.decomposition
  | .recomposition => Memory.recomposition
  | .scale_voronoi => scaleVoronoi
  | .gradient => Memory.gradient
  | .nmse => Memory.nmse
  | .pearson_r => pearsonR
  | .eofunc_eofs d m => eofuncEofs d m
  | .eofunc_pcs d m => eofuncPcs d m
  | .eofunc m => Memory.eofunc m
  | .eofunc_ts m => eofuncTs m

/-- The parameter names bound to the caller's objects, in order. -/
def bindArgs : List Var → List Nat → Var → Option Nat
  | x :: xs, r :: rs => fun y => if y = x then some r else bindArgs xs rs y
  | _, _ => fun _ => none

/-- The locations of the result. -/
def results {V : Type} (s : St V) : List Var → Option (List Nat)
  | [] => some []
  | x :: xs =>
    match s.env x, results s xs with
    | some r, some rs => some (r :: rs)
    | _, _ => none

/-- A call `f(args)` by a caller whose objects live in `heap`: the memory afterwards and the result's
locations, `none` when the call raised. -/
def call {V : Type} (I : Interp V) (f : Fn) (heap : List V) (args : List Nat) :
    List V × Option (List Nat) :=
  match exec I f.body { heap := heap, env := bindArgs f.params args } with
  | (s, true) => (s.heap, results s f.rets)
  | (s, false) => (s.heap, none)

/-- What the caller reads from the result. -/
def contents {V : Type} (heap : List V) : List Nat → Option (List V)
  | [] => some []
  | r :: rs =>
    match heap[r]?, contents heap rs with
    | some v, some vs => some (v :: vs)
    | _, _ => none

/-- A session: the caller makes one call after another, passing any objects that exist at that
moment, results of earlier calls included; an exception is caught and the session goes on. -/
def session {V : Type} (I : Interp V) : List (Api × List Nat) → List V → List V
  | [], h => h
  | c :: cs, h => session I cs (call I c.1.fn h c.2).1

end Verif.Model.Memory
