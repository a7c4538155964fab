import Verif.Model.Humidity
import Verif.Model.HeatIndex
import Verif.Model.DeltaPressure
import Verif.Model.ClimAttrs
import Verif.Model.Evap
import Verif.Basic.LArr

/-
Model of what the functions of /repo/geocat/comp/meteorology.py do with the labels of DataArrays: dimension names, coordinates and
attributes. The numbers of the numpy versions are in Model/Humidity, HeatIndex, Evap and DeltaPressure.

Trusted xarray behaviour: arithmetic lines dimensions up by name, the result has the dimensions of the first operand followed by the
new ones of the second; `xr.DataArray(data, coords=, dims=)` takes the bare values of `data` in their order and gives them the new
dimension names (ValueError if the number of dimensions or the sizes do not fit).
-/

namespace Verif.Model
open XF
noncomputable section

/-! ### dimension names -/

/-- `xr.DataArray(data=r, coords=coords of the given dimensions, dims=dims)`: the values of `r` by position -/
def relabel {α : Type _} (dims : List String) (size : String → Nat) (r : LArr α) : Except PyErr (LArr α) :=
  if r.shape ≠ dims.map size then .error .valueError
  else .ok ⟨dims, size, fun i => r.get (fun d => i (dims.getD (r.dims.idxOf d) ""))⟩

/-- meteorology.py:158-164 and 242-248 on DataArrays: `est` is a function of the temperature; `(p * 0.01) - onemep * est`,
`(ep * est) / (...)`, `100 * (w / qst)` -/
def relhumNames (est : XF ℝ → XF ℝ) (t w p : LArr (XF ℝ)) : Except PyErr (LArr (XF ℝ)) := do
  let e := t.map est
  let den ← LArr.zip (fun p e => (p * fin 0.01) - fin 0.378 * e) p e
  let q ← LArr.zip (fun e d => (fin 0.622 * e) / d) e den
  LArr.zip (fun w q => fin 100 * (w / q)) w q

/-- meteorology.py:600-689 `relhum_ice` (692-783 `relhum_water`) for three DataArrays: shape check 674 (772), computation 677 (775),
relabelling with the dimensions of the temperature 680-683 (778-781) -/
def relhumDA (est : XF ℝ → XF ℝ) (t w p : LArr (XF ℝ)) : Except PyErr (LArr (XF ℝ)) := do
  if t.shape ≠ w.shape ∨ t.shape ≠ p.shape then throw .valueError
  let r ← relhumNames est t w p
  relabel t.dims t.size r

def relhumIceDA := relhumDA estIce
def relhumWaterDA := relhumDA estWater

/-- meteorology.py:299 `dewtemp` for two DataArrays: plain arithmetic, temperature first (45) -/
def dewtempDA (t rh : LArr (XF ℝ)) : Except PyErr (LArr (XF ℝ)) := LArr.zip dewtempPoint t rh

/-- meteorology.py:574-586 `relhum` for three DataArrays: plain arithmetic, mixing ratio first (583). For temperatures whose table
lookup does not fail. -/
def relhumTableDA (t w p : LArr (XF ℝ)) : Except PyErr (LArr (XF ℝ)) := do
  let es := t.map relhumEsD
  let q ← LArr.zip Prod.mk p es
  LArr.zip (fun w q => relhumOfEs q.2 w q.1) w q

/-- meteorology.py:395-475 `heat_index` for two DataArrays: shape check 395; the last `xr.where` has a condition that starts with the
relative humidity (471), whose dimension order the result gets. The checks of the humidity range (401-408) are in `heatIndex`. -/
def heatIndexDA (alt : Bool) (t rh : LArr (XF ℝ)) : Except PyErr (LArr (XF ℝ)) := do
  if t.shape ≠ rh.shape then throw .valueError
  LArr.zip (fun rh t => heatIndexPoint alt t rh) rh t

/-! ### attributes -/

/-- `x.attrs[key] = value` -/
def setAttr (a : Attrs) (key value : String) : Attrs := fun k => if k = key then some value else a k

/-- the functions that return a DataArray for DataArray input -/
inductive MetFn
  | dewtemp | heatIndex | relhum | relhumIce | relhumWater | maxDaylight | psychrometric | svp | actualSvp | svpSlope
  deriving DecidableEq

/-- The attributes of the result. `base` are the attributes that the arithmetic leaves on the computed DataArray (none or the first
operand's, depending on the version and options of xarray); `t` those of the first argument (the temperature).
meteorology.py:302-303, 483-489, 591-595, 671+682, 769+780, 873-876, 944-947, 1015-1018, 1086-1089, 1156-1159 -/
def metAttrs (f : MetFn) (base t : Attrs) : Attrs :=
  match f with
  | .dewtemp => setAttr (setAttr base "long_name" "dew point temperature") "units" "Kelvin"
  | .heatIndex =>
    setAttr (setAttr (setAttr (setAttr (setAttr base "long_name" "heat index: NWS") "units" "F")
      "www" "https://www.wpc.ncep.noaa.gov/html/heatindex_equation.shtml")
      "info" "appropriate for shady locations with no wind") "tag" "heat_index: (Steadman+t)*0.5 and Rothfusz"
  | .relhum =>
    setAttr (setAttr (setAttr base "long_name" "relative humidity") "units" "percentage")
      "info" "https://journals.ametsoc.org/view/journals/apme/35/4/1520-0450_1996_035_0601_imfaos_2_0_co_2.xml"
  | .relhumIce => t
  | .relhumWater => t
  | .maxDaylight =>
    setAttr (setAttr (setAttr (setAttr noAttrs "long_name" "maximum daylight: FAO_56") "units" "hours/day")
      "url" "http://www.fao.org/docrep/X0490E/x0490e07.htm") "info" "FAO 56; EQN 34; max_daylight"
  | .psychrometric =>
    setAttr (setAttr (setAttr (setAttr base "long_name" "psychrometric constant") "units" "kPa/C")
      "url" "https://www.fao.org/docrep/X0490E/x0490e07.htm") "info" "FAO 56; EQN 8; psychrometric_constant"
  | .svp => svpAttrs base
  | .actualSvp =>
    setAttr (setAttr (setAttr (setAttr (svpAttrs base) "long_name" "actual saturation vapor pressure via Tdew") "units" "kPa")
      "url" "https://www.fao.org/docrep/X0490E/x0490e07.htm") "info" "FAO 56; EQN 14; actual_saturation_vapor_pressure"
  | .svpSlope =>
    setAttr (setAttr (setAttr (setAttr base "long_name" "slope saturation vapor pressure curve") "units" "kPa/C")
      "url" "https://www.fao.org/docrep/X0490E/x0490e07.htm") "info" "FAO 56; EQN 13; saturation_vapor_pressure_slope"
where
  /-- meteorology.py:1015-1018 -/
  svpAttrs (base : Attrs) : Attrs :=
    setAttr (setAttr (setAttr (setAttr base "long_name" "saturation vapor pressure") "units" "kPa")
      "url" "https://www.fao.org/docrep/X0490E/x0490e07.htm") "info" "FAO 56; EQN 11; saturation_vapor_pressure"

/-! ### delta_pressure -/

/-- a DataArray with the coordinate `lev` singled out -/
structure LevelDA (α : Type _) where
  arr : NDArr α
  dims : List String
  attrs : Attrs
  name : String

/-- meteorology.py:1315-1323, 1353-1367 `delta_pressure` for a DataArray of surface pressures with dimensions `dims` and attributes
`attrs`; `levAttrs` are the attributes of `pressure_lev` if that is a DataArray. Returns the DataArray and its coordinate `lev`.
Not modelled: a surface pressure that already has a dimension `lev`. -/
def deltaPressureDA {K : Type _} [Field K] [LinearOrder K] (levAttrs : Option Attrs) (p : List K) (dims : List String) (attrs : Attrs)
    (ps : NDArr (XF K)) (ptop : Option K) : Except PyErr (LevelDA (XF K) × List K) := do
  -- 1316-1323
  let a := match levAttrs with
    | some l => l
    | none => attrs
  let r ← deltaPressureND p ps ptop
  -- 1354-1367
  return (⟨r, dims ++ ["lev"], setAttr a "long name" "pressure layer thickness", "delta pressure"⟩, p)

/-! ### max_daylight -/

/-- meteorology.py:829-878 `max_daylight` when `jday` is a DataArray: the result is built with coordinates `[jday, lat]` for the
dimensions `doy`, `lat`, which must be one-dimensional (ValueError otherwise). Returns the warning, the values and the two coordinates. -/
def maxDaylightDA (jday lat : Tensor (XF ℝ)) : Except PyErr (Option LatWarning × Tensor (XF ℝ) × List (XF ℝ) × List (XF ℝ)) := do
  let r ← maxDaylight jday lat
  if jday.shape.length ≠ 1 ∨ lat.shape.length ≠ 1 then throw .valueError
  return (r.1, r.2, jday.values, lat.values)

end
end Verif.Model
