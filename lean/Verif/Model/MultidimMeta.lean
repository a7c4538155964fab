import Verif.Model.ClimAttrs
import Verif.Basic.Py

/-
Model of the metadata of `interp_multidim`, /repo/geocat/comp/interpolation.py:70-151, 865-987 (the numbers are in `Model/Multidim.lean`).

xarray's rules that are used:
* `xr.DataArray(values, dims=d, coords=x.coords)` has the coordinates of `x` with their attributes, no name and no attributes;
* `xr.DataArray(values, dims=d, coords={name: numbers})` has just these coordinates, without attributes;
* `x.interp(...)` keeps the name, the attributes and all coordinates that do not lie along the interpolated dimensions; the coordinates
  of the interpolated dimensions get new numbers and keep their attributes.
Further coordinates along latitude or longitude (which xarray interpolates as well) are not modelled.
-/

namespace Verif.Model

/-- metadata of a DataArray on a grid: name, attributes, names of the dimensions before the last two, the last two dimensions with the
attributes of their coordinates (`none`: no such coordinate), and the coordinates along none of them, with their attributes -/
structure GridMeta where
  name : Option String
  attrs : Attrs
  lead : List String
  lat : String
  lon : String
  latAttrs : Option Attrs
  lonAttrs : Option Attrs
  others : List (String × Attrs)

/-- interpolation.py:70-125 `_pre_interp_multidim`; `missing` tells whether `missing_val` was given -/
def preInterpMeta (cyclic missing : Bool) (m : GridMeta) : Except PyErr GridMeta := do
  -- 100-105
  let m := if missing then { m with name := none, attrs := noAttrs } else m
  if ¬ cyclic then return m
  -- 109: pad widths for two dimensions
  if m.lead ≠ [] then throw .valueError
  -- 110-112, 118-121: `coords[dim]` of a dimension without coordinate
  if m.lonAttrs.isNone ∨ m.latAttrs.isNone then throw .keyError
  return ⟨none, noAttrs, [], m.lat, m.lon, some noAttrs, some noAttrs, []⟩

/-- `interp`: only numbers change; a dimension without coordinate gets one -/
def interpMeta (m : GridMeta) : GridMeta :=
  { m with latAttrs := some (m.latAttrs.getD noAttrs), lonAttrs := some (m.lonAttrs.getD noAttrs) }

/-- interpolation.py:128-151 `_post_interp_multidim` -/
def postInterpMeta (missing : Bool) (m : GridMeta) : GridMeta := if missing then { m with name := none, attrs := noAttrs } else m

/-- interpolation.py:980-987 -/
def interpMultidimMeta (cyclic missing : Bool) (m : GridMeta) : Except PyErr GridMeta := do
  let p ← preInterpMeta cyclic missing m
  return postInterpMeta missing (interpMeta p)

/-- interpolation.py:966-974: a numpy array with `lat_in` and `lon_in` -/
def numpyGridMeta : GridMeta := ⟨none, noAttrs, [], "lat", "lon", some noAttrs, some noAttrs, []⟩

end Verif.Model
