import Verif.Model.Psi
import Verif.Basic.LArr

/-
Model of the labels in the integration part of `zonal_meridional_psi`, /repo/geocat/comp/meteorology.py:1513-1563: which dimensions the
returned DataArray has and which wind is combined with which surface pressure. The zonal means (uxarray) are given.

Trusted xarray behaviour: arithmetic lines dimensions up by name, the result has the dimensions of the first operand followed by the new
ones of the second; `xr.DataArray(values, dims=, coords=)` raises ValueError when the number of dimensions is not that of the values, when
a coordinate has another size than its dimension, and when a coordinate lies along a dimension that the array does not have.
-/

namespace Verif.Model

/-- `a.cumsum(dim)`: running sum along one dimension, NaN counted as 0 -/
noncomputable def cumsumDim (d : String) (a : LArr (XF ℝ)) : LArr (XF ℝ) :=
  ⟨a.dims, a.size, fun i => (nanCumsum (.fin 0) (a.line d i)).getD (i d) .nan⟩

/-- `a.isel({dim: slice(None, None, -1)})` -/
def reverseDim (d : String) (a : LArr (XF ℝ)) : LArr (XF ℝ) :=
  ⟨a.dims, a.size, fun i => a.get (Function.update i d (a.size d - 1 - i d))⟩

/-- meteorology.py:1532-1541: layer thicknesses of the surface pressures, with the dimensions called time, latitudes and plev whatever
those of the surface pressure are called; `plevName` is the dimension along which the coordinate `plev` of the wind lies. The thickness of
each point is that of `delta_pressure`, whose first error is passed on. -/
noncomputable def psiThickness (plevName : String) (plev lats : List ℝ) (ps : LArr (XF ℝ)) : Except PyErr (LArr (XF ℝ)) := do
  let idx := LArr.indicesOf ps.size ps.dims
  let _ ← idx.mapM (fun i => deltaPressure plev (ps.get i) none)
  match ps.dims with
  | [d0, d1] =>
    if plevName ≠ "plev" then throw .valueError
    if ps.size d1 ≠ lats.length then throw .valueError
    return ⟨["time", "latitudes", "plev"],
      fun d => if d = "time" then ps.size d0 else if d = "latitudes" then ps.size d1 else if d = "plev" then plev.length else 0,
      fun i => match deltaPressure plev (ps.get (fun d => if d = d0 then i "time" else i "latitudes")) none with
        | .ok t => t.getD (i "plev") .nan
        | .error _ => .nan⟩
  | _ => throw .valueError

/-- meteorology.py:1518-1563 on labelled arrays: validation, thickness, integral, factor. `v` is the zonal mean wind, `ps` the zonal mean
surface pressure, `rawPs` the surface pressures of all cells, `plev` and `lats` the coordinates. -/
noncomputable def zonalPsiDA (rawPs : List (XF ℝ)) (plevName : String) (plev lats : List ℝ) (v ps : LArr (XF ℝ)) : Except PyErr (LArr (XF ℝ)) := do
  -- 1523-1529
  if (LArr.indicesOf ps.size ps.dims).any (fun i => (ps.get i).isNaN) then throw .valueError
  if rawPs.any (fun p => XF.le p (.fin 0)) then throw .valueError
  -- 1532-1541
  let dp ← psiThickness plevName plev lats ps
  -- 1544-1550
  let first ← Py.index plev 0
  let last ← Py.index plev (-1)
  let integrand ← LArr.zip (· * ·) v dp
  let m := if first < last then cumsumDim "plev" integrand
    else reverseDim "plev" (cumsumDim "plev" (reverseDim "plev" integrand))
  -- 1553-1554
  let factor : LArr (XF ℝ) := ⟨["latitudes"], fun _ => lats.length, fun i => .fin (psiFactor (lats.getD (i "latitudes") 0))⟩
  LArr.zip (· * ·) m factor

end Verif.Model
