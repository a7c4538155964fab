import Verif.Model.DeltaPressure
import Verif.Basic.XReal

/-
Model of the integration part of `zonal_meridional_psi`, /repo/geocat/comp/meteorology.py:1518-1563. The zonal means
(uxarray) are given; `Verif.Model.Lookup` models the choice of variables.
-/

namespace Verif.Model
variable {K : Type _} [Field K] [LinearOrder K]

/-- xarray `cumsum` with its default `skipna`: running sum with NaN counted as 0 -/
def nanCumsum (acc : XF K) : List (XF K) → List (XF K)
  | [] => []
  | x :: xs =>
    let a := acc + (if x.isNaN then .fin 0 else x)
    a :: nanCumsum a xs

/-- meteorology.py:1532-1552 for one time and latitude: thickness, integrand, cumulative sum from the top of the
atmosphere, scaling by the factor `c` -/
def psiColumn (c : K) (plev : List K) (v : List (XF K)) (ps : XF K) : Except PyErr (List (XF K)) := do
  -- 1532
  let d ← deltaPressure plev ps none
  -- 1543
  let first ← Py.index plev 0
  let last ← Py.index plev (-1)
  let integrand := List.zipWith (· * ·) v d
  let m := if first < last then nanCumsum (.fin 0) integrand   -- 1544-1545
    else (nanCumsum (.fin 0) integrand.reverse).reverse         -- 1547-1548
  -- 1552
  return m.map (· * .fin c)

/-- meteorology.py:1551 `2 * np.pi * a * np.cos(lats) / g` with the latitude exactly as stored (degrees) -/
noncomputable def psiFactor (lat : ℝ) : ℝ := 2 * Real.pi * 6378137 * Real.cos lat / 9.80665

/-- meteorology.py:1518-1552: validation, then one column per time and latitude. `rawPs` are the surface pressures of
all cells; `cols` the zonal means (surface pressure, wind column) per time and latitude. -/
noncomputable def zonalPsi (rawPs : List (XF ℝ)) (plev lats : List ℝ) (cols : List (List (XF ℝ × List (XF ℝ)))) :
    Except PyErr (List (List (List (XF ℝ)))) :=
  -- 1523
  if cols.any (fun row => row.any (fun c => c.1.isNaN)) then .error .valueError
  -- 1528
  else if rawPs.any (fun p => XF.le p (.fin 0)) then .error .valueError
  else cols.mapM (fun row => (row.zip lats).mapM (fun e => psiColumn (psiFactor e.2) plev e.1.2 e.1.1))

end Verif.Model
