import Verif.Model.Floats
import Verif.Model.Multidim

/-
`interp_multidim` in floating-point arithmetic without overflow: every operation of the padded longitudes and of
`scipy.interpolate.interp1d` returns a rounded result (`Basic/Rounding`). Comparisons, sorting and indexing are exact. With exact
arithmetic these definitions are the ones of `Model/Multidim` (`C154_exact`).
-/

namespace Verif.Model
variable {K : Type _} [Field K] [LinearOrder K]

/-- scipy `interp1d._call_linear` at one point (see `scipyLinear`), each operation rounded -/
def scipyLinearFl (R : Rounding K) (x : List K) (y : List (XF K)) (q : K) : XF K :=
  let n := x.length
  let hi := min (max (searchLeft x q) 1) (n - 1)
  let lo := if hi = 0 then n - 1 else hi - 1
  let slope := roundXF R (roundXF R (y.getD hi .nan - y.getD lo .nan) / .fin (R.fl (x.getD hi 0 - x.getD lo 0)))
  roundXF R (roundXF R (slope * .fin (R.fl (q - x.getD lo 0))) + y.getD lo .nan)

/-- scipy `interp1d._call_nearest` at one point (see `scipyNearest`): `x_bds = x / 2.0`, `x_bds[1:] + x_bds[:-1]`, each operation rounded -/
def scipyNearestFl (R : Rounding K) (x : List K) (y : List (XF K)) (q : K) : XF K :=
  let mid := List.zipWith (fun a b => R.fl (R.fl (b / 2) + R.fl (a / 2))) x x.tail
  y.getD (min (searchLeft mid q) (x.length - 1)) .nan

/-- one axis (see `interpAxis`) -/
def interpAxisFl (R : Rounding K) (m : GridMethod) (fill : Option (XF K)) (x : List K) (y : List (XF K)) (q : K) : XF K :=
  let s := sortPairs x y
  let xs := s.map (·.1)
  let ys := s.map (·.2)
  let v := match m with
    | .linear => scipyLinearFl R xs ys q
    | .nearest => scipyNearestFl R xs ys q
  match fill with
  | none => v
  | some f => if q < xs.headD 0 ∨ xs.getLastD 0 < q then f else v

/-- `data.interp({lon: lon_out, lat: lat_out}, method, kwargs={'fill_value': fill})` (see `xrInterp`) -/
def xrInterpFl (R : Rounding K) (m : GridMethod) (fill : Option (XF K)) (g : GeoGrid K) (latOut lonOut : List K) : GeoGrid K where
  lead := g.lead
  nlat := latOut.length
  nlon := lonOut.length
  lat := latOut
  lon := lonOut
  get := fun t i j => interpAxisFl R m fill g.lat
    ((List.range g.nlat).map fun r => interpAxisFl R m fill g.lon ((List.range g.nlon).map fun c => g.get t r c) (lonOut.getD j 0))
    (latOut.getD i 0)

/-- interpolation.py:70-125 `_pre_interp_multidim` (see `preInterp`), with rounded padded longitudes -/
def preInterpFl (R : Rounding K) (cyclic : Bool) (missing : Option (XF K)) (g : GeoGrid K) : Except PyErr (GeoGrid K) := do
  -- 100-105
  let g := match missing with
    | none => g
    | some m => { g with get := fun t i j => if (g.get t i j).eqb m then .nan else g.get t i j }
  if ¬ cyclic then return g
  -- 109
  if g.lead ≠ 0 ∨ g.nlon = 0 then throw .valueError
  -- 110-114
  let p := padWrap g.lon
  let p ← Py.setIndex p 0 (R.fl ((p.headD 0) - 360))
  let p ← Py.setIndex p (-1) (R.fl ((p.getLastD 0) + 360))
  -- 109, 116-123
  return { g with lon := p, nlon := g.nlon + 2, get := fun t i j => g.get t i ((j + g.nlon - 1) % g.nlon) }

/-- interpolation.py:865-987 `interp_multidim` of float data in floating-point arithmetic (see `interpMultidim`) -/
def interpMultidimFl (R : Rounding K) (d : MultiIn K) (latOut lonOut : List K) (cyclic : Bool) (missing : Option (XF K)) (m : GridMethod)
    (fill : Option (XF K)) : Except PyErr (PyType × GeoGrid K) := do
  -- 967-974
  let g ← match d with
    | .xr g => pure g
    | .np a (some lat) (some lon) =>
      if a.lead ≠ 0 ∨ lat.length ≠ a.nlat ∨ lon.length ≠ a.nlon then throw .valueError
      else pure { a with lat := lat, lon := lon }
    | .np _ _ _ => throw .valueError
  -- 981
  let g ← preInterpFl R cyclic missing g
  -- 982-984
  let out := xrInterpFl R m fill g latOut lonOut
  -- 985
  return (.dataArray, postInterp missing out)

end Verif.Model
