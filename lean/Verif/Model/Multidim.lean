import Verif.Model.Interp1d
import Verif.Basic.Tensor

/-
Model of `interp_multidim`, /repo/geocat/comp/interpolation.py:70-151, 865-987, with the part of `xarray.DataArray.interp`
and `scipy.interpolate.interp1d` it uses, following their published sources: sort by coordinate, then one-dimensional interpolation
along longitude, then along latitude (methods "linear" and "nearest" are decomposed this way by xarray).
-/

namespace Verif.Model
variable {K : Type _} [Field K] [LinearOrder K]

/-- an array whose last two dimensions are latitude and longitude; `lead` dimensions before them -/
structure GridArr (K : Type _) where
  lead : Nat
  nlat : Nat
  nlon : Nat
  get : List Nat → Nat → Nat → XF K

/-- a DataArray of this kind: with coordinates (metadata is not modelled) -/
structure GeoGrid (K : Type _) extends GridArr K where
  lat : List K
  lon : List K

/-- the `method` argument (other methods of xarray are not modelled) -/
inductive GridMethod
  | linear | nearest

/-- `data_in` with `lat_in` and `lon_in` -/
inductive MultiIn (K : Type _)
  | xr (g : GeoGrid K)
  | np (a : GridArr K) (lat lon : Option (List K))

/-! scipy -/

/-- `interp1d._call_linear` at one point, on sorted points: `searchsorted`, `clip(1, n-1)`, line through the two points -/
def scipyLinear (x : List K) (y : List (XF K)) (q : K) : XF K :=
  let n := x.length
  let hi := min (max (searchLeft x q) 1) (n - 1)
  -- index -1 is the last element
  let lo := if hi = 0 then n - 1 else hi - 1
  let slope := (y.getD hi .nan - y.getD lo .nan) / .fin (x.getD hi 0 - x.getD lo 0)
  slope * .fin (q - x.getD lo 0) + y.getD lo .nan

/-- `interp1d._call_nearest` at one point: `searchsorted` in the midpoints, side left, `clip(0, n-1)` -/
def scipyNearest (x : List K) (y : List (XF K)) (q : K) : XF K :=
  let mid := List.zipWith (fun a b => b / 2 + a / 2) x x.tail
  y.getD (min (searchLeft mid q) (x.length - 1)) .nan

/-- one axis: sorted by coordinate (`sortby`), then `interp1d(x, y, kind=method, fill_value=fill)(q)`; `fill = none` is
`fill_value='extrapolate'` -/
def interpAxis (m : GridMethod) (fill : Option (XF K)) (x : List K) (y : List (XF K)) (q : K) : XF K :=
  let s := sortPairs x y
  let xs := s.map (·.1)
  let ys := s.map (·.2)
  let v := match m with
    | .linear => scipyLinear xs ys q
    | .nearest => scipyNearest xs ys q
  match fill with
  | none => v
  | some f => if q < xs.headD 0 ∨ xs.getLastD 0 < q then f else v

/-- `data.interp({lon: lon_out, lat: lat_out}, method, kwargs={'fill_value': fill})` -/
def xrInterp (m : GridMethod) (fill : Option (XF K)) (g : GeoGrid K) (latOut lonOut : List K) : GeoGrid K where
  lead := g.lead
  nlat := latOut.length
  nlon := lonOut.length
  lat := latOut
  lon := lonOut
  get := fun t i j => interpAxis m fill g.lat
    ((List.range g.nlat).map fun r => interpAxis m fill g.lon ((List.range g.nlon).map fun c => g.get t r c) (lonOut.getD j 0))
    (latOut.getD i 0)

/-! geocat -/

/-- `np.pad(l, (1, 1), mode='wrap')` -/
def padWrap {α : Type _} (l : List α) : List α :=
  match l.head?, l.getLast? with
  | some a, some b => b :: l ++ [a]
  | _, _ => []

/-- interpolation.py:70-125 `_pre_interp_multidim` -/
def preInterp (cyclic : Bool) (missing : Option (XF K)) (g : GeoGrid K) : Except PyErr (GeoGrid K) := do
  -- 100-105
  let g := match missing with
    | none => g
    | some m => { g with get := fun t i j => if (g.get t i j).eqb m then .nan else g.get t i j }
  if ¬ cyclic then return g
  -- 109: the pad widths are for two dimensions; an empty axis cannot be padded by wrapping
  if g.lead ≠ 0 ∨ g.nlon = 0 then throw .valueError
  -- 110-114
  let p := padWrap g.lon
  let p ← Py.setIndex p 0 ((p.headD 0) - 360)
  let p ← Py.setIndex p (-1) ((p.getLastD 0) + 360)
  -- 109, 116-123
  return { g with lon := p, nlon := g.nlon + 2, get := fun t i j => g.get t i ((j + g.nlon - 1) % g.nlon) }

/-- interpolation.py:128-151 `_post_interp_multidim` -/
def postInterp (missing : Option (XF K)) (g : GeoGrid K) : GeoGrid K :=
  match missing with
  | none => g
  | some m => { g with get := fun t i j => if (g.get t i j).isNaN then m else g.get t i j }

/-- interpolation.py:865-987 `interp_multidim`: type of the returned object and its content -/
def interpMultidim (d : MultiIn K) (latOut lonOut : List K) (cyclic : Bool) (missing : Option (XF K)) (m : GridMethod)
    (fill : Option (XF K)) : Except PyErr (PyType × GeoGrid K) := do
  -- 967-974
  let g ← match d with
    | .xr g => pure g
    | .np a (some lat) (some lon) =>
      -- `xr.DataArray(data_in, dims=['lat', 'lon'], coords=...)` checks rank and lengths
      if a.lead ≠ 0 ∨ lat.length ≠ a.nlat ∨ lon.length ≠ a.nlon then throw .valueError
      else pure { a with lat := lat, lon := lon }
    | .np _ _ _ => throw .valueError
  -- 981
  let g ← preInterp cyclic missing g
  -- 982-984
  let out := xrInterp m fill g latOut lonOut
  -- 985
  return (.dataArray, postInterp missing out)

end Verif.Model
