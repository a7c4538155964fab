import Verif.Basic.Py
import Verif.Basic.XF
import Mathlib.Analysis.SpecialFunctions.Trigonometric.Basic

/-
Model of `nmse` in geocat/comp/stats.py (lines 11-151).

Simplifications: further dimensions (time, levels) only repeat the computation for each of their positions, so the model has one
horizontal field per variable; values are numbers or NaN (`none`), no infinities; what `cf_xarray` finds by attributes and names is an
input of the model (`found`, `manyLat`, `manyLon`); attributes of the result are not modelled. Data are given cell by cell, in the order of the
flattened grid.
-/

namespace Verif.Model

/-- latitude or longitude coordinate: 1-D, or 2-D given by rows -/
inductive CoordArr (K : Type _)
  | d1 (l : List K)
  | d2 (rows : List (List K))
  deriving DecidableEq

inductive XrKind
  | dataArray
  | dataset
  | other
  deriving DecidableEq

/-- an input of `nmse`; a DataArray has one variable -/
structure GeoInput (K : Type _) where
  kind : XrKind
  coords : List String
  /-- cf_xarray finds a latitude and a longitude -/
  found : Bool
  /-- cf_xarray finds more than one latitude -/
  manyLat : Bool
  /-- cf_xarray finds more than one longitude -/
  manyLon : Bool
  lat : CoordArr K
  lon : CoordArr K
  vars : List (String × List (Option K))

section
variable {K : Type _} [Field K] [LinearOrder K]

/-- `np.diff` of a 1-D array -/
def npDiff (l : List K) : List K := List.zipWith (fun b a => b - a) l.tail l

/-- `np.diff(axis=0)` of a 2-D array -/
def npDiffRows (rows : List (List K)) : List (List K) := List.zipWith (List.zipWith (fun b a => b - a)) rows.tail rows

/-- `np.isclose` with the default tolerances `rtol=1e-5`, `atol=1e-8` -/
def isClose (a b : K) : Bool := decide (|a - b| ≤ 1 / 100000000 + 1 / 100000 * |b|)

/-- stats.py 83-95, for one of the coordinates: differences along axis 0, along axis 1 if all of those are 0; then
`np.allclose(diff, diff[0])`. -/
def evenSpacing : CoordArr K → Except PyErr Bool
  | .d1 l =>
    let d := npDiff l
    -- `np.diff(..., axis=1)` of a 1-D array
    if d.all (fun x => decide (x = 0)) then .error .axisError
    else match d with
      | [] => .error .indexError
      | d0 :: _ => .ok (d.all (fun x => isClose x d0))
  | .d2 rows =>
    let d := npDiffRows rows
    let d := if d.all (fun r => r.all (fun x => decide (x = 0))) then rows.map npDiff else d
    match d with
    | [] => .error .indexError
    -- a 2-D array against its first row
    | r0 :: _ => .ok (d.all (fun r => (List.zipWith isClose r r0).all id))

/-- the latitude of every cell; the other combinations of 1-D and 2-D coordinates are not modelled -/
def cellLats : CoordArr K → CoordArr K → Option (List K)
  | .d1 la, .d1 lo => some (la.flatMap (fun x => List.replicate lo.length x))
  | .d2 la, .d2 _ => some la.flatten
  | _, _ => none

/-- stats.py 122: the weight, 0 where either value is missing -/
def maskWeight (w : K) (o m : Option K) : K := if o.isSome ∧ m.isSome then w else 0

/-- stats.py 123-124: `x.where(weights != 0, 0)` -/
def maskValue (w : K) (x : Option K) : K := if w ≠ 0 then x.getD 0 else 0

/-- xarray `weighted(w).mean()` over the cells; NaN if the weights add up to 0 -/
def weightedMean (ws vs : List K) : XF K :=
  if ws.sum = 0 then .nan else .fin ((List.zipWith (· * ·) ws vs).sum / ws.sum)

/-- stats.py 132-143 for one variable with given weights -/
def nmseSlice (ws o m : List K) : XF K :=
  -- 133
  match weightedMean ws o with
  | .fin ow =>
    -- 136-137
    let num := weightedMean ws (List.zipWith (fun m o => (m - o) * (m - o)) m o)
    -- 140-141
    let den := weightedMean ws (o.map (fun o => (o - ow) * (o - ow)))
    num / den
  | _ => .nan

/-- one variable with its weights: masked weights, observed and modeled values -/
def maskVar (ws : List K) (o m : List (Option K)) : List K × List K × List K :=
  let w := List.zipWith (fun w x => maskWeight w x.1 x.2) ws (List.zip o m)
  (w, List.zipWith maskValue w o, List.zipWith maskValue w m)

inductive NmseOut (K : Type _)
  | one (r : XF K)
  /-- Dataset: every variable has a dimension `variable` -/
  | table (r : List (String × List (String × XF K)))

/-- labels of a coordinate that is an index (1-D), for alignment -/
def indexLabels : CoordArr K → Option (List K)
  | .d1 l => some l
  | .d2 _ => none

/-- stats.py 11-151: `nmse` with weight function `wt` of the latitude -/
def nmseWith (wt : K → K) (observed modeled : GeoInput K) : Except PyErr (NmseOut K) := do
  -- 56-63
  if observed.kind = .other ∨ modeled.kind = .other then throw .typeError
  if observed.kind ≠ modeled.kind then throw .typeError
  -- 66-69
  if ¬ (observed.coords ⊆ modeled.coords ∧ modeled.coords ⊆ observed.coords) then throw .keyError
  -- 75-80
  if ¬ (observed.found ∧ modeled.found) then throw .valueError
  -- 83: `cf["latitude"]` is a KeyError when there are several; the test in 105-108 comes too late
  if observed.manyLat then throw .keyError
  -- 83-98
  let a ← evenSpacing observed.lat
  -- 89
  if observed.manyLon then throw .keyError
  -- the differences of the longitudes are taken before the test
  let b ← evenSpacing observed.lon
  if ¬ (a ∧ b) then throw .valueError
  -- 105-108
  if observed.manyLat ∨ observed.manyLon then throw .valueError
  -- 119-124: `where` with a replacement value demands equal indexes
  if indexLabels observed.lat ≠ indexLabels modeled.lat ∨ indexLabels observed.lon ≠ indexLabels modeled.lon then throw .valueError
  match cellLats observed.lat observed.lon with
  | none => throw .notImplemented
  | some lats =>
    let ws := lats.map wt
    -- shapes (2-D coordinates have no index: sizes are compared)
    if ¬ ((observed.vars ++ modeled.vars).all (fun v => decide (v.2.length = ws.length))) then throw .valueError
    match observed.kind with
    | .dataArray =>
      match observed.vars, modeled.vars with
      | [o], [m] =>
        let (w, o', m') := maskVar ws o.2 m.2
        return .one (nmseSlice w o' m')
      | _, _ => throw .notImplemented
    | _ =>
      -- arithmetic of Datasets needs the same variables in both
      if observed.vars.map (·.1) ≠ modeled.vars.map (·.1) then throw .valueError
      let masked := List.zipWith (fun o m => (o.1, maskVar ws o.2 m.2)) observed.vars modeled.vars
      -- 127-128: the weights of all variables, along a new dimension `variable`, apply to each variable
      return .table (masked.map (fun v => (v.1, masked.map (fun u => (u.1, nmseSlice u.2.1 v.2.2.1 v.2.2.2)))))

end

/-- stats.py 119: `np.cos(np.deg2rad(lat))` -/
noncomputable def cosDeg (φ : ℝ) : ℝ := Real.cos (φ * (Real.pi / 180))

/-- stats.py 11-151 -/
noncomputable def nmse (observed modeled : GeoInput ℝ) : Except PyErr (NmseOut ℝ) := nmseWith cosDeg observed modeled

end Verif.Model
