import Verif.Model.Floats
import Verif.Model.Nmse

/-
`nmse` (stats.py 11-151) in floating-point arithmetic without overflow: every product, difference, quotient and addition is rounded
(`Basic/Rounding`). The order in which xarray adds up (`dot`, `einsum`) is not documented: `sum` is any function that adds up the entries of a list in
some order.
-/

namespace Verif.Model

deriving instance DecidableEq for NmseOut

variable {K : Type _} [Field K] [LinearOrder K]

/-- `sum` adds up all entries of every list, in some order, rounding each addition -/
def AddsUp (R : Rounding K) (sum : List K → K) : Prop :=
  sum [] = 0 ∧ ∀ l, l ≠ [] → ∃ t : SumTree K, t.list.Perm l ∧ sum l = t.sumFl R

/-- numpy's order for short lists: one entry after the other -/
def leftSum (R : Rounding K) : List K → K
  | [] => 0
  | x :: xs => xs.foldl (fun a y => R.fl (a + y)) x

/-- xarray `weighted(w).mean()` over the cells: sum of products over sum of weights, NaN if the weights add up to 0 (see `weightedMean`) -/
def weightedMeanFl (R : Rounding K) (sum : List K → K) (ws vs : List K) : XF K :=
  if sum ws = 0 then .nan else .fin (R.fl (sum (List.zipWith (fun w v => R.fl (w * v)) ws vs) / sum ws))

/-- the square of a difference -/
def sqDiffFl (R : Rounding K) (a b : K) : K := R.fl (R.fl (a - b) * R.fl (a - b))

/-- stats.py 132-143 for one variable with given weights (see `nmseSlice`) -/
def nmseSliceFl (R : Rounding K) (sum : List K → K) (ws o m : List K) : XF K :=
  -- 133
  match weightedMeanFl R sum ws o with
  | .fin ow =>
    -- 136-137
    let num := weightedMeanFl R sum ws (List.zipWith (sqDiffFl R) m o)
    -- 140-141
    let den := weightedMeanFl R sum ws (o.map (fun o => sqDiffFl R o ow))
    -- 143
    roundXF R (num / den)
  | _ => .nan

/-- `np.diff` of a 1-D array -/
def npDiffFl (C : Rounding K) (l : List K) : List K := List.zipWith (fun b a => C.fl (b - a)) l.tail l

/-- `np.diff(axis=0)` of a 2-D array -/
def npDiffRowsFl (C : Rounding K) (rows : List (List K)) : List (List K) := List.zipWith (List.zipWith (fun b a => C.fl (b - a))) rows.tail rows

/-- `np.isclose` with the default tolerances: `abs(a - b) <= atol + rtol * abs(b)` -/
def isCloseFl (C : Rounding K) (a b : K) : Bool :=
  decide (|C.fl (a - b)| ≤ C.fl (C.fl (1 / 100000000) + C.fl (C.fl (1 / 100000) * |b|)))

/-- stats.py 83-95 in the precision `C` of the coordinates (see `evenSpacing`) -/
def evenSpacingFl (C : Rounding K) : CoordArr K → Except PyErr Bool
  | .d1 l =>
    let d := npDiffFl C l
    if d.all (fun x => decide (x = 0)) then .error .axisError
    else match d with
      | [] => .error .indexError
      | d0 :: _ => .ok (d.all (fun x => isCloseFl C x d0))
  | .d2 rows =>
    let d := npDiffRowsFl C rows
    let d := if d.all (fun r => r.all (fun x => decide (x = 0))) then rows.map (npDiffFl C) else d
    match d with
    | [] => .error .indexError
    | r0 :: _ => .ok (d.all (fun r => (List.zipWith (isCloseFl C) r r0).all id))

/-- stats.py 11-151 `nmse` with the test of lines 83-98 and the computation of lines 132-143 left open (see `nmseWith`) -/
def nmseWithBy (even : CoordArr K → Except PyErr Bool) (slice : List K → List K → List K → XF K) (wt : K → K) (observed modeled : GeoInput K) : Except PyErr (NmseOut K) := do
  if observed.kind = .other ∨ modeled.kind = .other then throw .typeError
  if observed.kind ≠ modeled.kind then throw .typeError
  if ¬ (observed.coords ⊆ modeled.coords ∧ modeled.coords ⊆ observed.coords) then throw .keyError
  if ¬ (observed.found ∧ modeled.found) then throw .valueError
  if observed.manyLat then throw .keyError
  let a ← even observed.lat
  if observed.manyLon then throw .keyError
  let b ← even observed.lon
  if ¬ (a ∧ b) then throw .valueError
  if observed.manyLat ∨ observed.manyLon then throw .valueError
  if indexLabels observed.lat ≠ indexLabels modeled.lat ∨ indexLabels observed.lon ≠ indexLabels modeled.lon then throw .valueError
  match cellLats observed.lat observed.lon with
  | none => throw .notImplemented
  | some lats =>
    let ws := lats.map wt
    if ¬ ((observed.vars ++ modeled.vars).all (fun v => decide (v.2.length = ws.length))) then throw .valueError
    match observed.kind with
    | .dataArray =>
      match observed.vars, modeled.vars with
      | [o], [m] =>
        let (w, o', m') := maskVar ws o.2 m.2
        return .one (slice w o' m')
      | _, _ => throw .notImplemented
    | _ =>
      if observed.vars.map (·.1) ≠ modeled.vars.map (·.1) then throw .valueError
      let masked := List.zipWith (fun o m => (o.1, maskVar ws o.2 m.2)) observed.vars modeled.vars
      return .table (masked.map (fun v => (v.1, masked.map (fun u => (u.1, slice u.2.1 v.2.2.1 v.2.2.2)))))

/-- stats.py 11-151 `nmse` in floating-point arithmetic; `C` is the precision of the coordinates, `R` that of the data, `wt` the stored weight of a
latitude. -/
def nmseWithFl (C R : Rounding K) (sum : List K → K) (wt : K → K) (observed modeled : GeoInput K) : Except PyErr (NmseOut K) :=
  nmseWithBy (evenSpacingFl C) (nmseSliceFl R sum) wt observed modeled

end Verif.Model
