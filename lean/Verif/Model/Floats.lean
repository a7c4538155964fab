import Verif.Basic.Rounding
import Verif.Model.DeltaPressure
import Verif.Model.Interp1d

/-
The same code in floating-point arithmetic without overflow: every operation of `hya * p0 + hyb * psfc`, of the interpolation formula, of
`_delta_pressure1D` and of an average returns a rounded result (`Basic/Rounding`). Comparisons, sorting and indexing are exact. With exact
arithmetic these definitions are the ones of `Model/Hybrid`, `Model/Interp1d` and `Model/DeltaPressure` (`Props/Floats`).
-/

namespace Verif.Model
variable {K : Type _} [Field K] [LinearOrder K]

/-- interpolation.py:421 `hya * p0 + hyb * psfc`; 502-503 the same with the factors of `hya * p0` swapped -/
def pressureFl (R : Rounding K) (a b p0 ps : K) : K := R.fl (R.fl (a * p0) + R.fl (b * ps))

/-- interpolation.py:502-505 `abs(pa - pb)` of one layer -/
def layerFl (R : Rounding K) (a b a' b' p0 ps : K) : K := |R.fl (pressureFl R a b p0 ps - pressureFl R a' b' p0 ps)|

/-- rounding of an extended number -/
def roundXF (R : Rounding K) : XF K → XF K
  | .fin x => .fin (R.fl x)
  | .pinf => .pinf
  | .ninf => .ninf
  | .nan => .nan

/-- metpy's formula for one value, each operation rounded (see `interpPoint`) -/
def lineFl (R : Rounding K) (xb xa : K) (vb va : XF K) (x : K) : XF K :=
  roundXF R (vb + roundXF R (roundXF R (va - vb) * roundXF R (.fin (R.fl (x - xb)) / .fin (R.fl (xa - xb)))))

/-- `interpPoint` with another formula for the value between two levels -/
def interpPointBy (line : K → K → XF K → XF K → K → XF K) (xp : List K) (v : List (XF K)) (x : K) : Except PyErr (XF K) := do
  let n := xp.length
  let m := searchLeft xp x
  let m2 : Int := if m = 0 then 1 else if m = n then (n : Int) - 1 else m
  let xa ← Py.index xp m2
  let xb ← Py.index xp (m2 - 1)
  let va ← Py.index v m2
  let vb ← Py.index v (m2 - 1)
  let val := line xb xa vb va x
  if m = n ∨ x < xb then return .nan
  else return val

/-- `interpolate_1d(x, xp, v)` for one column in floating-point arithmetic (see `interpolate1d`) -/
def interpolate1dFl (R : Rounding K) (x xp : List K) (v : List (XF K)) : Except PyErr (List (XF K)) := do
  if xp.length ≠ v.length then throw .valueError
  if x.isEmpty then throw .valueError
  let s := sortPairs xp v
  let r ← (x.insertionSort (· ≤ ·)).mapM (interpPointBy (lineFl R) (s.map (·.1)) (s.map (·.2)))
  let first ← Py.index x 0
  let last ← Py.index x (-1)
  return if last < first then r.reverse else r

/-- meteorology.py:1231 `(a + b) / 2` -/
def avgFl (R : Rounding K) (a b : K) : K := R.fl (R.fl (a + b) / 2)

/-- meteorology.py:1227-1252 as in `deltaSorted`, in floating-point arithmetic -/
def deltaSortedFl (R : Rounding K) (q : List K) (ps ptop : K) : Except PyErr (List (XF K)) := do
  -- 1228
  let delta := List.replicate q.length (XF.nan : XF K)
  -- 1231-1233
  let midpoints := (List.zipWith (avgFl R) q (Np.roll1 q)).set 0 0
  let indices := Np.nonzero (midpoints.map (fun m => decide (m < ps)))
  -- 1235-1236
  let s ← Py.minNat indices
  let e ← Py.maxNat indices
  -- 1238-1240
  let qs ← Py.index q (s : Int)
  let qs1 ← Py.index q ((s : Int) + 1)
  let delta ← Py.setIndex delta (s : Int) (.fin (R.fl (avgFl R qs qs1 - ptop)))
  -- 1242-1248
  let delta ← Py.setSlice delta ((s : Int) + 1) (e : Int)
    (List.zipWith (fun a b => XF.fin (R.fl (R.fl (a - b) / 2)))
      (Py.slice q ((s : Int) + 2) ((e : Int) + 1)) (Py.slice q (s : Int) (e : Int)))
  -- 1250-1252
  let qe ← Py.index q (e : Int)
  let qe1 ← Py.index q ((e : Int) - 1)
  Py.setIndex delta (e : Int) (.fin (R.fl (ps - avgFl R qe qe1)))

/-- meteorology.py:1182-1258 `_delta_pressure1D` in floating-point arithmetic (see `deltaPressure1D`) -/
def deltaPressure1DFl (R : Rounding K) (p : List K) (ps ptop : K) : Except PyErr (List (XF K)) := do
  if ptop < 0 then throw .valueError
  if ps < ptop then throw .valueError
  let p1 ← Py.index p 1
  let p0 ← Py.index p 0
  if p1 < p0 then
    let delta ← deltaSortedFl R p.reverse ps ptop
    return delta.reverse
  else
    deltaSortedFl R p ps ptop

/-- meteorology.py:1261-1369 `delta_pressure` for a scalar surface pressure in floating-point arithmetic (see `deltaPressure`) -/
def deltaPressureFl (R : Rounding K) (p : List K) (ps : K) (ptop : Option K) : Except PyErr (List (XF K)) := do
  let t ← resolveTop p ptop
  deltaPressure1DFl R p ps t

/-- an order in which the numbers of a list are added up: one number, or the sum of two parts. `np.sum` adds pairwise, dask block by block;
bottleneck and flox one after the other. -/
inductive SumTree (K : Type _) where
  | leaf : K → SumTree K
  | node : SumTree K → SumTree K → SumTree K

/-- the numbers added up -/
def SumTree.list {α : Type _} : SumTree α → List α
  | .leaf x => [x]
  | .node l r => l.list ++ r.list

/-- the same order for the images of the numbers -/
def SumTree.map {α β : Type _} (f : α → β) : SumTree α → SumTree β
  | .leaf x => .leaf (f x)
  | .node l r => .node (l.map f) (r.map f)

/-- the sum in floating-point arithmetic in this order -/
def SumTree.sumFl (R : Rounding K) : SumTree K → K
  | .leaf x => x
  | .node l r => R.fl (l.sumFl R + r.sumFl R)

/-- the mean `sum / count` (climatologies.py:324, 435, 633, 655 `.mean`) in floating-point arithmetic, added up in this order -/
def SumTree.meanFl (R : Rounding K) (t : SumTree K) : K := R.fl (t.sumFl R / t.list.length)

end Verif.Model
