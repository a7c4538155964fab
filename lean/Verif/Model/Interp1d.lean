import Verif.Basic.Py
import Verif.Basic.XF
import Mathlib.Data.List.Sort

/-
Model of `metpy.interpolate.interpolate_1d` on one column (the dependency called by `_vertical_remap`,
`_interpolate_mb`, `interp_hybrid_to_pressure` and `interp_sigma_to_hybrid`, /repo/geocat/comp/interpolation.py:40-67,
163-170, 700-728), following its published source: sort the column by coordinate, sort the requested coordinates,
`searchsorted`, linear formula, NaN outside, and turn the result round if the first requested coordinate is larger
than the last. `log_interpolate_1d` is the same on logarithms.
-/

namespace Verif.Model
variable {K : Type _} [Field K] [LinearOrder K]

/-- `np.searchsorted(xp, x)` (side left) for sorted `xp` -/
def searchLeft (xp : List K) (x : K) : Nat := (xp.takeWhile (fun a => a < x)).length

/-- `xp[sorter]`, `var[sorter]` with `sorter = argsort(xp)` -/
def sortPairs (xp : List K) (v : List (XF K)) : List (K × XF K) :=
  (xp.zip v).insertionSort (fun a b => a.1 ≤ b.1)

/-- one requested coordinate, on sorted columns -/
def interpPoint (xp : List K) (v : List (XF K)) (x : K) : Except PyErr (XF K) := do
  let n := xp.length
  let m := searchLeft xp x
  -- indices of the level above; both ends moved inside the column
  let m2 : Int := if m = 0 then 1 else if m = n then (n : Int) - 1 else m
  let xa ← Py.index xp m2
  let xb ← Py.index xp (m2 - 1)
  let va ← Py.index v m2
  let vb ← Py.index v (m2 - 1)
  let val := vb + (va - vb) * (.fin (x - xb) / .fin (xa - xb))
  -- out of bounds: fill value NaN
  if m = n ∨ x < xb then return .nan
  else return val

/-- `interpolate_1d(x, xp, v)` for one column -/
def interpolate1d (x xp : List K) (v : List (XF K)) : Except PyErr (List (XF K)) := do
  if xp.length ≠ v.length then throw .valueError
  if x.isEmpty then throw .valueError
  let s := sortPairs xp v
  let r ← (x.insertionSort (· ≤ ·)).mapM (interpPoint (s.map (·.1)) (s.map (·.2)))
  let first ← Py.index x 0
  let last ← Py.index x (-1)
  return if last < first then r.reverse else r

end Verif.Model
