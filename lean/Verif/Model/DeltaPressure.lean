import Verif.Basic.Py
import Verif.Basic.XF

/-
Model of /repo/geocat/comp/meteorology.py: `_delta_pressure1D`, `delta_pressure`, `dpres_plev`.
-/

namespace Verif.Model
variable {K : Type _} [Field K] [LinearOrder K]

/-- meteorology.py:1231-1232 — midpoints with the level above, first entry overwritten with 0. -/
def midpoints (q : List K) : List K :=
  (List.zipWith (fun a b => (a + b) / 2) q (Np.roll1 q)).set 0 0

/-- meteorology.py:1233 — `[indices] = np.nonzero(midpoints < surface_pressure)`. -/
def aboveGround (q : List K) (ps : XF K) : List Nat :=
  Np.nonzero ((midpoints q).map (fun m => XF.lt (.fin m) ps))

/-- meteorology.py:1227-1252 — the part of `_delta_pressure1D` between the two flips, on the
top-of-atmosphere-first array. `full_like(..., nan)` is `replicate`; the slice assignment is numpy's. -/
def deltaSorted (q : List K) (ps : XF K) (ptop : K) : Except PyErr (List (XF K)) := do
  -- 1228
  let delta := List.replicate q.length (XF.nan : XF K)
  -- 1233
  let indices := aboveGround q ps
  -- 1235-1236
  let s ← Py.minNat indices
  let e ← Py.maxNat indices
  -- 1238-1240
  let qs ← Py.index q (s : Int)
  let qs1 ← Py.index q ((s : Int) + 1)
  let delta ← Py.setIndex delta (s : Int) (.fin ((qs + qs1) / 2 - ptop))
  -- 1242-1248
  let delta ← Py.setSlice delta ((s : Int) + 1) (e : Int)
    (List.zipWith (fun a b => XF.fin ((a - b) / 2))
      (Py.slice q ((s : Int) + 2) ((e : Int) + 1)) (Py.slice q (s : Int) (e : Int)))
  -- 1250-1252
  let qe ← Py.index q (e : Int)
  let qe1 ← Py.index q ((e : Int) - 1)
  Py.setIndex delta (e : Int) (ps - .fin ((qe + qe1) / 2))

/-- meteorology.py:1182-1258 `_delta_pressure1D`.
Levels are finite numbers (a NaN level is not modelled); `surface_pressure` may be NaN or infinite. -/
def deltaPressure1D (p : List K) (ps : XF K) (ptop : K) : Except PyErr (List (XF K)) := do
  -- 1212-1215
  if ptop < 0 then throw .valueError
  -- 1217-1220
  if XF.lt ps (.fin ptop) then throw .valueError
  -- 1223-1225
  let p1 ← Py.index p 1
  let p0 ← Py.index p 0
  if p1 < p0 then
    -- 1255-1256
    let delta ← deltaSorted p.reverse ps ptop
    return delta.reverse
  else
    deltaSorted p ps ptop

/-- numpy `arr.min()`; raises `ValueError` for an empty array. -/
def npMin : List K → Except PyErr K
  | [] => .error .valueError
  | x :: xs => .ok (xs.foldl min x)

/-- meteorology.py:1326-1330 — default or check of `pressure_top`. -/
def resolveTop (p : List K) (ptop : Option K) : Except PyErr K := do
  let m ← npMin p
  match ptop with
  | none => return m
  | some t => if t > m then throw .valueError else return t

/-- meteorology.py:1261-1369 `delta_pressure` for scalar `surface_pressure` (numpy part; lines 1333-1334). -/
def deltaPressure (p : List K) (ps : XF K) (ptop : Option K) : Except PyErr (List (XF K)) := do
  let t ← resolveTop p ptop
  deltaPressure1D p ps t

/-- An N-D array as shape and row-major data. -/
structure NDArr (α : Type _) where
  shape : List Nat
  data : List α

/-- meteorology.py:1335-1349 `delta_pressure` for array `surface_pressure`: ravel, loop, stack, reshape.
`np.array(list of rows).reshape(shape + (nlev,))` keeps row-major data, i.e. the concatenation of the rows;
numpy's reshape check always succeeds when every row has `nlev` entries. -/
def deltaPressureND (p : List K) (ps : NDArr (XF K)) (ptop : Option K) : Except PyErr (NDArr (XF K)) := do
  let t ← resolveTop p ptop
  let rows ← ps.data.mapM (fun e => deltaPressure1D p e t)
  return { shape := ps.shape ++ [p.length], data := rows.flatten }

/-- meteorology.py:1567-1568 `dpres_plev`: deprecated alias, forwards its three arguments. -/
def dpresPlev (p : List K) (ps : XF K) (ptop : Option K) : Except PyErr (List (XF K)) :=
  deltaPressure p ps ptop

end Verif.Model
