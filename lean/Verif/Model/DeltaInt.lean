import Verif.Model.DeltaPressure
import Verif.Model.MultidimInt

/-
`delta_pressure` of pressure levels stored as integers (meteorology.py 1182-1369). Lines 1231, 1238 and 1250 add two levels and line 1243 subtracts them in
the integer type, modulo `2 ^ bits`; the divisions by 2 convert to floating-point numbers (rounding is not modelled here, see C130).
`surface_pressure` is a number; `pressure_top` is a number or the smallest level.
-/

namespace Verif.Model
variable {K : Type _} [Field K] [LinearOrder K]

/-- meteorology.py:1231-1232 -/
def midpointsInt (F : IntFormat) (q : List ℤ) : List K :=
  (List.zipWith (fun a b => ((F.reduce (a + b) : ℤ) : K) / 2) q (Np.roll1 q)).set 0 0

/-- meteorology.py:1227-1252, see `deltaSorted` -/
def deltaSortedInt (F : IntFormat) (q : List ℤ) (ps : XF K) (ptop : K) : Except PyErr (List (XF K)) := do
  -- 1228
  let delta := List.replicate q.length (XF.nan : XF K)
  -- 1233
  let indices := Np.nonzero ((midpointsInt F q).map (fun m => XF.lt (.fin m) ps))
  -- 1235-1236
  let s ← Py.minNat indices
  let e ← Py.maxNat indices
  -- 1238-1240
  let qs ← Py.index q (s : Int)
  let qs1 ← Py.index q ((s : Int) + 1)
  let delta ← Py.setIndex delta (s : Int) (.fin (((F.reduce (qs + qs1) : ℤ) : K) / 2 - ptop))
  -- 1242-1248
  let delta ← Py.setSlice delta ((s : Int) + 1) (e : Int)
    (List.zipWith (fun a b => XF.fin (((F.reduce (a - b) : ℤ) : K) / 2))
      (Py.slice q ((s : Int) + 2) ((e : Int) + 1)) (Py.slice q (s : Int) (e : Int)))
  -- 1250-1252
  let qe ← Py.index q (e : Int)
  let qe1 ← Py.index q ((e : Int) - 1)
  Py.setIndex delta (e : Int) (ps - .fin (((F.reduce (qe + qe1) : ℤ) : K) / 2))

/-- meteorology.py:1182-1258 `_delta_pressure1D`, see `deltaPressure1D` -/
def deltaPressure1DInt (F : IntFormat) (p : List ℤ) (ps : XF K) (ptop : K) : Except PyErr (List (XF K)) := do
  -- 1212-1215
  if ptop < 0 then throw .valueError
  -- 1217-1220
  if XF.lt ps (.fin ptop) then throw .valueError
  -- 1223-1225
  let p1 ← Py.index p 1
  let p0 ← Py.index p 0
  if p1 < p0 then
    -- 1255-1256
    let delta ← deltaSortedInt F p.reverse ps ptop
    return delta.reverse
  else
    deltaSortedInt F p ps ptop

/-- meteorology.py:1261-1369 `delta_pressure` for levels of an integer type and a scalar `surface_pressure` -/
def deltaPressureInt (F : IntFormat) (p : List ℤ) (ps : XF K) (ptop : Option K) : Except PyErr (List (XF K)) := do
  -- 1326-1330
  let t ← resolveTop (p.map (Int.cast : ℤ → K)) ptop
  deltaPressure1DInt F p ps t

end Verif.Model
