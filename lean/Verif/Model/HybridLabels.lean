import Verif.Model.Extrap

/-
Model of the coordinates of `interp_hybrid_to_pressure` of /repo/geocat/comp/interpolation.py and of its default levels.
-/

namespace Verif.Model

/-- interpolation.py:12-37 `__pres_lev_mandatory__`: in Pa. The 32-bit numbers are exact. -/
def mandatoryLevels {K : Type _} [Field K] : List K :=
  ([1000, 925, 850, 700, 500, 400, 300, 250, 200, 150, 100, 70, 50, 30, 20, 10, 7, 5, 3, 2, 1] : List K).map (fun p => p * 100)

/-- a coordinate of the input: its name and the dimensions it lies along -/
structure CoordIn where
  name : String
  dims : List String

/-- `arr.dim` for a dimension without coordinate: xarray answers with 0, 1, 2, … -/
def virtualIndex {K : Type _} [Field K] (n : Nat) : List K := (List.range n).map (fun k : Nat => (k : K))

/-- interpolation.py:742-747: the coordinates given to the result: `none` stands for a coordinate copied from the data, `some x` for
new values -/
def outCoords {K : Type _} (lev : String) (x : List K) (coords : List CoordIn) : List (String × Option (List K)) :=
  coords.map (fun c => if c.name ≠ lev then (c.name, none) else ("plev", some x))

noncomputable section

/-- interpolation.py:520-763 `interp_hybrid_to_pressure` for data with the coordinates `coords`: the result and its coordinates. The
coordinates of `ps`, `hyam`, `hybm` are assumed to agree with those of the data; a level dimension already called `plev` is left out. -/
def interpHybridLabelled (o : HybridOpts) (p0 : ℝ) (x : List ℝ) (chunks : Option (String → List Nat)) (othersDask : Bool)
    (labels : List ℝ) (data : LArr (XF ℝ)) (coords : List CoordIn) (ps hyam hybm : LArr ℝ) (tBot phi : LArr (XF ℝ)) :
    Except PyErr (LArr (XF ℝ) × List (String × Option (List ℝ))) := do
  let (lev, g) ← hybridChecks Real.log o
  let out ← interpHybridCore g lev p0 x chunks othersDask labels data ps hyam hybm none
  -- 749 `assign_coords`: a coordinate along a dimension the result does not have
  if coords.any (fun c => decide (c.name ≠ lev) && decide (lev ∈ c.dims)) then throw .valueError
  -- 342 `output.plev`
  let plev := if coords.any (fun c => decide (c.name = lev)) then x else virtualIndex x.length
  if o.extrapolate then
    let P ← pressureXr ps hyam hybm p0
    return (remapExtrap lev plev labels P (belowGround o.variable' lev (argmax labels) data ps tBot phi) out, outCoords lev x coords)
  else return (out, outCoords lev x coords)

end
end Verif.Model
