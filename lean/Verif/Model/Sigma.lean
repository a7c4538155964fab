import Verif.Model.Hybrid

/-
Model of `interp_sigma_to_hybrid`, /repo/geocat/comp/interpolation.py:766-862.
-/

namespace Verif.Model
variable {K : Type _} [Field K] [LinearOrder K]

/-- interpolation.py:154-160 `_sigma_from_hybrid` on labelled arrays (surface pressure assumed nonzero: K has 0 as quotient by 0) -/
def sigmaFromHybridXr (psfc hya hyb : LArr K) (p0 : K) : Except PyErr (LArr K) := do
  let q ← LArr.zip (fun x y => x / y) (hya.map (fun x => x * p0)) psfc
  LArr.zip (fun x y => x + y) q hyb

/-- interpolation.py:831-860: stack the other dimensions, interpolate column by column, unstack. `stack`/`unstack` are
trusted to enumerate the points of the other dimensions once each and to put them back; the one-dimensional branch
(849-856) is the case without other dimensions. Shapes of `ps` and of `data` that differ on a shared dimension are not
modelled (`notImplemented`). Returns the array and the new level coordinate. -/
def sigmaColumns (g : K → K) (lev : String) (sig : List K) (data : LArr (XF K)) (sigma : LArr K) (nh : Nat) :
    Except PyErr (LArr (XF K) × List K) := do
  -- 833 `non_lev_dims.remove(lev_dim)`
  if ¬ lev ∈ data.dims then throw .valueError
  let others := data.dims.filter (fun d => d ≠ lev)
  -- 835 `sigma.stack(combined=non_lev_dims)`: needs the same dimensions
  if ¬ (∀ d ∈ others, d ∈ sigma.dims) then throw .keyError
  if ¬ (∀ d ∈ others, sigma.size d = data.size d) then throw .notImplemented
  match sigma.dims.filter (fun d => d ∉ others) with
  | [hd] =>
    let cols := LArr.indicesOf data.size others
    -- 837 `sigma_stacked[0, :]`
    let first ← Py.index cols 0
    let hcoord := sigma.line hd first
    -- 839 `data_stacked[:, : len(hyam)]`
    let width := min (data.size lev) nh
    let one := fun i => do
      let r ← interpolate1d ((sigma.line hd i).map g) (sig.map g) (data.line lev i)
      -- 842 assignment into a row of `width` cells
      if r.length ≠ width then throw .valueError
      return r
    let _ ← cols.mapM one
    -- 848, 859-860
    return (⟨data.dims.map (fun d => if d = lev then "hlev" else d), fun d => if d = "hlev" then width else data.size d,
      fun i => match one i with
        | .ok r => r.getD (i "hlev") .nan
        | .error _ => .nan⟩, hcoord)
  | _ => throw .indexError

/-- interpolation.py:766-862 `interp_sigma_to_hybrid`; `cfVertical` is what cf-xarray finds, `lg` the logarithm -/
def interpSigmaToHybrid (lg : K → K) (levDim cfVertical : Option String) (method : String) (p0 : K) (sig : List K)
    (data : LArr (XF K)) (ps hyam hybm : LArr K) : Except PyErr (LArr (XF K) × List K) := do
  -- 815-821
  let lev ← match levDim with
    | some d => pure d
    | none => match cfVertical with
      | some d => pure d
      | none => throw .valueError
  -- 823-826
  let g ← funcInterpolate lg method
  -- 829
  let sigma ← sigmaFromHybridXr ps hyam hybm p0
  -- `len(hyam)`
  let nh ← Py.index hyam.shape 0
  sigmaColumns g lev sig data sigma nh

end Verif.Model
