import Verif.Basic.LArr
import Verif.Basic.Tensor
import Verif.Model.Interp1d

/-
Model of the hybrid-coordinate functions of /repo/geocat/comp/interpolation.py: `pressure_at_hybrid_levels`,
`delta_pressure_hybrid`, `_sigma_from_hybrid`, `interp_hybrid_to_pressure`, `_vertical_remap_extrap`,
`interp_sigma_to_hybrid`.
-/

namespace Verif.Model
variable {K : Type _} [Field K] [LinearOrder K]

/-! ### pressure_at_hybrid_levels -/

/-- interpolation.py:384-395: type checks on (psfc, hya, hyb) -/
def hybridTypeCheck (tp ta tb : PyType) : Except PyErr Unit :=
  let ok := fun t : PyType => t.isInstance .dataArray || t.isInstance .ndarray
  if !(ok tp && ok ta && ok tb) then .error .typeError
  else if !((tp.isInstance .ndarray && ta.isInstance .ndarray && tb.isInstance .ndarray) ||
      (tp.isInstance .dataArray && ta.isInstance .dataArray && tb.isInstance .dataArray)) then .error .typeError
  else .ok ()

/-- `np.expand_dims(a, axis=(1, 2))`: an array of rank `r` gets rank `r + 2`; AxisError if axis 2 does not exist then -/
def expandDims12 (a : Tensor K) : Except PyErr (Tensor K) :=
  match a.shape with
  | [] => .error .axisError
  | d :: ds => .ok ⟨d :: 1 :: 1 :: ds, fun i => a.get (i.take 1 ++ i.drop 3)⟩

/-- interpolation.py:353-421 `pressure_at_hybrid_levels`, numpy arguments (after the type checks) -/
def pressureNp (psfc hya hyb : Tensor K) (p0 : K) : Except PyErr (Tensor K) := do
  -- 398
  if hya.shape ≠ hyb.shape then throw .valueError
  -- 401
  if 1 < hya.shape.length then throw .valueError
  -- 415-417
  let hya ← expandDims12 hya
  let hyb ← expandDims12 hyb
  -- 421
  let b ← Tensor.zip (fun x y => x * y) hyb psfc
  Tensor.zip (fun x y => x + y) (hya.map (fun x => x * p0)) b

/-- interpolation.py:353-421 `pressure_at_hybrid_levels`, xarray arguments (after the type checks) -/
def pressureXr (psfc hya hyb : LArr K) (p0 : K) : Except PyErr (LArr K) := do
  -- 398
  if hya.shape ≠ hyb.shape then throw .valueError
  -- 407-412: rename by position
  let hyb := if hya.dims ≠ hyb.dims then hyb.rename (hyb.dims.zip hya.dims) else hyb
  -- 421
  let b ← LArr.zip (fun x y => x * y) hyb psfc
  LArr.zip (fun x y => x + y) (hya.map (fun x => x * p0)) b

/-- the two paths behind the type checks -/
def pressureAtHybridNp (tp ta tb : PyType) (psfc hya hyb : Tensor K) (p0 : K) : Except PyErr (Tensor K) := do
  hybridTypeCheck tp ta tb
  pressureNp psfc hya hyb p0

/-! ### delta_pressure_hybrid -/

/-- interpolation.py:460-469: type checks; `p0` must be exactly a Python float or int -/
def deltaHybridTypeCheck (tp ta tb tp0 : PyType) : Except PyErr Unit :=
  let ok := fun t : PyType => t = .dataArray ∨ t = .ndarray
  if ¬ (ok tp ∧ ok ta ∧ ok tb) then .error .typeError
  else if ¬ (tp0 = .float ∨ tp0 = .int) then .error .typeError
  else if ta ≠ tb then .error .typeError
  else .ok ()

/-- `a[lo : lo + n]` along the first axis -/
def sliceFirst {α : Type _} (lo n : Nat) (a : Tensor α) : Tensor α :=
  ⟨n :: a.shape.tail, fun i => match i with
    | k :: j => a.get ((k + lo) :: j)
    | [] => a.get []⟩

/-- interpolation.py:471-505 `delta_pressure_hybrid` on numpy arrays (after type checks and conversion): `[:-1]` and
`[1:]` of `n` levels have `n - 1` entries starting at 0 and 1 -/
def deltaHybridNp (ps hya hyb : Tensor K) (p0 : K) : Except PyErr (Tensor K) := do
  -- 472, 475
  if hya.shape ≠ hyb.shape then throw .valueError
  if 1 < hya.shape.length then throw .valueError
  -- 489-491
  let hya ← expandDims12 hya
  let hyb ← expandDims12 hyb
  let n := hya.shape.headD 0
  -- 502
  let ba ← Tensor.zip (fun x y => x * y) (sliceFirst 0 (n - 1) hyb) ps
  let pa ← Tensor.zip (fun x y => x + y) ((sliceFirst 0 (n - 1) hya).map (fun x => p0 * x)) ba
  -- 503
  let bb ← Tensor.zip (fun x y => x * y) (sliceFirst 1 (n - 1) hyb) ps
  let pb ← Tensor.zip (fun x y => x + y) ((sliceFirst 1 (n - 1) hya).map (fun x => p0 * x)) bb
  -- 505
  Tensor.zip (fun x y => |x - y|) pa pb

/-- `a[lo : lo + n]` along dimension `d` -/
def sliceDim {α : Type _} (d : String) (lo n : Nat) (a : LArr α) : LArr α :=
  ⟨a.dims, fun e => if e = d then n else a.size e, fun i => a.get (Function.update i d (i d + lo))⟩

/-- interpolation.py:471-505 `delta_pressure_hybrid` on DataArrays (after type checks and conversion); the first
coordinate is dropped from the coefficients, so labels do not matter -/
def deltaHybridXr (ps hya hyb : LArr K) (p0 : K) : Except PyErr (LArr K) := do
  -- 472, 475
  if hya.shape ≠ hyb.shape then throw .valueError
  if 1 < hya.dims.length then throw .valueError
  match hya.dims, hyb.dims with
  | [d], [e] => do
    -- 499-500
    let hyb := if d ≠ e then hyb.rename [(e, d)] else hyb
    let n := hya.size d
    let ba ← LArr.zip (fun x y => x * y) (sliceDim d 0 (n - 1) hyb) ps
    let pa ← LArr.zip (fun x y => x + y) ((sliceDim d 0 (n - 1) hya).map (fun x => p0 * x)) ba
    let bb ← LArr.zip (fun x y => x * y) (sliceDim d 1 (n - 1) hyb) ps
    let pb ← LArr.zip (fun x y => x + y) ((sliceDim d 1 (n - 1) hya).map (fun x => p0 * x)) bb
    LArr.zip (fun x y => |x - y|) pa pb
  -- 0-d coefficients cannot be sliced
  | _, _ => .error .indexError

/-- the type of the result is the type of `ps` (458, 507-517); coefficients are converted to it -/
def deltaHybridType (tp ta tb tp0 : PyType) : Except PyErr PyType := do
  deltaHybridTypeCheck tp ta tb tp0
  return tp

/-! ### _sigma_from_hybrid -/

/-- interpolation.py:154-160 -/
def sigmaFromHybrid (psfc hya hyb p0 : K) : K := hya * p0 / psfc + hyb

/-! ### interp_hybrid_to_pressure -/

/-- interpolation.py:40-53 `_func_interpolate`: the transformation applied to the vertical coordinate.
`lg` is the logarithm. -/
def funcInterpolate (lg : K → K) (method : String) : Except PyErr (K → K) :=
  if method = "linear" then .ok id
  else if method = "log" then .ok lg
  else .error .valueError

/-- everything `interp_hybrid_to_pressure` looks at, apart from the arrays -/
structure HybridOpts where
  /-- types of data, ps, hyam, hybm -/
  types : List PyType
  levDim : Option String := none
  /-- what cf-xarray finds as vertical coordinate, if anything -/
  cfVertical : Option String := none
  method : String := "linear"
  extrapolate : Bool := false
  variable' : Option String := none
  hasTBot : Bool := false
  hasPhi : Bool := false

/-- interpolation.py:613-665: checks up to the choice of the level dimension and method. Returns the level dimension
and the coordinate transformation. -/
def hybridChecks (lg : K → K) (o : HybridOpts) : Except PyErr (String × (K → K)) := do
  -- 629
  if ¬ (o.types.dedup.length = 1 ∧ o.types.head? = some .dataArray) then throw .typeError
  -- 635
  if o.extrapolate ∧ o.variable' = none then throw .valueError
  -- 638
  if (o.variable' = some "geopotential" ∨ o.variable' = some "temperature") ∧ (¬ o.hasTBot ∨ ¬ o.hasPhi) then
    throw .valueError
  -- 645
  if ¬ (o.variable' = some "geopotential" ∨ o.variable' = some "temperature" ∨ o.variable' = some "other" ∨ o.variable' = none) then
    throw .valueError
  -- 653-660
  let lev ← match o.levDim with
    | some d => pure d
    | none => match o.cfVertical with
      | some d => pure d
      | none => throw .valueError
  -- 662-665
  let g ← funcInterpolate lg o.method
  return (lev, g)

/-- name of the output dimension that replaces `lev` (738) -/
def outDims (dims : List String) (lev : String) : List String := dims.map (fun d => if d = lev then "plev" else d)

/-- metpy's `interpolate_1d` along one dimension of arrays of equal shape: every column is interpolated to the
coordinates `x`; one failing column fails the call; no column at all is a ValueError (`np.max` of nothing) -/
def interpAlong (g : K → K) (lev : String) (x : List K) (P : LArr K) (D : LArr (XF K)) : Except PyErr (LArr (XF K)) := do
  let cols := LArr.indicesOf D.size (D.dims.filter (fun d => d ≠ lev))
  if cols.isEmpty then throw .valueError
  let colRes := fun i => interpolate1d (x.map g) ((P.line lev i).map g) (D.line lev i)
  let _ ← cols.mapM colRes
  return ⟨outDims D.dims lev, fun d => if d = "plev" then x.length else D.size d,
    fun i => match colRes i with
      | .ok r => r.getD (i "plev") .nan
      | .error _ => .nan⟩

/-! chunked (dask) evaluation -/

/-- start and length of the chunk containing position `n` -/
def locate : List Nat → Nat → Nat × Nat
  | [], _ => (0, 0)
  | c :: cs, n => if n < c then (0, c) else ((locate cs (n - c)).1 + c, (locate cs (n - c)).2)

/-- starts and lengths of all chunks -/
def chunkList : Nat → List Nat → List (Nat × Nat)
  | _, [] => []
  | o, c :: cs => (o, c) :: chunkList (o + c) cs

/-- the block of an array given by start and length along every dimension other than `lev`; along `lev` the chunks are
concatenated (dask `map_blocks` with `drop_axis`) -/
def block (lev : String) (chunks : List Nat) (b : String → Nat × Nat) {α : Type _} (a : LArr α) : LArr α :=
  ⟨a.dims, fun d => if d = lev then chunks.sum else (b d).2,
    fun i => a.get (fun d => if d = lev then
        -- position in the concatenation of the level chunks
        (locate chunks (i d)).1 + (i d - (locate chunks (i d)).1)
      else (b d).1 + i d)⟩

/-- all blocks over the given dimensions -/
def blocksOf (chunks : String → List Nat) : List String → List (String → Nat × Nat)
  | [] => [fun _ => (0, 0)]
  | d :: ds => (chunkList 0 (chunks d)).flatMap (fun c => (blocksOf chunks ds).map (fun b => Function.update b d c))

/-- interpolation.py:700-723: dask `map_blocks`; every block is interpolated on its own, the results are put together -/
def interpChunked (g : K → K) (lev : String) (x : List K) (chunks : String → List Nat) (P : LArr K) (D : LArr (XF K)) :
    Except PyErr (LArr (XF K)) := do
  let blocks := blocksOf chunks (D.dims.filter (fun d => d ≠ lev))
  let run := fun b => interpAlong g lev x (block lev (chunks lev) b P) (block lev (chunks lev) b D)
  let _ ← blocks.mapM run
  return ⟨outDims D.dims lev, fun d => if d = "plev" then x.length else D.size d,
    fun i =>
      let b := fun d => if d ∈ D.dims ∧ d ≠ lev then locate (chunks d) (i d) else (0, 0)
      match run b with
      | .ok r => r.get (fun d => i d - (b d).1)
      | .error _ => .nan⟩

/-! extrapolation below the lowest level -/

/-- `argmax` of a list (first maximum) -/
def argmaxFrom : Nat → Nat → K → List K → Nat
  | _, best, _, [] => best
  | pos, best, m, y :: ys => if m < y then argmaxFrom (pos + 1) pos y ys else argmaxFrom (pos + 1) best m ys

def argmax (l : List K) : Nat :=
  match l with
  | [] => 0
  | y :: ys => argmaxFrom 1 0 y ys

/-- interpolation.py:285-350 `_vertical_remap_extrap` at one point: `label` are the labels of the level coordinate,
`below` the extrapolation formula applied to (requested pressure, pressure of the chosen level, index) -/
def remapExtrap (lev : String) (x : List K) (labels : List K) (P : LArr K)
    (below : K → K → (String → Nat) → XF K) (out : LArr (XF K)) : LArr (XF K) :=
  let sfc := argmax labels
  ⟨out.dims, out.size, fun i =>
    let plev := x.getD (i "plev") 0
    let psfc := P.get (Function.update i lev sfc)
    if plev ≤ psfc then out.get i else below plev psfc i⟩

/-- interpolation.py:667-763: from the pressures to the result. `chunks = none` is eager
`data`; `othersDask` says whether one of `ps`, `hyam`, `hybm` is a dask array. The attempt with `xr.map_blocks` (682-693) is
left out: its function returns no DataArray, so the attempt always raises and is caught, and even a successful attempt
would be recomputed by the `else` of 725. -/
def interpHybridCore (g : K → K) (lev : String) (p0 : K) (x : List K) (chunks : Option (String → List Nat))
    (othersDask : Bool) (labels : List K) (data : LArr (XF K)) (ps hyam hybm : LArr K)
    (below : Option (K → K → (String → Nat) → XF K)) : Except PyErr (LArr (XF K)) := do
  -- 667 `data.dims.index(lev_dim)`
  if ¬ lev ∈ data.dims then throw .valueError
  -- 670
  let P ← pressureXr ps hyam hybm p0
  -- 673 transpose: the dimension names must be the same
  if ¬ (P.dims.Perm data.dims) then throw .valueError
  -- shapes must agree (metpy broadcasting of length-1 dimensions is not modelled)
  if ¬ (∀ d ∈ data.dims, P.size d = data.size d) then throw .valueError
  let out ← match chunks with
    -- 708: `list(data.chunks)` with `data.chunks = None`
    | none => if othersDask then throw .typeError else interpAlong g lev x P data
    | some c => interpChunked g lev x c P data
  -- 753
  match below with
  | none => return out
  | some f => return remapExtrap lev x labels P f out

end Verif.Model
