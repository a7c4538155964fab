import Verif.Basic.Tensor
import Mathlib.Data.Nat.Cast.Defs
import Mathlib.Data.Int.Notation

/-
Model of the EOF functions in geocat/comp/stats.py (lines 210-564): `_generate_eofs_solver`, `eofunc_eofs`, `eofunc_pcs`, `eofunc`, `eofunc_ts`.

The solver `eofs.xarray.Eof` is a parameter (`Solver`, `mk`): what the functions add to it is modelled: which data it gets, what is done
with its results, their dimension names, coordinates and attributes, and the effect on the attributes of the input object.
Simplifications: lists are `Input.arr` (`np.asarray`); attribute values are of an arbitrary type `A`; the warnings of `eofunc` and
`eofunc_ts` are not modelled.
-/

namespace Verif.Model.EofFns

variable {K A : Type}

/-- a coordinate of a DataArray -/
structure Coord (K : Type) where
  name : String
  dims : List String
  data : Tensor K

/-- a DataArray -/
structure XArr (K A : Type) where
  dims : List String
  data : Tensor K
  coords : List (Coord K)
  attrs : List (String × A)

/-- the argument `data` -/
inductive Input (K A : Type)
  | arr (t : Tensor K)
  | xr (x : XArr K A)

/-- the `attrs` dict of the argument; arrays have none -/
def Input.attrs : Input K A → List (String × A)
  | .xr x => x.attrs
  | .arr _ => []

/-- arguments that are only passed on to the solver -/
structure Opts (K : Type) where
  weights : Option (Tensor K)
  center : Bool
  ddof : ℤ

/-- an `eofs.xarray.Eof` object -/
structure Solver (K A : Type) where
  eofs : ℤ → ℤ → Except PyErr (Tensor K)
  pcs : ℤ → ℤ → Except PyErr (Tensor K)
  eigenvalues : ℤ → A
  northTest : ℤ → Bool → A
  totalAnomalyVariance : A
  varianceFraction : ℤ → A

/-- `np.transpose(t, axes=perm)`: axis `k` of the result is axis `perm[k]` of `t` -/
def npTranspose (t : Tensor K) (perm : List ℕ) : Tensor K where
  shape := perm.map (fun a => t.shape.getD a 0)
  get := fun j => t.get ((List.range t.shape.length).map (fun a => j.getD (perm.idxOf a) 0))

/-- Python `d[k] = v` for a dict -/
def setItem (d : List (String × A)) (k : String) (v : A) : List (String × A) :=
  if k ∈ d.map (·.1) then d.map (fun x => if x.1 = k then (k, v) else x) else d ++ [(k, v)]

/-- `xr.DataArray(data, attrs=attrs, dims=dims, coords=coords)`: the dimension names must fit the rank, the coordinates must lie along
these dimensions and have their sizes -/
def mkDataArray (data : Tensor K) (dims : List String) (coords : List (Coord K)) (attrs : List (String × A)) : Except PyErr (XArr K A) :=
  if dims.length ≠ data.shape.length then .error .valueError
  else if ¬ (coords.all (fun c => decide (c.data.shape = c.dims.map (fun d => data.shape.getD (dims.idxOf d) 0) ∧ c.dims ⊆ dims))) then .error .valueError
  else .ok ⟨dims, data, coords, attrs⟩

/-- `l[i]` for a Python list, with Python's negative indices -/
def pyGet (l : List String) (i : ℤ) : Except PyErr String := Py.index l i

/-- stats.py 210-238: `_generate_eofs_solver`, the data part -/
def generateData (data : Input K A) (timeDim : ℤ) : Except PyErr (XArr K A) :=
  match data with
  | .xr x => .ok x
  | .arr t =>
    let n := t.shape.length
    -- 218-219
    if timeDim ≥ n ∨ timeDim < -n then .error .valueError
    -- 222-225: `list.index` of a negative number raises ValueError
    else if timeDim < 0 then .error .valueError
    else
      let k := timeDim.toNat
      let axes := k :: (List.range n).filter (· ≠ k)
      -- 226-234
      .ok ⟨"time" :: (List.range (n - 1)).map (fun i => s!"dim_{i + 1}"), npTranspose t axes, [], []⟩

/-- stats.py 210-238 -/
def generateSolver (mk : Opts K → XArr K A → Except PyErr (Solver K A)) (opts : Opts K) (data : Input K A) (timeDim : ℤ) :
    Except PyErr (XArr K A × Solver K A) := do
  let x ← generateData data timeDim
  -- 236
  let s ← mk opts x
  pure (x, s)

/-- stats.py 395-400: dimension names and coordinates of the EOFs -/
def eofDims (x : XArr K A) (timeDim : ℤ) (isMeta : Bool) : Except PyErr (List String × List (Coord K)) :=
  let keep : List ℕ := (List.range x.data.shape.length).filter (fun (i : ℕ) => decide ((i : ℤ) ≠ timeDim))
  if isMeta then do
    let dims := "eof" :: keep.map (fun i => x.dims.getD i "")
    -- `data.dims[time_dim]` is evaluated for each coordinate
    let coords ← if x.coords.isEmpty then pure [] else do
      let td ← pyGet x.dims timeDim
      pure (x.coords.filter (fun c => decide (c.name ≠ td)))
    pure (dims, coords)
  else pure ("eof" :: keep.map (fun i => s!"dim_{i}"), [])

/-- stats.py 241-402: `eofunc_eofs`. The second component is the `attrs` dict of the input object after the call (for a DataArray input),
which is the very dict that `attrs = data.attrs` refers to. -/
def eofuncEofs (mk : Opts K → XArr K A → Except PyErr (Solver K A)) (data : Input K A) (neofs timeDim eofscaling : ℤ) (opts : Opts K)
    (vfscaled isMeta : Bool) : Except PyErr (XArr K A) × List (String × A) :=
  let before := data.attrs
  match generateSolver mk opts data timeDim with
  | .error e => (.error e, before)
  | .ok (x, solver) =>
    -- 377
    if neofs ≤ 0 then (.error .valueError, before)
    else match solver.eofs neofs eofscaling with
      | .error e => (.error e, before)
      | .ok eofs =>
        -- 385-393
        let attrs := if isMeta then x.attrs else []
        let attrs := setItem attrs "eigenvalues" (solver.eigenvalues neofs)
        let attrs := setItem attrs "northTest" (solver.northTest neofs vfscaled)
        let attrs := setItem attrs "totalAnomalyVariance" solver.totalAnomalyVariance
        let attrs := setItem attrs "varianceFraction" (solver.varianceFraction neofs)
        let after := match data with | .xr _ => if isMeta then attrs else before | .arr _ => before
        -- 395-402
        (do
          let (dims, coords) ← eofDims x timeDim isMeta
          mkDataArray eofs dims coords attrs, after)

/-- `data.coords[name]`: xarray makes an index 0, 1, ... for a dimension without coordinate -/
def getCoord [NatCast K] (x : XArr K A) (name : String) : Except PyErr (Coord K) :=
  match x.coords.find? (fun c => decide (c.name = name)) with
  | some c => .ok c
  | none =>
    if name ∈ x.dims then .ok ⟨name, [name], ⟨[x.data.shape.getD (x.dims.idxOf name) 0], fun i => ((i.getD 0 0 : ℕ) : K)⟩⟩
    else .error .keyError

/-- `pcs.transpose()` of a 2-D array -/
def transpose2 (t : Tensor K) : Tensor K := ⟨t.shape.reverse, fun i => t.get i.reverse⟩

/-- stats.py 405-523: `eofunc_pcs`, with the `attrs` of the input after the call -/
def eofuncPcs [NatCast K] (mk : Opts K → XArr K A → Except PyErr (Solver K A)) (data : Input K A) (npcs timeDim pcscaling : ℤ) (opts : Opts K)
    (isMeta : Bool) : Except PyErr (XArr K A) × List (String × A) :=
  let before := data.attrs
  (do
    let (x, _) ← generateSolver mk opts data timeDim
    -- 501
    if npcs ≤ 0 then throw .valueError
    -- 506: a second solver for the same data
    let solver ← mk opts x
    let pcs ← solver.pcs npcs pcscaling
    let pcs := transpose2 pcs
    -- 512-523
    if isMeta then do
      let td ← pyGet x.dims timeDim
      let c ← getCoord x td
      mkDataArray pcs ["pc", "time"] [{ c with name := "time" }] x.attrs
    else mkDataArray pcs ["pc", "time"] [] [], before)

/-- `np.asarray` of the input -/
def asArray : Input K A → Tensor K
  | .arr t => t
  | .xr x => x.data

/-- stats.py 529-545: `eofunc`; `not isinstance(DataArray) or not isinstance(ndarray)` is always true, so that the data are always
converted to an array -/
def eofunc (mk : Opts K → XArr K A → Except PyErr (Solver K A)) (data : Input K A) (neval : ℤ) (timeDim : Option ℤ) (isMeta : Bool) :
    Except PyErr (XArr K A) :=
  let t := asArray data
  (eofuncEofs mk (.arr t) neval (timeDim.getD ((t.shape.length : ℤ) - 1)) 0 ⟨none, true, 1⟩ false isMeta).1

/-- stats.py 548-564: `eofunc_ts`; of `evec` only the first size counts -/
def eofuncTs [NatCast K] (mk : Opts K → XArr K A → Except PyErr (Solver K A)) (data : Input K A) (evecShape : List ℕ) (timeDim : Option ℤ)
    (isMeta : Bool) : Except PyErr (XArr K A) :=
  let t := asArray data
  match evecShape with
  | [] => .error .indexError
  | n :: _ => (eofuncPcs mk (.arr t) n (timeDim.getD ((t.shape.length : ℤ) - 1)) 0 ⟨none, true, 1⟩ isMeta).1

end Verif.Model.EofFns
