import Verif.Model.HybridCall
import Verif.Model.HybridLabels
import Verif.Model.Sigma

/-
Model of `pressure_at_hybrid_levels`, `interp_hybrid_to_pressure` and `interp_sigma_to_hybrid` of /repo/geocat/comp/interpolation.py for DataArrays whose
dimensions carry coordinate labels that need not agree with each other.
-/



namespace Verif.Model
variable {K : Type} [Field K] [LinearOrder K]

/-- a DataArray with its indexes: `index d` are the labels of the coordinate named like the dimension `d`, if there is one -/
structure IArr (K α : Type) where
  arr : LArr α
  index : String → Option (List K)

namespace IArr
variable {α β γ : Type}

/-- which positions of the two operands meet along dimension `d`, and the labels of the result. A dimension only one operand has is kept. -/
def joinDim (a : IArr K α) (b : IArr K β) (d : String) : Except PyErr (List (ℕ × ℕ) × Option (List K)) :=
  if d ∈ a.arr.dims then
    if d ∈ b.arr.dims then joinLabels (a.arr.size d) (b.arr.size d) (a.index d) (b.index d)
    else .ok ((List.range (a.arr.size d)).map (fun i => (i, i)), a.index d)
  else .ok ((List.range (b.arr.size d)).map (fun i => (i, i)), b.index d)

/-- the pairs of positions of `joinDim` -/
def pairs (a : IArr K α) (b : IArr K β) (d : String) : List (ℕ × ℕ) :=
  match joinDim a b d with
  | .ok r => r.1
  | .error _ => []

/-- the labels of `joinDim` -/
def joined (a : IArr K α) (b : IArr K β) (d : String) : Option (List K) :=
  match joinDim a b d with
  | .ok r => r.2
  | .error _ => none

/-- xarray arithmetic: dimensions are matched by name, positions along a shared dimension by label -/
def zip (f : α → β → γ) (a : IArr K α) (b : IArr K β) : Except PyErr (IArr K γ) := do
  let dims := a.arr.dims ++ b.arr.dims.filter (fun d => !a.arr.dims.contains d)
  let _ ← dims.mapM (joinDim a b)
  return ⟨⟨dims, fun d => (pairs a b d).length, fun i =>
      f (a.arr.get (fun d => ((pairs a b d).getD (i d) (0, 0)).1)) (b.arr.get (fun d => ((pairs a b d).getD (i d) (0, 0)).2))⟩,
    joined a b⟩

def map (f : α → β) (a : IArr K α) : IArr K β := ⟨a.arr.map f, a.index⟩

/-- `a.rename({old: new, ...})`: a coordinate named like a dimension is renamed with it -/
def rename (r : List (String × String)) (a : IArr K α) : IArr K α := ⟨a.arr.rename r, fun d => a.index (LArr.oldName r d)⟩

end IArr

/-- interpolation.py:397-421 `pressure_at_hybrid_levels` on DataArrays, with their labels -/
def pressureIdx (psfc hya hyb : IArr K K) (p0 : K) : Except PyErr (IArr K K) := do
  -- 398
  if hya.arr.shape ≠ hyb.arr.shape then throw .valueError
  -- 407-412
  let hyb := if hya.arr.dims ≠ hyb.arr.dims then hyb.rename (hyb.arr.dims.zip hya.arr.dims) else hyb
  -- 421
  let b ← IArr.zip (fun x y => x * y) hyb psfc
  IArr.zip (fun x y => x + y) (hya.map (fun x => x * p0)) b

/-- xarray `join="exact"` along one dimension: two indexes must be equal -/
def exactOk (x y : Option (List K)) : Bool :=
  match x, y with
  | some x, some y => decide (x = y)
  | _, _ => true

/-- interpolation.py:667-763 of `interp_hybrid_to_pressure` for eager (not dask) arrays with their labels. `other` says whether the call has
`extrapolate=True, variable="other"`. A level dimension already called `plev` is left out. -/
def interpHybridIdx (g : K → K) (lev : String) (p0 : K) (x : List K) (other : Bool) (data : IArr K (XF K)) (ps hyam hybm : IArr K K) :
    Except PyErr (IArr K (XF K)) := do
  -- 667 `data.dims.index(lev_dim)`
  if ¬ lev ∈ data.arr.dims then throw .valueError
  -- 670
  let P ← pressureIdx ps hyam hybm p0
  -- 673 transpose: the dimension names must be the same
  if ¬ (P.arr.dims.Perm data.arr.dims) then throw .valueError
  -- shapes must agree (metpy broadcasting of length-1 dimensions is not modelled)
  if ¬ (∀ d ∈ data.arr.dims, P.arr.size d = data.arr.size d) then throw .valueError
  -- 727 `pressure.data`, `data.data`: bare arrays
  let out ← interpAlong g lev x P.arr data.arr
  -- 742-749
  let index := fun d => if d = "plev" then (data.index lev).map (fun _ => x) else if d = lev then none else data.index d
  if other then
    -- 347 `output.where(output.plev <= p_sfc, data.isel(...))`: join="exact"
    if ¬ (∀ d ∈ data.arr.dims, d ≠ lev → exactOk (data.index d) (P.index d)) then throw .valueError
    -- 330 `pressure[lev_dim]`
    let labels := (P.index lev).getD (virtualIndex (P.arr.size lev))
    -- 348 `output.plev`
    let plev := if (data.index lev).isSome then x else virtualIndex x.length
    return ⟨remapExtrap lev plev labels P.arr (fun _ _ i => data.arr.get (Function.update i lev (argmax labels))) out, index⟩
  else return ⟨out, index⟩

/-- interpolation.py:154-160 `_sigma_from_hybrid` on DataArrays, with their labels -/
def sigmaIdx (psfc hya hyb : IArr K K) (p0 : K) : Except PyErr (IArr K K) := do
  let q ← IArr.zip (fun x y => x / y) (hya.map (fun x => x * p0)) psfc
  IArr.zip (fun x y => x + y) q hyb

/-- interpolation.py:828-862 of `interp_sigma_to_hybrid` for DataArrays with labels: rows of the stacked arrays are paired by position
(841), and `unstack` puts the labels of `data` back -/
def interpSigmaIdx (g : K → K) (lev : String) (p0 : K) (sig : List K) (data : IArr K (XF K)) (ps hyam hybm : IArr K K) :
    Except PyErr (IArr K (XF K)) := do
  -- 829
  let sigma ← sigmaIdx ps hyam hybm p0
  let nh ← Py.index hyam.arr.shape 0
  let (out, hcoord) ← sigmaColumns g lev sig data.arr sigma.arr nh
  return ⟨out, fun d => if d = "hlev" then some hcoord else if d = lev then none else data.index d⟩

end Verif.Model
