import Verif.Model.Spherical
import Verif.Model.HybridAlign
import Mathlib.Data.Real.Basic

/-
Model of `decomposition` of /repo/geocat/comp/spherical.py for DataArrays with coordinate labels that need not agree.
-/

namespace Verif.Model
open Spherical

/-- the position `i`, `j` along the dimensions `d0`, `d1` -/
def pos2 (d0 d1 : String) (i j : ℕ) : String → ℕ := fun d => if d = d0 then i else if d = d1 then j else 0

/-- np.sum of a 2-D array -/
noncomputable def total2 (a : LArr ℝ) (d0 d1 : String) : ℂ :=
  ∑ i ∈ Finset.range (a.size d0), ∑ j ∈ Finset.range (a.size d1), (a.get (pos2 d0 d1 i j) : ℂ)

/-- spherical.py 26-125 `decomposition` for four 2-D DataArrays with their labels. Simplification: `theta` and `phi` have the dimensions of `data`, in the
same order (else ValueError, which is what happens if the names differ and there are coordinates). Their labels are never looked at: scipy's function
returns a bare array, and 117-121 puts the dimension names of `data` on it. -/
noncomputable def decompositionIdx (lib : SciPy) (oldScipy : Bool) (data scale theta phi : IArr ℝ ℝ) (maxHarm : ℕ) : Except PyErr (List ℂ) :=
  match data.arr.dims, scale.arr.dims with
  | [d0, d1], [e0, e1] => do
    -- 65-70
    let scaleVal : ℂ := 1 / (total2 scale.arr e0 e1 * sphHarmY lib oldScipy 0 0 0 0 ^ 2)
    -- 90: xarray multiplies by labels
    let scaleDat ← IArr.zip (fun x y : ℝ => x * y) data scale
    -- 96 `xr.DataArray(scale_dat, dims=data.dims)`
    if scaleDat.arr.dims ≠ [d0, d1] then throw .valueError
    if theta.arr.dims ≠ [d0, d1] ∨ phi.arr.dims ≠ [d0, d1] then throw .valueError
    -- 115 numpy broadcasting (of length-1 dimensions left out)
    if theta.arr.size d0 ≠ phi.arr.size d0 ∨ theta.arr.size d1 ≠ phi.arr.size d1 then throw .valueError
    -- 123: `harmonics` has no labels, so the sizes must agree
    if theta.arr.size d0 ≠ scaleDat.arr.size d0 ∨ theta.arr.size d1 ≠ scaleDat.arr.size d1 then throw .valueError
    return (decompPairs maxHarm).map (fun p =>
      (∑ i ∈ Finset.range (scaleDat.arr.size d0), ∑ j ∈ Finset.range (scaleDat.arr.size d1),
        (scaleDat.arr.get (pos2 d0 d1 i j) : ℂ) *
          sphHarmY lib oldScipy p.1 p.2.1 (phi.arr.get (pos2 d0 d1 i j)) (theta.arr.get (pos2 d0 d1 i j))) * (p.2.2 * scaleVal))
  | _, _ => .error .valueError

end Verif.Model
