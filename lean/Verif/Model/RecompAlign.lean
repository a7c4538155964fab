import Verif.Model.SphericalAlign

/-
Model of `recomposition` of /repo/geocat/comp/spherical.py for DataArrays with coordinate labels.
-/

namespace Verif.Model
open Spherical

/-- spherical.py 128-202 `recomposition` for a 1-D DataArray `data` and 2-D DataArrays `theta` and `phi`, with their labels. The labels are never looked
at: scipy's function turns `theta` and `phi` into bare arrays, and 191-195 puts the dimension names of `theta`, but no coordinates, on the result.
numpy's broadcasting of dimensions of length 1 is left out. -/
noncomputable def recompositionIdx (lib : SciPy) (oldScipy : Bool) (data : IArr ℝ ℂ) (theta phi : IArr ℝ ℝ) (maxHarm : ℕ) : Except PyErr (IArr ℝ ℝ) :=
  match data.arr.dims, theta.arr.dims, phi.arr.dims with
  | [h], [d0, d1], [e0, e1] => do
    -- 179-181 `expand_dims(dim='harmonic')` and 192: a dimension of that name may not exist already
    if "harmonic" ∈ [d0, d1] ∨ (oldScipy = false ∧ "harmonic" ∈ [e0, e1]) then throw .valueError
    -- 190
    if phi.arr.size e0 ≠ theta.arr.size d0 ∨ phi.arr.size e1 ≠ theta.arr.size d1 then throw .valueError
    let coef := (List.range (data.arr.size h)).map (fun k => data.arr.get (fun _ => k))
    let (_, f) ← recomposition (r := theta.arr.size d0) (c := theta.arr.size d1) lib oldScipy .xarray coef
      (fun i j => theta.arr.get (pos2 d0 d1 i j)) (fun i j => phi.arr.get (pos2 e0 e1 i j)) maxHarm
    return ⟨⟨[d0, d1], theta.arr.size, fun i =>
      if b : i d0 < theta.arr.size d0 ∧ i d1 < theta.arr.size d1 then f ⟨i d0, b.1⟩ ⟨i d1, b.2⟩ else 0⟩, fun _ => none⟩
  | _, _, _ => .error .valueError

end Verif.Model
