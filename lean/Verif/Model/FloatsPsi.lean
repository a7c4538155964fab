import Verif.Model.Floats
import Verif.Model.Psi

/-
The integration part of `zonal_meridional_psi` in floating-point arithmetic without overflow (see `Basic/Rounding`, `Model/Psi`).
-/

namespace Verif.Model
variable {K : Type _} [Field K] [LinearOrder K]

/-- xarray `cumsum` (numpy's `nancumsum`: one entry after the other, NaN counted as 0), each addition rounded -/
def nanCumsumFl (R : Rounding K) (acc : XF K) : List (XF K) → List (XF K)
  | [] => []
  | x :: xs =>
    let a := roundXF R (acc + (if x.isNaN then .fin 0 else x))
    a :: nanCumsumFl R a xs

/-- meteorology.py:1532-1552 for one time and latitude as in `psiColumn`, every operation rounded; `c` is the stored scaling factor -/
def psiColumnFl (R : Rounding K) (c : K) (plev : List K) (v : List (XF K)) (ps : K) : Except PyErr (List (XF K)) := do
  -- 1532
  let d ← deltaPressureFl R plev ps none
  -- 1543
  let first ← Py.index plev 0
  let last ← Py.index plev (-1)
  let integrand := List.zipWith (fun a b => roundXF R (a * b)) v d
  let m := if first < last then nanCumsumFl R (.fin 0) integrand   -- 1544-1545
    else (nanCumsumFl R (.fin 0) integrand.reverse).reverse         -- 1547-1548
  -- 1552
  return m.map (fun x => roundXF R (x * .fin c))

end Verif.Model
