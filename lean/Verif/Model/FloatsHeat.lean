import Verif.Model.HeatIndex
import Verif.Model.Floats

/-
`heat_index` (meteorology.py 316-491) with every operation rounded. `D` is the precision of the arguments, `R` is double precision, in which the coefficients are
written. Integer constants (68, 61, 95, 17, ...) are stored exactly; the square root is correctly rounded; `x**2` is one rounded product. No overflow. Not modelled:
arguments of different precision.
-/

namespace Verif.Model
open XF
noncomputable section

/-- meteorology.py:411-438: a coefficient as it enters a product with an array of precision `D` -/
def hiCoeffsFl (D R : Rounding ℝ) (alt : Bool) (i : Fin 9) : ℝ := D.fl (R.fl (hiCoeffs alt i))

/-- meteorology.py:80-90 `_nws_eqn` (see `nwsEqn`), sums and products from left to right -/
def nwsEqnFl (D : Rounding ℝ) (c : Fin 9 → ℝ) (t rh : XF ℝ) : XF ℝ :=
  let r := roundXF D
  let t2 := r (t * t)
  let rh2 := r (rh * rh)
  let s := r (fin (c 0) + r (fin (c 1) * t))
  let s := r (s + r (fin (c 2) * rh))
  let s := r (s + r (r (fin (c 3) * t) * rh))
  let s := r (s + r (fin (c 4) * t2))
  let s := r (s + r (fin (c 5) * rh2))
  let s := r (s + r (r (fin (c 6) * t2) * rh))
  let s := r (s + r (r (fin (c 7) * t) * rh2))
  r (s + r (r (fin (c 8) * t2) * rh2))

/-- meteorology.py:440-475 (see `heatIndexPoint`) -/
def heatIndexPointFl (D R : Rounding ℝ) (alt : Bool) (t rh : XF ℝ) : XF ℝ :=
  let r := roundXF D
  -- 441-443
  let steadman := r (r (fin 61 + r (r (t - fin 68) * fin (D.fl (R.fl 1.2)))) + r (rh * fin (D.fl (R.fl 0.094))))
  let rothfusz := nwsEqnFl D (hiCoeffsFl D R alt) t rh
  let hi := r (r (steadman + t) / fin 2)
  -- 447
  let hi := sel (lt t (fin 40)) t hi
  -- 454
  let hi := sel (le (fin (hiCrit alt)) hi) rothfusz hi
  -- 457-466
  let hi := sel (le rh (fin 13) && (le (fin 80) t && le t (fin 112)))
    (r (hi - r (r (r (fin 13 - rh) / fin 4) * r (XF.sqrt (r (XF.abs (r (fin 17 - XF.abs (r (t - fin 95)))) / fin 17)))))) hi
  -- 468-475
  sel (lt (fin 85) rh && (le (fin 80) t && le t (fin 87)))
    (r (hi + r (r (r (rh - fin 85) / fin 10) * r (r (fin 87 - t) / fin 5)))) hi

/-- meteorology.py:316-491 `heat_index` (see `heatIndex`); the comparisons are exact -/
def heatIndexFl (D R : Rounding ℝ) (alt : Bool) (t rh : Arg (XF ℝ)) : Except PyErr (Bool × Arg (XF ℝ)) :=
  -- 379
  if t.ty ≠ rh.ty then .error .typeError
  -- 395
  else if t.val.shape ≠ rh.val.shape then .error .valueError
  else if rh.val.values = [] then .error .valueError
  else
    let skip := decide (rh.ty = .dataArray)
    let mn := reduceMin skip rh.val.values
    let mx := reduceMax skip rh.val.values
    -- 401
    if lt mn (fin 0) ∨ lt (fin 100) mx then .error .valueError
    else
      -- 407, 440-475
      (Tensor.zip (heatIndexPointFl D R alt) t.val rh.val).map (fun r => (le mx (fin 1),
        if t.ty = .dataArray then ⟨.dataArray, r⟩
        -- 478-479
        else if t.ty ∈ [PyType.list, .float, .int] then ⟨tolistType r.shape, r⟩ else ⟨.ndarray, r⟩))

end
end Verif.Model
