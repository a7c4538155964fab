import Verif.Basic.XReal
import Verif.Basic.Tensor

/-
Model of `_nws_eqn` and `heat_index`, /repo/geocat/comp/meteorology.py.
-/

namespace Verif.Model
open XF
noncomputable section

/-- meteorology.py:411-438 the two coefficient sets -/
def hiCoeffs (alt : Bool) : Fin 9 → ℝ :=
  if alt then ![0.363445176, 0.988622465, 4.777114035, -0.114037667, -0.000850208, -0.020716198, 0.000687678,
    0.000274954, 0]
  else ![-42.379, 2.04901523, 10.14333127, -0.22475541, -0.00683783, -0.05481717, 0.00122874, 0.00085282, -0.00000199]

/-- meteorology.py:422, 438 -/
def hiCrit (alt : Bool) : ℝ := if alt then 70 else 79

/-- meteorology.py:50-93 `_nws_eqn` -/
def nwsEqn (c : Fin 9 → ℝ) (t rh : XF ℝ) : XF ℝ :=
  fin (c 0) + fin (c 1) * t + fin (c 2) * rh + fin (c 3) * t * rh + fin (c 4) * (t * t) + fin (c 5) * (rh * rh)
    + fin (c 6) * (t * t) * rh + fin (c 7) * t * (rh * rh) + fin (c 8) * (t * t) * (rh * rh)

/-- meteorology.py:440-475 `heat_index` at one point -/
def heatIndexPoint (alt : Bool) (t rh : XF ℝ) : XF ℝ :=
  -- 441-443
  let steadman := fin 61 + ((t - fin 68) * fin 1.2) + rh * fin 0.094
  let rothfusz := nwsEqn (hiCoeffs alt) t rh
  let hi := (steadman + t) / fin 2
  -- 447
  let hi := sel (lt t (fin 40)) t hi
  -- 454
  let hi := sel (le (fin (hiCrit alt)) hi) rothfusz hi
  -- 457-466
  let hi := sel (le rh (fin 13) && (le (fin 80) t && le t (fin 112)))
    (hi - ((fin 13 - rh) / fin 4) * XF.sqrt (XF.abs (fin 17 - XF.abs (t - fin 95)) / fin 17)) hi
  -- 468-475
  sel (lt (fin 85) rh && (le (fin 80) t && le t (fin 87)))
    (hi + ((rh - fin 85) / fin 10) * ((fin 87 - t) / fin 5)) hi

/-- numpy `min`: NaN if some value is NaN. `none` for an empty array. -/
def reduceMin (skipna : Bool) (l : List (XF ℝ)) : XF ℝ :=
  let l' := if skipna then l.filter (fun x => !x.isNaN) else l
  if l'.any XF.isNaN then nan
  else match l' with
    | [] => nan
    | x :: xs => xs.foldl (fun a b => sel (lt b a) b a) x

/-- numpy `max`: NaN if some value is NaN; xarray `max` skips NaN (`skipna`). -/
def reduceMax (skipna : Bool) (l : List (XF ℝ)) : XF ℝ :=
  let l' := if skipna then l.filter (fun x => !x.isNaN) else l
  if l'.any XF.isNaN then nan
  else match l' with
    | [] => nan
    | x :: xs => xs.foldl (fun a b => sel (lt a b) b a) x

/-- meteorology.py:316-491 `heat_index`; the Boolean is whether the "fractional humidity" warning (407-408) is
issued. xarray reductions skip NaN, numpy reductions propagate it. An empty array makes `min()` raise. -/
def heatIndex (alt : Bool) (t rh : Arg (XF ℝ)) : Except PyErr (Bool × Arg (XF ℝ)) :=
  -- 379
  if t.ty ≠ rh.ty then .error .typeError
  -- 395
  else if t.val.shape ≠ rh.val.shape then .error .valueError
  else if rh.val.values = [] then .error .valueError
  else
    let skip := decide (rh.ty = .dataArray)
    let mn := reduceMin skip rh.val.values
    let mx := reduceMax skip rh.val.values
    -- 401
    if lt mn (fin 0) ∨ lt (fin 100) mx then .error .valueError
    else
      -- 407, 440-475
      (Tensor.zip (heatIndexPoint alt) t.val rh.val).map (fun r => (le mx (fin 1),
        if t.ty = .dataArray then ⟨.dataArray, r⟩
        -- 478-479: the last `xr.where` always yields an ndarray (0-d for scalars)
        else if t.ty ∈ [PyType.list, .float, .int] then ⟨tolistType r.shape, r⟩ else ⟨.ndarray, r⟩))

end
end Verif.Model
