import Verif.Basic.XReal
import Verif.Basic.Tensor

/-
Model of the humidity functions of /repo/geocat/comp/meteorology.py: `_dewtemp`, `dewtemp`, `relhum`,
`_relhum_ice`, `relhum_ice`, `_relhum_water`, `relhum_water`.
Pointwise kernels work on extended reals; the public functions work on typed arrays.
-/

namespace Verif.Model
open XF
noncomputable section

/-! ### dewtemp -/

/-- meteorology.py:41-44 `lhv` -/
def dewLhv (tk : XF ℝ) : XF ℝ :=
  let gc : XF ℝ := fin 461.5
  let gcx := gc / (fin 1000 * fin 4.186)
  (fin 597.3 - fin 0.57 * (tk - fin 273)) / gcx

/-- meteorology.py:10-47 `_dewtemp` at one point -/
def dewtempPoint (tk rh : XF ℝ) : XF ℝ :=
  let lhv := dewLhv tk
  tk * lhv / (lhv - tk * log (rh * fin 0.01))

/-- meteorology.py:253-313 `dewtemp`. Line 286 tests `not (generator)`, which is always `False`, so there is no
shape check: numpy broadcasts. xarray operands are taken to have matching dimension names. -/
def dewtemp (t rh : Arg (XF ℝ)) : Except PyErr (Arg (XF ℝ)) :=
  -- 292-295
  if t.ty = .dataArray ∨ rh.ty = .dataArray then
    if t.ty ≠ .dataArray ∨ rh.ty ≠ .dataArray then .error .typeError
    else (Tensor.zip dewtempPoint t.val rh.val).map (fun r => ⟨.dataArray, r⟩)
  else
    -- 307-311
    (Tensor.zip dewtempPoint t.val rh.val).map (fun r => ⟨npResultType r.shape, r⟩)

/-! ### relhum -/

/-- meteorology.py:539-559 the saturation vapour pressure table (0.1 Pa steps of one kelvin from 173.16 K) -/
def relhumTable : List ℚ := [
   0.01403, 0.01719, 0.02101, 0.02561, 0.03117, 0.03784, 0.04584, 0.05542, 0.06685, 0.08049, 0.09672, 0.1160,
   0.1388, 0.1658, 0.1977, 0.2353, 0.2796, 0.3316, 0.3925, 0.4638, 0.5472, 0.6444, 0.7577, 0.8894, 1.042,
   1.220, 1.425, 1.662, 1.936, 2.252, 2.615, 3.032, 3.511, 4.060, 4.688, 5.406, 6.225, 7.159, 8.223, 9.432,
   10.80, 12.36, 14.13, 16.12, 18.38, 20.92, 23.80, 27.03, 30.67, 34.76, 39.35, 44.49, 50.26, 56.71, 63.93,
   71.98, 80.97, 90.98, 102.1, 114.5, 128.3, 143.6, 160.6, 179.4, 200.2, 223.3, 248.8, 276.9, 307.9, 342.1,
   379.8, 421.3, 466.9, 517.0, 572.0, 632.3, 698.5, 770.9, 850.2, 937.0, 1032.0, 1146.6, 1272.0, 1408.1,
   1556.7, 1716.9, 1890.3, 2077.6, 2279.6, 2496.7, 2729.8, 2980.0, 3247.8, 3534.1, 3839.8, 4164.8, 4510.5,
   4876.9, 5265.1, 5675.2, 6107.8, 6566.2, 7054.7, 7575.3, 8129.4, 8719.2, 9346.50, 10013.0, 10722.0, 11474.0,
   12272.0, 13119.0, 14017.0, 14969.0, 15977.0, 17044.0, 18173.0, 19367.0, 20630.0, 21964.0, 23373.0, 24861.0,
   26430.0, 28086.0, 29831.0, 31671.0, 33608.0, 35649.0, 37796.0, 40055.0, 42430.0, 44927.0, 47551.0, 50307.0,
   53200.0, 56236.0, 59422.0, 62762.0, 66264.0, 69934.0, 73777.0, 77802.0, 82015.0, 86423.0, 91034.0, 95855.0,
   100890.0, 106160.0, 111660.0, 117400.0, 123400.0, 129650.0, 136170.0, 142980.0, 150070.0, 157460.0,
   165160.0, 173180.0, 181530.0, 190220.0, 199260.0, 208670.0, 218450.0, 228610.0, 239180.0, 250160.0,
   261560.0, 273400.0, 285700.0, 298450.0, 311690.0, 325420.0, 339650.0, 354410.0, 369710.0, 385560.0,
   401980.0, 418980.0, 436590.0, 454810.0, 473670.0, 493170.0, 513350.0, 534220.0, 555800.0, 578090.0,
   601130.0, 624940.0, 649530.0, 674920.0, 701130.0, 728190.0, 756110.0, 784920.0, 814630.0, 845280.0,
   876880.0, 909450.0, 943020.0, 977610.0, 1013250.0, 1049940.0, 1087740.0, 1087740.0]

/-- meteorology.py:575 `temperature.clip(173.16, 375.16)`; NaN stays NaN. -/
def clipTemp : XF ℝ → XF ℝ
  | fin x => fin (min (max x 173.16) 375.16)
  | pinf => fin 375.16
  | ninf => fin 173.16
  | nan => nan

/-- meteorology.py:577 `(temperature - mintemp).astype(int)`: truncation toward zero. Converting NaN gives the
smallest integer (x86-64 behaviour), hence an index far out of range. -/
def toIndex : XF ℝ → Int
  | fin x => if 0 ≤ x then ⌊x⌋ else ⌈x⌉
  | _ => -9223372036854775808

/-- meteorology.py:571-581 saturation vapour pressure by table lookup, in Pa -/
def relhumEs (t : XF ℝ) : Except PyErr (XF ℝ) := do
  let t := clipTemp t
  let it := toIndex (t - fin 173.16)
  let t2 : XF ℝ := fin 173.16 + fin (it : ℝ)
  let a ← Py.index relhumTable it
  let b ← Py.index relhumTable (it + 1)
  let es := (t2 + fin 1 - t) * fin (a : ℝ) + (t - t2) * fin (b : ℝ)
  return es * fin 0.1

/-- `np.clip(x, 0.0001, None)` at one point -/
def clipMin : XF ℝ → XF ℝ
  | fin x => fin (max x 0.0001)
  | pinf => pinf
  | ninf => fin 0.0001
  | nan => nan

/-- meteorology.py:583-586 -/
def relhumOfEs (es w p : XF ℝ) : XF ℝ :=
  clipMin ((w * (p - fin 0.378 * es) / (fin 0.622 * es)) * fin 100)

/-- meteorology.py:571-586 `relhum` at one point -/
def relhumPoint (t w p : XF ℝ) : Except PyErr (XF ℝ) := do
  let es ← relhumEs t
  return relhumOfEs es w p

/-- the array of saturation pressures at one point (used only when no lookup of the array failed) -/
def relhumEsD (t : XF ℝ) : XF ℝ := match relhumEs t with | .ok e => e | .error _ => .nan

/-- meteorology.py:583 `mixing_ratio * (...)` when the mixing ratio is still a Python list and the second factor is a numpy scalar (temperature
and pressure are scalars): numpy leaves the product to the list, and repeating a list by a float is a TypeError. -/
def listTimesScalar (t w p : Arg (XF ℝ)) : Bool :=
  w.ty == .list && w.val.shape != [] && t.val.shape == [] && p.val.shape == [] && t.ty != .dataArray && p.ty != .dataArray

/-- meteorology.py:494-597 `relhum`. As in `dewtemp`, the shape check of line 565 never fires. The table lookup is
done for the whole array, so one failing index fails the call. The result is an `xarray.DataArray` if some input is.
Not modelled: xarray arguments with different dimension names; lists together with xarray arguments. -/
def relhum (t w p : Arg (XF ℝ)) : Except PyErr (Arg (XF ℝ)) :=
  match t.val.values.mapM relhumEs with
  | .error e => .error e
  | .ok _ =>
    if listTimesScalar t w p then .error .typeError else
    let es : Tensor (XF ℝ) := t.val.map relhumEsD
    (Tensor.zip3 relhumOfEs es w.val p.val).map (fun r =>
      ⟨if t.ty = .dataArray ∨ w.ty = .dataArray ∨ p.ty = .dataArray then .dataArray else npResultType r.shape, r⟩)

/-! ### relhum_ice, relhum_water -/

/-- meteorology.py:144-158 saturation vapour pressure over ice (hPa) -/
def estIce (t : XF ℝ) : XF ℝ :=
  fin 6.1128 * exp ((fin 22.571 * (t - fin 273.15)) / ((t - fin 273.15) + fin 273.71))

/-- meteorology.py:226-242 saturation vapour pressure over water (hPa) -/
def estWater (t : XF ℝ) : XF ℝ :=
  fin 6.1128 * exp ((fin 17.269 * (t - fin 273.15)) / (t - fin 35.86))

/-- meteorology.py:161 and 245 `qst` -/
def qst (est p : XF ℝ) : XF ℝ := (fin 0.622 * est) / ((p * fin 0.01) - fin 0.378 * est)

/-- meteorology.py:96-166 `_relhum_ice` at one point -/
def relhumIcePoint (t w p : XF ℝ) : XF ℝ := fin 100 * (w / qst (estIce t) p)

/-- meteorology.py:169-250 `_relhum_water` at one point -/
def relhumWaterPoint (t w p : XF ℝ) : XF ℝ := fin 100 * (w / qst (estWater t) p)

/-- meteorology.py:600-689 `relhum_ice`. (The `except [ValueError, TypeError]` clause at 662 is only reached when
`np.asarray` itself fails, which does not happen for numeric values.) -/
def relhumIce (t w p : Arg (XF ℝ)) : Except PyErr (Arg (XF ℝ)) :=
  -- 649
  if ¬ (t.ty = w.ty ∧ w.ty = p.ty) then .error .typeError
  -- 674
  else if t.val.shape ≠ w.val.shape ∨ t.val.shape ≠ p.val.shape then .error .valueError
  else
    (Tensor.zip3 relhumIcePoint t.val w.val p.val).map (fun r =>
      -- 680-683
      if t.ty = .dataArray then ⟨.dataArray, r⟩
      else
        let rt := npResultType r.shape
        -- 686-687
        if t.ty ∈ [PyType.list, .float, .int] ∧ rt = .ndarray then ⟨tolistType r.shape, r⟩ else ⟨rt, r⟩)

/-- meteorology.py:692-783 `relhum_water`: same as `relhum_ice` without the final conversion back. -/
def relhumWater (t w p : Arg (XF ℝ)) : Except PyErr (Arg (XF ℝ)) :=
  -- 747
  if ¬ (t.ty = w.ty ∧ w.ty = p.ty) then .error .typeError
  -- 772
  else if t.val.shape ≠ w.val.shape ∨ t.val.shape ≠ p.val.shape then .error .valueError
  else
    (Tensor.zip3 relhumWaterPoint t.val w.val p.val).map (fun r =>
      -- 778-783
      if t.ty = .dataArray then ⟨.dataArray, r⟩ else ⟨npResultType r.shape, r⟩)

end
end Verif.Model
