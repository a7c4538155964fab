import Verif.Basic.XReal
import Verif.Basic.Tensor

/-
Model of the FAO-56 functions of /repo/geocat/comp/meteorology.py: `max_daylight`, `psychrometric_constant`,
`saturation_vapor_pressure`, `actual_saturation_vapor_pressure`, `saturation_vapor_pressure_slope`.
-/

namespace Verif.Model
open XF
noncomputable section

/-! ### max_daylight -/

/-- meteorology.py:855-862 solar declination -/
def solarDec (jday : XF ℝ) : XF ℝ := fin 0.409 * sin (fin (2 * Real.pi / 365) * jday - fin 1.39)

/-- meteorology.py:858-868 hours of daylight at one (day, latitude) -/
def daylightPoint (jday lat : XF ℝ) : XF ℝ :=
  let latrad := lat * fin (Real.pi / 180)
  fin (24 / Real.pi) * arccos (-(tan latrad) * tan (solarDec jday))

/-- the two warnings of lines 846-852 -/
inductive LatWarning
  | limitedValidity | notPossible
  deriving DecidableEq

/-- meteorology.py:846-852; `all()` over the latitudes (true for an empty array) -/
def daylightWarning (lats : List (XF ℝ)) : Option LatWarning :=
  if lats.all (fun l => lt (fin 55) (XF.abs l)) && lats.all (fun l => le (XF.abs l) (fin 66)) then
    some .limitedValidity
  else if lats.all (fun l => lt (fin 66) (XF.abs l)) then some .notPossible
  else none

/-- meteorology.py:786-878 `max_daylight`. `np.outer` flattens its arguments (a scalar counts as one value); after
the transpose the days are the rows. -/
def maxDaylight (jday lat : Tensor (XF ℝ)) : Except PyErr (Option LatWarning × Tensor (XF ℝ)) :=
  -- 840
  if lat.shape.length > 1 ∨ jday.shape.length > 1 then .error .valueError
  else
    let days := jday.values
    let lats := lat.values
    .ok (daylightWarning lats, ⟨[days.length, lats.length], fun i =>
      match i with
      | [d, l] => daylightPoint (days.getD d nan) (lats.getD l nan)
      | _ => nan⟩)

/-! ### psychrometric_constant -/

/-- meteorology.py:932-943 at one point -/
def psychPoint (p : XF ℝ) : XF ℝ := fin 0.00066474 * p

/-- meteorology.py:881-949 `psychrometric_constant` -/
def psychrometricConstant (p : Arg (XF ℝ)) : Arg (XF ℝ) :=
  ⟨if p.ty = .dataArray then .dataArray else npResultType p.val.shape, p.val.map psychPoint⟩

/-! ### saturation vapour pressure -/

/-- meteorology.py:1007, 1023, 1141, 1165 Fahrenheit to Celsius -/
def toCelsius (t : XF ℝ) : XF ℝ := (t - fin 32) * fin 5 / fin 9

/-- meteorology.py:1005-1026 `saturation_vapor_pressure` at one point -/
def svpPoint (tfill t : XF ℝ) : XF ℝ :=
  let tc := toCelsius t
  sel (lt (fin 0) tc) (fin 0.6108 * exp ((fin 17.27 * tc) / (tc + fin 237.3))) tfill

/-- meteorology.py:1139-1177 `saturation_vapor_pressure_slope` at one point -/
def svpSlopePoint (tfill t : XF ℝ) : XF ℝ :=
  let tc := toCelsius t
  sel (lt (fin 0) tc)
    (fin 4096 * (fin 0.6108 * exp ((fin 17.27 * tc) / (tc + fin 237.3)) / ((tc + fin 237.3) * (tc + fin 237.3)))) tfill

/-- meteorology.py:952-1028 `saturation_vapor_pressure`; `np.where` always yields an ndarray -/
def saturationVaporPressure (t : Arg (XF ℝ)) (tfill : XF ℝ := nan) : Arg (XF ℝ) :=
  ⟨if t.ty = .dataArray then .dataArray else .ndarray, t.val.map (svpPoint tfill)⟩

/-- meteorology.py:1031-1091 `actual_saturation_vapor_pressure` (metadata aside) -/
def actualSaturationVaporPressure (t : Arg (XF ℝ)) (tfill : XF ℝ := nan) : Arg (XF ℝ) :=
  saturationVaporPressure t tfill

/-- meteorology.py:1094-1179 `saturation_vapor_pressure_slope` -/
def saturationVaporPressureSlope (t : Arg (XF ℝ)) (tfill : XF ℝ := nan) : Arg (XF ℝ) :=
  ⟨if t.ty = .dataArray then .dataArray else .ndarray, t.val.map (svpSlopePoint tfill)⟩

end
end Verif.Model
