import Mathlib.Analysis.SpecialFunctions.Log.Basic

/-
The ECMWF formulas for temperature and geopotential height below ground, as in Trenberth, Berry & Buja (NCAR/TN-396, 1993),
equations 15 and 16 (no import of the model).
-/

namespace Verif.Spec.Ecmwf
noncomputable section

/-- dry air gas constant, gravity, standard lapse rate -/
def R : ℝ := 287.04
def g : ℝ := 9.80616
def lapse : ℝ := 0.0065
/-- exponent of the standard atmosphere -/
def α : ℝ := lapse * R / g

/-- surface temperature from the temperature `t` of the lowest level at pressure `pl` -/
def surfaceT (t pl ps : ℝ) : ℝ := t * (1 + α * (ps / pl - 1))

/-- temperature reduced to sea level over high terrain of height `h`: uncorrected up to 2000 m, at most 298 K above 2500 m,
linear blend between -/
def plateauT (ts h : ℝ) : ℝ :=
  let t0 := ts + lapse * h
  if h ≤ 2000 then t0
  else if h ≤ 2500 then ((2500 - h) * t0 + (h - 2000) * min 298 t0) / 500
  else min 298 t0

/-- exponent used for temperature -/
def alphaT (ts phi : ℝ) : ℝ := if phi / g < 2000 then α else max 0 (R * (plateauT ts (phi / g) - ts) / phi)

/-- equation 16 -/
def temperature (ts ps phi p : ℝ) : ℝ :=
  let u := alphaT ts phi * Real.log (p / ps)
  ts * (1 + u + u ^ 2 / 2 + u ^ 3 / 6)

/-- exponent used for height -/
def alphaZ (ts phi : ℝ) : ℝ :=
  let t0 := ts + lapse * (phi / g)
  if t0 ≤ 290.5 then α else if ts ≤ 290.5 then R / phi * (290.5 - ts) else 0

/-- surface temperature used for height: damped when very warm or very cold -/
def dampedT (ts phi : ℝ) : ℝ :=
  let t1 := if 290.5 < ts ∧ 290.5 < ts + lapse * (phi / g) then (290.5 + ts) / 2 else ts
  if t1 < 255 then (t1 + 255) / 2 else t1

/-- equation 15, divided by `g` -/
def height (ts ps phi p : ℝ) : ℝ :=
  let l := Real.log (p / ps)
  let u := alphaZ ts phi * l
  phi / g - R * dampedT ts phi / g * l * (1 + u / 2 + u ^ 2 / 6)

end
end Verif.Spec.Ecmwf
