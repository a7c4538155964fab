import Mathlib.Analysis.SpecialFunctions.Sqrt

/-
The National Weather Service heat index as documented (https://www.wpc.ncep.noaa.gov/html/heatindex_equation.shtml
and the docstring of `heat_index`): simple formula first; if it reaches the threshold, the regression with its
adjustments; below 40 F the temperature itself. No import of the model.
-/

namespace Verif.Spec
noncomputable section

/-- average of Steadman's formula and the temperature -/
def hiSimple (t rh : ℝ) : ℝ := (61 + (t - 68) * 1.2 + rh * 0.094 + t) / 2

/-- the Rothfusz regression -/
def hiRothfusz (t rh : ℝ) : ℝ :=
  -42.379 + 2.04901523 * t + 10.14333127 * rh - 0.22475541 * t * rh - 0.00683783 * t ^ 2 - 0.05481717 * rh ^ 2
    + 0.00122874 * t ^ 2 * rh + 0.00085282 * t * rh ^ 2 - 0.00000199 * t ^ 2 * rh ^ 2

/-- the regression with the alternate coefficients (70 to 115 F, humidity 0 to 80 %) -/
def hiAlternate (t rh : ℝ) : ℝ :=
  0.363445176 + 0.988622465 * t + 4.777114035 * rh - 0.114037667 * t * rh - 0.000850208 * t ^ 2
    - 0.020716198 * rh ^ 2 + 0.000687678 * t ^ 2 * rh + 0.000274954 * t * rh ^ 2

/-- adjustment for dry air -/
def hiAdjLow (t rh : ℝ) : ℝ :=
  if rh ≤ 13 ∧ 80 ≤ t ∧ t ≤ 112 then (13 - rh) / 4 * Real.sqrt ((17 - |t - 95|) / 17) else 0

/-- adjustment for humid air -/
def hiAdjHigh (t rh : ℝ) : ℝ :=
  if 85 < rh ∧ 80 ≤ t ∧ t ≤ 87 then (rh - 85) / 10 * ((87 - t) / 5) else 0

/-- threshold above which the regression is used -/
def hiThreshold (alt : Bool) : ℝ := if alt then 70 else 79

/-- the regression selected by the flag -/
def hiRegression (alt : Bool) (t rh : ℝ) : ℝ := if alt then hiAlternate t rh else hiRothfusz t rh

/-- the documented heat index -/
def hiDocumented (alt : Bool) (t rh : ℝ) : ℝ :=
  if t < 40 then t
  else if hiSimple t rh < hiThreshold alt then hiSimple t rh
  else hiRegression alt t rh - hiAdjLow t rh + hiAdjHigh t rh

end
end Verif.Spec
