import Mathlib.Analysis.SpecialFunctions.Exp

/-
Independent notions for the humidity properties (no import of the model).
-/

namespace Verif.Spec

/-- mixing ratio of saturated air: `0.622 e / (p - 0.378 e)` for saturation vapour pressure `e` and pressure `p`
in the same unit -/
noncomputable def satMixingRatio (e p : ℝ) : ℝ := 0.622 * e / (p - 0.378 * e)

/-- Magnus formula over ice (Alduchov & Eskridge), hPa, temperature in Celsius -/
noncomputable def magnusIce (c : ℝ) : ℝ := 6.1128 * Real.exp (22.571 * c / (c + 273.71))

/-- Magnus-Tetens formula over water (Murray), hPa, temperature in Kelvin -/
noncomputable def tetensWater (t : ℝ) : ℝ := 6.1128 * Real.exp (17.269 * (t - 273.15) / (t - 35.86))

end Verif.Spec
