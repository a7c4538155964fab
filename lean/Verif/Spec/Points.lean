import Verif.Basic.XF
import Verif.Basic.Tensor
import Mathlib.Analysis.SpecialFunctions.Log.Basic
import Mathlib.Analysis.SpecialFunctions.Trigonometric.Inverse

/-
Formulas of the meteorology functions as a user would write them, for theorems about whole calls (no import of the model).
-/

namespace Verif.Spec
open Tensor

/-- every value of the array is the real number `f i` -/
def HasReals (a : Tensor (XF ℝ)) (f : List ℕ → ℝ) : Prop := ∀ i, InBounds a.shape i → a.get i = .fin (f i)

/-- latent heat of vaporisation over the gas constant of water vapour, kelvin, at temperature `T` kelvin -/
noncomputable def latentOverGas (T : ℝ) : ℝ := (597.3 - 0.57 * (T - 273)) * 4186 / 461.5

/-- declination of the sun on day `d` of the year (FAO 56 eq. 24) -/
noncomputable def declination (d : ℝ) : ℝ := 0.409 * Real.sin (2 * Real.pi * d / 365 - 1.39)

/-- cosine of the sunset hour angle (FAO 56 eq. 25), latitude in degrees -/
noncomputable def cosSunset (d l : ℝ) : ℝ := -(Real.tan (l * Real.pi / 180) * Real.tan (declination d))

/-- saturation vapour pressure in kPa (FAO 56 eq. 11), temperature in Fahrenheit -/
noncomputable def fao56 (f : ℝ) : ℝ :=
  0.6108 * Real.exp (17.27 * ((f - 32) * 5 / 9) / ((f - 32) * 5 / 9 + 237.3))

/-- linear interpolation between entries `k` and `k + 1` of a table at position `s` -/
def lerpEntry (tab : List ℚ) (k : ℕ) (s : ℝ) : ℝ :=
  ((tab.getD k 0 : ℚ) : ℝ) + (s - k) * (((tab.getD (k + 1) 0 : ℚ) : ℝ) - ((tab.getD k 0 : ℚ) : ℝ))

end Verif.Spec
