import Mathlib.Analysis.SpecialFunctions.Trigonometric.Basic
import Mathlib.Analysis.Real.Sqrt
import Mathlib.MeasureTheory.Integral.IntervalIntegral.Basic

/-
Specification for the distances used by `gradient`: the formulas of its documentation with the constants of the WGS84 ellipsoid.
-/

namespace Verif.Spec.Wgs84

/-- equatorial radius in metres -/
def a : ℝ := 6378137

/-- polar radius in metres, from the flattening 1 / 298.257223563 -/
noncomputable def b : ℝ := a * (1 - 1 / 298.257223563)

/-- sqrt(a² cos² + b² sin²) at a latitude in degrees -/
noncomputable def radius (lat : ℝ) : ℝ :=
  Real.sqrt (a ^ 2 * Real.cos (lat * (Real.pi / 180)) ^ 2 + b ^ 2 * Real.sin (lat * (Real.pi / 180)) ^ 2)

/-- the integral of the radius over the angle, from the equator to a latitude in degrees -/
noncomputable def arc (lat : ℝ) : ℝ := ∫ x in (0 : ℝ)..lat, radius x * (Real.pi / 180)

/-- radius of curvature of the meridian of the ellipsoid at a geodetic latitude in degrees: a²b² / (a² cos² + b² sin²)^(3/2) -/
noncomputable def meridianRadius (lat : ℝ) : ℝ := a ^ 2 * b ^ 2 / radius lat ^ 3

end Verif.Spec.Wgs84
