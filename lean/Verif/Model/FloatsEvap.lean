import Verif.Model.Evap
import Verif.Model.Floats

/-
`psychrometric_constant`, `saturation_vapor_pressure` and `saturation_vapor_pressure_slope` (meteorology.py 881-1179) with every operation rounded. `D` is
the precision of the array (numpy keeps it when it combines an array with Python numbers), `R` is double precision, in which the constants are written;
`ex` is the library's exponential function. No overflow.
-/

namespace Verif.Model
open XF
noncomputable section

/-- meteorology.py:938, 942 at one point (see `psychPoint`) -/
def psychPointFl (D R : Rounding ℝ) (p : XF ℝ) : XF ℝ := roundXF D (fin (D.fl (R.fl 0.00066474)) * p)

/-- meteorology.py:881-949 `psychrometric_constant` (see `psychrometricConstant`) -/
def psychrometricConstantFl (D R : Rounding ℝ) (p : Arg (XF ℝ)) : Arg (XF ℝ) :=
  ⟨if p.ty = .dataArray then .dataArray else npResultType p.val.shape, p.val.map (psychPointFl D R)⟩

/-- meteorology.py:1007, 1023, 1141, 1165 Fahrenheit to Celsius (see `toCelsius`) -/
def toCelsiusFl (D : Rounding ℝ) (t : XF ℝ) : XF ℝ := roundXF D (roundXF D (roundXF D (t - fin (D.fl 32)) * fin (D.fl 5)) / fin (D.fl 9))

/-- `temp_c + 237.3` in meteorology.py:1011, 1025, 1149-1150, 1173-1174 -/
def svpDenFl (D R : Rounding ℝ) (tc : XF ℝ) : XF ℝ := roundXF D (tc + fin (D.fl (R.fl 237.3)))

/-- `0.6108 * np.exp((17.27 * temp_c) / (temp_c + 237.3))` in meteorology.py:1011, 1025, 1148-1149, 1172-1173 -/
def tetensFl (D R : Rounding ℝ) (ex : XF ℝ → XF ℝ) (tc : XF ℝ) : XF ℝ :=
  roundXF D (fin (D.fl (R.fl 0.6108)) * ex (roundXF D (roundXF D (fin (D.fl (R.fl 17.27)) * tc) / svpDenFl D R tc)))

/-- meteorology.py:1005-1026 `saturation_vapor_pressure` at one point (see `svpPoint`) -/
def svpPointFl (D R : Rounding ℝ) (ex : XF ℝ → XF ℝ) (tfill t : XF ℝ) : XF ℝ :=
  let tc := toCelsiusFl D t
  sel (lt (fin 0) tc) (tetensFl D R ex tc) tfill

/-- meteorology.py:1139-1177 `saturation_vapor_pressure_slope` at one point (see `svpSlopePoint`); numpy squares for the exponent 2 -/
def svpSlopePointFl (D R : Rounding ℝ) (ex : XF ℝ → XF ℝ) (tfill t : XF ℝ) : XF ℝ :=
  let tc := toCelsiusFl D t
  sel (lt (fin 0) tc)
    (roundXF D (fin (D.fl 4096) * roundXF D (tetensFl D R ex tc / roundXF D (svpDenFl D R tc * svpDenFl D R tc)))) tfill

/-- meteorology.py:952-1028 `saturation_vapor_pressure` (see `saturationVaporPressure`) -/
def saturationVaporPressureFl (D R : Rounding ℝ) (ex : XF ℝ → XF ℝ) (t : Arg (XF ℝ)) (tfill : XF ℝ := nan) : Arg (XF ℝ) :=
  ⟨if t.ty = .dataArray then .dataArray else .ndarray, t.val.map (svpPointFl D R ex tfill)⟩

/-- meteorology.py:1094-1179 `saturation_vapor_pressure_slope` (see `saturationVaporPressureSlope`) -/
def saturationVaporPressureSlopeFl (D R : Rounding ℝ) (ex : XF ℝ → XF ℝ) (t : Arg (XF ℝ)) (tfill : XF ℝ := nan) : Arg (XF ℝ) :=
  ⟨if t.ty = .dataArray then .dataArray else .ndarray, t.val.map (svpSlopePointFl D R ex tfill)⟩

end
end Verif.Model
