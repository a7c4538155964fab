import Verif.Model.Evap
import Verif.Model.Floats

/-
`max_daylight` (meteorology.py 786-878) with every operation rounded. `D` is the precision of days and latitudes (single for lists: lines 835 and 837), `R` is
double precision, in which Python computes the constants; `sn`, `tn` and `ac` are the library's sine, tangent and arc cosine. No overflow. Not modelled: days
and latitudes of different precision.
-/

namespace Verif.Model
open XF
noncomputable section

/-- meteorology.py:856 `rad`, as it enters line 858 -/
def radFl (D R : Rounding ℝ) : ℝ := D.fl (R.fl (R.fl Real.pi / 180))

/-- meteorology.py:857 `pi2yr`, as it enters line 862 -/
def pi2yrFl (D R : Rounding ℝ) : ℝ := D.fl (R.fl (R.fl (2 * R.fl Real.pi) / 365))

/-- meteorology.py:859 `con`, as it enters line 868 -/
def conFl (D R : Rounding ℝ) : ℝ := D.fl (R.fl (24 / R.fl Real.pi))

/-- meteorology.py:862 (see `solarDec`) -/
def solarDecFl (D R : Rounding ℝ) (sn : XF ℝ → XF ℝ) (jday : XF ℝ) : XF ℝ :=
  roundXF D (fin (D.fl (R.fl 0.409)) * sn (roundXF D (roundXF D (fin (pi2yrFl D R) * jday) - fin (D.fl (R.fl 1.39)))))

/-- meteorology.py:858-868 (see `daylightPoint`) -/
def daylightPointFl (D R : Rounding ℝ) (sn tn ac : XF ℝ → XF ℝ) (jday lat : XF ℝ) : XF ℝ :=
  let latrad := roundXF D (lat * fin (radFl D R))
  roundXF D (fin (conFl D R) * ac (roundXF D (-(tn latrad) * tn (solarDecFl D R sn jday))))

/-- meteorology.py:786-878 `max_daylight` (see `maxDaylight`); the comparisons of lines 846-852 are exact -/
def maxDaylightFl (D R : Rounding ℝ) (sn tn ac : XF ℝ → XF ℝ) (jday lat : Tensor (XF ℝ)) : Except PyErr (Option LatWarning × Tensor (XF ℝ)) :=
  -- 840
  if lat.shape.length > 1 ∨ jday.shape.length > 1 then .error .valueError
  else
    let days := jday.values
    let lats := lat.values
    .ok (daylightWarning lats, ⟨[days.length, lats.length], fun i =>
      match i with
      | [d, l] => daylightPointFl D R sn tn ac (days.getD d nan) (lats.getD l nan)
      | _ => nan⟩)

end
end Verif.Model
