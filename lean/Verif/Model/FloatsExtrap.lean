import Verif.Model.Extrap
import Verif.Model.Floats

/-
`_temp_extrapolate` and `_geo_height_extrapolate` (interpolation.py 173-282) with every operation rounded. `D` is the precision of the arrays, `R` is double precision, in
which the Python numbers `R_d`, `g_inv` and `alpha` are computed before they are stored in precision `D` by the array operations. `ln` is the computed logarithm,
`cube` the computed third power (numpy computes `x**3` with the C function `pow`; `x**2` is one rounded product). Integers are stored exactly. No overflow.
-/

namespace Verif.Model
open XF
noncomputable section

/-- interpolation.py:204, 262 -/
def rdFl (D R : Rounding ℝ) : ℝ := D.fl (R.fl 287.04)
/-- interpolation.py:205, 263, a Python number -/
def gInvR (R : Rounding ℝ) : ℝ := R.fl (1 / R.fl 9.80616)
/-- interpolation.py:205, 263 as it enters an array operation -/
def gInvFl (D R : Rounding ℝ) : ℝ := D.fl (gInvR R)
/-- interpolation.py:206, 264 -/
def alphaFl (D R : Rounding ℝ) : ℝ := D.fl (R.fl (R.fl (R.fl 0.0065 * R.fl 287.04) * gInvR R))

/-- interpolation.py:208, 266 -/
def tStarFl (D R : Rounding ℝ) (tBot pSfc ps : XF ℝ) : XF ℝ :=
  let r := roundXF D
  r (tBot * r (fin 1 + r (fin (alphaFl D R) * r (r (ps / pSfc) - fin 1))))

/-- interpolation.py:173-227 `_temp_extrapolate` (see `tempExtrapolate`) -/
def tempExtrapolateFl (D R : Rounding ℝ) (ln cube : XF ℝ → XF ℝ) (tBot lev pSfc ps phi : XF ℝ) : XF ℝ :=
  let r := roundXF D
  let tstar := tStarFl D R tBot pSfc ps
  let hgt := r (phi * fin (gInvFl D R))
  let t0 := r (tstar + r (fin (D.fl (R.fl 0.0065)) * hgt))
  let tplat := npMinimum (fin 298) t0
  -- 213-217
  let tp1 := sel (le (fin 2000) hgt && le hgt (fin 2500))
    (r (fin (D.fl (R.fl 0.002)) * r (r (r (fin 2500 - hgt) * t0) + r (r (hgt - fin 2000) * tplat)))) nan
  -- 218
  let tprime0 := sel (lt (fin 2500) hgt) tplat tp1
  -- 220-224
  let alnp1 := sel (lt hgt (fin 2000)) (r (fin (alphaFl D R) * ln (r (lev / ps))))
    (r (r (r (fin (rdFl D R) * r (tprime0 - tstar)) / phi) * ln (r (lev / ps))))
  -- 225
  let alnp := sel (lt tprime0 tstar) (fin 0) alnp1
  -- 227
  r (tstar * r (r (r (fin 1 + alnp) + r (fin 0.5 * r (alnp * alnp))) + r (fin (D.fl (R.fl (1 / 6))) * cube alnp)))

/-- interpolation.py:230-282 `_geo_height_extrapolate` (see `geoHeightExtrapolate`) -/
def geoHeightExtrapolateFl (D R : Rounding ℝ) (ln : XF ℝ → XF ℝ) (tBot lev pSfc ps phi : XF ℝ) : XF ℝ :=
  let r := roundXF D
  let tstar := tStarFl D R tBot pSfc ps
  let hgt := r (phi * fin (gInvFl D R))
  let t0 := r (tstar + r (fin (D.fl (R.fl 0.0065)) * hgt))
  -- 270-272
  let alph1 := sel (le tstar (fin 290.5) && lt (fin 290.5) t0) (r (r (fin (rdFl D R) / phi) * r (fin 290.5 - tstar))) (fin (alphaFl D R))
  -- 274
  let alph := sel (lt (fin 290.5) tstar && lt (fin 290.5) t0) (fin 0) alph1
  -- 275
  let tstar2 := sel (lt (fin 290.5) tstar && lt (fin 290.5) t0) (r (fin 0.5 * r (fin 290.5 + tstar))) tstar
  -- 277
  let tstar3 := sel (lt tstar2 (fin 255)) (r (fin 0.5 * r (tstar2 + fin 255))) tstar2
  -- 279
  let l := ln (r (lev / ps))
  let alnp := r (alph * l)
  -- 280-282
  r (hgt - r (r (r (r (fin (rdFl D R) * tstar3) * fin (gInvFl D R)) * l) * r (r (fin 1 + r (fin 0.5 * alnp)) + r (fin (D.fl (R.fl (1 / 6))) * r (alnp * alnp)))))

end
end Verif.Model
