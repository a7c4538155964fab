import Verif.Basic.XReal
import Verif.Model.Hybrid

/-
Model of the below-ground extrapolation of /repo/geocat/comp/interpolation.py (`_temp_extrapolate`,
`_geo_height_extrapolate`, `_vertical_remap_extrap`) at one grid point, and of `interp_hybrid_to_pressure` as a whole.
Real arithmetic with NaN and infinities instead of floating point.
-/

namespace Verif.Model
noncomputable section

/-- interpolation.py:204, 262 -/
def Rd : ℝ := 287.04
/-- interpolation.py:205, 263 -/
def gInv : ℝ := 1 / 9.80616
/-- interpolation.py:206, 264 -/
def alphaLapse : ℝ := 0.0065 * Rd * gInv

/-- `np.minimum`: NaN if one argument is -/
def npMinimum (a b : XF ℝ) : XF ℝ := if a.isNaN || b.isNaN then .nan else if XF.lt b a then b else a

/-- interpolation.py:208, 266 -/
def tStar (tBot pSfc ps : XF ℝ) : XF ℝ := tBot * (.fin 1 + .fin alphaLapse * (ps / pSfc - .fin 1))

/-- interpolation.py:173-227 `_temp_extrapolate` -/
def tempExtrapolate (tBot lev pSfc ps phi : XF ℝ) : XF ℝ :=
  let tstar := tStar tBot pSfc ps
  let hgt := phi * .fin gInv
  let t0 := tstar + .fin 0.0065 * hgt
  let tplat := npMinimum (.fin 298) t0
  -- 213-217
  let tp1 := XF.sel (XF.le (.fin 2000) hgt && XF.le hgt (.fin 2500))
    (.fin 0.002 * ((.fin 2500 - hgt) * t0 + (hgt - .fin 2000) * tplat)) .nan
  -- 218
  let tprime0 := XF.sel (XF.lt (.fin 2500) hgt) tplat tp1
  -- 220-224
  let alnp1 := XF.sel (XF.lt hgt (.fin 2000)) (.fin alphaLapse * XF.log (lev / ps))
    (.fin Rd * (tprime0 - tstar) / phi * XF.log (lev / ps))
  -- 225
  let alnp := XF.sel (XF.lt tprime0 tstar) (.fin 0) alnp1
  -- 227
  tstar * (.fin 1 + alnp + .fin 0.5 * (alnp * alnp) + .fin (1 / 6) * (alnp * alnp * alnp))

/-- interpolation.py:230-282 `_geo_height_extrapolate` -/
def geoHeightExtrapolate (tBot lev pSfc ps phi : XF ℝ) : XF ℝ :=
  let tstar := tStar tBot pSfc ps
  let hgt := phi * .fin gInv
  let t0 := tstar + .fin 0.0065 * hgt
  -- 270-272
  let alph1 := XF.sel (XF.le tstar (.fin 290.5) && XF.lt (.fin 290.5) t0) (.fin Rd / phi * (.fin 290.5 - tstar)) (.fin alphaLapse)
  -- 274
  let alph := XF.sel (XF.lt (.fin 290.5) tstar && XF.lt (.fin 290.5) t0) (.fin 0) alph1
  -- 275
  let tstar2 := XF.sel (XF.lt (.fin 290.5) tstar && XF.lt (.fin 290.5) t0) (.fin 0.5 * (.fin 290.5 + tstar)) tstar
  -- 277
  let tstar3 := XF.sel (XF.lt tstar2 (.fin 255)) (.fin 0.5 * (tstar2 + .fin 255)) tstar2
  -- 279
  let alnp := alph * XF.log (lev / ps)
  -- 280-282
  hgt - .fin Rd * tstar3 * .fin gInv * XF.log (lev / ps) * (.fin 1 + .fin 0.5 * alnp + .fin (1 / 6) * (alnp * alnp))

/-- interpolation.py:335-348: what is put below the lowest level. `sfc` is the index of the chosen level. -/
def belowGround (variable' : Option String) (lev : String) (sfc : Nat) (data : LArr (XF ℝ)) (ps : LArr ℝ)
    (tBot phi : LArr (XF ℝ)) (plev psfc : ℝ) (i : String → Nat) : XF ℝ :=
  if variable' = some "temperature" then tempExtrapolate (tBot.get i) (.fin plev) (.fin psfc) (.fin (ps.get i)) (phi.get i)
  else if variable' = some "geopotential" then
    geoHeightExtrapolate (tBot.get i) (.fin plev) (.fin psfc) (.fin (ps.get i)) (phi.get i)
  else data.get (Function.update i lev sfc)

/-- interpolation.py:520-763 `interp_hybrid_to_pressure`. `labels` are the labels of the level coordinate; `tBot` and `phi`
are only looked at if `o.hasTBot`, `o.hasPhi`. Attributes, names and pint units are not modelled. -/
def interpHybridToPressure (o : HybridOpts) (p0 : ℝ) (x : List ℝ) (chunks : Option (String → List Nat)) (othersDask : Bool)
    (labels : List ℝ) (data : LArr (XF ℝ)) (ps hyam hybm : LArr ℝ) (tBot phi : LArr (XF ℝ)) : Except PyErr (LArr (XF ℝ)) := do
  let (lev, g) ← hybridChecks Real.log o
  interpHybridCore g lev p0 x chunks othersDask labels data ps hyam hybm
    (if o.extrapolate then some (belowGround o.variable' lev (argmax labels) data ps tBot phi) else none)

end
end Verif.Model
