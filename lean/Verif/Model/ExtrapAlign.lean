import Verif.Model.NmseDims
import Verif.Model.Extrap

/-
Model of `_temp_extrapolate`, `_geo_height_extrapolate` and `_vertical_remap_extrap` of /repo/geocat/comp/interpolation.py on DataArrays whose labels need
not agree, and of `interp_hybrid_to_pressure` with `extrapolate=True` for such arrays. See Model/Extrap for the formulas at one point.
-/

namespace Verif.Model
open XF
noncomputable section

/-- `xr.where(c, x, y)` for three DataArrays: join="exact" -/
def where3 {K α : Type} [Field K] [LinearOrder K] (f : Bool → α → α → α) (c : IArr K Bool) (x y : IArr K α) : Except PyErr (IArr K α) := do
  let p ← zipExact Prod.mk c x
  zipExact (fun p y => f p.1 p.2 y) p y

/-- a DataArray of numbers or NaN -/
abbrev XArr := IArr ℝ (XF ℝ)

/-- interpolation.py:208, 266: `t_bot * (1 + alpha * (ps / p_sfc - 1))` -/
def tStarIdx (tBot pSfc ps : XArr) : Except PyErr XArr := do
  let r ← IArr.zip (fun ps p => ps / p) ps pSfc
  IArr.zip (fun t r => t * (.fin 1 + .fin alphaLapse * (r - .fin 1))) tBot r

/-- interpolation.py:173-227 `_temp_extrapolate` -/
def tempExtrapolateIdx (tBot lev pSfc ps phi : XArr) : Except PyErr XArr := do
  let tstar ← tStarIdx tBot pSfc ps
  -- 209
  let hgt := phi.map (fun phi => phi * .fin gInv)
  -- 210, 211
  let t0 ← IArr.zip (fun t h => t + .fin 0.0065 * h) tstar hgt
  let tplat := t0.map (npMinimum (.fin 298))
  -- 213-217
  let a ← IArr.zip (fun h t0 => (.fin 2500 - h) * t0) hgt t0
  let b ← IArr.zip (fun h tp => (h - .fin 2000) * tp) hgt tplat
  let ab ← IArr.zip (fun a b => .fin 0.002 * (a + b)) a b
  let tp1 ← zipExact (fun h ab => XF.sel (XF.le (.fin 2000) h && XF.le h (.fin 2500)) ab .nan) hgt ab
  -- 218
  let tprime0 ← where3 XF.sel (hgt.map (fun h => XF.lt (.fin 2500) h)) tplat tp1
  -- 220-224
  let l ← IArr.zip (fun lev ps => XF.log (lev / ps)) lev ps
  let q ← IArr.zip (fun tp ts => .fin Rd * (tp - ts)) tprime0 tstar
  let q ← IArr.zip (fun q phi => q / phi) q phi
  let q ← IArr.zip (fun q l => q * l) q l
  let alnp1 ← where3 XF.sel (hgt.map (fun h => XF.lt h (.fin 2000))) (l.map (fun l => .fin alphaLapse * l)) q
  -- 225
  let c ← IArr.zip (fun tp ts => XF.lt tp ts) tprime0 tstar
  let alnp ← zipExact (fun c a => XF.sel c (.fin 0) a) c alnp1
  -- 227
  IArr.zip (fun tstar alnp => tstar * (.fin 1 + alnp + .fin 0.5 * (alnp * alnp) + .fin (1 / 6) * (alnp * alnp * alnp))) tstar alnp

/-- interpolation.py:230-282 `_geo_height_extrapolate` -/
def geoHeightExtrapolateIdx (tBot lev pSfc ps phi : XArr) : Except PyErr XArr := do
  let tstar ← tStarIdx tBot pSfc ps
  -- 267
  let hgt := phi.map (fun phi => phi * .fin gInv)
  -- 268
  let t0 ← IArr.zip (fun t h => t + .fin 0.0065 * h) tstar hgt
  -- 270-272
  let c1 ← IArr.zip (fun ts t0 => XF.le ts (.fin 290.5) && XF.lt (.fin 290.5) t0) tstar t0
  let v ← IArr.zip (fun phi ts => .fin Rd / phi * (.fin 290.5 - ts)) phi tstar
  let alph1 ← zipExact (fun c v => XF.sel c v (.fin alphaLapse)) c1 v
  -- 274
  let c2 ← IArr.zip (fun ts t0 => XF.lt (.fin 290.5) ts && XF.lt (.fin 290.5) t0) tstar t0
  let alph ← zipExact (fun c a => XF.sel c (.fin 0) a) c2 alph1
  -- 275
  let tstar2 ← zipExact (fun c ts => XF.sel c (.fin 0.5 * (.fin 290.5 + ts)) ts) c2 tstar
  -- 277
  let tstar3 := tstar2.map (fun ts => XF.sel (XF.lt ts (.fin 255)) (.fin 0.5 * (ts + .fin 255)) ts)
  -- 279
  let l ← IArr.zip (fun lev ps => XF.log (lev / ps)) lev ps
  let alnp ← IArr.zip (fun a l => a * l) alph l
  -- 280-282
  let s ← IArr.zip (fun ts l => .fin Rd * ts * .fin gInv * l) tstar3 l
  let s ← IArr.zip (fun s alnp => s * (.fin 1 + .fin 0.5 * alnp + .fin (1 / 6) * (alnp * alnp))) s alnp
  IArr.zip (fun h s => h - s) hgt s

/-- which formula is asked for: interpolation.py:335, 340 -/
inductive Below
  | temperature
  | geopotential
  deriving DecidableEq

def Below.array : Below → XArr → XArr → XArr → XArr → XArr → Except PyErr XArr
  | .temperature => tempExtrapolateIdx
  | .geopotential => geoHeightExtrapolateIdx

/-- interpolation.py:330-344 `_vertical_remap_extrap` for `variable="temperature"` and `"geopotential"`; `plev` is `output.plev`, `pressure` has the
dimension `lev` -/
def remapExtrapIdx (v : Below) (lev : String) (plev output : XArr) (pressure ps : IArr ℝ ℝ) (tBot phi : XArr) : Except PyErr XArr := do
  -- 330-333
  let labels := (pressure.index lev).getD (virtualIndex (pressure.arr.size lev))
  let pSfc : XArr := ⟨⟨pressure.arr.dims.filter (fun d => d ≠ lev), pressure.arr.size,
    fun i => .fin (pressure.arr.get (Function.update i lev (argmax labels)))⟩, pressure.index⟩
  let c ← IArr.zip (fun l p => XF.le l p) plev pSfc
  let e ← v.array tBot plev pSfc (ps.map .fin) phi
  -- `output.where(c, e)`
  let p ← zipExact Prod.mk output c
  zipExact (fun p e => XF.sel p.2 p.1 e) p e

/-- interpolation.py:667-763 of `interp_hybrid_to_pressure` with `extrapolate=True` and `variable="temperature"` or `"geopotential"`, for eager arrays with
their labels; see `interpHybridIdx` for the part before the extrapolation -/
def interpHybridExtrapIdx (v : Below) (g : ℝ → ℝ) (lev : String) (p0 : ℝ) (x : List ℝ) (data : XArr) (ps hyam hybm : IArr ℝ ℝ) (tBot phi : XArr) :
    Except PyErr XArr := do
  let output ← interpHybridIdx g lev p0 x false data ps hyam hybm
  let P ← pressureIdx ps hyam hybm p0
  -- `output.plev`
  let plev : XArr := ⟨⟨["plev"], fun _ => x.length, fun i => .fin ((if (data.index lev).isSome then x else virtualIndex x.length).getD (i "plev") 0)⟩,
    output.index⟩
  remapExtrapIdx v lev plev output P ps tBot phi

end
end Verif.Model
