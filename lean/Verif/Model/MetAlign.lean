import Verif.Model.HybridAlign
import Verif.Model.MetLabels

/-
Model of the functions of /repo/geocat/comp/meteorology.py that combine several DataArrays, for DataArrays whose labels need not agree.
See Model/MetLabels for the same functions on arrays whose labels agree, and Model/HybridAlign for `IArr.zip`.
-/

namespace Verif.Model
open XF
noncomputable section

/-- meteorology.py:299 `dewtemp` for two DataArrays: plain arithmetic, temperature first (45) -/
def dewtempIdx (t rh : IArr ℝ (XF ℝ)) : Except PyErr (IArr ℝ (XF ℝ)) := IArr.zip dewtempPoint t rh

/-- meteorology.py:574-586 `relhum` for three DataArrays: plain arithmetic, mixing ratio first (583). For temperatures whose table
lookup does not fail. -/
def relhumTableIdx (t w p : IArr ℝ (XF ℝ)) : Except PyErr (IArr ℝ (XF ℝ)) := do
  let es := t.map relhumEsD
  let q ← IArr.zip Prod.mk p es
  IArr.zip (fun w q => relhumOfEs q.2 w q.1) w q

/-- meteorology.py:158-164 and 242-248: see `relhumNames` -/
def relhumRatioIdx (est : XF ℝ → XF ℝ) (t w p : IArr ℝ (XF ℝ)) : Except PyErr (IArr ℝ (XF ℝ)) := do
  let e := t.map est
  let den ← IArr.zip (fun p e => (p * fin 0.01) - fin 0.378 * e) p e
  let q ← IArr.zip (fun e d => (fin 0.622 * e) / d) e den
  IArr.zip (fun w q => fin 100 * (w / q)) w q

/-- meteorology.py:600-689 `relhum_ice` (692-783 `relhum_water`) for three DataArrays: shape check 674 (772), computation 677 (775); the bare
values get the dimensions and coordinates of the temperature (680-683, 778-781) -/
def relhumIdx (est : XF ℝ → XF ℝ) (t w p : IArr ℝ (XF ℝ)) : Except PyErr (IArr ℝ (XF ℝ)) := do
  if t.arr.shape ≠ w.arr.shape ∨ t.arr.shape ≠ p.arr.shape then throw .valueError
  let r ← relhumRatioIdx est t w p
  let out ← relabel t.arr.dims t.arr.size r.arr
  return ⟨out, t.index⟩

def relhumIceIdx := relhumIdx estIce
def relhumWaterIdx := relhumIdx estWater

/-- `xr.where` of arrays with indexes: join="exact" on every shared dimension -/
def exactAll (a b : IArr ℝ (XF ℝ)) : Bool := a.arr.dims.all (fun d => !b.arr.dims.contains d || exactOk (a.index d) (b.index d))

/-- meteorology.py:395-475 `heat_index` for two DataArrays: shape check 395. The first estimate (437) is arithmetic that starts with the
temperature; `xr.where` combines it with the temperature (447). The conditions of the adjustments (457, 470) are arithmetic that starts with the
relative humidity; `xr.where` combines them with the estimate. The result has the dimension order of the condition. -/
def heatIndexIdx (alt : Bool) (t rh : IArr ℝ (XF ℝ)) : Except PyErr (IArr ℝ (XF ℝ)) := do
  if t.arr.shape ≠ rh.arr.shape then throw .valueError
  let h ← IArr.zip (fun t _ => t) t rh
  if !exactAll t h then throw .valueError
  let c ← IArr.zip (fun rh _ => rh) rh t
  if !exactAll c h then throw .valueError
  IArr.zip (fun rh t => heatIndexPoint alt t rh) rh t

end
end Verif.Model
