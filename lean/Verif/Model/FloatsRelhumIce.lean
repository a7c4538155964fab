import Verif.Model.Humidity
import Verif.Model.Floats

/-
`relhum_ice` and `relhum_water` (meteorology.py 96-250, 600-783) with every operation rounded. `D` is the precision of the three arrays (numpy keeps it when
it combines an array with Python numbers), `R` is double precision, in which the constants are written; `ex` is the library's exponential function. No
overflow.
-/

namespace Verif.Model
open XF
noncomputable section

/-- `t - t0` in meteorology.py:158 and 242 -/
def aboveFreezingFl (D R : Rounding ℝ) (t : XF ℝ) : XF ℝ := roundXF D (t - fin (D.fl (R.fl 273.15)))

/-- meteorology.py:158 (see `estIce`) -/
def estIceFl (D R : Rounding ℝ) (ex : XF ℝ → XF ℝ) (t : XF ℝ) : XF ℝ :=
  roundXF D (fin (D.fl (R.fl 6.1128)) * ex (roundXF D (roundXF D (fin (D.fl (R.fl 22.571)) * aboveFreezingFl D R t) /
    roundXF D (aboveFreezingFl D R t + fin (D.fl (R.fl 273.71))))))

/-- meteorology.py:242 (see `estWater`) -/
def estWaterFl (D R : Rounding ℝ) (ex : XF ℝ → XF ℝ) (t : XF ℝ) : XF ℝ :=
  roundXF D (fin (D.fl (R.fl 6.1128)) * ex (roundXF D (roundXF D (fin (D.fl (R.fl 17.269)) * aboveFreezingFl D R t) /
    roundXF D (t - fin (D.fl (R.fl 35.86))))))

/-- meteorology.py:161 and 245 (see `qst`) -/
def qstFl (D R : Rounding ℝ) (est p : XF ℝ) : XF ℝ :=
  roundXF D (roundXF D (fin (D.fl (R.fl 0.622)) * est) / roundXF D (roundXF D (p * fin (D.fl (R.fl 0.01))) - roundXF D (fin (D.fl (R.fl 0.378)) * est)))

/-- meteorology.py:164 and 248 (see `relhumIcePoint`, `relhumWaterPoint`) -/
def relhumOfEstFl (D R : Rounding ℝ) (est w p : XF ℝ) : XF ℝ := roundXF D (fin (D.fl 100) * roundXF D (w / qstFl D R est p))

/-- meteorology.py:96-166 `_relhum_ice` at one point (see `relhumIcePoint`) -/
def relhumIcePointFl (D R : Rounding ℝ) (ex : XF ℝ → XF ℝ) (t w p : XF ℝ) : XF ℝ := relhumOfEstFl D R (estIceFl D R ex t) w p

/-- meteorology.py:169-250 `_relhum_water` at one point (see `relhumWaterPoint`) -/
def relhumWaterPointFl (D R : Rounding ℝ) (ex : XF ℝ → XF ℝ) (t w p : XF ℝ) : XF ℝ := relhumOfEstFl D R (estWaterFl D R ex t) w p

/-- meteorology.py:600-689 `relhum_ice` (see `relhumIce`) -/
def relhumIceFl (D R : Rounding ℝ) (ex : XF ℝ → XF ℝ) (t w p : Arg (XF ℝ)) : Except PyErr (Arg (XF ℝ)) :=
  -- 649
  if ¬ (t.ty = w.ty ∧ w.ty = p.ty) then .error .typeError
  -- 674
  else if t.val.shape ≠ w.val.shape ∨ t.val.shape ≠ p.val.shape then .error .valueError
  else
    (Tensor.zip3 (relhumIcePointFl D R ex) t.val w.val p.val).map (fun r =>
      -- 680-683
      if t.ty = .dataArray then ⟨.dataArray, r⟩
      else
        let rt := npResultType r.shape
        -- 686-687
        if t.ty ∈ [PyType.list, .float, .int] ∧ rt = .ndarray then ⟨tolistType r.shape, r⟩ else ⟨rt, r⟩)

/-- meteorology.py:692-783 `relhum_water` (see `relhumWater`) -/
def relhumWaterFl (D R : Rounding ℝ) (ex : XF ℝ → XF ℝ) (t w p : Arg (XF ℝ)) : Except PyErr (Arg (XF ℝ)) :=
  -- 747
  if ¬ (t.ty = w.ty ∧ w.ty = p.ty) then .error .typeError
  -- 772
  else if t.val.shape ≠ w.val.shape ∨ t.val.shape ≠ p.val.shape then .error .valueError
  else
    (Tensor.zip3 (relhumWaterPointFl D R ex) t.val w.val p.val).map (fun r =>
      -- 778-783
      if t.ty = .dataArray then ⟨.dataArray, r⟩ else ⟨npResultType r.shape, r⟩)

end
end Verif.Model
