import Verif.Model.Humidity
import Verif.Model.Floats

/-
`dewtemp` (meteorology.py 10-47, 253-313) with every operation rounded. `D` is the precision of the two arrays (numpy keeps it when it combines an
array with Python numbers), `R` is double precision, in which Python computes `gcx`; `ln` is the library's logarithm. No overflow.
-/

namespace Verif.Model
open XF
noncomputable section

/-- meteorology.py:41-42 `gcx`, as it enters line 44 -/
def dewGcxFl (D R : Rounding ℝ) : ℝ := D.fl (R.fl (461.5 / R.fl (1000 * R.fl 4.186)))

/-- meteorology.py:44 (see `dewLhv`) -/
def dewLhvFl (D R : Rounding ℝ) (tk : XF ℝ) : XF ℝ :=
  roundXF D (roundXF D (fin (D.fl (R.fl 597.3)) - roundXF D (fin (D.fl (R.fl 0.57)) * roundXF D (tk - fin (D.fl 273)))) / fin (dewGcxFl D R))

/-- meteorology.py:45 (see `dewtempPoint`) -/
def dewtempPointFl (D R : Rounding ℝ) (ln : XF ℝ → XF ℝ) (tk rh : XF ℝ) : XF ℝ :=
  let lhv := dewLhvFl D R tk
  roundXF D (roundXF D (tk * lhv) / roundXF D (lhv - roundXF D (tk * ln (roundXF D (rh * fin (D.fl (R.fl 0.01)))))))

/-- meteorology.py:253-313 (see `dewtemp`), the formula left open -/
def dewtempBy (point : XF ℝ → XF ℝ → XF ℝ) (t rh : Arg (XF ℝ)) : Except PyErr (Arg (XF ℝ)) :=
  if t.ty = .dataArray ∨ rh.ty = .dataArray then
    if t.ty ≠ .dataArray ∨ rh.ty ≠ .dataArray then .error .typeError
    else (Tensor.zip point t.val rh.val).map (fun r => ⟨.dataArray, r⟩)
  else
    (Tensor.zip point t.val rh.val).map (fun r => ⟨npResultType r.shape, r⟩)

/-- `dewtemp` with every operation rounded -/
def dewtempFl (D R : Rounding ℝ) (ln : XF ℝ → XF ℝ) (t rh : Arg (XF ℝ)) : Except PyErr (Arg (XF ℝ)) := dewtempBy (dewtempPointFl D R ln) t rh

end
end Verif.Model
