import Verif.Model.Humidity
import Verif.Model.Floats
import Mathlib.Data.Real.Archimedean

/-
`relhum` (meteorology.py 494-597) with every operation rounded. `D` is the precision of the temperatures (numpy keeps it when it combines an array
with the numbers of lines 571-572), `R` is double precision: line 578 adds integers, and the table is in double precision. No overflow.
-/

namespace Verif.Model
open XF
noncomputable section

/-- meteorology.py:575 (see `clipTemp`) -/
def clipTempFl (D : Rounding ℝ) : XF ℝ → XF ℝ
  | fin x => fin (min (max x (D.fl 173.16)) (D.fl 375.16))
  | pinf => fin (D.fl 375.16)
  | ninf => fin (D.fl 173.16)
  | nan => nan

/-- meteorology.py:571-581 (see `relhumEs`) -/
def relhumEsFl (D R : Rounding ℝ) (t : XF ℝ) : Except PyErr (XF ℝ) := do
  let t := clipTempFl D t
  -- 577
  let it := toIndex (roundXF D (t - fin (D.fl 173.16)))
  -- 578
  let t2 : XF ℝ := roundXF R (fin (R.fl 173.16) + fin (it : ℝ))
  -- 580
  let a ← Py.index relhumTable it
  let b ← Py.index relhumTable (it + 1)
  let es := roundXF R (roundXF R (roundXF R (roundXF R (t2 + fin 1) - t) * fin (R.fl (a : ℝ))) + roundXF R (roundXF R (t - t2) * fin (R.fl (b : ℝ))))
  -- 581
  return roundXF R (es * fin (R.fl 0.1))

/-- meteorology.py:586 (see `clipMin`) -/
def clipMinFl (R : Rounding ℝ) : XF ℝ → XF ℝ
  | fin x => fin (max x (R.fl 0.0001))
  | pinf => pinf
  | ninf => fin (R.fl 0.0001)
  | nan => nan

/-- meteorology.py:583-586 (see `relhumOfEs`) -/
def relhumOfEsFl (R : Rounding ℝ) (es w p : XF ℝ) : XF ℝ :=
  clipMinFl R (roundXF R (roundXF R (roundXF R (w * roundXF R (p - roundXF R (fin (R.fl 0.378) * es))) / roundXF R (fin (R.fl 0.622) * es)) * fin (R.fl 100)))

/-- meteorology.py:571-586 `relhum` at one point (see `relhumPoint`) -/
def relhumPointFl (D R : Rounding ℝ) (t w p : XF ℝ) : Except PyErr (XF ℝ) := do
  let es ← relhumEsFl D R t
  return relhumOfEsFl R es w p

/-- meteorology.py:494-597 (see `relhum`), the lookup and the formula left open -/
def relhumBy (look : XF ℝ → Except PyErr (XF ℝ)) (ofEs : XF ℝ → XF ℝ → XF ℝ → XF ℝ) (t w p : Arg (XF ℝ)) : Except PyErr (Arg (XF ℝ)) :=
  match t.val.values.mapM look with
  | .error e => .error e
  | .ok _ =>
    if listTimesScalar t w p then .error .typeError else
    let es : Tensor (XF ℝ) := t.val.map (fun x => match look x with | .ok e => e | .error _ => .nan)
    (Tensor.zip3 ofEs es w.val p.val).map (fun r =>
      ⟨if t.ty = .dataArray ∨ w.ty = .dataArray ∨ p.ty = .dataArray then .dataArray else npResultType r.shape, r⟩)

/-- `relhum` with every operation rounded -/
def relhumFl (D R : Rounding ℝ) (t w p : Arg (XF ℝ)) : Except PyErr (Arg (XF ℝ)) := relhumBy (relhumEsFl D R) (relhumOfEsFl R) t w p

end
end Verif.Model
