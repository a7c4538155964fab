import Verif.Model.FloatsNmse
import Verif.Model.Pearson

/-
`pearson_r` for arrays (stats.py 154-207 and xskillscore's `_pearson_r`, see `Model/Pearson`) in floating-point arithmetic without overflow: every
product, difference, quotient, square root and addition is rounded (`Basic/Rounding`). `sum` is any function that adds up the entries of a list in
some order; entries that are not finite numbers are added as in `Model/Pearson`.
-/

namespace Verif.Model

/-- the value of a finite number -/
def xVal0 : XF ℝ → ℝ
  | .fin x => x
  | _ => 0

/-- a finite number -/
def xIsFin : XF ℝ → Bool
  | .fin _ => true
  | _ => false

/-- `np.sum` -/
noncomputable def xSumFl (sum : List ℝ → ℝ) (l : List (XF ℝ)) : XF ℝ := if l.all xIsFin then .fin (sum (l.map xVal0)) else xSum l

/-- `np.nansum` if `skipna`, `np.sum` otherwise -/
noncomputable def sumFuncFl (sum : List ℝ → ℝ) (skipna : Bool) (l : List (XF ℝ)) : XF ℝ :=
  if skipna then xSumFl sum (l.map (fun x => if x.isNaN then .fin 0 else x)) else xSumFl sum l

/-- `np.nanmean` if `skipna`, `np.mean` otherwise -/
noncomputable def meanFuncFl (R : Rounding ℝ) (sum : List ℝ → ℝ) (skipna : Bool) (l : List (XF ℝ)) : XF ℝ :=
  if skipna then roundXF R (sumFuncFl sum true l / .fin ((l.filter (fun x => !x.isNaN)).length : ℝ)) else roundXF R (xSumFl sum l / .fin (l.length : ℝ))

/-- xskillscore `_pearson_r` for 1-D arrays, after `_match_nans` (see `pearsonTail`) -/
noncomputable def pearsonTailFl (R : Rounding ℝ) (sum : List ℝ → ℝ) (a b : List (XF ℝ)) (w : Option (List (XF ℝ))) (skipna : Bool) : Except PyErr (XF ℝ) :=
  match checkWeights w with
  | some w => do
    let aw ← bcast2 (fun x y => roundXF R (x * y)) a w
    let bw ← bcast2 (fun x y => roundXF R (x * y)) b w
    let ma := roundXF R (sumFuncFl sum skipna aw / sumFuncFl sum skipna w)
    let mb := roundXF R (sumFuncFl sum skipna bw / sumFuncFl sum skipna w)
    let am := a.map (fun x => roundXF R (x - ma))
    let bm := b.map (fun x => roundXF R (x - mb))
    let wa ← bcast2 (fun x y => roundXF R (x * y)) w am
    let wab ← bcast2 (fun x y => roundXF R (x * y)) wa bm
    let waa ← bcast2 (fun x y => roundXF R (x * y)) wa am
    let wb ← bcast2 (fun x y => roundXF R (x * y)) w bm
    let wbb ← bcast2 (fun x y => roundXF R (x * y)) wb bm
    pure (clipUnit (roundXF R (sumFuncFl sum skipna wab / roundXF R (xSqrt (roundXF R (sumFuncFl sum skipna waa * sumFuncFl sum skipna wbb))))))
  | none => do
    let ma := meanFuncFl R sum skipna a
    let mb := meanFuncFl R sum skipna b
    let am := a.map (fun x => roundXF R (x - ma))
    let bm := b.map (fun x => roundXF R (x - mb))
    let ab ← bcast2 (fun x y => roundXF R (x * y)) am bm
    let aa ← bcast2 (fun x y => roundXF R (x * y)) am am
    let bb ← bcast2 (fun x y => roundXF R (x * y)) bm bm
    pure (clipUnit (roundXF R (sumFuncFl sum skipna ab / roundXF R (xSqrt (roundXF R (sumFuncFl sum skipna aa * sumFuncFl sum skipna bb))))))

/-- xskillscore `_pearson_r` for 1-D arrays (see `pearsonCore`) -/
noncomputable def pearsonCoreFl (R : Rounding ℝ) (sum : List ℝ → ℝ) (a b : List (XF ℝ)) (w : Option (List (XF ℝ))) (skipna : Bool) :
    Except PyErr (XF ℝ) := do
  let (a, b, w) ← if skipna then matchNans a b w else pure (a, b, w)
  pearsonTailFl R sum a b w skipna

/-- stats.py 154-207: `pearson_r(a, b, weights=weights, skipna=skipna)` in floating-point arithmetic (see `pearsonR`) -/
noncomputable def pearsonRFl {X : Type _} (R : Rounding ℝ) (sum : List ℝ → ℝ) (xs : StatArg X → StatArg X → Option (List (XF ℝ)) → Bool → Except PyErr X)
    (a b : StatArg X) (weights : Option (List (XF ℝ))) (skipna : Bool) : Except PyErr (Option (StatOut X)) :=
  -- 186
  if ¬ a.isDataArray ∧ ¬ b.isDataArray then do
    -- 191-196
    let a ← npRavel a
    let b ← npRavel b
    -- 197-200
    swallowValueError ((pearsonCoreFl R sum a b weights skipna).map .number)
  else
    -- 204-207
    swallowValueError ((xs a b weights skipna).map .xarray)

end Verif.Model
