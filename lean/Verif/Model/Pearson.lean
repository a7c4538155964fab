import Verif.Basic.Py
import Verif.Basic.XF
import Mathlib.Analysis.Real.Sqrt

/-
Model of `pearson_r` in geocat/comp/stats.py (lines 154-207), with the function it calls for arrays,
`xskillscore.core.np_deterministic._pearson_r` (not part of the repository; written after xskillscore's source, trusted).

Simplifications: array inputs are flattened (`axis=None`) or one-dimensional (`Model/PearsonNd.lean` has the call with an `axis`); `xskillscore.pearson_r`, which handles DataArrays, is a
parameter; warnings and the printed message are not modelled; a Python `None` is `Option.none`.
-/

namespace Verif.Model

/-- numpy broadcasting of two 1-D arrays -/
def bcast2 {α β γ : Type _} (f : α → β → γ) (xs : List α) (ys : List β) : Except PyErr (List γ) :=
  if xs.length = ys.length then .ok (List.zipWith f xs ys)
  else match xs, ys with
    | [x], ys => .ok (ys.map (f x))
    | xs, [y] => .ok (xs.map (fun x => f x y))
    | _, _ => .error .valueError

/-- `np.sum` -/
noncomputable def xSum (l : List (XF ℝ)) : XF ℝ := l.foldr (· + ·) (.fin 0)

/-- `np.nansum` if `skipna`, `np.sum` otherwise -/
noncomputable def sumFunc (skipna : Bool) (l : List (XF ℝ)) : XF ℝ :=
  if skipna then xSum (l.map (fun x => if x.isNaN then .fin 0 else x)) else xSum l

/-- `np.nanmean` if `skipna`, `np.mean` otherwise -/
noncomputable def meanFunc (skipna : Bool) (l : List (XF ℝ)) : XF ℝ :=
  if skipna then sumFunc true l / .fin ((l.filter (fun x => !x.isNaN)).length : ℝ) else xSum l / .fin (l.length : ℝ)

/-- `np.sqrt` -/
noncomputable def xSqrt : XF ℝ → XF ℝ
  | .fin x => if x < 0 then .nan else .fin (Real.sqrt x)
  | .pinf => .pinf
  | .ninf => .nan
  | .nan => .nan

/-- `np.clip(r, -1.0, 1.0)` -/
noncomputable def clipUnit : XF ℝ → XF ℝ
  | .fin x => .fin (max (-1) (min x 1))
  | .pinf => .fin 1
  | .ninf => .fin (-1)
  | .nan => .nan

/-- `a[idx] = np.nan` for a boolean array `idx` -/
def setNaN (a : List (XF ℝ)) (idx : List Bool) : Except PyErr (List (XF ℝ)) :=
  if a.length = idx.length then .ok (List.zipWith (fun x i => if i then .nan else x) a idx) else .error .indexError

/-- xskillscore `_match_nans` -/
def matchNans (a b : List (XF ℝ)) (w : Option (List (XF ℝ))) : Except PyErr (List (XF ℝ) × List (XF ℝ) × Option (List (XF ℝ))) :=
  if a.any XF.isNaN || b.any XF.isNaN then do
    let idx ← bcast2 (fun x y => x.isNaN || y.isNaN) a b
    let a' ← setNaN a idx
    let b' ← setNaN b idx
    match w with
    | none => pure (a', b', none)
    | some w => do
      let w' ← setNaN w idx
      pure (a', b', some w')
  else pure (a, b, w)

/-- xskillscore `_check_weights`: weights that are all NaN are no weights -/
def checkWeights : Option (List (XF ℝ)) → Option (List (XF ℝ))
  | none => none
  | some w => if w.all XF.isNaN then none else some w

/-- xskillscore `_pearson_r` for 1-D arrays, after `_match_nans` -/
noncomputable def pearsonTail (a b : List (XF ℝ)) (w : Option (List (XF ℝ))) (skipna : Bool) : Except PyErr (XF ℝ) :=
  match checkWeights w with
  | some w => do
    let aw ← bcast2 (· * ·) a w
    let bw ← bcast2 (· * ·) b w
    let ma := sumFunc skipna aw / sumFunc skipna w
    let mb := sumFunc skipna bw / sumFunc skipna w
    let am := a.map (· - ma)
    let bm := b.map (· - mb)
    let wa ← bcast2 (· * ·) w am
    let wab ← bcast2 (· * ·) wa bm
    let waa ← bcast2 (· * ·) wa am
    let wb ← bcast2 (· * ·) w bm
    let wbb ← bcast2 (· * ·) wb bm
    pure (clipUnit (sumFunc skipna wab / xSqrt (sumFunc skipna waa * sumFunc skipna wbb)))
  | none => do
    let ma := meanFunc skipna a
    let mb := meanFunc skipna b
    let am := a.map (· - ma)
    let bm := b.map (· - mb)
    let ab ← bcast2 (· * ·) am bm
    let aa ← bcast2 (· * ·) am am
    let bb ← bcast2 (· * ·) bm bm
    pure (clipUnit (sumFunc skipna ab / xSqrt (sumFunc skipna aa * sumFunc skipna bb)))

/-- xskillscore `_pearson_r` for 1-D arrays -/
noncomputable def pearsonCore (a b : List (XF ℝ)) (w : Option (List (XF ℝ))) (skipna : Bool) : Except PyErr (XF ℝ) := do
  let (a, b, w) ← if skipna then matchNans a b w else pure (a, b, w)
  pearsonTail a b w skipna

/-- an argument of `pearson_r`; `X` is whatever xarray objects are -/
inductive StatArg (X : Type _)
  | array (flat : List (XF ℝ))
  | dataArray (x : X)
  | dataset (x : X)

inductive StatOut (X : Type _)
  | number (r : XF ℝ)
  | xarray (x : X)

def StatArg.isDataArray {X : Type _} : StatArg X → Bool
  | .dataArray _ => true
  | _ => false

/-- `np.ravel`; a Dataset cannot be converted to an array (TypeError from `Dataset.__array__`); a DataArray is not reached here -/
def npRavel {X : Type _} : StatArg X → Except PyErr (List (XF ℝ))
  | .array l => .ok l
  | _ => .error .typeError

/-- `try ... except ValueError: print(...)`: the function goes on and returns None -/
def swallowValueError {α : Type _} : Except PyErr α → Except PyErr (Option α)
  | .ok x => .ok (some x)
  | .error .valueError => .ok none
  -- numpy's AxisError is a ValueError
  | .error .axisError => .ok none
  | .error e => .error e

/-- stats.py 154-207: `pearson_r(a, b, weights=weights, skipna=skipna)`; `xs` is `xskillscore.pearson_r` -/
noncomputable def pearsonR {X : Type _} (xs : StatArg X → StatArg X → Option (List (XF ℝ)) → Bool → Except PyErr X) (a b : StatArg X)
    (weights : Option (List (XF ℝ))) (skipna : Bool) : Except PyErr (Option (StatOut X)) :=
  -- 186
  if ¬ a.isDataArray ∧ ¬ b.isDataArray then do
    -- 191-196
    let a ← npRavel a
    let b ← npRavel b
    -- 197-200
    swallowValueError ((pearsonCore a b weights skipna).map .number)
  else
    -- 204-207
    swallowValueError ((xs a b weights skipna).map .xarray)

end Verif.Model
