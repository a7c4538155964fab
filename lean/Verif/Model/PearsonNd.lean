import Verif.Model.Pearson
import Verif.Model.FourierNd

/-
Model of `pearson_r(a, b, weights=weights, skipna=skipna, axis=axis)` in geocat/comp/stats.py (lines 154-207) for N-D numpy arrays with an
`axis`, with `xskillscore.core.np_deterministic._pearson_r` (written after xskillscore's source, trusted), which the function calls.
`Model/Pearson.lean` models the call without `axis`.

Simplifications: the arguments are ndarrays of floats (a list has no `ndim`: `np.rollaxis` raises an AttributeError); warnings and the
printed message are not modelled.
-/

namespace Verif.Model

/-- `np.rollaxis(a, k)` for a valid position `k`: that axis comes first, the others keep their order -/
def rollTensor {α : Type} (k : ℕ) (a : Tensor α) : Tensor α :=
  ⟨a.shape.getD k 0 :: a.shape.eraseIdx k, fun i => a.get (i.tail.insertIdx k (i.headD 0))⟩

/-- `np.rollaxis(a, axis)`; AxisError for an axis the array does not have -/
def rollaxis {α : Type} (a : Tensor α) (axis : ℤ) : Except PyErr (Tensor α) := do
  let k ← normAxis a.shape.length axis
  pure (rollTensor k a)

/-- the values along axis 0 -/
def column {α : Type} (a : Tensor α) (j : List ℕ) : List α := (List.range (a.shape.headD 0)).map (fun t => a.get (t :: j))

/-- a reduction over axis 0 -/
def reduce0 {α : Type} (f : List α → α) (a : Tensor α) : Tensor α := ⟨a.shape.tail, fun j => f (column a j)⟩

/-- `a[idx] = np.nan` for a boolean array `idx` -/
def setNaNNd (a : Tensor (XF ℝ)) (idx : Tensor Bool) : Except PyErr (Tensor (XF ℝ)) :=
  if a.shape = idx.shape then .ok ⟨a.shape, fun i => if idx.get i then .nan else a.get i⟩ else .error .indexError

/-- xskillscore `_match_nans` -/
def matchNansNd (a b : Tensor (XF ℝ)) (w : Option (Tensor (XF ℝ))) :
    Except PyErr (Tensor (XF ℝ) × Tensor (XF ℝ) × Option (Tensor (XF ℝ))) :=
  if a.values.any XF.isNaN || b.values.any XF.isNaN then do
    let idx ← Tensor.zip (fun x y => x.isNaN || y.isNaN) a b
    let a' ← setNaNNd a idx
    let b' ← setNaNNd b idx
    match w with
    | none => pure (a', b', none)
    | some w => do
      let w' ← setNaNNd w idx
      pure (a', b', some w')
  else pure (a, b, w)

/-- xskillscore `_check_weights`: weights that are all NaN are no weights -/
def checkWeightsNd : Option (Tensor (XF ℝ)) → Option (Tensor (XF ℝ))
  | none => none
  | some w => if w.values.all XF.isNaN then none else some w

/-- the part of xskillscore's `_pearson_r` with weights, after `np.rollaxis` -/
noncomputable def weightedNd (a b w : Tensor (XF ℝ)) (skipna : Bool) : Except PyErr (Tensor (XF ℝ)) := do
  let aw ← Tensor.zip (· * ·) a w
  let ma ← Tensor.zip (· / ·) (reduce0 (sumFunc skipna) aw) (reduce0 (sumFunc skipna) w)
  let bw ← Tensor.zip (· * ·) b w
  let mb ← Tensor.zip (· / ·) (reduce0 (sumFunc skipna) bw) (reduce0 (sumFunc skipna) w)
  let am ← Tensor.zip (· - ·) a ma
  let bm ← Tensor.zip (· - ·) b mb
  let wa ← Tensor.zip (· * ·) w am
  let wab ← Tensor.zip (· * ·) wa bm
  let waa ← Tensor.zip (· * ·) wa am
  let wb ← Tensor.zip (· * ·) w bm
  let wbb ← Tensor.zip (· * ·) wb bm
  let den ← Tensor.zip (fun x y => xSqrt (x * y)) (reduce0 (sumFunc skipna) waa) (reduce0 (sumFunc skipna) wbb)
  Tensor.zip (fun x y => clipUnit (x / y)) (reduce0 (sumFunc skipna) wab) den

/-- the part of xskillscore's `_pearson_r` without weights, after `np.rollaxis` -/
noncomputable def unweightedNd (a b : Tensor (XF ℝ)) (skipna : Bool) : Except PyErr (Tensor (XF ℝ)) := do
  let am ← Tensor.zip (· - ·) a (reduce0 (meanFunc skipna) a)
  let bm ← Tensor.zip (· - ·) b (reduce0 (meanFunc skipna) b)
  let ab ← Tensor.zip (· * ·) am bm
  let aa ← Tensor.zip (· * ·) am am
  let bb ← Tensor.zip (· * ·) bm bm
  let den ← Tensor.zip (fun x y => xSqrt (x * y)) (reduce0 (sumFunc skipna) aa) (reduce0 (sumFunc skipna) bb)
  Tensor.zip (fun x y => clipUnit (x / y)) (reduce0 (sumFunc skipna) ab) den

/-- xskillscore `_pearson_r` after `_match_nans` -/
noncomputable def pearsonTailNd (a b : Tensor (XF ℝ)) (w : Option (Tensor (XF ℝ))) (axis : ℤ) (skipna : Bool) :
    Except PyErr (Tensor (XF ℝ)) := do
  let w := checkWeightsNd w
  let a ← rollaxis a axis
  let b ← rollaxis b axis
  match w with
  | some w => do
    let w ← rollaxis w axis
    weightedNd a b w skipna
  | none => unweightedNd a b skipna

/-- xskillscore `_pearson_r` -/
noncomputable def pearsonCoreNd (a b : Tensor (XF ℝ)) (w : Option (Tensor (XF ℝ))) (axis : ℤ) (skipna : Bool) :
    Except PyErr (Tensor (XF ℝ)) := do
  let (a, b, w) ← if skipna then matchNansNd a b w else pure (a, b, w)
  pearsonTailNd a b w axis skipna

/-- stats.py 186-200: `pearson_r(a, b, weights=weights, skipna=skipna, axis=axis)` for ndarrays and an axis -/
noncomputable def pearsonRNd (a b : Tensor (XF ℝ)) (weights : Option (Tensor (XF ℝ))) (axis : ℤ) (skipna : Bool) :
    Except PyErr (Option (Tensor (XF ℝ))) :=
  -- 197-200
  swallowValueError (pearsonCoreNd a b weights axis skipna)

end Verif.Model
