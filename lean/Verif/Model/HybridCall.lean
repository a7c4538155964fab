import Verif.Model.Hybrid

/-
Whole calls of `pressure_at_hybrid_levels` and `delta_pressure_hybrid` (/repo/geocat/comp/interpolation.py): the containers of the
arguments, their conversion, and the coordinates attached to the coefficients.
-/

namespace Verif.Model
variable {K : Type _} [Field K] [LinearOrder K]

/-- an argument that is no array -/
inductive NoArray
  | list | tuple | float | int | npScalar
  deriving DecidableEq, Repr

/-- an argument: a numpy array, a DataArray, or something else -/
inductive HArg (K : Type _)
  | np (t : Tensor K)
  | da (a : LArr K)
  | other (t : NoArray)

/-- `type(x)` -/
def HArg.ty : HArg K → PyType
  | .np _ => .ndarray
  | .da _ => .dataArray
  | .other .list => .list
  | .other .tuple => .tuple
  | .other .float => .float
  | .other .int => .int
  | .other .npScalar => .npScalar

/-- interpolation.py:353-421 `pressure_at_hybrid_levels`, the whole call (coordinates of DataArrays: labels of shared dimensions agree) -/
def pressureAtHybridLevels (psfc hya hyb : HArg K) (p0 : K) : Except PyErr (HArg K) := do
  hybridTypeCheck psfc.ty hya.ty hyb.ty
  match psfc, hya, hyb with
  | .np p, .np a, .np b => return .np (← pressureNp p a b p0)
  | .da p, .da a, .da b => return .da (← pressureXr p a b p0)
  -- excluded by the check
  | _, _, _ => throw .typeError

/-- `a.values` of a DataArray -/
def valuesOf (a : LArr K) : Tensor K := ⟨a.shape, fun i => a.get (fun d => i.getD (a.dims.idxOf d) 0)⟩

/-- `xr.DataArray(a)` of a 1-D numpy array: its dimension is called dim_0 -/
def wrap1d (n : ℕ) (a : Tensor K) : LArr K := ⟨["dim_0"], fun _ => n, fun i => a.get [i "dim_0"]⟩

/-- interpolation.py:424-517 `delta_pressure_hybrid`, the whole call (no coordinates on the coefficients, see `deltaHybridCoords`) -/
def deltaPressureHybrid (ps hya hyb : HArg K) (tp0 : PyType) (p0 : K) : Except PyErr (HArg K) := do
  -- 460-469
  deltaHybridTypeCheck ps.ty hya.ty hyb.ty tp0
  match ps, hya, hyb with
  | .np p, .np a, .np b => return .np (← deltaHybridNp p a b p0)
  -- 478-482
  | .np p, .da a, .da b => return .np (← deltaHybridNp p (valuesOf a) (valuesOf b) p0)
  | .da p, .da a, .da b => return .da (← deltaHybridXr p a b p0)
  -- 483-485; 472 and 475 come before the conversion
  | .da p, .np a, .np b =>
    if a.shape ≠ b.shape then throw .valueError
    if 1 < a.shape.length then throw .valueError
    match a.shape with
    | [n] => return .da (← deltaHybridXr p (wrap1d n a) (wrap1d n b) p0)
    -- 0-d coefficients cannot be sliced
    | _ => throw .indexError
  -- excluded by the checks
  | _, _, _ => throw .typeError

/-- a 1-D DataArray of coefficients: its dimension, length, values, the names of its coordinates in order, and the labels along its
dimension (used if a coordinate has the dimension's name) -/
structure Coef (K : Type _) where
  dim : String
  n : ℕ
  val : ℕ → K
  coords : List String
  labels : ℕ → K

/-- interpolation.py:494-497: the first coordinate is dropped, whichever it is. What is left of the index along the dimension. -/
def Coef.keptLabels (a : Coef K) : Option (List K) := if a.dim ∈ a.coords.tail then some ((List.range a.n).map a.labels) else none

/-- labels of `a[lo : lo + m]` -/
def cutLabels (lo m : ℕ) (l : Option (List K)) : Option (List K) := l.map (fun x => (x.drop lo).take m)

/-- xarray arithmetic along a dimension of sizes `n` and `m`: which positions are combined, and the labels of the result. Indexes that
differ are intersected (default `arithmetic_join`), in the order of the left one; differing indexes with duplicates are an error; an array
without index must have the size of the other. -/
def joinLabels (n m : ℕ) (x y : Option (List K)) : Except PyErr (List (ℕ × ℕ) × Option (List K)) :=
  match x, y with
  | some x, some y =>
    if x = y then .ok ((List.range n).map (fun i => (i, i)), some x)
    else if ¬ (x.Nodup ∧ y.Nodup) then .error .valueError
    else
      let common := x.filter (fun l => decide (l ∈ y))
      .ok (common.map (fun l => (x.idxOf l, y.idxOf l)), some common)
  | some x, none => if n = m then .ok ((List.range n).map (fun i => (i, i)), some x) else .error .valueError
  | none, y => if n = m then .ok ((List.range n).map (fun i => (i, i)), y) else .error .valueError

/-- interpolation.py:471-505 on DataArrays, with the coordinates of the coefficients. `ps` carries no coordinate along the level dimension.
Returns the layers (for each the values of the expression over the surface pressures) and their labels. -/
def deltaHybridCoords (p0 : K) (a b : Coef K) : Except PyErr (List (K → K) × Option (List K)) := do
  -- 472
  if a.n ≠ b.n then throw .valueError
  let m := a.n - 1
  -- 502
  let (ia, la) ← joinLabels m m (cutLabels 0 m a.keptLabels) (cutLabels 0 m b.keptLabels)
  let pa := ia.map (fun q => fun ps : K => p0 * a.val q.1 + b.val q.2 * ps)
  -- 503
  let (ib, lb) ← joinLabels m m (cutLabels 1 m a.keptLabels) (cutLabels 1 m b.keptLabels)
  let pb := ib.map (fun q => fun ps : K => p0 * a.val (q.1 + 1) + b.val (q.2 + 1) * ps)
  -- 505
  let (i, l) ← joinLabels pa.length pb.length la lb
  return (i.map (fun q => fun ps => |pa.getD q.1 (fun _ => 0) ps - pb.getD q.2 (fun _ => 0) ps|), l)

end Verif.Model
