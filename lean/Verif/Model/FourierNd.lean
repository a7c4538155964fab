import Verif.Model.Fourier
import Verif.Basic.Tensor

/-
Model of /repo/geocat/comp/fourier_filters.py for N-dimensional numpy arrays and for DataArrays.

`frequency` and the cutoffs are Python floats (a division by zero raises ZeroDivisionError, here `exception`).
Trusted numpy behaviour: `np.swapaxes` (AxisError for an axis out of range), `np.fft.fft(axis=0)` and `ifft(axis=0)` transform every
line along axis 0 and raise ValueError if that axis has length 0; assigning to `res_fft[a:b]` zeroes the bins `a:b` of every line.
Trusted xarray behaviour: `np.swapaxes(DataArray)` swaps the bare array and wraps the result with `DataArray.__array_wrap__`, which
keeps the name, the coordinates and the order of the dimension names and drops the attributes, without checking sizes; assigning
`.data` raises ValueError if the shape changes.
-/

namespace Verif.Model

/-- positions `0` and `k` of a shape or multi-index exchanged -/
def swap0 (k : ℕ) (l : List ℕ) : List ℕ := (l.set 0 (l.getD k 0)).set k (l.getD 0 0)

/-- `axis` as a position: negative axes count from the end -/
def normAxis (ndim : ℕ) (axis : ℤ) : Except PyErr ℕ :=
  let k := if axis < 0 then axis + ndim else axis
  if 0 ≤ k ∧ k < ndim then .ok k.toNat else .error .axisError

/-- `np.swapaxes(a, k, 0)` for a valid position `k` -/
def swapAxes0 {α : Type _} (k : ℕ) (a : Tensor α) : Tensor α := ⟨swap0 k a.shape, fun i => a.get (swap0 k i)⟩

/-- fourier_filters.py:131-166: transform along axis 0, zero the bins, transform back, real part. -/
noncomputable def filterAxis0 (fl : Flags) (resolution cl ch : ℝ) (s : Tensor ℝ) : Except PyErr (Tensor ℝ) :=
  if h : s.shape.getD 0 0 = 0 then .error .valueError
  else
    haveI : NeZero (s.shape.getD 0 0) := ⟨h⟩
    .ok ⟨s.shape, fun i =>
      filterRes fl resolution cl ch (fun t : ZMod (s.shape.getD 0 0) => s.get (i.set 0 t.val)) (i.getD 0 0 : ℕ)⟩

/-- fourier_filters.py:7-172 `fourier_filter` for an N-D numpy array. Lines 129 (`len` of a 0-d array is a TypeError; an empty first
axis is a division by zero), 130, 131-166, 167. A zero frequency makes the resolution zero, which lines 132 and 134 divide by. -/
noncomputable def fourierFilterNd (fl : Flags) (frequency cl ch : ℝ) (timeAxis : ℤ) (x : Tensor ℝ) :
    Except PyErr (Tensor ℝ) := do
  if x.shape = [] then throw .typeError
  let n := x.shape.getD 0 0
  if n = 0 then throw .exception
  let resolution : ℝ := frequency / n
  let k ← normAxis x.shape.length timeAxis
  let s := swapAxes0 k x
  if s.shape.getD 0 0 = 0 then throw .valueError
  if resolution = 0 then throw .exception
  let r ← filterAxis0 fl resolution cl ch s
  pure (swapAxes0 k r)

/-- A DataArray: the data, the dimension names, the coordinates (opaque), the name and the attributes. -/
structure SignalDA (κ : Type) where
  data : Tensor ℝ
  dims : List String
  coords : κ
  name : Option String
  attrs : String → Option String

/-- fourier_filters.py:7-172 `fourier_filter` for a DataArray. Line 130 rebinds `signal` to the wrapped result of `np.swapaxes`;
lines 168-171 copy that object and replace its data, whose shape must be that of the swapped signal. -/
noncomputable def fourierFilterDA {κ : Type} (fl : Flags) (frequency cl ch : ℝ) (timeAxis : ℤ) (x : SignalDA κ) :
    Except PyErr (SignalDA κ) := do
  let result ← fourierFilterNd fl frequency cl ch timeAxis x.data
  let k ← normAxis x.data.shape.length timeAxis
  let signal : SignalDA κ := { x with data := swapAxes0 k x.data, attrs := fun _ => none }
  if result.shape ≠ signal.data.shape then throw .valueError
  pure { signal with data := result }

end Verif.Model
