import Verif.Basic.Py
import Mathlib.Analysis.Fourier.ZMod

/-
Model of /repo/geocat/comp/fourier_filters.py.

A series of `n ≥ 1` real samples is a function on `ZMod n` (position `t` of the array is `t.val`).
`np.fft.fft`/`np.fft.ifft` are modelled by their documented formulas. Arithmetic is exact.
A series of length 0 (ZeroDivisionError at line 129) is not modelled.
-/

namespace Verif.Model
open Complex

/-- `numpy.fft.fft`: `A_k = Σ_j a_j exp(-2πi jk/n)`. -/
noncomputable def npFft {n : ℕ} [NeZero n] (x : ZMod n → ℂ) (k : ZMod n) : ℂ :=
  ∑ j : ZMod n, x j * exp (-(2 * Real.pi * I * ((j.val * k.val : ℕ) : ℂ) / n))

/-- `numpy.fft.ifft`: `a_t = (1/n) Σ_k A_k exp(2πi kt/n)`. -/
noncomputable def npIfft {n : ℕ} [NeZero n] (X : ZMod n → ℂ) (t : ZMod n) : ℂ :=
  (1 / (n : ℂ)) * ∑ k : ZMod n, X k * exp (2 * Real.pi * I * ((k.val * t.val : ℕ) : ℂ) / n)

/-- `res_fft[a:b] = np.zeros(res_fft[a:b].shape)`; `none` is an omitted bound. -/
def zeroSlice {n : ℕ} {α : Type _} [Zero α] (a b : Option Int) (X : ZMod n → α) : ZMod n → α :=
  fun k => if Py.inSlice n (a.getD 0) (b.getD n) k.val then 0 else X k

/-- The four filter flags (fourier_filters.py:13-16). -/
structure Flags where
  lowPass : Bool := false
  highPass : Bool := false
  bandPass : Bool := false
  bandBlock : Bool := false

/-- fourier_filters.py:133-164: the in-place zeroing of Fourier bins.
`l = cfl_index`, `h = cfh_index`; `cfln_index = 1 - l`, `cfhn_index = 1 - h`. -/
def zeroBins {n : ℕ} {α : Type _} [Zero α] (fl : Flags) (l h : Int) (X : ZMod n → α) : ZMod n → α :=
  -- 136-142
  let X := if fl.lowPass then
      if l > 1 then zeroSlice (some l) (some (1 - l)) X else zeroSlice (some l) none X
    else X
  -- 143-146
  let X := if fl.highPass then
      let X := zeroSlice none (some h) X
      if h > 1 then zeroSlice (some (1 - h)) none X else X
    else X
  -- 147-156
  let X := if fl.bandPass then
      let X := zeroSlice none (some l) X
      let X := if h > 1 then zeroSlice (some h) (some (1 - h)) X else zeroSlice (some h) none X
      if l > 1 then zeroSlice (some (1 - l)) none X else X
    else X
  -- 157-164
  let X := if fl.bandBlock then
      let X := zeroSlice (some l) (some h) X
      if l > 1 ∧ h > 1 then zeroSlice (some (1 - h)) (some (1 - l)) X
      else if h > 1 then zeroSlice (some (1 - h)) none X
      else X
    else X
  X

/-- fourier_filters.py:131-166 along the (already swapped) leading axis, for one series, with the given
`resolution`. -/
noncomputable def filterRes {n : ℕ} [NeZero n] (fl : Flags) (resolution cl ch : ℝ) (x : ZMod n → ℝ) : ZMod n → ℝ :=
  let l : Int := ⌊cl / resolution⌋
  let h : Int := ⌈ch / resolution⌉
  let X := npFft (fun t => (x t : ℂ))
  let Y := zeroBins fl l h X
  fun t => (npIfft Y t).re

/-- fourier_filters.py:7-172 `fourier_filter` for 1-D numpy input. -/
noncomputable def fourierFilter {n : ℕ} [NeZero n] (fl : Flags) (frequency cl ch : ℝ) (x : ZMod n → ℝ) : ZMod n → ℝ :=
  filterRes fl (frequency / n) cl ch x

/-- fourier_filters.py:7-172 `fourier_filter` for 2-D numpy input of shape `(a, b)` and `time_axis` 0 or 1.
`resolution` is computed from `len(signal)`, the length of axis 0, before the axes are swapped (lines 129-130). -/
noncomputable def fourierFilter2D {a b : ℕ} [NeZero a] [NeZero b] (fl : Flags) (frequency cl ch : ℝ)
    (timeAxis1 : Bool) (x : ZMod a → ZMod b → ℝ) : ZMod a → ZMod b → ℝ :=
  let resolution : ℝ := frequency / a
  if timeAxis1 then
    fun i j => filterRes fl resolution cl ch (fun t : ZMod b => x i t) j
  else
    fun i j => filterRes fl resolution cl ch (fun t : ZMod a => x t j) i

/-- fourier_filters.py:175-209 -/
noncomputable def fourierLowPass {n : ℕ} [NeZero n] (frequency cl : ℝ) (x : ZMod n → ℝ) : ZMod n → ℝ :=
  fourierFilter { lowPass := true } frequency cl 0 x
/-- fourier_filters.py:212-246 -/
noncomputable def fourierHighPass {n : ℕ} [NeZero n] (frequency ch : ℝ) (x : ZMod n → ℝ) : ZMod n → ℝ :=
  fourierFilter { highPass := true } frequency 0 ch x
/-- fourier_filters.py:249-288 -/
noncomputable def fourierBandPass {n : ℕ} [NeZero n] (frequency cl ch : ℝ) (x : ZMod n → ℝ) : ZMod n → ℝ :=
  fourierFilter { bandPass := true } frequency cl ch x
/-- fourier_filters.py:291-330 -/
noncomputable def fourierBandBlock {n : ℕ} [NeZero n] (frequency cl ch : ℝ) (x : ZMod n → ℝ) : ZMod n → ℝ :=
  fourierFilter { bandBlock := true } frequency cl ch x

end Verif.Model
