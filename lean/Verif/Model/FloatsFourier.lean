import Verif.Basic.Rounding
import Verif.Model.Fourier

/-
`fourier_filter` (fourier_filters.py 7-172) in floating-point arithmetic without overflow. The two divisions that locate the cutoffs are rounded
(`Basic/Rounding`); `math.floor` and `math.ceil` are exact. What `np.fft.fft` and `np.fft.ifft` compute is left open: `fft` and `ifft` are any functions.
Simplified: a resolution that underflows to 0 (ZeroDivisionError) is not modelled.
-/

namespace Verif.Model

/-- fourier_filters.py 129 -/
noncomputable def resolutionFl (R : Rounding ℝ) (n : ℕ) (frequency : ℝ) : ℝ := R.fl (frequency / n)

/-- fourier_filters.py 132 -/
noncomputable def loBinFl (R : Rounding ℝ) (n : ℕ) (frequency cl : ℝ) : ℤ := ⌊R.fl (cl / resolutionFl R n frequency)⌋

/-- fourier_filters.py 134 -/
noncomputable def hiBinFl (R : Rounding ℝ) (n : ℕ) (frequency ch : ℝ) : ℤ := ⌈R.fl (ch / resolutionFl R n frequency)⌉

/-- fourier_filters.py 129-166 for 1-D numpy input (see `fourierFilter`) -/
noncomputable def fourierFilterFl {n : ℕ} (R : Rounding ℝ) (fft ifft : (ZMod n → ℂ) → ZMod n → ℂ) (fl : Flags) (frequency cl ch : ℝ) (x : ZMod n → ℝ) : ZMod n → ℝ :=
  let X := fft (fun t => (x t : ℂ))
  let Y := zeroBins fl (loBinFl R n frequency cl) (hiBinFl R n frequency ch) X
  fun t => (ifft Y t).re

end Verif.Model
