import Mathlib.Data.ZMod.Basic
import Mathlib.Data.Real.Archimedean
import Mathlib.Analysis.SpecialFunctions.Trigonometric.Basic

/-
Specification of ideal spectral filters. Bin `k` of an `n`-point transform carries harmonic `min k (n-k)`,
the number of cycles over the record (frequency `harmonic * frequency / n`).
-/

namespace Verif.Spec

/-- Harmonic number of bin `k` (`0 ≤ k < n`). -/
def harmonic (n k : ℕ) : ℕ := min k (n - k)

/-- Low-pass with cutoff bin `l` passes harmonics below `l`. -/
def lowPasses (l : ℤ) (m : ℕ) : Prop := (m : ℤ) < l
/-- High-pass with cutoff bin `h` passes harmonics from `h` on. -/
def highPasses (h : ℤ) (m : ℕ) : Prop := h ≤ (m : ℤ)
/-- Band-pass passes harmonics in `[l, h)`. -/
def bandPasses (l h : ℤ) (m : ℕ) : Prop := l ≤ (m : ℤ) ∧ (m : ℤ) < h

instance (l : ℤ) (m : ℕ) : Decidable (lowPasses l m) := by unfold lowPasses; infer_instance
instance (h : ℤ) (m : ℕ) : Decidable (highPasses h m) := by unfold highPasses; infer_instance
instance (l h : ℤ) (m : ℕ) : Decidable (bandPasses l h m) := by unfold bandPasses; infer_instance

/-- First bin not below the low cutoff: cutoff frequency divided by the frequency step `frequency / n`, rounded down. -/
noncomputable def loBin (n : ℕ) (frequency cl : ℝ) : ℤ := ⌊cl * n / frequency⌋
/-- First bin not below the high cutoff: rounded up. -/
noncomputable def hiBin (n : ℕ) (frequency ch : ℝ) : ℤ := ⌈ch * n / frequency⌉

/-- The sampled sinusoid with `m` cycles over `n` samples. -/
noncomputable def sinusoid (n m : ℕ) (A B : ℝ) (t : ZMod n) : ℝ :=
  A * Real.cos (2 * Real.pi * m * t.val / n) + B * Real.sin (2 * Real.pi * m * t.val / n)

end Verif.Spec
