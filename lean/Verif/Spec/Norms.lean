import Mathlib.Data.ZMod.Basic
import Mathlib.Analysis.Complex.Norm

/-! The size of a signal: the square root of its energy. -/

namespace Verif.Spec

noncomputable def l2 {n : ℕ} [NeZero n] (x : ZMod n → ℂ) : ℝ := √(∑ t, ‖x t‖ ^ 2)

/-- for real signals -/
noncomputable def l2r {n : ℕ} [NeZero n] (x : ZMod n → ℝ) : ℝ := √(∑ t, x t ^ 2)

end Verif.Spec
