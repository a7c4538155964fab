import Mathlib.Data.Real.Basic

/-
Specification for `gradient`: the difference quotient between the two neighbours of a point (at an edge: the point itself and its neighbour).
-/

namespace Verif.Spec.Gradient

/-- lower and upper neighbour of position `i` among `n` positions -/
def lower (i : ℕ) : ℕ := i - 1
def upper (n i : ℕ) : ℕ := min (i + 1) (n - 1)

/-- change of `f` divided by change of `x` between the neighbours of `i` -/
noncomputable def quotient (n : ℕ) (f x : ℕ → ℝ) (i : ℕ) : ℝ := (f (upper n i) - f (lower i)) / (x (upper n i) - x (lower i))

end Verif.Spec.Gradient
