import Mathlib.Algebra.BigOperators.Group.List.Basic
import Mathlib.Algebra.Order.Field.Basic
import Mathlib.Algebra.Order.BigOperators.Group.List
import Mathlib.Analysis.Real.Sqrt

/-
Specification of weighted statistics (no import of the model).
-/

namespace Verif.Spec

section
variable {K : Type _} [Field K]

/-- weighted mean of a list of (weight, value) -/
def wMean {α : Type _} (l : List α) (w f : α → K) : K := (l.map (fun x => w x * f x)).sum / (l.map w).sum

/-- normalised mean squared error of cells (weight, observed, modeled):
`mean((m - o)^2) / mean((o - mean(o))^2)`, all means weighted -/
def nmseOf (l : List (K × K × K)) : K :=
  wMean l (·.1) (fun x => (x.2.2 - x.2.1) ^ 2) / wMean l (·.1) (fun x => (x.2.1 - wMean l (·.1) (·.2.1)) ^ 2)

/-- the cells in which both fields have a value -/
def validCells (ws : List K) (o m : List (Option K)) : List (K × K × K) :=
  (List.zip ws (List.zip o m)).filterMap (fun x => match x.2.1, x.2.2 with | some o, some m => some (x.1, o, m) | _, _ => none)

end

/-- weighted correlation coefficient of (weight, a, b) -/
noncomputable def correlation (l : List (ℝ × ℝ × ℝ)) : ℝ :=
  (l.map (fun x => x.1 * (x.2.1 - wMean l (·.1) (·.2.1)) * (x.2.2 - wMean l (·.1) (·.2.2)))).sum /
    Real.sqrt ((l.map (fun x => x.1 * (x.2.1 - wMean l (·.1) (·.2.1)) ^ 2)).sum * (l.map (fun x => x.1 * (x.2.2 - wMean l (·.1) (·.2.2)) ^ 2)).sum)

end Verif.Spec
