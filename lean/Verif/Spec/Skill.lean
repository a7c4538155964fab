import Verif.Spec.Stats

/-
Specification of the parts of a forecast error (no import of the model).
-/

namespace Verif.Spec

/-- weighted standard deviation of a quantity of the cells (weight, observed, modeled) -/
noncomputable def spread (l : List (ℝ × ℝ × ℝ)) (f : ℝ × ℝ × ℝ → ℝ) : ℝ := Real.sqrt (wMean l (·.1) (fun x => (f x - wMean l (·.1) f) ^ 2))

/-- weighted sum of the squared deviations from the mean -/
noncomputable def scatter (l : List (ℝ × ℝ × ℝ)) (f : ℝ × ℝ × ℝ → ℝ) : ℝ := (l.map (fun x => x.1 * (f x - wMean l (·.1) f) ^ 2)).sum

/-- ratio of the standard deviations, modeled over observed -/
noncomputable def spreadRatio (l : List (ℝ × ℝ × ℝ)) : ℝ := spread l (·.2.2) / spread l (·.2.1)

/-- difference of the means in units of the observed standard deviation -/
noncomputable def relBias (l : List (ℝ × ℝ × ℝ)) : ℝ := (wMean l (·.1) (·.2.2) - wMean l (·.1) (·.2.1)) / spread l (·.2.1)

end Verif.Spec
