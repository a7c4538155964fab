import Verif.Model.ExtrapAlign
import Verif.Spec.LabelAt

/-
Specification for C188: the extrapolated value at a labelled point.
-/

namespace Verif.Spec
open Verif Model
noncomputable section

/-- the formula asked for, at one point: bottom temperature, requested pressure, pressure of the lowest level, surface pressure, surface geopotential -/
def formulaBelow : Below → XF ℝ → XF ℝ → XF ℝ → XF ℝ → XF ℝ → XF ℝ
  | .temperature => tempExtrapolate
  | .geopotential => geoHeightExtrapolate

/-- `p` is the pressure, at the point labelled `pt`, of the level with the largest of the labels that `hyam` and `hybm` have in common -/
def LowestPressure (lev : String) (p0 : ℝ) (ps hyam hybm : IArr ℝ ℝ) (pt : String → ℝ) (p : ℝ) : Prop :=
  ∃ la lb μ a b s, hyam.index lev = some la ∧ hybm.index lev = some lb ∧ μ ∈ la ∧ μ ∈ lb ∧ (∀ y ∈ la, y ∈ lb → y ≤ μ) ∧
    At hyam (Function.update pt lev μ) a ∧ At hybm (Function.update pt lev μ) b ∧ At ps pt s ∧ p = a * p0 + b * s

end
end Verif.Spec
