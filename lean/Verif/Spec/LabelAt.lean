import Verif.Model.HybridAlign

/-
Specification for C186: values at labelled points.
-/

namespace Verif.Spec
open Verif Model
variable {K α : Type}

/-- the value `v` stands in `a` at the point that carries the labels `pt` -/
def At (a : IArr K α) (pt : String → K) (v : α) : Prop :=
  ∃ i : String → ℕ, (∀ d ∈ a.arr.dims, ∃ l, a.index d = some l ∧ l[i d]? = some (pt d)) ∧ a.arr.get i = v

/-- every dimension of `a` has labels, all different -/
structure Labelled (a : IArr K α) : Prop where
  wf : a.arr.WF
  labels : ∀ d ∈ a.arr.dims, ∃ l, a.index d = some l ∧ l.Nodup ∧ l.length = a.arr.size d

end Verif.Spec
