import Verif.Props.Pearson

/-
C65: what becomes of the errors of the computation on labelled arrays.
-/

set_option linter.unusedSectionVars false
namespace Verif.Props
open Verif.Model

/-- `C65` fails for labelled arrays in the same way, and for every reason: whenever one of the inputs is a DataArray and xskillscore raises ValueError
(numpy's AxisError is one), pearson_r returns None; any other exception is passed on. -/
theorem C65_dataarray_counterexample {X : Type} (xs : StatArg X → StatArg X → Option (List (XF ℝ)) → Bool → Except PyErr X) (a b : StatArg X)
    (h : a.isDataArray = true ∨ b.isDataArray = true) (w : Option (List (XF ℝ))) (skipna : Bool) :
    (∀ r, xs a b w skipna = .ok r → pearsonR xs a b w skipna = .ok (some (.xarray r))) ∧
    (xs a b w skipna = .error .valueError ∨ xs a b w skipna = .error .axisError → pearsonR xs a b w skipna = .ok none) ∧
    (∀ e, e ≠ .valueError → e ≠ .axisError → xs a b w skipna = .error e → pearsonR xs a b w skipna = .error e) := by
  have hp : pearsonR xs a b w skipna = swallowValueError ((xs a b w skipna).map .xarray) := by
    unfold pearsonR
    rw [if_neg (by rcases h with h | h <;> simp [h])]
  rw [hp]
  refine ⟨fun r hr => by rw [hr]; rfl, ?_, fun e h1 h2 he => ?_⟩
  · rintro (he | he) <;> rw [he] <;> rfl
  · rw [he]
    cases e <;> first | rfl | contradiction

example (x : Unit) : pearsonR (fun _ _ _ _ => .error .valueError) (.dataArray x) (.array [.fin 1]) none false = .ok none :=
  (C65_dataarray_counterexample _ _ _ (Or.inl rfl) _ _).2.1 (Or.inl rfl)

end Verif.Props
