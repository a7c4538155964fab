import Verif.Props.HybridInterp

/-
C20 for whole calls of interp_hybrid_to_pressure.
-/

set_option linter.unusedSectionVars false
namespace Verif.Props
open Model Spec Lemmas

/-- `C20`, whole call: whatever the arrays, a call whose array arguments are not all DataArrays is a TypeError, and a call with one of the
other faults is a ValueError - also when `extrapolate` is False. -/
theorem C20_call_rejected (o : HybridOpts) (p0 : ℝ) (x : List ℝ) (chunks : Option (String → List Nat)) (othersDask : Bool)
    (labels : List ℝ) (data : LArr (XF ℝ)) (ps hyam hybm : LArr ℝ) (tBot phi : LArr (XF ℝ)) (hne : o.types ≠ []) :
    ((∃ t ∈ o.types, t ≠ .dataArray) →
      interpHybridToPressure o p0 x chunks othersDask labels data ps hyam hybm tBot phi = .error .typeError) ∧
    ((∀ t ∈ o.types, t = .dataArray) →
      (o.extrapolate = true ∧ o.variable' = none) ∨
      ((o.variable' = some "temperature" ∨ o.variable' = some "geopotential") ∧ (o.hasTBot = false ∨ o.hasPhi = false)) ∨
      (∃ v, o.variable' = some v ∧ v ∉ ["temperature", "geopotential", "other"]) ∨
      (o.levDim = none ∧ o.cfVertical = none) ∨ o.method ∉ ["linear", "log"] →
      interpHybridToPressure o p0 x chunks othersDask labels data ps hyam hybm tBot phi = .error .valueError) := by
  obtain ⟨h1, h2, -⟩ := C20_validation o
  constructor
  · rintro ⟨t, ht, hn⟩
    unfold interpHybridToPressure
    rw [h1 (fun hh => hn (hh.2 t ht))]
    rfl
  · intro ht hb
    unfold interpHybridToPressure
    rw [h2 (not_not.mpr ⟨hne, ht⟩) hb]
    rfl

/-- an unknown `variable` although nothing is to be extrapolated -/
example : ∃ o : HybridOpts, o.types = [.dataArray, .dataArray, .dataArray, .dataArray] ∧ o.extrapolate = false ∧ o.levDim = some "lev" ∧
    ∃ v, o.variable' = some v ∧ v ∉ ["temperature", "geopotential", "other"] :=
  ⟨{ types := [.dataArray, .dataArray, .dataArray, .dataArray], levDim := some "lev", variable' := some "height" }, rfl, rfl, rfl, "height", rfl, by decide⟩

end Verif.Props
