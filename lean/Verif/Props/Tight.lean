import Verif.Props.Climatology
import Verif.Props.Sigma
import Verif.Props.PointApi

/-
Further statements found necessary by editing the model: error cases and containers.
-/

set_option linter.unusedSectionVars false
namespace Verif.Props
open Model Spec Lemmas

/-- C56. The container of the remaining functions: a DataArray exactly for a DataArray, otherwise numpy. -/
theorem C56_vapor_containers (x : Arg (XF ℝ)) (tfill : XF ℝ) :
    ((psychrometricConstant x).ty = if x.ty = .dataArray then .dataArray else if x.val.shape = [] then .npScalar else .ndarray) ∧
    ((saturationVaporPressure x tfill).ty = if x.ty = .dataArray then .dataArray else .ndarray) ∧
    ((actualSaturationVaporPressure x tfill).ty = if x.ty = .dataArray then .dataArray else .ndarray) ∧
    ((saturationVaporPressureSlope x tfill).ty = if x.ty = .dataArray then .dataArray else .ndarray) := ⟨rfl, rfl, rfl, rfl⟩

example : (psychrometricConstant (constArg .float [] 101)).ty = .npScalar ∧ (psychrometricConstant (constArg .dataArray [3] 101)).ty = .dataArray ∧
    (psychrometricConstant (constArg .list [3] 101)).ty = .ndarray := ⟨rfl, rfl, rfl⟩

section climatology
variable {K : Type _} [Field K] [LinearOrder K]

/-- C34. A coordinate that holds no time stamps is a ValueError in all four functions, whatever the other arguments (in `month_to_season` whatever
the season). -/
theorem C34_no_time (cal : Cal) (infer : InferFreq) (freq season : String) (custom : List String) (s : Series K) (h : s.isTime = false) :
    calendarAverage cal infer freq s = .error .valueError ∧ climatologyAverage cal infer freq custom s = .error .valueError ∧
    climateAnomaly cal infer freq s = .error .valueError ∧ monthToSeason cal season s = .error .valueError := by
  refine ⟨?_, ?_, ?_, ?_⟩
  · unfold calendarAverage
    cases hp : calendarPeriod freq with
    | error e =>
      have : e = .valueError := by
        unfold calendarPeriod at hp
        split at hp <;> first | (cases hp; rfl) | cases hp
      rw [this]; rfl
    | ok p =>
      simp only [h, bind, Except.bind]
      rfl
  · unfold climatologyAverage
    cases hp : climatologyPeriod freq with
    | error e =>
      have : e = .valueError := by
        unfold climatologyPeriod at hp
        split at hp <;> first | (cases hp; rfl) | cases hp
      rw [this]; rfl
    | ok p =>
      simp only [h, bind, Except.bind]
      rfl
  · unfold climateAnomaly
    simp only [h, bind, Except.bind]
    rfl
  · unfold monthToSeason
    simp only [h, bind, Except.bind]
    rfl

example : climatologyAverage (K := ℚ) Cal.noleap (fun _ => .ok true) "day" [] ⟨1, [⟨0, fun _ => some 1⟩], false⟩ = .error .valueError :=
  (C34_no_time (K := ℚ) Cal.noleap _ "day" "DJF" [] _ rfl).2.1

end climatology

/-- C21. Without a name of the level dimension and without CF metadata telling it the call is a ValueError, and so is an unknown method, whatever the
other arguments are. -/
theorem C21_rejected {K : Type} [Field K] [LinearOrder K] [IsStrictOrderedRing K] (lg : K → K) (cf : Option String) (method : String) (p0 : K)
    (sig : List K) (data : LArr (XF K)) (ps hyam hybm : LArr K) :
    interpSigmaToHybrid lg none none method p0 sig data ps hyam hybm = .error .valueError ∧
    (method ≠ "linear" → method ≠ "log" → ∀ levDim, interpSigmaToHybrid lg levDim cf method p0 sig data ps hyam hybm = .error .valueError) := by
  refine ⟨rfl, fun h1 h2 levDim => ?_⟩
  have hf : funcInterpolate lg method = .error .valueError := by
    unfold funcInterpolate
    simp [h1, h2]
  unfold interpSigmaToHybrid
  cases levDim with
  | some d => simp only [hf, bind, Except.bind, pure, Except.pure]
  | none =>
    cases cf with
    | some d => simp only [hf, bind, Except.bind, pure, Except.pure]
    | none => rfl

/-- C21. A level dimension that the data do not have is a ValueError, whether it was named by the caller or found through the CF attributes. -/
theorem C21_missing_level (levDim cf : Option String) (method lev hd : String) (hm : method = "linear" ∨ method = "log")
    (hl : levDim = some lev ∨ levDim = none ∧ cf = some lev) (sig : List ℝ) (m : ℕ) (a b : ℕ → ℝ) (p0 : ℝ) (ps : LArr ℝ) (data : LArr (XF ℝ))
    (hnew : hd ∉ ps.dims) (hlev : lev ∉ data.dims) :
    interpSigmaToHybrid Real.log levDim cf method p0 sig data ps (vec hd m a) (vec hd m b) = .error .valueError := by
  obtain ⟨S, hS, -⟩ := sigma_spec ps hd m a b p0 hnew
  have hfn : funcInterpolate Real.log method = .ok (coordOf method) := by
    rcases hm with hm | hm <;> simp [funcInterpolate, coordOf, hm]
  have hnh : Py.index (vec hd m a).shape 0 = .ok m := rfl
  have hc : ∀ g, sigmaColumns g lev sig data S m = .error .valueError := by
    intro g
    unfold sigmaColumns
    rw [if_pos hlev]
    rfl
  unfold interpSigmaToHybrid
  rcases hl with hl | ⟨hl, hcf⟩
  · simp only [hl, hfn, hS, hnh, bind, Except.bind, pure, Except.pure, hc]
  · simp only [hl, hcf, hfn, hS, hnh, bind, Except.bind, pure, Except.pure, hc]

example : interpSigmaToHybrid Real.log (some "plev") none "linear" 1000 [1, 2] ⟨["lev", "x"], fun _ => 2, fun _ => .fin 1⟩ ⟨["x"], fun _ => 2, fun _ => 1⟩
    (vec "hlev" 2 fun _ => 0) (vec "hlev" 2 fun _ => 1) = .error .valueError :=
  C21_missing_level _ _ "linear" "plev" "hlev" (Or.inl rfl) (Or.inl rfl) _ 2 _ _ _ _ _ (by decide) (by decide)

end Verif.Props
