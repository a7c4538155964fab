import Verif.Lemmas.Climatology2
import Verif.Lemmas.Uniform

/-
Property theorems: frequency and season arguments, season and year averages.
-/

set_option linter.unusedSectionVars false

namespace Verif.Props
open Model Spec Lemmas
variable {K : Type _} [Field K] [LinearOrder K] [IsStrictOrderedRing K]

/-! ### C34 -/

/-- C34, calendar_average: any other frequency is a ValueError, and each of the five is accepted. -/
theorem C34_calendar_average (cal : Cal) (infer : InferFreq) (freq : String) :
    (freq ∉ ["hour", "day", "month", "season", "year"] → ∀ s : Series K, calendarAverage cal infer freq s = .error .valueError) ∧
    (freq ∈ ["hour", "day", "month", "season", "year"] → ∃ s : Series K, ∃ out, calendarAverage cal (fun _ => .ok true) freq s = .ok out ∧ out ≠ []) := by
  constructor
  · intro h s
    have : calendarPeriod freq = .error .valueError := by
      unfold calendarPeriod
      split <;> simp_all
    unfold calendarAverage
    rw [this]
    rfl
  · intro h
    refine ⟨⟨1, [⟨0, fun _ => some 0⟩], true⟩, ?_⟩
    have key : ∀ p : Period, ∃ out, calBody (K := K) cal (fun _ => .ok true) p ⟨1, [⟨0, fun _ => some 0⟩], true⟩ = .ok out ∧ out ≠ [] := by
      intro p
      have hr : ∀ a : ℤ, periodRange a a = [a] := by intro a; simp [periodRange]
      cases p <;>
        simp [calBody, checkUniform, resample, bins, meanEach, dropna, weightedSums, centerBounds, hr, nanMean, bind, Except.bind, pure, Except.pure]
    simp only [List.mem_cons, List.not_mem_nil, or_false] at h
    rcases h with rfl | rfl | rfl | rfl | rfl
    · rw [calendar_eq cal _ "hour" .hour rfl]; exact key _
    · rw [calendar_eq cal _ "day" .day rfl]; exact key _
    · rw [calendar_eq cal _ "month" .month rfl]; exact key _
    · rw [calendar_eq cal _ "season" .season rfl]; exact key _
    · rw [calendar_eq cal _ "year" .year rfl]; exact key _

/-- C34, climatology_average and climate_anomaly: any other frequency is a ValueError. -/
theorem C34_other_frequencies (cal : Cal) (infer : InferFreq) (freq : String) (s : Series K) (custom : List String) :
    (freq ∉ ["hour", "day", "month", "season"] → climatologyAverage cal infer freq custom s = .error .valueError) ∧
    (freq ∉ ["day", "month", "season", "year"] → climateAnomaly cal infer freq s = .error .valueError) := by
  constructor
  · intro h
    have : climatologyPeriod freq = .error .valueError := by
      unfold climatologyPeriod
      split <;> simp_all
    unfold climatologyAverage
    rw [this]
    rfl
  · intro h
    unfold climateAnomaly
    cases s.isTime with
    | false => rfl
    | true =>
      simp only [not_true_eq_false, if_false, bind, Except.bind, pure, Except.pure]
      split <;> simp_all
      rfl

/-- C34: an unknown name among `custom_seasons` is a ValueError. -/
theorem C34_custom_seasons (cal : Cal) (infer : InferFreq) (s : Series K) (custom : List String) (n : String) (hn : n ∈ custom)
    (hbad : n ∉ ["DJF", "JFM", "FMA", "MAM", "AMJ", "MJJ", "JJA", "JAS", "ASO", "SON", "OND", "NDJ"]) (hi : s.isTime = true)
    (hr : Regular cal infer s) : climatologyAverage cal infer "season" custom s = .error .valueError := by
  have hu := (uniform_iff cal infer s).mpr hr
  have h0 : seasonMonths n = none := by
    unfold seasonMonths
    split <;> simp_all
  have h1 : custom ≠ [] := List.ne_nil_of_mem hn
  have h2 : custom.any (fun n => (seasonMonths n).isNone) = true := List.any_eq_true.mpr ⟨n, hn, by rw [h0]; rfl⟩
  have h3 : seasonClimates cal s custom = .error .valueError := by
    unfold seasonClimates
    simp only [if_neg h1, h2, if_true]
    rfl
  have hp : climatologyPeriod "season" = .ok .season := rfl
  unfold climatologyAverage
  simp only [hp, hi, hu, h3, bind, Except.bind, not_true_eq_false, if_false, if_true, pure, Except.pure]

/-- C34, part: in `month_to_season` an unknown season (with twelve months per year of data) always raises - but a KeyError, not the
ValueError of its own message. -/
theorem C34_month_to_season_partial (cal : Cal) (s : Series K) (n : String)
    (hbad : n ∉ ["DJF", "JFM", "FMA", "MAM", "AMJ", "MJJ", "JJA", "JAS", "ASO", "SON", "OND", "NDJ"]) (hi : s.isTime = true) :
    (s.samples.length % 12 = 0 → monthToSeason cal n s = .error .keyError) ∧
    (s.samples.length % 12 ≠ 0 → monthToSeason cal n s = .error .valueError) := by
  have h0 : seasonQuarter n = none := by
    unfold seasonQuarter
    split <;> simp_all
  constructor
  · intro h
    unfold monthToSeason
    simp only [hi, h, h0, bind, Except.bind, not_true_eq_false, if_false, ne_eq]
    rfl
  · intro h
    unfold monthToSeason
    simp only [hi, h, bind, Except.bind, not_true_eq_false, if_false, ne_eq, not_false_eq_true, if_true]
    rfl

/-- C34 is false: an unknown season in `month_to_season` is not a ValueError. -/
theorem C34_counterexample : ∃ s : Series ℚ, s.samples.length = 12 ∧ s.isTime = true ∧ monthToSeason Cal.noleap "XYZ" s ≠ .error .valueError := by
  refine ⟨⟨1, (List.range 12).map (fun i => ⟨Cal.noleap.monthStart i, fun _ => some 0⟩), true⟩, rfl, rfl, ?_⟩
  rw [(C34_month_to_season_partial Cal.noleap _ "XYZ" (by decide) rfl).1 rfl]
  simp

example : "week" ∉ ["hour", "day", "month", "season", "year"] ∧ "XYZ" ∉ ["DJF", "JFM", "FMA", "MAM", "AMJ", "MJJ", "JJA", "JAS", "ASO", "SON", "OND", "NDJ"] := by
  decide

/-! ### C35 -/

/-- the twelve months' initials -/
def initials : List Char := ['J', 'F', 'M', 'A', 'M', 'J', 'J', 'A', 'S', 'O', 'N', 'D']

/-- month after `m` -/
def nextMonth (m : ℤ) : ℤ := if m = 12 then 1 else m + 1

/-- C35: an accepted name stands for three consecutive months whose initials spell it; both functions use the same months, and the
quarters of `month_to_season` start with the first of them. -/
theorem C35_seasons (n : String) :
    (∀ months, seasonMonths n = some months → ∃ a, 1 ≤ a ∧ a ≤ 12 ∧ months = [a, nextMonth a, nextMonth (nextMonth a)] ∧
      n.toList = months.map (fun m => initials.getD (m - 1).toNat ' ') ∧ seasonQuarter n = some (months, a)) ∧
    (seasonMonths n = none → seasonQuarter n = none) := by
  constructor
  · intro months h
    unfold seasonMonths at h
    split at h <;> first
      | (cases h; done)
      | (injection h with h; subst h; first
          | exact ⟨12, by decide, by decide, by decide, by decide, rfl⟩
          | exact ⟨1, by decide, by decide, by decide, by decide, rfl⟩
          | exact ⟨2, by decide, by decide, by decide, by decide, rfl⟩
          | exact ⟨3, by decide, by decide, by decide, by decide, rfl⟩
          | exact ⟨4, by decide, by decide, by decide, by decide, rfl⟩
          | exact ⟨5, by decide, by decide, by decide, by decide, rfl⟩
          | exact ⟨6, by decide, by decide, by decide, by decide, rfl⟩
          | exact ⟨7, by decide, by decide, by decide, by decide, rfl⟩
          | exact ⟨8, by decide, by decide, by decide, by decide, rfl⟩
          | exact ⟨9, by decide, by decide, by decide, by decide, rfl⟩
          | exact ⟨10, by decide, by decide, by decide, by decide, rfl⟩
          | exact ⟨11, by decide, by decide, by decide, by decide, rfl⟩)
  · intro h
    unfold seasonMonths at h
    split at h <;> first
      | (cases h; done)
      | (unfold seasonQuarter; split <;> simp_all)

/-- every month is the first of exactly one season: the table is complete -/
theorem C35_all_starts (a : ℤ) (h1 : 1 ≤ a) (h2 : a ≤ 12) : ∃ n, seasonMonths n = some [a, nextMonth a, nextMonth (nextMonth a)] := by
  have : a = 1 ∨ a = 2 ∨ a = 3 ∨ a = 4 ∨ a = 5 ∨ a = 6 ∨ a = 7 ∨ a = 8 ∨ a = 9 ∨ a = 10 ∨ a = 11 ∨ a = 12 := by omega
  rcases this with rfl | rfl | rfl | rfl | rfl | rfl | rfl | rfl | rfl | rfl | rfl | rfl
  · exact ⟨"JFM", rfl⟩
  · exact ⟨"FMA", rfl⟩
  · exact ⟨"MAM", rfl⟩
  · exact ⟨"AMJ", rfl⟩
  · exact ⟨"MJJ", rfl⟩
  · exact ⟨"JJA", rfl⟩
  · exact ⟨"JAS", rfl⟩
  · exact ⟨"ASO", rfl⟩
  · exact ⟨"SON", rfl⟩
  · exact ⟨"OND", rfl⟩
  · exact ⟨"NDJ", rfl⟩
  · exact ⟨"DJF", rfl⟩

example : seasonMonths "NDJ" = some [11, 12, 1] := rfl

end Verif.Props
