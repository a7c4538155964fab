import Verif.Props.Climatology7

/-
Properties C40 and C41, daily groups: a record of 365 consecutive days that ends on 29 February. Most of its days lie in the year
before, which has no 29 February but has a 1 March, the one day missing from the record.
-/

namespace Verif.Props
open Verif.Model Verif.Spec Verif.Lemmas

set_option maxRecDepth 100000

/-- daily values 0, 1, ..., 364 at noon from 2 March 2003 to 29 February 2004 (Julian calendar) -/
def yearToLeapDay : Series ℚ :=
  { samples := (List.range 365).map (fun i : ℕ => ⟨Cal.julian.monthStart (12 * 2003 + 2) + 86400 * (1 + i) + 43200, fun _ => some (i : ℚ)⟩),
    ncell := 1, isTime := true }

theorem yearToLeapDay_last : (yearToLeapDay.samples[364]?.map (fun e => (Cal.julian.year e.key, stamp Cal.julian .day e.key, e.val 0))) =
    some (2004, (2, 29, 0), some 364) := by decide +kernel

theorem yearToLeapDay_anomaly : (climateAnomaly Cal.julian (fun _ => .ok true) "day" yearToLeapDay).toOption.map
    (fun l => l[364]?.map (fun o => o.val 0)) = some (some none) := by decide +kernel

/-- C41 is false of daily anomalies: the value of 29 February has no anomaly, although its group has a mean. -/
theorem C41_day_counterexample :
    ∃ out, climateAnomaly Cal.julian (fun _ => .ok true) "day" yearToLeapDay = .ok out ∧
      ¬ IsAnomaly (fun t => (Cal.julian.month t, Cal.julian.day t, 0)) yearToLeapDay.samples out := by
  have h := yearToLeapDay_anomaly
  cases hc : climateAnomaly Cal.julian (fun _ => .ok true) "day" yearToLeapDay with
  | error e => rw [hc] at h; cases h
  | ok out =>
    refine ⟨out, rfl, ?_⟩
    rw [hc] at h
    rintro ⟨-, h2, -⟩
    simp only [Except.toOption, Option.map_some, Option.some.injEq, Option.map_eq_some_iff] at h
    obtain ⟨o, ho, hv⟩ := h
    have hl := yearToLeapDay_last
    rw [Option.map_eq_some_iff] at hl
    obtain ⟨e, he, hev⟩ := hl
    simp only [Prod.mk.injEq] at hev
    obtain ⟨m, -, a, ha, -⟩ := ((h2 364 e o he ho).2 0).2 364 hev.2.2
    rw [hv] at ha
    cases ha

/-- C40 is false of the time stamps of daily climatologies: the call returns, and the mean of the samples of 29 February (the 60th
label in calendar order) is stamped 1 March. -/
theorem C40_labels_counterexample :
    ∃ l o, climatologyAverage Cal.julian (fun _ => .ok true) "day" [] yearToLeapDay = .ok (.times l) ∧ l[59]? = some o ∧
      o.val 0 = mean (valuesIn yearToLeapDay.samples (fun t => stamp Cal.julian .day t = (2, 29, 0)) 0) ∧
      o.val 0 = some 364 ∧ stamp Cal.julian .day o.key = (3, 1, 0) := by
  have h : (climatologyAverage Cal.julian (fun _ => .ok true) "day" [] yearToLeapDay).toOption.bind
      (fun r => match r with
        | .times l => l[59]?.map (fun o => (o.val 0, stamp Cal.julian .day o.key))
        | .seasons _ => none) = some (some 364, (3, 1, 0)) := by decide +kernel
  have hm : mean (valuesIn yearToLeapDay.samples (fun t => stamp Cal.julian .day t = (2, 29, 0)) 0) = some 364 := by decide +kernel
  rw [hm]
  cases hc : climatologyAverage Cal.julian (fun _ => .ok true) "day" [] yearToLeapDay with
  | error e => rw [hc] at h; cases h
  | ok r =>
    rw [hc] at h
    cases r with
    | seasons l => cases h
    | times l =>
      simp only [Except.toOption, Option.bind_some, Option.map_eq_some_iff, Prod.mk.injEq] at h
      obtain ⟨o, ho, hv⟩ := h
      exact ⟨l, o, rfl, ho, hv.1, hv.1, hv.2⟩

variable {K : Type _} [Field K] [LinearOrder K] [IsStrictOrderedRing K]

/-- C41, daily anomalies of whole years: whenever the call returns, the anomalies are right. -/
theorem C41_day_whole_years (cal : Cal) (infer : InferFreq) (s : Series K) (out : List (Entry K)) (y0 y1 : ℤ) (hw : WholeYears cal s y0 y1)
    (h1000 : 1000 ≤ y0) (h99999 : y1 ≤ 99999) (h : climateAnomaly cal infer "day" s = .ok out) :
    IsAnomaly (fun t => (cal.month t, cal.day t, 0)) s.samples out := by
  refine C41_day_partial cal infer s out h ?_
  have hi : s.isTime = true := by
    by_contra hc
    rw [Bool.not_eq_true] at hc
    unfold climateAnomaly at h
    simp [hc, throw, throwThe, MonadExceptOf.throw, bind, Except.bind] at h
  have hc : ∃ r, climatologyAverage cal infer "day" [] s = .ok r := by
    unfold climateAnomaly at h
    simp only [hi, not_true_eq_false, if_false, bind, Except.bind, pure, Except.pure] at h
    cases hr : climatologyAverage cal infer "day" [] s with
    | error e => rw [hr] at h; cases h
    | ok r => exact ⟨r, rfl⟩
  have hu : checkUniform cal infer s = .ok () := by
    obtain ⟨r, hr⟩ := hc
    exact (climatology_group_ok cal infer "day" .day (Or.inr (Or.inl ⟨rfl, rfl⟩)) [] s r hr).2.1
  have hlen := (C43_exact cal infer [] s hi ((uniform_iff cal infer s).mp hu) y0 y1 hw h1000 h99999).1.mp hc
  intro e he
  obtain ⟨w0, w1⟩ := hw.within e he
  have r := month_range cal e.key
  have d := day_range cal e.key
  have := hlen (cal.year e.key) w0 w1 (cal.month e.key - 1) (by omega) (by omega)
  have hk := year_month cal e.key
  rw [show 12 * medianYear cal s.samples + cal.month e.key - 1 = 12 * medianYear cal s.samples + (cal.month e.key - 1) by ring]
  refine le_trans ?_ this
  rw [show 12 * cal.year e.key + (cal.month e.key - 1) = cal.monthOf e.key by omega]
  exact d.2.1

/-- one value on every day of the year 2000 of the 360-day calendar -/
def year360 : Series ℚ :=
  { samples := (List.range 360).map (fun i : ℕ => ⟨86400 * (360 * 2000 + i), fun _ => some (i : ℚ)⟩), ncell := 1, isTime := true }

theorem year360_whole : WholeYears Cal.days360 year360 2000 2000 where
  order := le_rfl
  within := by
    intro e he
    simp only [year360, List.mem_map, List.mem_range] at he
    obtain ⟨i, hi, rfl⟩ := he
    simp only [Cal.year, Cal.days360]
    omega
  daily := by
    intro t h0 h1
    simp only [Cal.year, Cal.days360] at h0 h1
    refine ⟨⟨86400 * (360 * 2000 + ((t / 86400 - 720000).toNat : ℕ)), fun _ => some ((t / 86400 - 720000).toNat : ℚ)⟩, ?_, ?_⟩
    · simp only [year360, List.mem_map, List.mem_range]
      exact ⟨(t / 86400 - 720000).toNat, by omega, rfl⟩
    · simp only
      omega

/-- a case: a whole year of the 360-day calendar -/
example : ∃ out, climateAnomaly Cal.days360 (fun _ => .ok true) "day" year360 = .ok out ∧
    IsAnomaly (fun t => (Cal.days360.month t, Cal.days360.day t, 0)) year360.samples out := by
  have hu : Regular Cal.days360 (fun _ => .ok true) year360 := Or.inl rfl
  obtain ⟨r, hr⟩ := (C43_exact Cal.days360 (fun _ => .ok true) [] year360 rfl hu 2000 2000 year360_whole (by decide) (by decide)).1.mpr (by
    intro y _ _ m _ _
    simp only [Cal.len, Cal.days360]
    omega)
  obtain ⟨-, -, l, rfl, -⟩ := climatology_group_ok Cal.days360 _ "day" .day (Or.inr (Or.inl ⟨rfl, rfl⟩)) [] year360 r hr
  have ha : climateAnomaly Cal.days360 (fun _ => .ok true) "day" year360 =
      .ok (minusGroup year360.samples (groupSum (stampKey Cal.days360 .day) l)) := by
    unfold climateAnomaly
    simp only [hr, bind, Except.bind, pure, Except.pure]
    rfl
  exact ⟨_, ha, C41_day_whole_years _ _ _ _ 2000 2000 year360_whole (by decide) (by decide) ha⟩

end Verif.Props
