import Verif.Spec.Seasons
import Verif.Props.Climatology
import Verif.Props.Climatology8
import Verif.Props.MonthToSeason2
import Mathlib.Tactic.IntervalCases

/-
C35 for whole calls: which months `month_to_season` and `climatology_average` average for a season name.
-/

set_option linter.unusedSectionVars false

namespace Verif.Props
open Model Spec Lemmas
variable {K : Type _} [Field K] [LinearOrder K] [IsStrictOrderedRing K]

/-- a name belongs to at most one first month -/
theorem seasonFrom_unique {n : String} {a b : ℤ} (ha : SeasonFrom n a) (hb : SeasonFrom n b) : a = b := by
  obtain ⟨h1, h2, h3⟩ := ha
  obtain ⟨h4, h5, h6⟩ := hb
  rw [h3] at h6
  revert h6
  clear h3
  interval_cases a <;> interval_cases b <;> decide

theorem seasonFrom_quarter (n : String) (a : ℤ) (h : SeasonFrom n a) : seasonQuarter n = some ([a, nextMonth a, nextMonth (nextMonth a)], a) := by
  obtain ⟨h1, h2, h3⟩ := h
  have hn : n = String.ofList [monthInitial a, monthInitial (a + 1), monthInitial (a + 2)] := by rw [← h3, String.ofList_toList]
  subst hn
  clear h3
  interval_cases a <;> rfl

theorem seasonFrom_months (n : String) (a : ℤ) (h : SeasonFrom n a) : seasonMonths n = some [a, nextMonth a, nextMonth (nextMonth a)] := by
  obtain ⟨h1, h2, h3⟩ := h
  have hn : n = String.ofList [monthInitial a, monthInitial (a + 1), monthInitial (a + 2)] := by rw [← h3, String.ofList_toList]
  subst hn
  clear h3
  interval_cases a <;> rfl

theorem seasonFrom_of_months (n : String) (months : List ℤ) (h : seasonMonths n = some months) : ∃ a, SeasonFrom n a := by
  unfold seasonMonths at h
  split at h <;> first
    | (cases h; done)
    | exact ⟨12, by decide⟩
    | exact ⟨1, by decide⟩
    | exact ⟨2, by decide⟩
    | exact ⟨3, by decide⟩
    | exact ⟨4, by decide⟩
    | exact ⟨5, by decide⟩
    | exact ⟨6, by decide⟩
    | exact ⟨7, by decide⟩
    | exact ⟨8, by decide⟩
    | exact ⟨9, by decide⟩
    | exact ⟨10, by decide⟩
    | exact ⟨11, by decide⟩

theorem inSeason_iff (a m : ℤ) (h1 : 1 ≤ a) (h2 : a ≤ 12) (h3 : 1 ≤ m) (h4 : m ≤ 12) :
    m ∈ [a, nextMonth a, nextMonth (nextMonth a)] ↔ InSeason a m := by
  unfold InSeason nextMonth
  interval_cases a <;> interval_cases m <;> decide

theorem month_range (cal : Cal) (t : ℤ) : 1 ≤ cal.month t ∧ cal.month t ≤ 12 := by
  unfold Cal.month Cal.monthNo
  omega

/-- the samples of the three months starting with `a`, without the last of them if the season is December to February and without the
first of them if it is November to January -/
def seasonSamples (cal : Cal) (a : ℤ) (l : List (Entry K)) : List (Entry K) :=
  let f := l.filter (fun e => decide (InSeason a (cal.month e.key)))
  if a = 12 then f.dropLast else if a = 11 then f.tail else f

theorem keptSamples_eq (cal : Cal) (season : String) (a : ℤ) (h : SeasonFrom season a) (l : List (Entry K)) :
    keptSamples cal season [a, nextMonth a, nextMonth (nextMonth a)] l = seasonSamples cal a l := by
  have hf : l.filter (fun e => decide (cal.month e.key ∈ [a, nextMonth a, nextMonth (nextMonth a)])) =
      l.filter (fun e => decide (InSeason a (cal.month e.key))) := by
    refine List.filter_congr fun e _ => ?_
    have := month_range cal e.key
    rw [decide_eq_decide]
    exact inSeason_iff a _ h.1 h.2.1 this.1 this.2
  have h12 : season = "DJF" ↔ a = 12 := by
    constructor
    · rintro rfl; exact seasonFrom_unique h (by decide)
    · rintro rfl; exact String.toList_injective (h.2.2.trans (by decide))
  have h11 : season = "NDJ" ↔ a = 11 := by
    constructor
    · rintro rfl; exact seasonFrom_unique h (by decide)
    · rintro rfl; exact String.toList_injective (h.2.2.trans (by decide))
  unfold keptSamples seasonSamples
  simp only [hf, h12, h11]

/-- `C35`, `month_to_season`: for a name spelled by three consecutive months the call averages samples of exactly these months, in groups of
a middle month and its two neighbours, and stamps each group with its middle month. -/
theorem C35_month_to_season (cal : Cal) (s : Series K) (season : String) (a : ℤ) (h : SeasonFrom season a) (ht : s.isTime = true)
    (h12 : s.samples.length % 12 = 0) (hsort : s.samples.Pairwise (fun x y => x.key ≤ y.key)) (hne : seasonSamples cal a s.samples ≠ []) :
    ∃ Ms : List ℤ, Ms.Pairwise (· < ·) ∧
      (∀ M, M ∈ Ms ↔ (Cal.monthNo M - (a + 1)) % 12 = 0 ∧ (∃ e ∈ seasonSamples cal a s.samples, cal.monthOf e.key ≤ M + 1) ∧
        (∃ e ∈ seasonSamples cal a s.samples, M - 1 ≤ cal.monthOf e.key)) ∧
      monthToSeason cal season s = .ok (Ms.map (fun M => ⟨cal.monthStart M,
        fun c => mean (valuesIn (seasonSamples cal a s.samples) (fun t => cal.monthOf t ∈ [M - 1, M, M + 1]) c)⟩)) := by
  have hk := keptSamples_eq cal season a h s.samples
  obtain ⟨Ms, h1, h2, h3⟩ := C36_exact cal s season _ a (seasonFrom_quarter season a h) ht h12 hsort (by rw [hk]; exact hne)
  rw [hk] at h2 h3
  refine ⟨Ms, h1, fun M => ?_, h3⟩
  rw [h2 M]
  have : Cal.monthNo M = [a, nextMonth a, nextMonth (nextMonth a)].getD 1 0 ↔ (Cal.monthNo M - (a + 1)) % 12 = 0 := by
    have hr : 1 ≤ Cal.monthNo M ∧ Cal.monthNo M ≤ 12 := by unfold Cal.monthNo; omega
    have ha1 := h.1
    have ha2 := h.2.1
    simp only [List.getD_cons_succ, List.getD_cons_zero, nextMonth]
    split <;> omega
  rw [this]

/-- `C35`, `climatology_average`: the climatology of a season is the mean over the full months of the three months its name is spelled by,
each weighted with its length. -/
theorem C35_climatology_average (cal : Cal) (infer : InferFreq) (custom : List String) (s : Series K) (hn : 0 < s.ncell)
    (out : ClimOut K) (h : climatologyAverage cal infer "season" custom s = .ok out) :
    ∃ vals, out = .seasons vals ∧ vals.map (·.1) = (if custom = [] then ["DJF", "JJA", "MAM", "SON"] else custom) ∧
      ∀ x ∈ vals, ∃ a, SeasonFrom x.1 a ∧
        ∃ ks : List ℤ, ks.Pairwise (· < ·) ∧ (∀ k, k ∈ ks ↔ FullMonth cal s k ∧ InSeason a (Cal.monthNo k)) ∧
          ∀ c < s.ncell, x.2 c = some (dayWeighted cal ks (fun k => (monthMean cal s.samples k c).getD 0)) := by
  obtain ⟨vals, h1, h2, h3⟩ := C91_weighted cal infer custom s hn out h
  refine ⟨vals, h1, h2, fun x hx => ?_⟩
  obtain ⟨months, hm, ks, hk1, hk2, hk3⟩ := h3 x hx
  obtain ⟨a, ha⟩ := seasonFrom_of_months _ _ hm
  rw [seasonFrom_months _ _ ha] at hm
  injection hm with hm
  subst hm
  refine ⟨a, ha, ks, hk1, fun k => ?_, hk3⟩
  rw [hk2 k, inSeason_iff a _ ha.1 ha.2.1 (by unfold Cal.monthNo; omega) (by unfold Cal.monthNo; omega)]

/-- `C35`: a name that is not spelled by three consecutive months is rejected by both functions. -/
theorem C35_other_names (cal : Cal) (infer : InferFreq) (custom : List String) (s : Series K) (n : String) (hn : ∀ a, ¬ SeasonFrom n a) :
    (∃ e, monthToSeason cal n s = .error e) ∧ (n ∈ custom → ∃ e, climatologyAverage cal infer "season" custom s = .error e) := by
  have hm : seasonMonths n = none := by
    cases h : seasonMonths n with
    | none => rfl
    | some m =>
      obtain ⟨a, ha⟩ := seasonFrom_of_months n m h
      exact absurd ha (hn a)
  constructor
  · obtain ⟨e, he, -⟩ := C36_errors cal s n (.inl ((C35_seasons n).2 hm))
    exact ⟨e, he⟩
  · intro hc
    cases h : climatologyAverage cal infer "season" custom s with
    | error e => exact ⟨e, rfl⟩
    | ok out =>
      obtain ⟨vals, -, h2, h3⟩ := climatology_season cal infer custom s out h
      rw [if_neg (List.ne_nil_of_mem hc)] at h2
      rw [← h2] at hc
      obtain ⟨x, hx, rfl⟩ := List.mem_map.mp hc
      obtain ⟨months, hmm, -⟩ := h3 x hx
      rw [hm] at hmm
      cases hmm

/-- `C36` with the season given by its name alone: a record of `N` whole years of monthly values starting in month `k0` - January if the season
runs over the end of the year and begins in November or December, otherwise any month but the season's second and third - gives one entry
per year, stamped with the middle month and equal to the mean over the three months. -/
theorem C36_by_name_partial (cal : Cal) (s : Series K) (season : String) (a k0 : ℤ) (N : ℕ) (h : SeasonFrom season a) (ht : s.isTime = true)
    (hN : 0 < N) (hr : MonthlyRecord cal s k0 N)
    (hstart : if 11 ≤ a then Cal.monthNo k0 = 1 else (Cal.monthNo k0 - a) % 12 ≠ 1 ∧ (Cal.monthNo k0 - a) % 12 ≠ 2) :
    ∃ out M0, monthToSeason cal season s = .ok out ∧ k0 ≤ M0 ∧ M0 < k0 + 12 ∧ (Cal.monthNo M0 - a) % 12 = 1 ∧ out.length = N ∧
      ∀ (i : ℕ) (o : Entry K), out[i]? = some o → o.key = cal.monthStart (M0 + 12 * i) ∧
        ∀ c, o.val c = mean (valuesIn s.samples (fun t => cal.monthOf t ∈ [M0 + 12 * i - 1, M0 + 12 * i, M0 + 12 * i + 1]) c) := by
  have ha1 := h.1
  have ha2 := h.2.1
  have hk : 1 ≤ Cal.monthNo k0 ∧ Cal.monthNo k0 ≤ 12 := by unfold Cal.monthNo; omega
  have hsuits : Suits season [a, nextMonth a, nextMonth (nextMonth a)] k0 := by
    unfold Suits
    have h12 : season = "DJF" ∨ season = "NDJ" ↔ 11 ≤ a := by
      constructor
      · rintro (rfl | rfl)
        · have := seasonFrom_unique h (show SeasonFrom "DJF" 12 by decide); omega
        · have := seasonFrom_unique h (show SeasonFrom "NDJ" 11 by decide); omega
      · intro h'
        rcases (by omega : a = 12 ∨ a = 11) with rfl | rfl
        · exact .inl (String.toList_injective (h.2.2.trans (by decide)))
        · exact .inr (String.toList_injective (h.2.2.trans (by decide)))
    by_cases h11 : 11 ≤ a
    · rw [if_pos (h12.mpr h11)]
      rwa [if_pos h11] at hstart
    · rw [if_neg (fun h' => h11 (h12.mp h'))]
      rw [if_neg h11] at hstart
      simp only [List.getD_cons_succ, List.getD_cons_zero, nextMonth]
      have hna : nextMonth a = a + 1 := if_neg (by omega)
      have hnn : nextMonth (a + 1) = if a + 1 = 12 then 1 else a + 1 + 1 := rfl
      simp only [nextMonth] at hna
      constructor
      · split <;> omega
      · split <;> split at * <;> omega
  obtain ⟨out, M0, h1, h2, h3, h4, h5, h6⟩ := C36_seasons_partial cal s season _ a k0 N (seasonFrom_quarter season a h) ht hN hr hsuits
  refine ⟨out, M0, h1, h2, h3, ?_, h5, h6⟩
  have hm : 1 ≤ Cal.monthNo M0 ∧ Cal.monthNo M0 ≤ 12 := by unfold Cal.monthNo; omega
  simp only [List.getD_cons_succ, List.getD_cons_zero, nextMonth] at h4
  split at h4 <;> omega

/-- two years from January on suit the season May to July -/
example : SeasonFrom "MJJ" 5 ∧ MonthlyRecord Cal.days360 (monthlyFrom 24000 2) 24000 2 ∧
    (Cal.monthNo 24000 - 5) % 12 ≠ 1 ∧ (Cal.monthNo 24000 - 5) % 12 ≠ 2 := ⟨by decide, monthlyFrom_record _ _, by decide, by decide⟩

/-- `C35`: the names in use are the twelve three-letter names, one for each first month -/
theorem C35_names (n : String) : (∃ a, SeasonFrom n a) ↔
    n ∈ ["JFM", "FMA", "MAM", "AMJ", "MJJ", "JJA", "JAS", "ASO", "SON", "OND", "NDJ", "DJF"] := by
  constructor
  · rintro ⟨a, ha⟩
    have hn : n = String.ofList [monthInitial a, monthInitial (a + 1), monthInitial (a + 2)] := by rw [← ha.2.2, String.ofList_toList]
    obtain ⟨h1, h2, -⟩ := ha
    subst hn
    interval_cases a <;> decide
  · intro h
    simp only [List.mem_cons, List.not_mem_nil, or_false] at h
    rcases h with rfl | rfl | rfl | rfl | rfl | rfl | rfl | rfl | rfl | rfl | rfl | rfl
    · exact ⟨1, by decide⟩
    · exact ⟨2, by decide⟩
    · exact ⟨3, by decide⟩
    · exact ⟨4, by decide⟩
    · exact ⟨5, by decide⟩
    · exact ⟨6, by decide⟩
    · exact ⟨7, by decide⟩
    · exact ⟨8, by decide⟩
    · exact ⟨9, by decide⟩
    · exact ⟨10, by decide⟩
    · exact ⟨11, by decide⟩
    · exact ⟨12, by decide⟩

/-- the season November to January of a year from January on: November, December and January, the first of them dropped -/
example : SeasonFrom "NDJ" 11 ∧ (monthlyFrom 24000 1).samples.length % 12 = 0 ∧
    (monthlyFrom 24000 1).samples.Pairwise (fun x y => x.key ≤ y.key) ∧
    (seasonSamples Cal.days360 11 (monthlyFrom 24000 1).samples).map (fun e => e.val 0) = [some 10, some 11] := by
  refine ⟨by decide, by decide +kernel, by decide +kernel, by decide +kernel⟩

example : ∀ a, ¬ SeasonFrom "XYZ" a := by
  rintro a ⟨h1, h2, h3⟩
  interval_cases a <;> revert h3 <;> decide

end Verif.Props
