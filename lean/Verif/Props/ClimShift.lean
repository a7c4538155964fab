import Verif.Lemmas.ClimShift
import Verif.Props.FloatAnom

/-
Property C179: a record moved by whole years.
-/

set_option linter.unusedSectionVars false

namespace Verif.Props
open Model Spec Lemmas
variable {K : Type _} [Field K] [LinearOrder K] [IsStrictOrderedRing K] (A : ClimArith K)
variable {cal : Cal} {n S : ℤ}

/-- After how many years the calendars repeat: one year of 365 or 360 days, four Julian years, 400 Gregorian years. -/
theorem C179_calendars (n : ℤ) :
    Repeats Cal.noleap n (n * (365 * 86400)) ∧ Repeats Cal.days360 n (n * (360 * 86400)) ∧
    Repeats Cal.julian (4 * n) (n * (1461 * 86400)) ∧ Repeats Cal.gregorian (400 * n) (n * (146097 * 86400)) := by
  refine ⟨fun k => ?_, fun k => ?_, fun k => ?_, fun k => ?_⟩
  · have e1 : (k + 12 * n) / 12 = k / 12 + n := by omega
    have e2 : (k + 12 * n) % 12 = k % 12 := by omega
    simp only [Cal.noleap, e1, e2]
    omega
  · simp only [Cal.days360]
    omega
  · have e1 : (k + 12 * (4 * n)) / 12 = k / 12 + 4 * n := by omega
    have e2 : (k + 12 * (4 * n)) % 12 = k % 12 := by omega
    have e3 : (k / 12 + 4 * n) % 4 = k / 12 % 4 := by omega
    simp only [Cal.julian, e1, e2, e3]
    omega
  · have e1 : (k + 12 * (400 * n)) / 12 = k / 12 + 400 * n := by omega
    have e2 : (k + 12 * (400 * n)) % 12 = k % 12 := by omega
    have e3 : Cal.leap (k / 12 + 400 * n) ↔ Cal.leap (k / 12) := by unfold Cal.leap; omega
    simp only [Cal.gregorian, Cal.ofStarts, e1, e2, e3, Cal.gregYear]
    omega

/-- a calendar all of whose years are alike repeats after any number of years -/
theorem repeats_all {Y : ℤ} (h : Repeats cal 1 Y) (n : ℤ) : Repeats cal n (n * Y) := by
  induction n using Int.induction_on with
  | zero => intro k; simp
  | succ i ih =>
    intro k
    have e : k + 12 * ((i : ℤ) + 1) = k + 12 * i + 12 * 1 := by ring
    rw [e, h, ih]
    ring
  | pred i ih =>
    intro k
    have e : k + 12 * (-(i : ℤ)) = k + 12 * (-(i : ℤ) - 1) + 12 * 1 := by ring
    have h1 := ih k
    rw [e, h] at h1
    linarith

/-- the frequency recognised in the record is recognised `S` later -/
def SameFrequency (infer : InferFreq) (S : ℤ) (s : Series K) : Prop := infer ((s.samples.map (·.key)).map (· + S)) = infer (s.samples.map (·.key))

/-- **C179**, calendar_average. Moving a record to a time at which the calendar looks the same moves the result; no value changes, whatever the arithmetic. -/
theorem C179_calendar (h : Repeats cal n S) (infer : InferFreq) (freq : String) (s : Series K) (hi : SameFrequency infer S s) :
    calendarAverageBy A cal infer freq (later S s) = (calendarAverageBy A cal infer freq s).map (List.map (Entry.later S)) := by
  unfold calendarAverageBy
  cases hp : calendarPeriod freq with
  | error e => rfl
  | ok p =>
    have ht : (later S s).isTime = s.isTime := rfl
    have hu := checkUniform_later h infer s hi
    have hn : (later S s).ncell = s.ncell := rfl
    simp only [bind, Except.bind, hu, ht, hn]
    cases s.isTime with
    | false => rfl
    | true =>
      cases checkUniform cal infer s with
      | error e => rfl
      | ok u =>
        simp only [not_true_eq_false, if_false]
        have hr := fun q => resample_later (h.periodOf q) s.samples
        simp only [later] at hr ⊢
        rw [hr]
        cases resample (periodOf cal (if p = .season ∨ p = .year then .month else p)) s.samples with
        | error e => rfl
        | ok g =>
          simp only [Except.map, meanEachBy_later, dropna_later]
          by_cases hsy : p = .season ∨ p = .year
          · simp only [if_pos hsy]
            have hw : periodShift n S .month = 12 * n := rfl
            rw [hw, weightedSumsBy_later A h p hsy, List.head?_map, List.getLast?_map]
            generalize weightedSumsBy A cal p (dropna s.ncell (meanEachBy A g)) = out
            cases out.head? with
            | none => rfl
            | some a =>
              cases out.getLast? with
              | none => rfl
              | some z => exact centerBounds_later h p a.key z.key _ out
          · simp only [if_neg hsy, List.head?_map, List.getLast?_map]
            generalize dropna s.ncell (meanEachBy A g) = out
            cases out.head? with
            | none => rfl
            | some a =>
              cases out.getLast? with
              | none => rfl
              | some z => exact centerBounds_later h p a.key z.key _ out

/-- **C179**, month_to_season. -/
theorem C179_month_to_season (h : Repeats cal n S) (season : String) (s : Series K) :
    monthToSeasonBy A cal season (later S s) = (monthToSeasonBy A cal season s).map (List.map (Entry.later S)) := by
  unfold monthToSeasonBy
  have ht : (later S s).isTime = s.isTime := rfl
  have hl : (later S s).samples.length = s.samples.length := by simp [later]
  rw [ht, hl]
  cases s.isTime with
  | false => rfl
  | true =>
    simp only [not_true_eq_false, if_false, bind, Except.bind, pure, Except.pure]
    split
    · rfl
    · cases seasonQuarter season with
      | none => rfl
      | some r =>
        obtain ⟨months, anchor⟩ := r
        simp only [later]
        have hf := filter_later S (fun t => decide (cal.month t ∈ months)) (fun t => decide (cal.month t ∈ months)) (fun t => by simp only [h.month]) s.samples
        rw [hf]
        have h2 : ∀ l : List (Entry K), (if season = "DJF" then (l.map (Entry.later S)).dropLast else if season = "NDJ" then (l.map (Entry.later S)).tail
            else l.map (Entry.later S)) = (if season = "DJF" then l.dropLast else if season = "NDJ" then l.tail else l).map (Entry.later S) := by
          intro l
          split
          · rw [List.map_dropLast]
          · split
            · rw [List.map_tail]
            · rfl
        have hq : ∀ t, quarterOf anchor (cal.monthOf (t + S)) = quarterOf anchor (cal.monthOf t) + 4 * n := by
          intro t
          rw [h.monthOf]
          unfold quarterOf
          omega
        rw [h2, resample_later hq]
        generalize resample (fun t => quarterOf anchor (cal.monthOf t)) _ = r
        cases r with
        | error e => rfl
        | ok g =>
          simp only [Except.map, meanEachBy_later]
          generalize meanEachBy A g = w
          simp only [List.map_map, List.filter_map, Except.ok.injEq]
          have hm : ∀ k, Cal.monthNo (quarterMonth anchor (k + 4 * n) + 1) = Cal.monthNo (quarterMonth anchor k + 1) := by
            intro k
            unfold Cal.monthNo quarterMonth
            omega
          have hc : (fun e : Entry K => decide (Cal.monthNo (quarterMonth anchor (Entry.later (4 * n) e).key + 1) = months.getD 1 0)) =
              (fun e : Entry K => decide (Cal.monthNo (quarterMonth anchor e.key + 1) = months.getD 1 0)) := by
            funext e
            rw [later_key, hm]
          simp only [Function.comp_def] at hc ⊢
          rw [hc]
          apply List.map_congr_left
          intro e _
          simp only [Entry.later, Entry.mk.injEq, and_true]
          have e3 : quarterMonth anchor (e.key + 4 * n) + 1 = quarterMonth anchor e.key + 1 + 12 * n := by unfold quarterMonth; ring
          rw [e3, h]

/-- **C179**, seasonal climatologies: unchanged. -/
theorem C179_season (h : Repeats cal n S) (infer : InferFreq) (custom : List String) (s : Series K) (hi : SameFrequency infer S s) :
    climatologyAverageBy A cal infer "season" custom (later S s) = climatologyAverageBy A cal infer "season" custom s := by
  unfold climatologyAverageBy
  have ht : (later S s).isTime = s.isTime := rfl
  have hu := checkUniform_later h infer s hi
  have hs : seasonClimatesBy A cal (later S s) custom = seasonClimatesBy A cal s custom := by
    unfold seasonClimatesBy
    simp only [seasonClimateBy_later A h]
  simp only [hu, ht, hs]
  rfl

/-- all years of the record have at least four and at most five digits, before and after -/
def YearsInRange (cal : Cal) (n : ℤ) (s : Series K) : Prop :=
  ∀ e ∈ s.samples, 1000 ≤ cal.year e.key ∧ cal.year e.key ≤ 99999 ∧ 1000 ≤ cal.year e.key + n ∧ cal.year e.key + n ≤ 99999

theorem median_in_range (h : Repeats cal n S) (s : Series K) (hne : s.samples ≠ []) (hy : YearsInRange cal n s) :
    (1000 ≤ medianYear cal s.samples ∧ medianYear cal s.samples ≤ 99999) ∧
    (1000 ≤ medianYear cal (later S s).samples ∧ medianYear cal (later S s).samples ≤ 99999) := by
  refine ⟨medianYear_bounds cal _ hne _ _ (fun e he => ⟨(hy e he).1, (hy e he).2.1⟩), medianYear_bounds cal _ (by simpa [later] using hne) _ _ ?_⟩
  intro e he
  simp only [later, List.mem_map] at he
  obtain ⟨x, hx, rfl⟩ := he
  rw [later_key, h.year]
  exact (hy x hx).2.2

/-- what moves a result of `climatology_average` -/
def laterOut (S : ℤ) : ClimOut K → ClimOut K
  | .times l => .times (l.map (Entry.later S))
  | .seasons l => .seasons l

theorem climatology_later (h : Repeats cal n S) {j T : ℤ} (hj : Repeats cal j T) (infer : InferFreq) (freq : String) (custom : List String) (s : Series K)
    (hi : SameFrequency infer S s) (hy : YearsInRange cal n s)
    (hm : s.samples ≠ [] → medianYear cal (later S s).samples = medianYear cal s.samples + j) :
    climatologyAverageBy A cal infer freq custom (later S s) = (climatologyAverageBy A cal infer freq custom s).map (laterOut T) := by
  by_cases hf : freq = "season"
  · subst hf
    rw [C179_season A h infer custom s hi]
    unfold climatologyAverageBy
    simp only [climatologyPeriod, bind, Except.bind, if_true]
    cases s.isTime with
    | false => rfl
    | true =>
      cases checkUniform cal infer s with
      | error e => rfl
      | ok u =>
        simp only [not_true_eq_false, if_false]
        unfold seasonClimatesBy
        simp only [bind, Except.bind]
        generalize (if custom = [] then ["DJF", "JJA", "MAM", "SON"] else custom) = seasons
        split
        · rfl
        · generalize List.mapM (m := Except PyErr) _ seasons = r
          cases r <;> rfl
  · unfold climatologyAverageBy
    cases hp : climatologyPeriod freq with
    | error e => rfl
    | ok p =>
      have hp' : p = .hour ∨ p = .day ∨ p = .month := by
        revert hp
        unfold climatologyPeriod
        split <;> simp_all
      have hp2 : p ≠ .season := by rcases hp' with rfl | rfl | rfl <;> decide
      have ht : (later S s).isTime = s.isTime := rfl
      have hu := checkUniform_later h infer s hi
      simp only [bind, Except.bind, hu, ht, if_neg hp2]
      cases s.isTime with
      | false => rfl
      | true =>
        cases checkUniform cal infer s with
        | error e => rfl
        | ok u =>
          simp only [not_true_eq_false, if_false]
          by_cases hne : s.samples = []
          · have e1 : groupClimateBy A cal p s = .error .indexError := by
              unfold groupClimateBy groupKeys; simp [hne]; rfl
            have e2 : groupClimateBy A cal p (later S s) = .error .indexError := by
              unfold groupClimateBy groupKeys later; simp [hne]; rfl
            rw [e1, e2]
            rfl
          · obtain ⟨r1, r2⟩ := median_in_range h s hne hy
            rw [groupClimateBy_later A h hj p hp' s (hm hne) r1 r2]
            cases groupClimateBy A cal p s <;> rfl

/-- **C179**, climatology_average, all frequencies: moved by an even number of years (always the case for a Julian or Gregorian cycle), the labels move with the
record and no value changes. -/
theorem C179_climatology_partial (h : Repeats cal n S) (he : Even n) (infer : InferFreq) (freq : String) (custom : List String) (s : Series K)
    (hi : SameFrequency infer S s) (hy : YearsInRange cal n s) :
    climatologyAverageBy A cal infer freq custom (later S s) = (climatologyAverageBy A cal infer freq custom s).map (laterOut S) := by
  refine climatology_later A h h infer freq custom s hi hy (fun hne => ?_)
  have e := medianYear_later h s.samples hne
  rw [roundHalf_even _ _ (Int.even_iff.mp he)] at e
  exact e

/-- **C179**, if all years are alike (365 or 360 days): no value changes; the labels move by the same number of years or by one year more or less. -/
theorem C179_uniform_partial {Y : ℤ} (h : Repeats cal 1 Y) (n : ℤ) (infer : InferFreq) (freq : String) (custom : List String) (s : Series K)
    (hi : SameFrequency infer (n * Y) s) (hy : YearsInRange cal n s) :
    ∃ j, (j = n - 1 ∨ j = n ∨ j = n + 1) ∧
      climatologyAverageBy A cal infer freq custom (later (n * Y) s) = (climatologyAverageBy A cal infer freq custom s).map (laterOut (j * Y)) := by
  have hn := repeats_all h n
  obtain ⟨d, hd, e⟩ := roundHalf_near (median2 (s.samples.map (fun e => cal.year e.key))) n
  refine ⟨n + d, by omega, climatology_later A hn (repeats_all h (n + d)) infer freq custom s hi hy (fun hne => ?_)⟩
  have e' := medianYear_later hn s.samples hne
  rw [e] at e'
  exact e'

/-- **C179**, climate_anomaly: moves with the record (an even number of years, or any number if all years are alike). -/
theorem C179_anomaly (h : Repeats cal n S) (hc : Even n ∨ ∃ Y, Repeats cal 1 Y ∧ S = n * Y) (sum : List K → K) (sub : K → K → K) (infer : InferFreq)
    (freq : String) (s : Series K) (hi : SameFrequency infer S s) (hy : YearsInRange cal n s) :
    climateAnomalyBy A sum sub cal infer freq (later S s) = (climateAnomalyBy A sum sub cal infer freq s).map (List.map (Entry.later S)) := by
  have key : ∀ f, ∃ j T, Repeats cal j T ∧
      climatologyAverageBy A cal infer f [] (later S s) = (climatologyAverageBy A cal infer f [] s).map (laterOut T) := by
    intro f
    rcases hc with he | ⟨Y, hY, rfl⟩
    · exact ⟨n, S, h, C179_climatology_partial A h he infer f [] s hi hy⟩
    · obtain ⟨j, -, e⟩ := C179_uniform_partial A hY n infer f [] s hi hy
      exact ⟨j, j * Y, repeats_all hY j, e⟩
  unfold climateAnomalyBy
  have ht : (later S s).isTime = s.isTime := rfl
  rw [ht]
  cases s.isTime with
  | false => rfl
  | true =>
    simp only [not_true_eq_false, if_false, bind, Except.bind, pure, Except.pure]
    split
    · obtain ⟨j, T, hT, e⟩ := key "day"
      rw [e]
      cases climatologyAverageBy A cal infer "day" [] s with
      | error e => rfl
      | ok o =>
        cases o with
        | seasons l => rfl
        | times l =>
          simp only [Except.map, laterOut, later]
          rw [minusGroupBy_later sub S s.samples (groupSumBy sum _ l) _ (fun t c => groupSumBy_later sum (fun t u => by rw [hT.stampKey, h.stampKey]) l t c)]
    · obtain ⟨j, T, hT, e⟩ := key "month"
      rw [e]
      cases climatologyAverageBy A cal infer "month" [] s with
      | error e => rfl
      | ok o =>
        cases o with
        | seasons l => rfl
        | times l =>
          simp only [Except.map, laterOut, later]
          rw [minusGroupBy_later sub S s.samples (groupSumBy sum _ l) _ (fun t c => groupSumBy_later sum (fun t u => by rw [hT.stampKey, h.stampKey]) l t c)]
    · rw [C179_season A h infer [] s hi]
      cases climatologyAverageBy A cal infer "season" [] s with
      | error e => rfl
      | ok o =>
        cases o with
        | times l => rfl
        | seasons l =>
          simp only [Except.map, later]
          rw [minusGroupBy_later sub S s.samples _ _ (fun t c => by rw [h.month])]
    · rw [C179_calendar A h infer "year" s hi]
      cases calendarAverageBy A cal infer "year" s with
      | error e => rfl
      | ok l =>
        simp only [Except.map, later]
        rw [minusGroupBy_later sub S s.samples (groupSumBy sum _ l) _ (fun t c => groupSumBy_later sum (fun t u => by rw [h.year, h.year]; omega) l t c)]
    · rfl

/-! ### Records that meet the hypotheses, and the label of an even number of years -/

/-- monthly values `1, 2, ...` of two years of a 365-day calendar, from January of year `y` -/
def monthlyPair (y : ℤ) : Series ℚ :=
  ⟨1, (List.range 24).map (fun i : ℕ => ⟨Cal.noleap.monthStart (12 * y + i), fun _ => some (i + 1 : ℚ)⟩), true⟩

def outKeys : ClimOut ℚ → List ℤ
  | .times l => l.map (·.key)
  | .seasons _ => []

/-- The full property fails: the climatology of 2000-2001 is labelled 2000, that of the same record one year later (2001-2002) is labelled 2002. -/
theorem C179_counterexample :
    later (365 * 86400) (monthlyPair 2000) = monthlyPair 2001 ∧
    ∃ l l', climatologyAverageBy exactArith Cal.noleap (fun _ => .ok true) "month" [] (monthlyPair 2000) = .ok (.times l) ∧
      climatologyAverageBy exactArith Cal.noleap (fun _ => .ok true) "month" [] (later (365 * 86400) (monthlyPair 2000)) = .ok (.times l') ∧
      (∀ e ∈ l, Cal.noleap.year e.key = 2000) ∧ (∀ e ∈ l', Cal.noleap.year e.key = 2002) ∧ l.length = 12 ∧ l'.length = 12 := by
  have h1 : (climatologyAverageBy exactArith Cal.noleap (fun _ => .ok true) "month" [] (monthlyPair 2000)).toOption.map
      (fun o => (outKeys o).map Cal.noleap.year) = some (List.replicate 12 2000) := by decide +kernel
  have h2 : (climatologyAverageBy exactArith Cal.noleap (fun _ => .ok true) "month" [] (later (365 * 86400) (monthlyPair 2000))).toOption.map
      (fun o => (outKeys o).map Cal.noleap.year) = some (List.replicate 12 2002) := by decide +kernel
  have key : ∀ (r : Except PyErr (ClimOut ℚ)) (y : ℤ), r.toOption.map (fun o => (outKeys o).map Cal.noleap.year) = some (List.replicate 12 y) →
      ∃ l, r = .ok (.times l) ∧ (∀ e ∈ l, Cal.noleap.year e.key = y) ∧ l.length = 12 := by
    intro r y h
    cases r with
    | error e => simp [Except.toOption] at h
    | ok o =>
      cases o with
      | seasons l => simp [Except.toOption, outKeys] at h
      | times l =>
        simp only [Except.toOption, Option.map_some, outKeys, List.map_map, Option.some_inj] at h
        refine ⟨l, rfl, fun e he => ?_, ?_⟩
        · have : (Cal.noleap.year ∘ fun e : Entry ℚ => e.key) e ∈ List.replicate 12 y := by
            rw [← h]; exact List.mem_map.mpr ⟨e, he, rfl⟩
          exact List.eq_of_mem_replicate this
        · have := congrArg List.length h
          simpa using this
  obtain ⟨l, a1, a2, a3⟩ := key _ _ h1
  obtain ⟨l', b1, b2, b3⟩ := key _ _ h2
  refine ⟨?_, l, l', a1, b1, a2, b2, a3, b3⟩
  unfold later monthlyPair
  simp only [List.map_map, Series.mk.injEq, true_and, and_true]
  apply List.map_congr_left
  intro i _
  simp only [Function.comp_apply, Entry.later, Entry.mk.injEq, and_true]
  have h := (C179_calendars 1).1 (12 * 2000 + (i : ℤ))
  have e : (12 * 2001 + (i : ℤ)) = 12 * 2000 + i + 12 * 1 := by ring
  rw [e, h]
  ring

theorem monthlyPair_range : YearsInRange Cal.noleap 1 (monthlyPair 2000) := by
  unfold YearsInRange monthlyPair
  intro e he
  obtain ⟨i, hi, rfl⟩ := List.mem_map.mp he
  have hi' := List.mem_range.mp hi
  have h1 : Cal.noleap.year (Cal.noleap.monthStart (12 * 2000 + (i : ℤ))) = (12 * 2000 + (i : ℤ)) / 12 := by
    unfold Cal.year
    rw [monthOf_unique Cal.noleap (le_refl _) (Cal.noleap.pos _)]
  dsimp only
  rw [h1]
  omega

/-- the same record, values unchanged -/
example : ∃ j, (j = 1 - 1 ∨ j = 1 ∨ j = 1 + 1) ∧
    climatologyAverageBy exactArith Cal.noleap (fun _ => .ok true) "month" [] (later (1 * (365 * 86400)) (monthlyPair 2000)) =
      (climatologyAverageBy exactArith Cal.noleap (fun _ => .ok true) "month" [] (monthlyPair 2000)).map (laterOut (j * (365 * 86400))) := by
  have h := (C179_calendars 1).1
  rw [one_mul] at h
  exact C179_uniform_partial exactArith h 1 (fun _ => .ok true) "month" [] (monthlyPair 2000) rfl monthlyPair_range

/-- 400 years later in the Gregorian calendar, in double precision -/
example (s : Series ℚ) (infer : InferFreq) (hi : SameFrequency infer (1 * (146097 * 86400)) s) :
    calendarAverageBy (floatArith float64 List.sum) Cal.gregorian infer "season" (later (1 * (146097 * 86400)) s) =
      (calendarAverageBy (floatArith float64 List.sum) Cal.gregorian infer "season" s).map (List.map (Entry.later (1 * (146097 * 86400)))) :=
  C179_calendar _ (C179_calendars 1).2.2.2 infer "season" s hi

example : climateAnomalyBy exactArith List.sum (fun x y => x - y) Cal.noleap (fun _ => .ok true) "month" (later (1 * (365 * 86400)) (monthlyPair 2000)) =
    (climateAnomalyBy exactArith List.sum (fun x y => x - y) Cal.noleap (fun _ => .ok true) "month" (monthlyPair 2000)).map
      (List.map (Entry.later (1 * (365 * 86400)))) := by
  have h := (C179_calendars 1).1
  exact C179_anomaly exactArith h (Or.inr ⟨365 * 86400, by rwa [one_mul] at h, rfl⟩) List.sum (fun x y => x - y) (fun _ => .ok true) "month" (monthlyPair 2000) rfl
    monthlyPair_range

end Verif.Props
