import Verif.Props.Climatology5

/-
Property theorems: averaging a Dataset (or a whole grid) against averaging one of its variables (or some of its cells).
-/

set_option linter.unusedSectionVars false

namespace Verif.Spec
variable {K : Type _}

/-- a sample restricted to some cells: cell `c` of the restriction is cell `f c` -/
def Entry.at (f : ℕ → ℕ) (e : Entry K) : Entry K := ⟨e.key, fun c => e.val (f c)⟩

/-- one variable of a Dataset, or a selection of `m` grid cells: cell `c` of the result is cell `f c` of the whole -/
def selected (m : ℕ) (f : ℕ → ℕ) (s : Series K) : Series K := ⟨m, s.samples.map (Entry.at f), s.isTime⟩

/-- the same selection from a result of `climatology_average` -/
def selectedOut (f : ℕ → ℕ) : Model.ClimOut K → Model.ClimOut K
  | .times l => .times (l.map (Entry.at f))
  | .seasons l => .seasons (l.map (fun x => (x.1, fun c => x.2 (f c))))

end Verif.Spec

namespace Verif.Props
open Model Spec Lemmas
variable {K : Type _} [Field K] [LinearOrder K] [IsStrictOrderedRing K]

theorem at_key (f : ℕ → ℕ) (e : Entry K) : (Entry.at f e).key = e.key := rfl

theorem filter_at (f : ℕ → ℕ) (P : ℤ → Bool) (l : List (Entry K)) :
    (l.map (Entry.at f)).filter (fun e => P e.key) = (l.filter (fun e => P e.key)).map (Entry.at f) := by
  rw [List.filter_map]; rfl

theorem filterMap_at (f : ℕ → ℕ) (l : List (Entry K)) (c : ℕ) :
    (l.map (Entry.at f)).filterMap (·.val c) = l.filterMap (·.val (f c)) := by
  rw [List.filterMap_map]; rfl

theorem nanMean_at (f : ℕ → ℕ) (l : List (Entry K)) (c : ℕ) : nanMean c (l.map (Entry.at f)) = nanMean (f c) l := by
  unfold nanMean; simp only [filterMap_at]

theorem nanSum_at (f : ℕ → ℕ) (l : List (Entry K)) (c : ℕ) : nanSum c (l.map (Entry.at f)) = nanSum (f c) l := by
  unfold nanSum; rw [filterMap_at]

theorem bins_at (f : ℕ → ℕ) (per : ℤ → ℤ) (l : List (Entry K)) :
    bins per (l.map (Entry.at f)) = (bins per l).map (fun g => (g.1, g.2.map (Entry.at f))) := by
  unfold bins
  rw [List.head?_map, List.getLast?_map]
  cases l.head? with
  | none => rfl
  | some a =>
    cases l.getLast? with
    | none => rfl
    | some z =>
      simp only [Option.map_some, at_key, List.map_map]
      apply List.map_congr_left
      intro b _
      simp only [Function.comp_apply, Prod.mk.injEq, true_and]
      exact filter_at f (fun t => decide (per t = b)) l

theorem resample_at (f : ℕ → ℕ) (per : ℤ → ℤ) (l : List (Entry K)) :
    resample per (l.map (Entry.at f)) = (resample per l).map (fun g => g.map (fun g => (g.1, g.2.map (Entry.at f)))) := by
  unfold resample
  have h : (l.map (Entry.at f) = [] ∨ ¬ (l.map (Entry.at f)).Pairwise (fun a b => a.key ≤ b.key)) ↔
      (l = [] ∨ ¬ l.Pairwise (fun a b => a.key ≤ b.key)) := by
    rw [List.map_eq_nil_iff, List.pairwise_map]; rfl
  by_cases hc : l = [] ∨ ¬ l.Pairwise (fun a b => a.key ≤ b.key)
  · rw [if_pos hc, if_pos (h.mpr hc)]; rfl
  · rw [if_neg hc, if_neg (mt h.mp hc), bins_at]; rfl

theorem meanEach_at (f : ℕ → ℕ) (g : List (ℤ × List (Entry K))) :
    meanEach (g.map (fun g => (g.1, g.2.map (Entry.at f)))) = (meanEach g).map (Entry.at f) := by
  unfold meanEach
  rw [List.map_map, List.map_map]
  apply List.map_congr_left
  intro x _
  simp only [Function.comp_apply, Entry.at, nanMean_at]

theorem checkUniform_at (cal : Cal) (infer : InferFreq) (m : ℕ) (f : ℕ → ℕ) (s : Series K) :
    checkUniform cal infer (selected m f s) = checkUniform cal infer s := by
  apply checkUniform_keys
  simp only [selected, List.map_map]
  rfl

theorem centerBounds_at (cal : Cal) (p : Period) (a z : ℤ) (f : ℕ → ℕ) (l : List (Entry K)) :
    centerBounds cal p a z (l.map (Entry.at f)) = (centerBounds cal p a z l).map (List.map (Entry.at f)) := by
  unfold centerBounds
  rw [List.length_map]
  split
  · simp only [pure, Except.pure, Except.map, List.map_zipWith, List.zipWith_map_right]
    rfl
  · rfl

theorem groupKeys_at (f : ℕ → ℕ) (k : ℤ → ℤ) (l : List (Entry K)) :
    groupKeys k (l.map (Entry.at f)) = (groupKeys k l).map (fun g => (g.1, g.2.map (Entry.at f))) := by
  unfold groupKeys
  rw [List.map_map, List.map_map]
  apply List.map_congr_left
  intro x _
  simp only [Function.comp_apply, Prod.mk.injEq, true_and]
  exact filter_at f (fun t => decide (k t = x)) l

theorem medianYear_at (cal : Cal) (f : ℕ → ℕ) (l : List (Entry K)) : medianYear cal (l.map (Entry.at f)) = medianYear cal l := by
  unfold medianYear
  rw [List.map_map]
  rfl

theorem groupClimate_at (cal : Cal) (p : Period) (m : ℕ) (f : ℕ → ℕ) (s : Series K) :
    groupClimate cal p (selected m f s) = (groupClimate cal p s).map (List.map (Entry.at f)) := by
  unfold groupClimate
  simp only [selected, medianYear_at, groupKeys_at, List.head?_map, List.getLast?_map]
  cases (groupKeys (stampKey cal p) s.samples).head? with
  | none => rfl
  | some a =>
    cases (groupKeys (stampKey cal p) s.samples).getLast? with
    | none => rfl
    | some z =>
      simp only [Option.map_some, meanEach_at]
      split
      · rfl
      · cases keyPeriod cal p (medianYear cal s.samples) a.1 with
        | error e => rfl
        | ok v =>
          cases keyPeriod cal p (medianYear cal s.samples) z.1 with
          | error e => rfl
          | ok w => exact centerBounds_at cal p v w f _

/-- C125, climatology_average by hour, day or month: a variable of a Dataset (or any selection of cells) gets what it gets alone,
including the time stamps and the errors. -/
theorem C125_climatology (cal : Cal) (infer : InferFreq) (freq : String) (hf : freq ≠ "season") (custom : List String)
    (s : Series K) (m : ℕ) (f : ℕ → ℕ) :
    climatologyAverage cal infer freq custom (selected m f s) = (climatologyAverage cal infer freq custom s).map (selectedOut f) := by
  unfold climatologyAverage
  cases hp : climatologyPeriod freq with
  | error e => rfl
  | ok p =>
    have hp' : p ≠ .season := by
      intro h
      subst h
      revert hp
      unfold climatologyPeriod
      split <;> simp_all
    have ht : (selected m f s).isTime = s.isTime := rfl
    simp only [bind, Except.bind, checkUniform_at, if_neg hp', groupClimate_at, ht]
    cases s.isTime with
    | false => rfl
    | true =>
      cases checkUniform cal infer s with
      | error e => rfl
      | ok u =>
        cases groupClimate cal p s with
        | error e => rfl
        | ok l => rfl

theorem groupSum_at (k : ℤ → ℤ) (f : ℕ → ℕ) (l : List (Entry K)) (t : ℤ) (c : ℕ) :
    groupSum k (l.map (Entry.at f)) t c = groupSum k l t (f c) := by
  unfold groupSum
  have h := filter_at f (fun u => decide (k u = k t)) l
  simp only [h, nanSum_at, List.map_eq_nil_iff]

theorem minusGroup_at (f : ℕ → ℕ) (l : List (Entry K)) (r r' : ℤ → ℕ → Option K) (h : ∀ t c, r' t c = r t (f c)) :
    minusGroup (l.map (Entry.at f)) r' = (minusGroup l r).map (Entry.at f) := by
  unfold minusGroup
  rw [List.map_map, List.map_map]
  apply List.map_congr_left
  intro e _
  simp only [Function.comp_apply, Entry.at, h]

/-- C125, climate_anomaly by day or month. -/
theorem C125_anomaly (cal : Cal) (infer : InferFreq) (freq : String) (hf : freq = "day" ∨ freq = "month")
    (s : Series K) (m : ℕ) (f : ℕ → ℕ) :
    climateAnomaly cal infer freq (selected m f s) = (climateAnomaly cal infer freq s).map (List.map (Entry.at f)) := by
  unfold climateAnomaly
  have ht : (selected m f s).isTime = s.isTime := rfl
  rw [ht]
  cases s.isTime with
  | false => rfl
  | true =>
    simp only [not_true_eq_false, if_false, bind, Except.bind, pure, Except.pure]
    rcases hf with rfl | rfl
    all_goals
      simp only [C125_climatology _ _ "day" (by decide) _ s m f, C125_climatology _ _ "month" (by decide) _ s m f]
      generalize climatologyAverage cal infer _ [] s = r
      cases r with
      | error e => rfl
      | ok o =>
        cases o with
        | seasons l => rfl
        | times l =>
          simp only [Except.map, selectedOut, selected]
          rw [minusGroup_at f s.samples (groupSum _ l) _ (fun t c => groupSum_at _ f l t c)]

/-- C125, month_to_season. -/
theorem C125_month_to_season (cal : Cal) (season : String) (s : Series K) (m : ℕ) (f : ℕ → ℕ) :
    monthToSeason cal season (selected m f s) = (monthToSeason cal season s).map (List.map (Entry.at f)) := by
  unfold monthToSeason
  have ht : (selected m f s).isTime = s.isTime := rfl
  have hl : (selected m f s).samples.length = s.samples.length := by simp [selected]
  rw [ht, hl]
  cases s.isTime with
  | false => rfl
  | true =>
    simp only [not_true_eq_false, if_false, bind, Except.bind, pure, Except.pure]
    split
    · rfl
    · cases seasonQuarter season with
      | none => rfl
      | some r =>
        obtain ⟨months, anchor⟩ := r
        simp only [selected]
        have h := filter_at f (fun t => decide (cal.month t ∈ months)) s.samples
        rw [h]
        have h2 : ∀ l : List (Entry K), (if season = "DJF" then (l.map (Entry.at f)).dropLast else if season = "NDJ" then (l.map (Entry.at f)).tail
            else l.map (Entry.at f)) = (if season = "DJF" then l.dropLast else if season = "NDJ" then l.tail else l).map (Entry.at f) := by
          intro l
          split
          · rw [List.map_dropLast]
          · split
            · rw [List.map_tail]
            · rfl
        rw [h2, resample_at]
        cases resample (fun t => quarterOf anchor (cal.monthOf t)) (if season = "DJF" then
            (s.samples.filter (fun e => decide (cal.month e.key ∈ months))).dropLast
            else if season = "NDJ" then (s.samples.filter (fun e => decide (cal.month e.key ∈ months))).tail
            else s.samples.filter (fun e => decide (cal.month e.key ∈ months))) with
        | error e => rfl
        | ok g =>
          simp only [Except.map, meanEach_at]
          generalize meanEach g = w
          simp only [List.map_map, List.filter_map]
          rfl

/-! ### with `dropna` -/

theorem valuesIn_at (f : ℕ → ℕ) (l : List (Entry K)) (P : ℤ → Prop) [DecidablePred P] (c : ℕ) :
    valuesIn (l.map (Entry.at f)) P c = valuesIn l P (f c) := by
  unfold valuesIn
  rw [filter_at f (fun t => decide (P t)), filterMap_at]

theorem dropna_at (n m : ℕ) (f : ℕ → ℕ) (per : ℤ → ℤ) (l : List (Entry K)) (g : List (ℤ × List (Entry K)))
    (hg : resample per l = .ok g)
    (hd : ∀ e ∈ l, (∀ c < n, (mean (valuesIn l (fun t => per t = per e.key) c)).isSome) ↔
      (∀ c < m, (mean (valuesIn l (fun t => per t = per e.key) (f c))).isSome)) (hn : 0 < n) (hm : 0 < m) :
    dropna m ((meanEach g).map (Entry.at f)) = (dropna n (meanEach g)).map (Entry.at f) := by
  unfold dropna
  rw [List.filter_map]
  congr 1
  apply List.filter_congr
  intro e he
  have hval : ∃ b, ∀ c, e.val c = mean (valuesIn l (fun t => per t = b) c) := by
    unfold resample at hg
    split at hg
    · cases hg
    · injection hg with hg
      subst hg
      unfold meanEach at he
      obtain ⟨x, hx, rfl⟩ := List.mem_map.mp he
      unfold bins at hx
      split at hx
      · obtain ⟨b, -, rfl⟩ := List.mem_map.mp hx
        exact ⟨b, fun c => rfl⟩
      · cases hx
  obtain ⟨b, hb⟩ := hval
  simp only [Function.comp_apply, Entry.at]
  rw [Bool.eq_iff_iff]
  simp only [List.all_eq_true, List.mem_range, hb]
  by_cases hx : ∃ x ∈ l, per x.key = b
  · obtain ⟨x, hx, rfl⟩ := hx
    exact (hd x hx).symm
  · have hnone : ∀ c, valuesIn l (fun t => per t = b) c = [] := by
      intro c
      unfold valuesIn
      rw [List.filter_eq_nil_iff.mpr]
      · rfl
      · intro a ha
        simp only [decide_eq_true_eq]
        exact fun h => hx ⟨a, ha, h⟩
    constructor
    · intro h
      have := h 0 hm
      rw [hnone] at this
      simp [mean] at this
    · intro h
      have := h 0 hn
      rw [hnone] at this
      simp [mean] at this

theorem totalDays_at (cal : Cal) (f : ℕ → ℕ) (g : List (Entry K)) : totalDays cal (g.map (Entry.at f)) = totalDays cal g := by
  unfold totalDays
  rw [List.map_map]
  rfl

theorem weighted_at (cal : Cal) (f : ℕ → ℕ) (w : ℤ → K) (g : List (Entry K)) (c : ℕ) :
    nanSum c ((g.map (Entry.at f)).map (fun e => (⟨e.key, fun c => (e.val c).map (fun x => x * w e.key)⟩ : Entry K))) =
      nanSum (f c) (g.map (fun e => (⟨e.key, fun c => (e.val c).map (fun x => x * w e.key)⟩ : Entry K))) := by
  unfold nanSum
  rw [List.map_map, List.filterMap_map, List.filterMap_map]
  rfl

theorem weightedSums_at (cal : Cal) (p : Period) (f : ℕ → ℕ) (l : List (Entry K)) :
    weightedSums cal p (l.map (Entry.at f)) = (weightedSums cal p l).map (Entry.at f) := by
  unfold weightedSums
  rw [bins_at, List.map_map, List.map_map]
  apply List.map_congr_left
  intro g _
  simp only [Function.comp_apply, Entry.at, Entry.mk.injEq, true_and]
  funext c
  have h := weighted_at cal f (fun k => (cal.len k : K) / totalDays cal g.2) g.2 c
  have ht := totalDays_at cal f g.2
  simp only [List.map_eq_nil_iff]
  split
  · rfl
  · rw [Option.some_inj]
    rw [← h]
    simp only [← ht]

/-- a period in which the data has a sample is without a gap in the whole exactly if it is without a gap in the selection -/
def SameGaps (cal : Cal) (p : Period) (m : ℕ) (f : ℕ → ℕ) (s : Series K) : Prop :=
  ∀ e ∈ s.samples, FullPeriod cal p s (periodOf cal p e.key) ↔ FullPeriod cal p (selected m f s) (periodOf cal p e.key)

/-- C125, calendar_average: if the selection lacks a value in the same hours, days or (for month, season and year) months as the
whole does. -/
theorem C125_calendar_partial (cal : Cal) (infer : InferFreq) (freq : String) (p : Period)
    (hp : (freq, p) ∈ [("hour", Period.hour), ("day", .day), ("month", .month), ("season", .month), ("year", .month)])
    (s : Series K) (m : ℕ) (f : ℕ → ℕ) (hn : 0 < s.ncell) (hm : 0 < m) (hd : SameGaps cal p m f s) :
    calendarAverage cal infer freq (selected m f s) = (calendarAverage cal infer freq s).map (List.map (Entry.at f)) := by
  have hq : ∃ q, calendarPeriod freq = .ok q ∧ (if q = .season ∨ q = .year then .month else q) = p := by
    simp only [List.mem_cons, Prod.mk.injEq, List.not_mem_nil, or_false] at hp
    rcases hp with ⟨rfl, rfl⟩ | ⟨rfl, rfl⟩ | ⟨rfl, rfl⟩ | ⟨rfl, rfl⟩ | ⟨rfl, rfl⟩
    · exact ⟨.hour, rfl, rfl⟩
    · exact ⟨.day, rfl, rfl⟩
    · exact ⟨.month, rfl, rfl⟩
    · exact ⟨.season, rfl, rfl⟩
    · exact ⟨.year, rfl, rfl⟩
  obtain ⟨q, hq, hqp⟩ := hq
  unfold calendarAverage
  have ht : (selected m f s).isTime = s.isTime := rfl
  simp only [hq, bind, Except.bind, checkUniform_at, ht]
  cases s.isTime with
  | false => rfl
  | true =>
    simp only [not_true_eq_false, if_false, hqp]
    cases checkUniform cal infer s with
    | error e => rfl
    | ok u =>
      have hs : (selected m f s).samples = s.samples.map (Entry.at f) := rfl
      have hc : (selected m f s).ncell = m := rfl
      rw [hs, hc, resample_at]
      cases hg : resample (periodOf cal p) s.samples with
      | error e => rfl
      | ok g =>
        simp only [Except.map, meanEach_at]
        rw [dropna_at s.ncell m f (periodOf cal p) s.samples g hg ?_ hn hm]
        · generalize dropna s.ncell (meanEach g) = d
          have ho : (if q = .season ∨ q = .year then weightedSums cal q (d.map (Entry.at f)) else d.map (Entry.at f)) =
              (if q = .season ∨ q = .year then weightedSums cal q d else d).map (Entry.at f) := by
            split
            · rw [weightedSums_at]
            · rfl
          rw [ho]
          generalize (if q = .season ∨ q = .year then weightedSums cal q d else d) = o
          simp only [List.head?_map, List.getLast?_map]
          cases o.head? with
          | none => rfl
          | some a =>
            cases o.getLast? with
            | none => rfl
            | some z => exact centerBounds_at cal q a.key z.key f o
        · intro e he
          have h := hd e he
          unfold FullPeriod at h
          simp only [selected, valuesIn_at] at h
          exact h

theorem seasonClimate_at (cal : Cal) (s : Series K) (m : ℕ) (f : ℕ → ℕ) (hn : 0 < s.ncell) (hm : 0 < m) (hd : SameGaps cal .month m f s)
    (months : List ℤ) : seasonClimate cal (selected m f s) months = (seasonClimate cal s months).map (fun v c => v (f c)) := by
  unfold seasonClimate
  have hs : (selected m f s).samples = s.samples.map (Entry.at f) := rfl
  have hc : (selected m f s).ncell = m := rfl
  simp only [bind, Except.bind]
  rw [hs, hc, filter_at f (fun t => decide (cal.month t ∈ months)), resample_at]
  cases hg : resample cal.monthOf (s.samples.filter (fun e => decide (cal.month e.key ∈ months))) with
  | error e => rfl
  | ok g =>
    simp only [Except.map, meanEach_at, pure, Except.pure]
    rw [dropna_at s.ncell m f _ _ g hg ?_ hn hm]
    · generalize dropna s.ncell (meanEach g) = d
      congr 1
      funext c
      rw [Option.some_inj, totalDays_at]
      exact weighted_at cal f (fun k => (cal.len k : K) / totalDays cal d) d c
    · intro e he
      obtain ⟨he, hmo⟩ := List.mem_filter.mp he
      simp only [decide_eq_true_eq] at hmo
      have h := hd e he
      unfold FullPeriod at h
      simp only [selected, valuesIn_at] at h
      have hv : ∀ c, valuesIn (s.samples.filter (fun e => decide (cal.month e.key ∈ months))) (fun t => cal.monthOf t = cal.monthOf e.key) c =
          valuesIn s.samples (fun t => cal.monthOf t = cal.monthOf e.key) c := by
        intro c
        unfold valuesIn
        rw [List.filter_filter]
        congr 1
        apply List.filter_congr
        intro x _
        by_cases hx : cal.monthOf x.key = cal.monthOf e.key
        · have : cal.month x.key = cal.month e.key := by
            unfold Cal.month
            rw [hx]
          simp [hx, this, hmo]
        · simp [hx]
      simp only [hv]
      exact h

/-- C125, climatology_average by season: under the same condition. -/
theorem C125_season_partial (cal : Cal) (infer : InferFreq) (custom : List String) (s : Series K) (m : ℕ) (f : ℕ → ℕ)
    (hn : 0 < s.ncell) (hm : 0 < m) (hd : SameGaps cal .month m f s) :
    climatologyAverage cal infer "season" custom (selected m f s) = (climatologyAverage cal infer "season" custom s).map (selectedOut f) := by
  unfold climatologyAverage
  have hp : climatologyPeriod "season" = .ok .season := rfl
  have ht : (selected m f s).isTime = s.isTime := rfl
  simp only [hp, bind, Except.bind, checkUniform_at, if_pos, ht]
  cases s.isTime with
  | false => rfl
  | true =>
    cases checkUniform cal infer s with
    | error e => rfl
    | ok u =>
      simp only [not_true_eq_false, if_false]
      unfold seasonClimates
      generalize (if custom = [] then ["DJF", "JJA", "MAM", "SON"] else custom) = names
      simp only [bind, Except.bind]
      split
      · rfl
      · have h : ∀ ns : List String, ns.mapM (fun n => Except.bind (seasonClimate cal (selected m f s) ((seasonMonths n).getD [])) (fun v => pure (n, v))) =
            (ns.mapM (fun n => Except.bind (seasonClimate cal s ((seasonMonths n).getD [])) (fun v => (pure (n, v) : Except PyErr (String × (ℕ → Option K)))))).map
              (List.map (fun x => (x.1, fun c => x.2 (f c)))) := by
          intro ns
          induction ns with
          | nil => rfl
          | cons n ns ih =>
            rw [List.mapM_cons, List.mapM_cons, ih, seasonClimate_at cal s m f hn hm hd]
            cases seasonClimate cal s ((seasonMonths n).getD []) with
            | error e => rfl
            | ok v =>
              simp only [Except.map, Except.bind, bind, pure, Except.pure]
              generalize (List.mapM _ ns : Except PyErr (List (String × (ℕ → Option K)))) = r
              cases r with
              | error e => rfl
              | ok w => rfl
        have h2 := h names
        simp only [Except.bind] at h2
        rw [h2]
        generalize (List.mapM _ names : Except PyErr (List (String × (ℕ → Option K)))) = r
        cases r with
        | error e => rfl
        | ok w => rfl

/-- C125, climate_anomaly by season or year: under the same condition. -/
theorem C125_anomaly_partial (cal : Cal) (infer : InferFreq) (freq : String) (s : Series K) (m : ℕ) (f : ℕ → ℕ)
    (hn : 0 < s.ncell) (hm : 0 < m) (hd : SameGaps cal .month m f s) :
    climateAnomaly cal infer freq (selected m f s) = (climateAnomaly cal infer freq s).map (List.map (Entry.at f)) := by
  by_cases hdm : freq = "day" ∨ freq = "month"
  · exact C125_anomaly cal infer freq hdm s m f
  have h1 : freq ≠ "day" := fun h => hdm (Or.inl h)
  have h2 : freq ≠ "month" := fun h => hdm (Or.inr h)
  have ht : (selected m f s).isTime = s.isTime := rfl
  have hs : (selected m f s).samples = s.samples.map (Entry.at f) := rfl
  unfold climateAnomaly
  rw [ht, hs]
  cases s.isTime with
  | false => rfl
  | true =>
    simp only [not_true_eq_false, if_false, bind, Except.bind, pure, Except.pure]
    by_cases h3 : freq = "season"
    · subst h3
      simp only [C125_season_partial cal infer [] s m f hn hm hd]
      generalize climatologyAverage cal infer "season" [] s = r
      cases r with
      | error e => rfl
      | ok o =>
        cases o with
        | times l => rfl
        | seasons l =>
          simp only [Except.map, selectedOut]
          rw [minusGroup_at f s.samples (fun t c => ((l.find? (fun x => decide (x.1 = seasonOf (cal.month t)))).map (·.2 c)).join)]
          intro t c
          rw [List.find?_map]
          simp only [Function.comp_def]
          cases l.find? (fun x => decide (x.1 = seasonOf (cal.month t))) with
          | none => rfl
          | some x => rfl
    · by_cases h4 : freq = "year"
      · subst h4
        simp only [C125_calendar_partial cal infer "year" .month (by simp) s m f hn hm hd]
        generalize calendarAverage cal infer "year" s = r
        cases r with
        | error e => rfl
        | ok l =>
          simp only [Except.map]
          rw [minusGroup_at f s.samples (groupSum (fun t => cal.year t % 100) l) _ (fun t c => groupSum_at _ f l t c)]
      · split <;> simp_all [Except.map]
        rfl

/-- C125 is false of the code: averaged with a variable that lacks a month, a complete variable loses that month too
(its time axis becomes shorter), and its seasonal mean changes. -/
theorem C125_counterexample :
    ¬ (∀ (cal : Cal) (infer : InferFreq) (s : Series ℚ) (m : ℕ) (f : ℕ → ℕ), 0 < m → (∀ c < m, f c < s.ncell) →
        (calendarAverage cal infer "month" (selected m f s)).map (List.map (fun e => (e.key, e.val 0))) =
          (calendarAverage cal infer "month" s).map (List.map (fun e => (e.key, e.val (f 0))))) ∧
    ¬ (∀ (cal : Cal) (infer : InferFreq) (s : Series ℚ) (m : ℕ) (f : ℕ → ℕ), 0 < m → (∀ c < m, f c < s.ncell) →
        (climatologyAverage cal infer "season" ["DJF"] (selected m f s)).map (seasonsAt 0) =
          (climatologyAverage cal infer "season" ["DJF"] s).map (seasonsAt (f 0))) := by
  constructor
  · intro h
    have := h Cal.days360 (fun _ => .ok true) gap 1 id (by decide) (by decide)
    revert this
    decide +kernel
  · intro h
    have := h Cal.days360 (fun _ => .ok true) gap 1 id (by decide) (by decide)
    revert this
    decide +kernel

/-- data without gaps meets the condition, and the averages are not trivial -/
example : SameGaps Cal.days360 .month 1 (fun _ => 1) noGap ∧
    (calendarAverage Cal.days360 (fun _ => .ok true) "season" noGap).map (List.map (fun e => e.val 1)) = .ok [some 3] := by
  refine ⟨?_, by decide +kernel⟩
  unfold SameGaps
  decide +kernel

/-- so does data whose gaps are shared by the selected variable -/
example : SameGaps Cal.days360 .month 1 (fun _ => 1) gap := by
  unfold SameGaps
  decide +kernel

/-- the daily climatology of such data is not trivial -/
example : (climatologyAverage Cal.days360 (fun _ => .ok true) "day" [] (⟨2, [⟨Cal.days360.monthStart 24000, fun _ => some 1⟩,
      ⟨Cal.days360.monthStart 24000 + 86400, fun c => if c = 0 then some 6 else none⟩], true⟩ : Series ℚ)).map
    (fun o => match o with | .times l => l.map (fun e => (e.val 0, e.val 1)) | .seasons _ => []) = .ok [(some 1, some 1), (some 6, none)] := by
  decide +kernel

end Verif.Props
