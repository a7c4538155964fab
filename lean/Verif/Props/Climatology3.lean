import Verif.Props.Climatology2

/-
C39: does a missing value in one cell affect other cells?
-/

set_option linter.unusedSectionVars false

namespace Verif.Props
open Model Spec Lemmas
variable {K : Type _} [Field K] [LinearOrder K] [IsStrictOrderedRing K]

/-- what a cell sees of a series: the times and its own values -/
def cellView (c : ℕ) (l : List (Entry K)) : List (ℤ × Option K) := l.map (fun e => (e.key, e.val c))

theorem valuesIn_view (l : List (Entry K)) (P : ℤ → Prop) [DecidablePred P] (c : ℕ) :
    valuesIn l P c = ((cellView c l).filter (fun x => decide (P x.1))).filterMap (·.2) := by
  unfold valuesIn cellView
  rw [List.filter_map, List.filterMap_map]
  rfl

theorem view_keys (c : ℕ) (l l' : List (Entry K)) (h : cellView c l = cellView c l') : l.map (·.key) = l'.map (·.key) := by
  have := congrArg (List.map Prod.fst) h
  simpa [cellView, List.map_map, Function.comp_def] using this

theorem monthMean_view (cal : Cal) (l l' : List (Entry K)) (c : ℕ) (h : cellView c l = cellView c l') (k : ℤ) :
    monthMean cal l k c = monthMean cal l' k c := by
  unfold monthMean
  rw [valuesIn_view, valuesIn_view, h]

theorem keys_sorted (l : List (Entry K)) : l.Pairwise (fun a b => a.key ≤ b.key) ↔ (l.map (·.key)).Pairwise (· ≤ ·) := by
  rw [List.pairwise_map]

theorem keys_head (l : List (Entry K)) : (l.map (·.key)).head? = l.head?.map (·.key) := List.head?_map

theorem keys_nil (l : List (Entry K)) : l = [] ↔ l.map (·.key) = [] := by simp

/-- the uniformity check looks at the times only -/
theorem checkUniform_keys (cal : Cal) (infer : InferFreq) (s s' : Series K) (h : s.samples.map (·.key) = s'.samples.map (·.key)) :
    checkUniform cal infer s = checkUniform cal infer s' := by
  have hr : ∀ l l' : List (Entry K), l.map (·.key) = l'.map (·.key) →
      (resample cal.monthOf l).map (fun m => m.map (fun g => g.2.length)) = (resample cal.monthOf l').map (fun m => m.map (fun g => g.2.length)) := by
    intro l l' h
    unfold resample
    by_cases hc : l = [] ∨ ¬ l.Pairwise (fun a b => a.key ≤ b.key)
    · have hc' : l' = [] ∨ ¬ l'.Pairwise (fun a b => a.key ≤ b.key) := by
        rw [keys_nil, keys_sorted, ← h, ← keys_nil, ← keys_sorted]
        exact hc
      rw [if_pos hc, if_pos hc']
    · have hc' : ¬ (l' = [] ∨ ¬ l'.Pairwise (fun a b => a.key ≤ b.key)) := by
        rw [keys_nil, keys_sorted, ← h, ← keys_nil, ← keys_sorted]
        exact hc
      rw [if_neg hc, if_neg hc']
      simp only [pure, Except.pure, Except.map]
      congr 1
      have hlen : ∀ (m : List (Entry K)) (b : ℤ), (m.filter (fun e => decide (cal.monthOf e.key = b))).length =
          ((m.map (·.key)).filter (fun t => decide (cal.monthOf t = b))).length := by
        intro m b
        rw [List.filter_map, List.length_map]
        rfl
      have h1 : l.head?.map (·.key) = l'.head?.map (·.key) := by rw [← List.head?_map, ← List.head?_map, h]
      have h2 : l.getLast?.map (·.key) = l'.getLast?.map (·.key) := by rw [← List.getLast?_map, ← List.getLast?_map, h]
      unfold bins
      cases ha : l.head? with
      | none =>
        rw [ha] at h1
        cases ha' : l'.head? with
        | none => rfl
        | some a' => rw [ha'] at h1; simp at h1
      | some a =>
        rw [ha] at h1
        cases ha' : l'.head? with
        | none => rw [ha'] at h1; simp at h1
        | some a' =>
          rw [ha'] at h1
          cases hz : l.getLast? with
          | none => rw [List.getLast?_eq_none_iff] at hz; subst hz; simp at ha
          | some z =>
            rw [hz] at h2
            cases hz' : l'.getLast? with
            | none => rw [hz'] at h2; simp at h2
            | some z' =>
              rw [hz'] at h2
              simp only [Option.map_some, Option.some.injEq] at h1 h2
              simp only [List.map_map, h1, h2]
              refine List.map_congr_left fun b _ => ?_
              simp only [Function.comp_def]
              rw [hlen, hlen, h]
  unfold checkUniform
  rw [h]
  cases hi : infer (s'.samples.map (·.key)) with
  | error e => rfl
  | ok b =>
    cases b with
    | true => rfl
    | false =>
      have := hr s.samples s'.samples h
      simp only [bind, Except.bind, Bool.false_eq_true, if_false]
      cases hm : resample cal.monthOf s.samples with
      | error e =>
        rw [hm] at this
        cases hm' : resample cal.monthOf s'.samples with
        | error e' =>
          rw [hm'] at this
          simp only [Except.map, Except.error.injEq] at this
          simp only [this]
        | ok m' => rw [hm'] at this; simp [Except.map] at this
      | ok m =>
        rw [hm] at this
        cases hm' : resample cal.monthOf s'.samples with
        | error e' => rw [hm'] at this; simp [Except.map] at this
        | ok m' =>
          rw [hm'] at this
          simp only [Except.map, Except.ok.injEq] at this
          have hall : m.all (fun g => decide (g.2.length = 1)) = m'.all (fun g => decide (g.2.length = 1)) := by
            have e : ∀ m : List (ℤ × List (Entry K)), m.all (fun g => decide (g.2.length = 1)) = (m.map (fun g => g.2.length)).all (fun n => decide (n = 1)) := by
              intro m
              rw [List.all_map]
              rfl
            rw [e, e, this]
          simp only [hall]

/-- C39, part that holds, `calendar_average("season")` and `("year")`: if two data sets agree in the times and in the values of a
cell, and the same months have a value in every cell, then either both calls fail in the same way, or the results agree in the times
and in the values of that cell. -/
theorem C39_calendar_partial (cal : Cal) (infer : InferFreq) (freq : String) (hf : freq = "season" ∨ freq = "year") (s s' : Series K) (c : ℕ)
    (hc : c < s.ncell) (hc' : c < s'.ncell) (ht : s.isTime = s'.isTime) (hv : cellView c s.samples = cellView c s'.samples)
    (hfull : ∀ k, FullMonth cal s k ↔ FullMonth cal s' k) :
    (calendarAverage cal infer freq s).map (cellView c) = (calendarAverage cal infer freq s').map (cellView c) := by
  have hk := view_keys c _ _ hv
  have hu := checkUniform_keys cal infer s s' hk
  have key : ∀ p : Period, (p = .season ∨ p = .year) → (calBody cal infer p s).map (cellView c) = (calBody cal infer p s').map (cellView c) := by
    intro p hp
    by_cases hi : s.isTime = true
    · have hi' : s'.isTime = true := by rw [← ht, hi]
      cases hcu : checkUniform cal infer s with
      | error e =>
        have hcu' := hcu
        rw [hu] at hcu'
        unfold calBody
        simp only [bind, Except.bind, hi, hi', hcu, hcu', not_true_eq_false, if_false]
      | ok u =>
        have hcu' := hcu
        rw [hu] at hcu'
        by_cases hcon : s.samples = [] ∨ ¬ s.samples.Pairwise (fun a b => a.key ≤ b.key)
        · have hcon' : s'.samples = [] ∨ ¬ s'.samples.Pairwise (fun a b => a.key ≤ b.key) := by
            rw [keys_nil, keys_sorted, ← hk, ← keys_nil, ← keys_sorted]
            exact hcon
          unfold calBody
          simp only [bind, Except.bind, hi, hi', hcu, hcu', not_true_eq_false, if_false, resample, if_pos hcon, if_pos hcon']
          rfl
        · have hcon' : ¬ (s'.samples = [] ∨ ¬ s'.samples.Pairwise (fun a b => a.key ≤ b.key)) := by
            rw [keys_nil, keys_sorted, ← hk, ← keys_nil, ← keys_sorted]
            exact hcon
          push Not at hcon hcon'
          have P := period_average cal infer p hp s (by omega) hi hcu hcon.1 hcon.2
          have P' := period_average cal infer p hp s' (by omega) hi' hcu' hcon'.1 hcon'.2
          rcases P with ⟨h1, h2⟩ | ⟨k0, k1, hk0, hk1, hb, v, hv1, hval⟩
          · rcases P' with ⟨h1', h2'⟩ | ⟨k0', k1', hk0', hk1', hb', v', hv1', hval'⟩
            · rw [h2, h2']
            · exact absurd ((hfull k0').mpr hk0') (h1 k0')
          · rcases P' with ⟨h1', h2'⟩ | ⟨k0', k1', hk0', hk1', hb', v', hv1', hval'⟩
            · exact absurd ((hfull k0).mp hk0) (h1' k0)
            · have e0 : k0 = k0' := by
                have a := hb k0' ((hfull k0').mpr hk0')
                have b := hb' k0 ((hfull k0).mp hk0)
                omega
              have e1 : k1 = k1' := by
                have a := hb k1' ((hfull k1').mpr hk1')
                have b := hb' k1 ((hfull k1).mp hk1)
                omega
              subst e0 e1
              rw [hv1, hv1']
              simp only [Except.map, cellView, List.map_map]
              congr 1
              refine List.map_congr_left fun b _ => ?_
              simp only [Function.comp_def]
              rw [hval b c hc, hval' b c hc']
              have hfil : (periodMonths p b).filter (fun k => decide (FullMonth cal s k)) = (periodMonths p b).filter (fun k => decide (FullMonth cal s' k)) :=
                List.filter_congr fun k _ => by
                  rw [Bool.eq_iff_iff, decide_eq_true_iff, decide_eq_true_iff]
                  exact hfull k
              simp only [hfil, monthMean_view cal _ _ c hv]
    · have hi1 : s.isTime = false := by simpa using hi
      have hi' : s'.isTime = false := by rw [← ht, hi1]
      unfold calBody
      simp only [bind, Except.bind, hi1, hi', Bool.false_eq_true, not_false_eq_true, if_true]
      rfl
  rcases hf with rfl | rfl
  · rw [calendar_eq cal infer "season" .season rfl, calendar_eq cal infer "season" .season rfl]
    exact key _ (Or.inl rfl)
  · rw [calendar_eq cal infer "year" .year rfl, calendar_eq cal infer "year" .year rfl]
    exact key _ (Or.inr rfl)

/-- C39, part that holds, `climatology_average("season")`. -/
theorem C39_climatology_partial (cal : Cal) (infer : InferFreq) (custom : List String) (s s' : Series K) (c : ℕ)
    (hc : c < s.ncell) (hc' : c < s'.ncell) (hv : cellView c s.samples = cellView c s'.samples)
    (hfull : ∀ k, FullMonth cal s k ↔ FullMonth cal s' k) (out out' : ClimOut K)
    (h : climatologyAverage cal infer "season" custom s = .ok out) (h' : climatologyAverage cal infer "season" custom s' = .ok out') :
    ∃ vals vals', out = .seasons vals ∧ out' = .seasons vals' ∧ vals.map (fun x => (x.1, x.2 c)) = vals'.map (fun x => (x.1, x.2 c)) := by
  obtain ⟨vals, h1, h2, h3⟩ := climatology_season cal infer custom s out h
  obtain ⟨vals', h1', h2', h3'⟩ := climatology_season cal infer custom s' out' h'
  refine ⟨vals, vals', h1, h1', ?_⟩
  have hn : vals.map (·.1) = vals'.map (·.1) := by rw [h2, h2']
  apply List.ext_getElem?
  intro i
  have hni := congrArg (fun l => l[i]?) hn
  simp only [List.getElem?_map] at hni ⊢
  cases hx : vals[i]? with
  | none =>
    rw [hx] at hni
    cases hx' : vals'[i]? with
    | none => rfl
    | some y => rw [hx'] at hni; simp at hni
  | some x =>
    rw [hx] at hni
    cases hx' : vals'[i]? with
    | none => rw [hx'] at hni; simp at hni
    | some y =>
      rw [hx'] at hni
      simp only [Option.map_some, Option.some.injEq] at hni ⊢
      obtain ⟨months, hm, hsc⟩ := h3 x (List.mem_of_getElem? hx)
      obtain ⟨months', hm', hsc'⟩ := h3' y (List.mem_of_getElem? hx')
      rw [← hni, hm] at hm'
      injection hm' with hm'
      subst hm'
      obtain ⟨ks, hsort, hmem, hval⟩ := seasonClimate_eq cal s (by omega) months x.2 hsc
      obtain ⟨ks', hsort', hmem', hval'⟩ := seasonClimate_eq cal s' (by omega) months y.2 hsc'
      have hks : ks = ks' := sorted_ext hsort hsort' (fun k => by rw [hmem, hmem', hfull])
      rw [hni, hval c hc, hval' c hc', hks]
      simp only [monthMean_view cal _ _ c hv]

/-- two cells; the second one lacks February in `gap` -/
def noGap : Series ℚ := ⟨2, [⟨Cal.days360.monthStart (-1), fun _ => some 1⟩, ⟨Cal.days360.monthStart 0, fun _ => some 2⟩,
  ⟨Cal.days360.monthStart 1, fun _ => some 6⟩], true⟩
def gap : Series ℚ := ⟨2, [⟨Cal.days360.monthStart (-1), fun _ => some 1⟩, ⟨Cal.days360.monthStart 0, fun _ => some 2⟩,
  ⟨Cal.days360.monthStart 1, fun c => if c = 0 then some 6 else none⟩], true⟩
def allGap : Series ℚ := ⟨2, [⟨Cal.days360.monthStart (-1), fun c => if c = 0 then some 1 else none⟩,
  ⟨Cal.days360.monthStart 0, fun c => if c = 0 then some 2 else none⟩,
  ⟨Cal.days360.monthStart 1, fun c => if c = 0 then some 6 else none⟩], true⟩

def seasonsAt {K : Type _} (c : ℕ) : ClimOut K → List (String × Option K)
  | .seasons l => l.map (fun x => (x.1, x.2 c))
  | .times _ => []

/-- C39 is false of the code: a missing value in one cell drops the whole month for every cell, so the other cell's average changes;
and if a cell is missing throughout, `climatology_average` returns 0 for all other cells. -/
theorem C39_counterexample :
    ¬ (∀ (cal : Cal) (infer : InferFreq) (s s' : Series ℚ) (c : ℕ), c < s.ncell → s.ncell = s'.ncell → s.isTime = s'.isTime →
        cellView c s.samples = cellView c s'.samples →
        (calendarAverage cal infer "season" s).map (cellView c) = (calendarAverage cal infer "season" s').map (cellView c)) ∧
    ¬ (∀ (cal : Cal) (infer : InferFreq) (s s' : Series ℚ) (c : ℕ), c < s.ncell → s.ncell = s'.ncell → s.isTime = s'.isTime →
        cellView c s.samples = cellView c s'.samples →
        (climatologyAverage cal infer "season" ["DJF"] s).map (seasonsAt c) = (climatologyAverage cal infer "season" ["DJF"] s').map (seasonsAt c)) ∧
    (climatologyAverage Cal.days360 (fun _ => .ok true) "season" ["DJF"] noGap).toOption.map (seasonsAt 0) = some [("DJF", some 3)] ∧
    (climatologyAverage Cal.days360 (fun _ => .ok true) "season" ["DJF"] gap).toOption.map (seasonsAt 0) = some [("DJF", some (3/2))] ∧
    (climatologyAverage Cal.days360 (fun _ => .ok true) "season" ["DJF"] allGap).toOption.map (seasonsAt 0) = some [("DJF", some 0)] := by
  refine ⟨?_, ?_, by decide +kernel, by decide +kernel, by decide +kernel⟩
  · intro h
    have := h Cal.days360 (fun _ => .ok true) noGap gap 0 (by decide) rfl rfl (by decide +kernel)
    revert this
    decide +kernel
  · intro h
    have := h Cal.days360 (fun _ => .ok true) noGap gap 0 (by decide) rfl rfl (by decide +kernel)
    revert this
    decide +kernel

/-- the hypotheses of the partial theorems are met by data sets that differ in the other cell -/
example : ∃ s s' : Series ℚ, cellView 0 s.samples = cellView 0 s'.samples ∧ (∀ k, FullMonth Cal.days360 s k ↔ FullMonth Cal.days360 s' k) ∧
    (∃ k, FullMonth Cal.days360 s k) ∧ cellView 1 s.samples ≠ cellView 1 s'.samples := by
  refine ⟨⟨2, [⟨0, fun _ => some 1⟩, ⟨86400, fun _ => some 2⟩], true⟩, ⟨2, [⟨0, fun c => if c = 0 then some 1 else none⟩, ⟨86400, fun _ => some 2⟩], true⟩,
    by decide +kernel, ?_, ⟨0, by decide +kernel⟩, by decide +kernel⟩
  intro k
  by_cases hk : k = 0
  · subst hk
    decide +kernel
  · have h0 : Cal.days360.monthOf 0 = 0 := by decide +kernel
    have h1 : Cal.days360.monthOf 86400 = 0 := by decide +kernel
    constructor
    · intro h
      have := h 0 (by decide)
      simp [monthMean, mean, valuesIn, h0, h1, Ne.symm hk] at this
    · intro h
      have := h 0 (by decide)
      simp [monthMean, mean, valuesIn, h0, h1, Ne.symm hk] at this

end Verif.Props
