import Verif.Props.Climatology

/-
Property theorems: season and year averages.
-/

set_option linter.unusedSectionVars false

namespace Verif.Props
open Model Spec Lemmas
variable {K : Type _} [Field K] [LinearOrder K] [IsStrictOrderedRing K]

/-- `calendar_average` for seasons and years in terms of full months -/
theorem period_average (cal : Cal) (infer : InferFreq) (p : Period) (hp : p = .season ∨ p = .year) (s : Series K) (hn : 0 < s.ncell)
    (hi : s.isTime = true) (hu : checkUniform cal infer s = .ok ()) (hne : s.samples ≠ [])
    (hs : s.samples.Pairwise (fun a b => a.key ≤ b.key)) :
    ((∀ k, ¬ FullMonth cal s k) ∧ calBody cal infer p s = .error .valueError) ∨
    ∃ k0 k1 : ℤ, FullMonth cal s k0 ∧ FullMonth cal s k1 ∧ (∀ k, FullMonth cal s k → k0 ≤ k ∧ k ≤ k1) ∧
      ∃ v : ℤ → ℕ → Option K,
        calBody cal infer p s = .ok ((periodRange (monthPeriod p k0) (monthPeriod p k1)).map (fun b => ⟨periodCenter cal p b, v b⟩)) ∧
        ∀ b, ∀ c < s.ncell, v b c = if (periodMonths p b).filter (fun k => decide (FullMonth cal s k)) = [] then none
          else some (dayWeighted cal ((periodMonths p b).filter (fun k => decide (FullMonth cal s k)))
            (fun k => (monthMean cal s.samples k c).getD 0)) := by
  obtain ⟨a, ha⟩ : ∃ a, s.samples.head? = some a := by
    cases hh : s.samples.head? with
    | none => exact absurd (List.head?_eq_none_iff.mp hh) hne
    | some a => exact ⟨a, rfl⟩
  obtain ⟨z, hz⟩ : ∃ z, s.samples.getLast? = some z := by
    cases hh : s.samples.getLast? with
    | none => exact absurd (List.getLast?_eq_none_iff.mp hh) hne
    | some z => exact ⟨z, rfl⟩
  have hmem := mem_fullMonths cal s hn hs a z ha hz
  set F := fullMonths cal s (cal.monthOf a.key) (cal.monthOf z.key) with hF
  have hsF : F.Pairwise (· < ·) := (periodRange_sorted _ _).filter _
  have hbody := calBody_eq cal infer p s hi hu hne hs _ rfl
  rw [if_pos hp, if_pos hp] at hbody
  have hper : periodOf cal .month = cal.monthOf := rfl
  rw [hper] at hbody
  cases h0 : F.head? with
  | none =>
    left
    have hF0 : F = [] := List.head?_eq_none_iff.mp h0
    refine ⟨fun k hk => by have := (hmem k).mpr hk; rw [hF0] at this; simp at this, ?_⟩
    have : dropna s.ncell (meanEach (bins cal.monthOf s.samples)) = [] := by
      rw [monthly_eq cal s a z ha hz, ← hF, hF0]; rfl
    rw [hbody, this, if_pos hp]
    rfl
  | some k0 =>
    right
    obtain ⟨k1, h1⟩ : ∃ k1, F.getLast? = some k1 := by
      cases hh : F.getLast? with
      | none =>
        rw [List.getLast?_eq_none_iff.mp hh] at h0
        simp at h0
      | some k1 => exact ⟨k1, rfl⟩
    have hb : ∀ k ∈ F, k0 ≤ k ∧ k ≤ k1 :=
      head_last_bounds (fun k : ℤ => k) F (hsF.imp (fun h => le_of_lt h)) k0 k1 h0 h1
    have hk0 : k0 ∈ F := List.mem_of_head? h0
    have hk1 : k1 ∈ F := List.mem_of_getLast? h1
    obtain ⟨v, hv1, hv2⟩ := weightedSums_eq cal s hn hs a z ha hz p k0 k1 h0 h1
    refine ⟨k0, k1, (hmem _).mp hk0, (hmem _).mp hk1, fun k hk => hb k ((hmem k).mpr hk), v, ?_, hv2⟩
    have hle : monthPeriod p k0 ≤ monthPeriod p k1 := monthPeriod_mono p (hb k1 hk1).1
    rw [hbody, hv1, List.head?_map, List.getLast?_map, periodRange_head _ _ hle, periodRange_last _ _ hle]
    exact centerBounds_map cal p _ _ v

/-- C37, seasons: the result runs over consecutive seasons, from the one of the first to the one of the last month with data, and
the value of a season is the mean of its months' means weighted with the numbers of days; it lies between the smallest and the
largest of those means. The label is the middle of the season. -/
theorem C37_season (cal : Cal) (infer : InferFreq) (s : Series K) (hn : 0 < s.ncell) (out : List (Entry K))
    (h : calendarAverage cal infer "season" s = .ok out) :
    ∃ b0 k0 k1 : ℤ, FullMonth cal s k0 ∧ FullMonth cal s k1 ∧ (∀ k, FullMonth cal s k → k0 ≤ k ∧ k ≤ k1) ∧
      k0 ∈ seasonOfMonths b0 ∧ k1 ∈ seasonOfMonths (b0 + out.length - 1) ∧
      ∀ (i : ℕ) (e : Entry K), out[i]? = some e →
        e.key = (cal.monthStart (3 * (b0 + i) - 1) + cal.monthStart (3 * (b0 + i) + 2)) / 2 ∧
        ∀ c < s.ncell, ∀ ks, ks = (seasonOfMonths (b0 + i)).filter (fun k => decide (FullMonth cal s k)) →
          (ks = [] → e.val c = none) ∧
          (ks ≠ [] → ∃ x, e.val c = some x ∧ x = dayWeighted cal ks (fun k => (monthMean cal s.samples k c).getD 0) ∧
            ∀ lo hi, (∀ k ∈ ks, ∀ y, monthMean cal s.samples k c = some y → lo ≤ y ∧ y ≤ hi) → lo ≤ x ∧ x ≤ hi) := by
  rw [calendar_eq cal infer "season" .season rfl] at h
  obtain ⟨hi, hu, hne, hs⟩ := calBody_ok cal infer .season s out h
  rcases period_average cal infer .season (Or.inl rfl) s hn hi hu hne hs with ⟨-, he⟩ | ⟨k0, k1, hk0, hk1, hb, v, hv, hval⟩
  · rw [he] at h; cases h
  · rw [hv] at h
    injection h with h
    subst h
    have hle : monthPeriod .season k0 ≤ monthPeriod .season k1 := monthPeriod_mono .season (hb k1 hk1).1
    refine ⟨monthPeriod .season k0, k0, k1, hk0, hk1, hb, (mem_periodMonths .season _ _).mpr rfl, ?_, ?_⟩
    · refine (mem_periodMonths .season _ _).mpr ?_
      rw [List.length_map, periodRange_length]
      omega
    · intro i e hi'
      rw [List.getElem?_map] at hi'
      by_cases hlt : (i : ℤ) ≤ monthPeriod .season k1 - monthPeriod .season k0
      · rw [periodRange_getElem? _ _ _ hlt] at hi'
        simp only [Option.map_some, Option.some.injEq] at hi'
        subst hi'
        constructor
        · simp only [periodCenter, periodStart]
          congr 3
          ring
        · intro c hc ks hks
          have hv' := hval (monthPeriod .season k0 + i) c hc
          rw [show (periodMonths .season (monthPeriod .season k0 + i)).filter (fun k => decide (FullMonth cal s k)) = ks from hks.symm] at hv'
          refine ⟨fun he => by rw [if_pos he] at hv'; exact hv', fun he => ?_⟩
          rw [if_neg he] at hv'
          refine ⟨_, hv', rfl, fun lo hi hlohi => ?_⟩
          refine dayWeighted_bounds cal ks he _ lo hi (fun k hk => ?_)
          have hf : FullMonth cal s k := by
            rw [hks] at hk
            simpa using (List.mem_filter.mp hk).2
          obtain ⟨y, hy⟩ := Option.isSome_iff_exists.mp (hf c hc)
          rw [hy]
          exact hlohi k hk y hy
      · rw [List.getElem?_eq_none (by rw [periodRange_length]; omega)] at hi'
        cases hi'

/-- C37, years: the same for calendar years. -/
theorem C37_year (cal : Cal) (infer : InferFreq) (s : Series K) (hn : 0 < s.ncell) (out : List (Entry K))
    (h : calendarAverage cal infer "year" s = .ok out) :
    ∃ b0 k0 k1 : ℤ, FullMonth cal s k0 ∧ FullMonth cal s k1 ∧ (∀ k, FullMonth cal s k → k0 ≤ k ∧ k ≤ k1) ∧
      k0 ∈ yearOfMonths b0 ∧ k1 ∈ yearOfMonths (b0 + out.length - 1) ∧
      ∀ (i : ℕ) (e : Entry K), out[i]? = some e →
        e.key = (cal.monthStart (12 * (b0 + i)) + cal.monthStart (12 * (b0 + i) + 12)) / 2 ∧
        ∀ c < s.ncell, ∀ ks, ks = (yearOfMonths (b0 + i)).filter (fun k => decide (FullMonth cal s k)) →
          (ks = [] → e.val c = none) ∧
          (ks ≠ [] → ∃ x, e.val c = some x ∧ x = dayWeighted cal ks (fun k => (monthMean cal s.samples k c).getD 0) ∧
            ∀ lo hi, (∀ k ∈ ks, ∀ y, monthMean cal s.samples k c = some y → lo ≤ y ∧ y ≤ hi) → lo ≤ x ∧ x ≤ hi) := by
  rw [calendar_eq cal infer "year" .year rfl] at h
  obtain ⟨hi, hu, hne, hs⟩ := calBody_ok cal infer .year s out h
  rcases period_average cal infer .year (Or.inr rfl) s hn hi hu hne hs with ⟨-, he⟩ | ⟨k0, k1, hk0, hk1, hb, v, hv, hval⟩
  · rw [he] at h; cases h
  · rw [hv] at h
    injection h with h
    subst h
    have hle : monthPeriod .year k0 ≤ monthPeriod .year k1 := monthPeriod_mono .year (hb k1 hk1).1
    refine ⟨monthPeriod .year k0, k0, k1, hk0, hk1, hb, (mem_periodMonths .year _ _).mpr rfl, ?_, ?_⟩
    · refine (mem_periodMonths .year _ _).mpr ?_
      rw [List.length_map, periodRange_length]
      omega
    · intro i e hi'
      rw [List.getElem?_map] at hi'
      by_cases hlt : (i : ℤ) ≤ monthPeriod .year k1 - monthPeriod .year k0
      · rw [periodRange_getElem? _ _ _ hlt] at hi'
        simp only [Option.map_some, Option.some.injEq] at hi'
        subst hi'
        constructor
        · simp only [periodCenter, periodStart]
          congr 3
          ring
        · intro c hc ks hks
          have hv' := hval (monthPeriod .year k0 + i) c hc
          rw [show (periodMonths .year (monthPeriod .year k0 + i)).filter (fun k => decide (FullMonth cal s k)) = ks from hks.symm] at hv'
          refine ⟨fun he => by rw [if_pos he] at hv'; exact hv', fun he => ?_⟩
          rw [if_neg he] at hv'
          refine ⟨_, hv', rfl, fun lo hi hlohi => ?_⟩
          refine dayWeighted_bounds cal ks he _ lo hi (fun k hk => ?_)
          have hf : FullMonth cal s k := by
            rw [hks] at hk
            simpa using (List.mem_filter.mp hk).2
          obtain ⟨y, hy⟩ := Option.isSome_iff_exists.mp (hf c hc)
          rw [hy]
          exact hlohi k hk y hy
      · rw [List.getElem?_eq_none (by rw [periodRange_length]; omega)] at hi'
        cases hi'

/-- C37: when the calls succeed. -/
theorem C37_succeeds (cal : Cal) (infer : InferFreq) (freq : String) (hf : freq = "season" ∨ freq = "year") (s : Series K) (hn : 0 < s.ncell)
    (hi : s.isTime = true) (hr : Regular cal infer s) (hne : s.samples ≠ [])
    (hs : s.samples.Pairwise (fun a b => a.key ≤ b.key)) :
    ((∃ out, calendarAverage cal infer freq s = .ok out) ↔ ∃ k, FullMonth cal s k) ∧
    ((∀ k, ¬ FullMonth cal s k) → calendarAverage cal infer freq s = .error .valueError) := by
  have hu := (uniform_iff cal infer s).mpr hr
  have key : ∀ p : Period, (p = .season ∨ p = .year) → calendarAverage cal infer freq s = calBody cal infer p s →
      ((∃ out, calendarAverage cal infer freq s = .ok out) ↔ ∃ k, FullMonth cal s k) ∧
      ((∀ k, ¬ FullMonth cal s k) → calendarAverage cal infer freq s = .error .valueError) := by
    intro p hp he
    rw [he]
    rcases period_average cal infer p hp s hn hi hu hne hs with ⟨h1, h2⟩ | ⟨k0, k1, hk0, hk1, hb, v, hv, hval⟩
    · refine ⟨⟨?_, ?_⟩, fun _ => h2⟩
      · rintro ⟨out, ho⟩
        rw [h2] at ho
        cases ho
      · rintro ⟨k, hk⟩
        exact absurd hk (h1 k)
    · refine ⟨⟨fun _ => ⟨k0, hk0⟩, fun _ => ⟨_, hv⟩⟩, fun h => absurd hk0 (h k0)⟩
  rcases hf with rfl | rfl
  · exact key .season (Or.inl rfl) (calendar_eq cal infer "season" .season rfl s)
  · exact key .year (Or.inr rfl) (calendar_eq cal infer "year" .year rfl s)

/-! Sample for the examples: 360-day calendar, monthly values 0, 1, ..., 13 from December of year -1 on -/

def sampleMonths : Series ℚ := ⟨1, (List.range 14).map (fun i : ℕ => ⟨Cal.days360.monthStart (i - 1), fun _ => some i⟩), true⟩

example : (calendarAverage Cal.days360 (fun _ => .ok true) "season" sampleMonths |>.toOption |>.map (fun l => l.map (fun e => (e.key / 86400, e.val 0)))) = some
    [(15, some 1), (105, some 4), (195, some 7), (285, some 10), (375, some (25/2))] := by decide +kernel

example : (calendarAverage Cal.days360 (fun _ => .ok true) "year" sampleMonths |>.toOption |>.map (fun l => l.map (fun e => (e.key / 86400, e.val 0)))) = some
    [(-180, some 0), (180, some (13/2)), (540, some 13)] := by decide +kernel

/-! ### C38 -/

/-- every month of the data is complete, with `r` samples per day, and nothing is missing -/
structure CompleteMonths (cal : Cal) (s : Series K) (r : ℕ) : Prop where
  perDay : 0 < r
  noMissing : ∀ e ∈ s.samples, ∀ c < s.ncell, (e.val c).isSome
  complete : ∀ k, (∃ e ∈ s.samples, cal.monthOf e.key = k) →
    ((s.samples.filter (fun e => decide (cal.monthOf e.key = k))).length : ℤ) = r * cal.len k

theorem complete_full (cal : Cal) (s : Series K) (r : ℕ) (h : CompleteMonths cal s r) (hn : 0 < s.ncell) (k : ℤ) :
    FullMonth cal s k ↔ ∃ e ∈ s.samples, cal.monthOf e.key = k := by
  constructor
  · intro hk
    have h0 := hk 0 hn
    unfold monthMean mean at h0
    split_ifs at h0 with hv
    · simp at h0
    · obtain ⟨v, hv'⟩ := List.exists_mem_of_ne_nil _ hv
      simp only [valuesIn, List.mem_filterMap, List.mem_filter, decide_eq_true_eq] at hv'
      obtain ⟨e, he, -⟩ := hv'
      exact ⟨e, he⟩
  · rintro ⟨e, he, hk⟩ c hc
    unfold monthMean mean
    rw [if_neg]
    · rfl
    · intro hv
      obtain ⟨x, hx⟩ := Option.isSome_iff_exists.mp (h.noMissing e he c hc)
      have : x ∈ valuesIn s.samples (fun t => cal.monthOf t = k) c := by
        simp only [valuesIn, List.mem_filterMap, List.mem_filter, decide_eq_true_eq]
        exact ⟨e, ⟨he, hk⟩, hx⟩
      rw [hv] at this
      simp at this

theorem filterMap_all_length {α : Type _} (l : List α) (g : α → Option K) (h : ∀ e ∈ l, (g e).isSome) : (l.filterMap g).length = l.length := by
  induction l with
  | nil => rfl
  | cons e l ih =>
    obtain ⟨v, hv⟩ := Option.isSome_iff_exists.mp (h e (by simp))
    rw [List.filterMap_cons_some hv, List.length_cons, List.length_cons, ih (fun e he => h e (by simp [he]))]

theorem complete_plain (cal : Cal) (s : Series K) (r : ℕ) (h : CompleteMonths cal s r) (hn : 0 < s.ncell) (c : ℕ) (hc : c < s.ncell)
    (L ks : List ℤ) (hL : L.Nodup) (hks : ks = L.filter (fun k => decide (FullMonth cal s k))) (hne : ks ≠ []) :
    some (dayWeighted cal ks (fun k => (monthMean cal s.samples k c).getD 0)) = mean (valuesIn s.samples (fun t => cal.monthOf t ∈ L) c) := by
  have hcount : ∀ k, FullMonth cal s k → ((valuesIn s.samples (fun t => cal.monthOf t = k) c).length : K) = (r : K) * cal.len k := by
    intro k hk
    have hc' := h.complete k ((complete_full cal s r h hn k).mp hk)
    unfold valuesIn
    rw [filterMap_all_length _ _ (fun e he => h.noMissing e (List.mem_filter.mp he).1 c hc)]
    exact_mod_cast congrArg (Int.cast : ℤ → K) hc'
  rw [dayWeighted_plain cal s.samples c ks (by rw [hks]; exact hL.filter _) hne (r : K) (by have := h.perDay; positivity) (fun k hk => ?_)]
  · unfold valuesIn
    congr 2
    refine List.filter_congr fun e he => ?_
    rw [Bool.eq_iff_iff, decide_eq_true_iff, decide_eq_true_iff, hks]
    beta_reduce
    rw [List.mem_filter, decide_eq_true_iff]
    exact ⟨fun h => h.1, fun hh => ⟨hh, (complete_full cal s r h hn _).mpr ⟨e, he, rfl⟩⟩⟩
  · refine hcount k ?_
    rw [hks] at hk
    simpa using (List.mem_filter.mp hk).2

/-- C38, seasons of `calendar_average`: with complete months of daily data (any number of samples per day) the value is the plain
mean of all samples of the season. -/
theorem C38_season (cal : Cal) (infer : InferFreq) (s : Series K) (hn : 0 < s.ncell) (r : ℕ) (hd : CompleteMonths cal s r) (out : List (Entry K))
    (h : calendarAverage cal infer "season" s = .ok out) :
    ∃ b0 : ℤ, ∀ (i : ℕ) (e : Entry K), out[i]? = some e →
      e.key = (cal.monthStart (3 * (b0 + i) - 1) + cal.monthStart (3 * (b0 + i) + 2)) / 2 ∧
      ∀ c < s.ncell, e.val c = mean (valuesIn s.samples (fun t => cal.monthOf t ∈ seasonOfMonths (b0 + i)) c) := by
  obtain ⟨b0, k0, k1, -, -, -, -, -, hval⟩ := C37_season cal infer s hn out h
  refine ⟨b0, fun i e he => ⟨(hval i e he).1, fun c hc => ?_⟩⟩
  obtain ⟨h1, h2⟩ := (hval i e he).2 c hc _ rfl
  by_cases hk : (seasonOfMonths (b0 + i)).filter (fun k => decide (FullMonth cal s k)) = []
  · rw [h1 hk]
    unfold mean
    rw [if_pos]
    unfold valuesIn
    rw [List.filter_eq_nil_iff.mpr]
    · rfl
    · intro e' he'
      simp only [decide_eq_true_eq]
      intro hm
      have : cal.monthOf e'.key ∈ (seasonOfMonths (b0 + i)).filter (fun k => decide (FullMonth cal s k)) := by
        rw [List.mem_filter, decide_eq_true_iff]
        exact ⟨hm, (complete_full cal s r hd hn _).mpr ⟨e', he', rfl⟩⟩
      rw [hk] at this
      simp at this
  · obtain ⟨x, hx1, hx2, -⟩ := h2 hk
    rw [hx1, hx2]
    exact complete_plain cal s r hd hn c hc _ _ ((periodMonths_sorted .season (b0 + i)).imp (fun h => ne_of_lt h)) rfl hk

/-- C38, years. -/
theorem C38_year (cal : Cal) (infer : InferFreq) (s : Series K) (hn : 0 < s.ncell) (r : ℕ) (hd : CompleteMonths cal s r) (out : List (Entry K))
    (h : calendarAverage cal infer "year" s = .ok out) :
    ∃ b0 : ℤ, ∀ (i : ℕ) (e : Entry K), out[i]? = some e →
      e.key = (cal.monthStart (12 * (b0 + i)) + cal.monthStart (12 * (b0 + i) + 12)) / 2 ∧
      ∀ c < s.ncell, e.val c = mean (valuesIn s.samples (fun t => cal.monthOf t ∈ yearOfMonths (b0 + i)) c) := by
  obtain ⟨b0, k0, k1, -, -, -, -, -, hval⟩ := C37_year cal infer s hn out h
  refine ⟨b0, fun i e he => ⟨(hval i e he).1, fun c hc => ?_⟩⟩
  obtain ⟨h1, h2⟩ := (hval i e he).2 c hc _ rfl
  by_cases hk : (yearOfMonths (b0 + i)).filter (fun k => decide (FullMonth cal s k)) = []
  · rw [h1 hk]
    unfold mean
    rw [if_pos]
    unfold valuesIn
    rw [List.filter_eq_nil_iff.mpr]
    · rfl
    · intro e' he'
      simp only [decide_eq_true_eq]
      intro hm
      have : cal.monthOf e'.key ∈ (yearOfMonths (b0 + i)).filter (fun k => decide (FullMonth cal s k)) := by
        rw [List.mem_filter, decide_eq_true_iff]
        exact ⟨hm, (complete_full cal s r hd hn _).mpr ⟨e', he', rfl⟩⟩
      rw [hk] at this
      simp at this
  · obtain ⟨x, hx1, hx2, -⟩ := h2 hk
    rw [hx1, hx2]
    exact complete_plain cal s r hd hn c hc _ _ ((periodMonths_sorted .year (b0 + i)).imp (fun h => ne_of_lt h)) rfl hk

theorem mapM_ok {α β : Type _} (f : α → Except PyErr β) (l : List α) (r : List β) (h : l.mapM f = .ok r) :
    List.Forall₂ (fun a b => f a = .ok b) l r := by
  induction l generalizing r with
  | nil =>
    rw [List.mapM_nil] at h
    injection h with h
    subst h
    exact .nil
  | cons a l ih =>
    rw [List.mapM_cons] at h
    cases hf : f a with
    | error e => rw [hf] at h; cases h
    | ok b =>
      rw [hf] at h
      cases hl : l.mapM f with
      | error e => rw [hl] at h; cases h
      | ok bs =>
        rw [hl] at h
        injection h with h
        subst h
        exact .cons hf (ih bs hl)

theorem climatology_season (cal : Cal) (infer : InferFreq) (custom : List String) (s : Series K) (out : ClimOut K)
    (h : climatologyAverage cal infer "season" custom s = .ok out) :
    ∃ vals, out = .seasons vals ∧ vals.map (·.1) = (if custom = [] then ["DJF", "JJA", "MAM", "SON"] else custom) ∧
      ∀ x ∈ vals, ∃ months, seasonMonths x.1 = some months ∧ seasonClimate cal s months = .ok x.2 := by
  have hp : climatologyPeriod "season" = .ok .season := rfl
  unfold climatologyAverage at h
  simp only [hp, bind, Except.bind] at h
  cases hi : s.isTime with
  | false => simp [hi, throw, throwThe, MonadExceptOf.throw] at h
  | true =>
    simp only [hi, not_true_eq_false, if_false] at h
    cases hu : checkUniform cal infer s with
    | error e => rw [hu] at h; cases h
    | ok u =>
      rw [hu] at h
      simp only [if_true] at h
      unfold seasonClimates at h
      generalize (if custom = [] then ["DJF", "JJA", "MAM", "SON"] else custom) = L at h ⊢
      by_cases hany : L.any (fun n => (seasonMonths n).isNone) = true
      · simp only [hany, if_true] at h
        cases h
      · simp only [hany, if_false, bind, Except.bind] at h
        cases hm : L.mapM (fun n => do return (n, ← seasonClimate cal s ((seasonMonths n).getD [])) : String → Except PyErr (String × (ℕ → Option K))) with
        | error e =>
          simp only [bind, Except.bind] at hm
          rw [hm] at h
          cases h
        | ok vals =>
          have hm' := hm
          simp only [bind, Except.bind] at hm'
          rw [hm'] at h
          injection h with h
          refine ⟨vals, h.symm, ?_, ?_⟩
          · have hf := mapM_ok _ _ _ hm
            clear hm hm' h hany
            induction hf with
            | nil => rfl
            | @cons a b l r hab _ ih =>
              rw [List.map_cons, ih]
              congr 1
              simp only [bind, Except.bind] at hab
              cases hsc : seasonClimate cal s ((seasonMonths a).getD []) with
              | error e => rw [hsc] at hab; cases hab
              | ok v =>
                rw [hsc] at hab
                injection hab with hab
                rw [← hab]
          · have hf := mapM_ok _ _ _ hm
            intro x hx
            obtain ⟨a, ha, hax⟩ : ∃ a ∈ L, (do return (a, ← seasonClimate cal s ((seasonMonths a).getD [])) : Except PyErr (String × (ℕ → Option K))) = .ok x := by
              clear hm hm' h hany
              induction hf with
              | nil => simp at hx
              | @cons a b l r hab _ ih =>
                rcases List.mem_cons.mp hx with rfl | hx
                · exact ⟨a, by simp, hab⟩
                · obtain ⟨a', ha', hax'⟩ := ih hx
                  exact ⟨a', by simp [ha'], hax'⟩
            simp only [bind, Except.bind] at hax
            cases hsc : seasonClimate cal s ((seasonMonths a).getD []) with
            | error e => rw [hsc] at hax; cases hax
            | ok v =>
              rw [hsc] at hax
              injection hax with hax
              subst hax
              simp only
              cases hsm : seasonMonths a with
              | none =>
                exfalso
                apply hany
                exact List.any_eq_true.mpr ⟨a, ha, by rw [hsm]; rfl⟩
              | some months =>
                rw [hsm] at hsc
                exact ⟨months, rfl, hsc⟩

/-- C38, `climatology_average(freq="season")`: with complete months of daily data, the plain mean of all samples of the season's
months, over all years. -/
theorem C38_climatology (cal : Cal) (infer : InferFreq) (custom : List String) (s : Series K) (hn : 0 < s.ncell) (r : ℕ)
    (hd : CompleteMonths cal s r) (out : ClimOut K) (h : climatologyAverage cal infer "season" custom s = .ok out) :
    ∃ vals, out = .seasons vals ∧ vals.map (·.1) = (if custom = [] then ["DJF", "JJA", "MAM", "SON"] else custom) ∧
      ∀ x ∈ vals, ∃ months, seasonMonths x.1 = some months ∧
        ∀ c < s.ncell, x.2 c = mean (valuesIn s.samples (fun t => cal.month t ∈ months) c) := by
  obtain ⟨vals, h1, h2, h3⟩ := climatology_season cal infer custom s out h
  refine ⟨vals, h1, h2, fun x hx => ?_⟩
  obtain ⟨months, hm, hsc⟩ := h3 x hx
  refine ⟨months, hm, fun c hc => ?_⟩
  obtain ⟨ks, hsort, hmem, hval⟩ := seasonClimate_eq cal s hn months x.2 hsc
  have hks : ks = ks.filter (fun k => decide (FullMonth cal s k)) := by
    rw [List.filter_eq_self.mpr]
    intro k hk
    rw [decide_eq_true_iff]
    exact ((hmem k).mp hk).1
  have hne : ks ≠ [] := by
    have hex : ∃ e ∈ s.samples, cal.month e.key ∈ months := by
      unfold seasonClimate at hsc
      simp only [bind, Except.bind] at hsc
      by_contra hcon
      push Not at hcon
      have : s.samples.filter (fun e => decide (cal.month e.key ∈ months)) = [] := by
        rw [List.filter_eq_nil_iff]
        intro e he
        rw [decide_eq_true_iff]
        exact hcon e he
      rw [this, resample, if_pos (Or.inl rfl)] at hsc
      cases hsc
    obtain ⟨e, he, hem⟩ := hex
    exact List.ne_nil_of_mem ((hmem (cal.monthOf e.key)).mpr ⟨(complete_full cal s r hd hn _).mpr ⟨e, he, rfl⟩, hem⟩)
  rw [hval c hc, complete_plain cal s r hd hn c hc ks ks (hsort.imp (fun h => ne_of_lt h)) hks hne]
  unfold valuesIn
  congr 2
  refine List.filter_congr fun e he => ?_
  rw [Bool.eq_iff_iff, decide_eq_true_iff, decide_eq_true_iff]
  beta_reduce
  rw [hmem]
  exact ⟨fun h => h.2, fun hh => ⟨(complete_full cal s r hd hn _).mpr ⟨e, he, rfl⟩, hh⟩⟩

/-- sample with complete months: two samples a day in months of one day each (a calendar with months of one day) -/
def oneDayMonths : Cal where
  monthStart k := 86400 * k
  monthOf t := t / 86400
  wholeDays k := ⟨k, rfl⟩
  pos k := by omega
  short k := by omega
  inMonth t := by omega

def sampleDaily : Series ℚ := ⟨1, (List.range 8).map (fun i : ℕ => ⟨43200 * i, fun _ => some (i * i)⟩), true⟩

example : CompleteMonths oneDayMonths sampleDaily 2 where
  perDay := by decide
  noMissing := by
    intro e he c _
    simp only [sampleDaily, List.mem_map] at he
    obtain ⟨i, -, rfl⟩ := he
    rfl
  complete := by
    rintro k ⟨e, he, hk⟩
    have hl : ∀ k, oneDayMonths.len k = 1 := by intro k; unfold Cal.len; simp only [oneDayMonths]; omega
    rw [hl]
    simp only [sampleDaily, List.mem_map, List.mem_range] at he
    obtain ⟨i, hi, rfl⟩ := he
    simp only [oneDayMonths] at hk
    have : k = 0 ∨ k = 1 ∨ k = 2 ∨ k = 3 := by omega
    rcases this with rfl | rfl | rfl | rfl <;> decide +kernel

example : (calendarAverage oneDayMonths (fun _ => .ok true) "season" sampleDaily |>.toOption |>.map (fun l => l.map (fun e => e.val 0))) = some
    [some (7/2), some (63/2)] := by decide +kernel

end Verif.Props
