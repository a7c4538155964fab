import Verif.Props.Climatology9

/-
C122: the records the averages accept. C40, C41 and C43 in terms of the median year as specified in `Spec/Regular.lean`.
-/

set_option linter.unusedSectionVars false

namespace Verif.Props
open Model Spec Lemmas
variable {K : Type _} [Field K] [LinearOrder K] [IsStrictOrderedRing K]

/-! ### the median -/

theorem sorted_rank (l : List ℤ) (hs : l.Pairwise (· ≤ ·)) (k : ℕ) (a : ℤ) (h : l[k]? = some a) : AtRank l k a := by
  obtain ⟨hk, ha⟩ := List.getElem?_eq_some_iff.mp h
  have hsplit : l = l.take k ++ l.drop k := (List.take_append_drop k l).symm
  have hd : l.drop k = a :: l.drop (k + 1) := by rw [List.drop_eq_getElem_cons hk, ha]
  have hs2 := hs
  rw [hsplit, hd, List.pairwise_append] at hs2
  obtain ⟨-, h2, h3⟩ := hs2
  rw [List.pairwise_cons] at h2
  constructor
  · rw [hsplit, List.countP_append]
    have : (l.drop k).countP (fun x => decide (x < a)) = 0 := by
      rw [List.countP_eq_zero, hd]
      intro x hx
      rw [List.mem_cons] at hx
      rcases hx with rfl | hx
      · simp
      · simpa using h2.1 x hx
    rw [this]
    exact le_trans (by simpa using List.countP_le_length) (by rw [List.length_take]; omega)
  · rw [hsplit, List.countP_append]
    have h1 : (l.take k).countP (fun x => decide (x ≤ a)) = k := by
      rw [List.countP_eq_length.mpr, List.length_take]
      · omega
      · intro x hx
        simpa using h3 x hx a (by simp)
    have h4 : 0 < (l.drop k).countP (fun x => decide (x ≤ a)) := by
      rw [List.countP_pos_iff]
      exact ⟨a, by rw [hd]; simp, by simp⟩
    omega

theorem rank_unique (l : List ℤ) (k : ℕ) (a b : ℤ) (ha : AtRank l k a) (hb : AtRank l k b) : a = b := by
  have key : ∀ a b : ℤ, AtRank l k a → AtRank l k b → ¬ a < b := by
    intro a b ha hb hab
    have : l.countP (fun x => decide (x ≤ a)) ≤ l.countP (fun x => decide (x < b)) := by
      refine List.countP_mono_left fun x _ h => ?_
      simp only [decide_eq_true_eq] at *
      omega
    have h1 := ha.2
    have h2 := hb.1
    omega
  have h1 := key a b ha hb
  have h2 := key b a hb ha
  omega

theorem rank_perm (l l' : List ℤ) (h : l.Perm l') (k : ℕ) (a : ℤ) : AtRank l k a ↔ AtRank l' k a := by
  unfold AtRank
  rw [h.countP_eq, h.countP_eq]

/-- the model's median year is the median year, and the only one -/
theorem isMedianYear_iff (cal : Cal) (s : Series K) (hne : s.samples ≠ []) (M : ℤ) : IsMedianYear cal s M ↔ M = medianYear cal s.samples := by
  unfold IsMedianYear medianYear IsRoundedMedian median2
  generalize hl : s.samples.map (fun e => cal.year e.key) = l
  have hpos : 0 < l.length := by
    rw [← hl, List.length_map]
    exact List.length_pos_of_ne_nil hne
  have hp := List.perm_insertionSort (· ≤ ·) l
  have hs : (l.insertionSort (· ≤ ·)).Pairwise (· ≤ ·) := List.pairwise_insertionSort _ _
  have hlen : (l.insertionSort (· ≤ ·)).length = l.length := List.length_insertionSort _ _
  have hr : ∀ k < l.length, AtRank l k ((l.insertionSort (· ≤ ·)).getD k 0) := by
    intro k hk
    rw [← rank_perm _ _ hp]
    refine sorted_rank _ hs _ _ ?_
    rw [List.getD_eq_getElem?_getD, List.getElem?_eq_getElem (by omega)]
    rfl
  simp only [hlen]
  have r1 := hr ((l.length - 1) / 2) (by omega)
  have r2 := hr (l.length / 2) (by omega)
  generalize (l.insertionSort (· ≤ ·)).getD ((l.length - 1) / 2) 0 = a at r1
  generalize (l.insertionSort (· ≤ ·)).getD (l.length / 2) 0 = b at r2
  constructor
  · rintro ⟨a', b', h1, h2, h3, h4⟩
    rw [rank_unique l _ _ _ h1 r1, rank_unique l _ _ _ h2 r2] at *
    rw [abs_le] at h3
    unfold roundHalf
    split_ifs <;> omega
  · rintro rfl
    refine ⟨a, b, r1, r2, ?_, ?_⟩
    · rw [abs_le]
      unfold roundHalf
      split_ifs <;> omega
    · intro h
      unfold roundHalf
      split_ifs <;> omega

/-! ### accepted records -/

theorem calendar_checked (cal : Cal) (infer : InferFreq) (freq : String) (hf : freq ∈ ["hour", "day", "month", "season", "year"]) (s : Series K)
    (hi : s.isTime = true) (e : PyErr) (h : checkUniform cal infer s = .error e) : calendarAverage cal infer freq s = .error e := by
  simp only [List.mem_cons, List.not_mem_nil, or_false] at hf
  rcases hf with rfl | rfl | rfl | rfl | rfl <;>
    simp [calendarAverage, calendarPeriod, hi, h, bind, Except.bind]

theorem climatology_checked (cal : Cal) (infer : InferFreq) (freq : String) (hf : freq ∈ ["hour", "day", "month", "season"]) (custom : List String)
    (s : Series K) (hi : s.isTime = true) (e : PyErr) (h : checkUniform cal infer s = .error e) :
    climatologyAverage cal infer freq custom s = .error e := by
  simp only [List.mem_cons, List.not_mem_nil, or_false] at hf
  rcases hf with rfl | rfl | rfl | rfl <;>
    simp [climatologyAverage, climatologyPeriod, hi, h, bind, Except.bind]

theorem anomaly_checked (cal : Cal) (infer : InferFreq) (freq : String) (hf : freq ∈ ["day", "month", "season", "year"]) (s : Series K)
    (hi : s.isTime = true) (e : PyErr) (h : checkUniform cal infer s = .error e) : climateAnomaly cal infer freq s = .error e := by
  simp only [List.mem_cons, List.not_mem_nil, or_false] at hf
  have h1 := calendar_checked cal infer "year" (by simp) s hi e h
  have h2 : ∀ f ∈ ["hour", "day", "month", "season"], climatologyAverage cal infer f [] s = .error e := fun f hf =>
    climatology_checked cal infer f hf [] s hi e h
  rcases hf with rfl | rfl | rfl | rfl
  · simp [climateAnomaly, hi, h2 "day" (by simp), bind, Except.bind]
  · simp [climateAnomaly, hi, h2 "month" (by simp), bind, Except.bind]
  · simp [climateAnomaly, hi, h2 "season" (by simp), bind, Except.bind]
  · simp [climateAnomaly, hi, h1, bind, Except.bind]

/-! ### C122 -/

/-- **C122.** A record that is not evenly spaced and does not have exactly one sample in every month from the first to the last is
rejected with a ValueError by all three functions and for every frequency. -/
theorem C122_rejected (cal : Cal) (infer : InferFreq) (s : Series K) (hi : s.isTime = true) (h : infer (s.samples.map (·.key)) = .ok false)
    (hno : ¬ OncePerMonth cal s) :
    (∀ freq ∈ ["hour", "day", "month", "season", "year"], calendarAverage cal infer freq s = .error .valueError) ∧
    (∀ freq ∈ ["hour", "day", "month", "season"], ∀ custom, climatologyAverage cal infer freq custom s = .error .valueError) ∧
    ∀ freq ∈ ["day", "month", "season", "year"], climateAnomaly cal infer freq s = .error .valueError :=
  have hu := uniform_reject cal infer s h hno
  ⟨fun freq hf => calendar_checked cal infer freq hf s hi _ hu, fun freq hf custom => climatology_checked cal infer freq hf custom s hi _ hu,
    fun freq hf => anomaly_checked cal infer freq hf s hi _ hu⟩

/-- **C122.** An exception of `xr.infer_freq` (fewer than three samples, for example) is the caller's. -/
theorem C122_infer_raises (cal : Cal) (infer : InferFreq) (s : Series K) (hi : s.isTime = true) (e : PyErr)
    (h : infer (s.samples.map (·.key)) = .error e) :
    (∀ freq ∈ ["hour", "day", "month", "season", "year"], calendarAverage cal infer freq s = .error e) ∧
    (∀ freq ∈ ["hour", "day", "month", "season"], ∀ custom, climatologyAverage cal infer freq custom s = .error e) ∧
    ∀ freq ∈ ["day", "month", "season", "year"], climateAnomaly cal infer freq s = .error e :=
  have hu := uniform_error cal infer s e h
  ⟨fun freq hf => calendar_checked cal infer freq hf s hi _ hu, fun freq hf custom => climatology_checked cal infer freq hf custom s hi _ hu,
    fun freq hf => anomaly_checked cal infer freq hf s hi _ hu⟩

/-- **C122.** A monthly climatology of a record with one sample in every month exists, however long the months are, if it covers at
least a year. -/
theorem C122_accepted (cal : Cal) (infer : InferFreq) (custom : List String) (s : Series K) (hi : s.isTime = true) (hr : Regular cal infer s)
    (M : ℤ) (hM : IsMedianYear cal s M) (h1 : 1000 ≤ M) (h2 : M ≤ 99999) (hfull : ∀ m, 1 ≤ m → m ≤ 12 → ∃ e ∈ s.samples, cal.month e.key = m) :
    ∃ l : List (Entry K), climatologyAverage cal infer "month" custom s = .ok (.times l) ∧ l.length = 12 := by
  have hne : s.samples ≠ [] := by
    obtain ⟨e, he, -⟩ := hfull 1 le_rfl (by norm_num)
    exact List.ne_nil_of_mem he
  have hm := (isMedianYear_iff cal s hne M).mp hM
  have hf : GroupFreq "month" .month := Or.inr (Or.inr ⟨rfl, rfl⟩)
  have hv : ∀ e ∈ s.samples, ∃ t, cal.year t = medianYear cal s.samples ∧ stamp cal .month t = stamp cal .month e.key := by
    intro e _
    have r := month_range cal e.key
    have hm : cal.monthOf (cal.monthStart (12 * medianYear cal s.samples + cal.month e.key - 1)) = 12 * medianYear cal s.samples + cal.month e.key - 1 :=
      monthOf_unique cal le_rfl (cal.pos _)
    refine ⟨cal.monthStart (12 * medianYear cal s.samples + cal.month e.key - 1), ?_, ?_⟩
    · unfold Cal.year; rw [hm]; omega
    · simp only [stamp, Prod.mk.injEq, and_true]
      unfold Cal.month Cal.monthNo at *
      rw [hm]
      omega
  have hok := (C40_succeeds cal infer "month" .month hf custom s hi hr hne (by rw [← hm]; exact ⟨h1, h2⟩) hv).1.mpr (by
    intro t _ _ _
    have r := month_range cal t
    obtain ⟨e, he, hee⟩ := hfull (cal.month t) r.1 r.2
    exact ⟨e, he, by simp [stamp, hee]⟩)
  obtain ⟨out, hout⟩ := hok
  obtain ⟨l, st, rfl, hlen, hsort, hmem, -⟩ := C40_groups_partial cal infer "month" .month hf custom s out hout
  refine ⟨l, hout, ?_⟩
  rw [hlen]
  have hb : ∀ x, x ∈ st ↔ ∃ m : ℤ, 1 ≤ m ∧ m ≤ 12 ∧ x = (m, 0, 0) := by
    intro x
    rw [hmem]
    constructor
    · rintro ⟨e, -, rfl⟩
      have r := month_range cal e.key
      exact ⟨cal.month e.key, r.1, r.2, rfl⟩
    · rintro ⟨m, m1, m2, rfl⟩
      obtain ⟨e, he, rfl⟩ := hfull m m1 m2
      exact ⟨e, he, rfl⟩
  have hs1 : (st.map (·.1)).Pairwise (· < ·) := by
    rw [List.pairwise_map]
    refine hsort.imp_of_mem ?_
    intro a b ha hb' hab
    obtain ⟨m, -, -, rfl⟩ := (hb a).mp ha
    obtain ⟨m', -, -, rfl⟩ := (hb b).mp hb'
    simpa [before] using hab
  have := sorted_ext hs1 (periodRange_sorted 1 12) (fun x => by
    rw [mem_periodRange, List.mem_map]
    constructor
    · rintro ⟨y, hy, rfl⟩
      obtain ⟨m, m1, m2, rfl⟩ := (hb y).mp hy
      exact ⟨m1, m2⟩
    · rintro ⟨x1, x2⟩
      exact ⟨(x, 0, 0), (hb _).mpr ⟨x, x1, x2, rfl⟩, rfl⟩)
  have hl := congrArg List.length this
  rw [List.length_map, periodRange_length] at hl
  simpa using hl

/-! ### C40, C41 and C43 with the specified median year -/

/-- **C40.** `C40_groups_partial` with the median year of the specification: if every label of the data exists in the median year, each
entry is stamped with a time of the median year that has the entry's label. -/
theorem C40_stamps_partial (cal : Cal) (infer : InferFreq) (freq : String) (p : Period) (hf : GroupFreq freq p) (custom : List String) (s : Series K)
    (out : ClimOut K) (h : climatologyAverage cal infer freq custom s = .ok out) (M : ℤ) (hM : IsMedianYear cal s M)
    (hvalid : ∀ e ∈ s.samples, ∃ t, cal.year t = M ∧ stamp cal p t = stamp cal p e.key) :
    ∃ (l : List (Entry K)), out = .times l ∧ (∀ o ∈ l, cal.year o.key = M) ∧
      (l.map (fun o => stamp cal p o.key)).Pairwise before ∧ (∀ x, x ∈ l.map (fun o => stamp cal p o.key) ↔ ∃ e ∈ s.samples, stamp cal p e.key = x) ∧
      ∀ o ∈ l, ∀ c, o.val c = mean (valuesIn s.samples (fun t => stamp cal p t = stamp cal p o.key) c) := by
  obtain ⟨l, st, rfl, hlen, hsort, hmem, hval, hst⟩ := C40_groups_partial cal infer freq p hf custom s out h
  have hne : s.samples ≠ [] := by
    intro hn
    obtain ⟨-, -, l', -, hg⟩ := climatology_group_ok cal infer freq p hf custom s _ h
    unfold groupClimate groupKeys at hg
    simp [hn, bind, Except.bind, throw, throwThe, MonadExceptOf.throw] at hg
  rw [isMedianYear_iff cal s hne] at hM
  subst hM
  have hst := hst hvalid
  have hget : ∀ (i : ℕ) (o : Entry K), l[i]? = some o → ∃ x, st[i]? = some x ∧ cal.year o.key = medianYear cal s.samples ∧ stamp cal p o.key = x := by
    intro i o ho
    obtain ⟨hi, -⟩ := List.getElem?_eq_some_iff.mp ho
    have hx := List.getElem?_eq_getElem (hlen ▸ hi : i < st.length)
    obtain ⟨b, -, -, -, h4, h5⟩ := hst i o _ ho hx
    exact ⟨_, hx, h4, h5⟩
  have heq : l.map (fun o => stamp cal p o.key) = st := by
    refine List.ext_getElem? fun i => ?_
    rw [List.getElem?_map]
    cases ho : l[i]? with
    | none =>
      rw [List.getElem?_eq_none_iff] at ho
      rw [List.getElem?_eq_none (by omega)]
      rfl
    | some o =>
      obtain ⟨x, hx, -, h5⟩ := hget i o ho
      rw [hx, ← h5]
      rfl
  refine ⟨l, rfl, ?_, by rw [heq]; exact hsort, fun x => by rw [heq]; exact hmem x, ?_⟩
  · intro o ho
    obtain ⟨i, hi⟩ := List.mem_iff_getElem?.mp ho
    obtain ⟨x, -, h4, -⟩ := hget i o hi
    exact h4
  · intro o ho c
    obtain ⟨i, hi⟩ := List.mem_iff_getElem?.mp ho
    obtain ⟨x, hx, -, h5⟩ := hget i o hi
    subst h5
    exact hval i o _ hi hx c

/-- **C41**, daily anomalies, with the median year of the specification: right if every calendar day of the data exists in the median
year. -/
theorem C41_day_median_partial (cal : Cal) (infer : InferFreq) (s : Series K) (out : List (Entry K)) (h : climateAnomaly cal infer "day" s = .ok out)
    (M : ℤ) (hM : IsMedianYear cal s M) (hvalid : ∀ e ∈ s.samples, ∃ t, cal.year t = M ∧ stamp cal .day t = stamp cal .day e.key) :
    IsAnomaly (fun t => (cal.month t, cal.day t, 0)) s.samples out := by
  by_cases hne : s.samples = []
  · exact isAnomaly_of _ _ _ (anomaly_group cal infer "day" .day (Or.inl ⟨rfl, rfl⟩) s (by simp [hne]) out h)
  · rw [isMedianYear_iff cal s hne] at hM
    subst hM
    exact isAnomaly_of _ _ _ (anomaly_group cal infer "day" .day (Or.inl ⟨rfl, rfl⟩) s hvalid out h)

/-- **C43**, exact condition, with the median year of the specification. -/
theorem C43_median (cal : Cal) (infer : InferFreq) (custom : List String) (s : Series K) (hi : s.isTime = true) (hr : Regular cal infer s)
    (y0 y1 : ℤ) (hw : WholeYears cal s y0 y1) (h1000 : 1000 ≤ y0) (h99999 : y1 ≤ 99999) (M : ℤ) (hM : IsMedianYear cal s M) :
    ((∃ out, climatologyAverage cal infer "day" custom s = .ok out) ↔
      ∀ y, y0 ≤ y → y ≤ y1 → ∀ m, 0 ≤ m → m < 12 → cal.len (12 * y + m) ≤ cal.len (12 * M + m)) ∧
    ∀ out, climatologyAverage cal infer "day" custom s = .ok out → ∃ l, out = .times l ∧
      86400 * (l.length : ℤ) = cal.monthStart (12 * M + 12) - cal.monthStart (12 * M) := by
  rw [isMedianYear_iff cal s (whole_ne cal s y0 y1 hw)] at hM
  subst hM
  exact C43_exact cal infer custom s hi hr y0 y1 hw h1000 h99999

/-- **C43** in the Gregorian calendar, with the median year of the specification. -/
theorem C43_gregorian_median (infer : InferFreq) (custom : List String) (s : Series K) (hi : s.isTime = true) (hr : Regular Cal.gregorian infer s)
    (y0 y1 : ℤ) (hw : WholeYears Cal.gregorian s y0 y1) (h1000 : 1000 ≤ y0) (h99999 : y1 ≤ 99999) (M : ℤ) (hM : IsMedianYear Cal.gregorian s M) :
    (∃ out, climatologyAverage Cal.gregorian infer "day" custom s = .ok out) ↔ (Cal.leap M ∨ ∀ y, y0 ≤ y → y ≤ y1 → ¬ Cal.leap y) := by
  rw [isMedianYear_iff Cal.gregorian s (whole_ne Cal.gregorian s y0 y1 hw)] at hM
  subst hM
  exact C43_gregorian infer custom s hi hr y0 y1 hw h1000 h99999

/-- monthly samples in mid-month, 2001 and 2002: not evenly spaced, but one in every month -/
def midMonths : Series ℚ :=
  ⟨1, (List.range 24).map (fun i : ℕ => ⟨(Cal.noleap.monthStart (12 * 2001 + i) + Cal.noleap.monthStart (12 * 2001 + i + 1)) / 2, fun _ => some (i : ℚ)⟩), true⟩

example : OncePerMonth Cal.noleap midMonths := by
  refine ⟨by decide, ?_⟩
  rw [List.isChain_iff_getElem]
  intro i h
  have h' : i + 1 < 24 := by simpa [midMonths] using h
  have hall : ∀ i < 23, (midMonths.samples[i + 1]?).map (fun e => Cal.noleap.monthOf e.key) = (midMonths.samples[i]?).map (fun e => Cal.noleap.monthOf e.key + 1) := by
    decide +kernel
  have := hall i (by omega)
  rw [List.getElem?_eq_getElem h, List.getElem?_eq_getElem (Nat.lt_of_succ_lt h)] at this
  simpa using this

example : IsMedianYear Cal.noleap midMonths 2002 := by
  rw [isMedianYear_iff _ _ (by decide)]
  decide +kernel

/-- samples on 1 January, 3 January and 10 May 2001 -/
def scattered : Series ℚ := ⟨1, [⟨Cal.noleap.monthStart 24012, fun _ => some 1⟩, ⟨Cal.noleap.monthStart 24012 + 2 * 86400, fun _ => some 1⟩,
  ⟨Cal.noleap.monthStart 24016 + 9 * 86400, fun _ => some 1⟩], true⟩

example : ¬ OncePerMonth Cal.noleap scattered := by
  rintro ⟨-, h⟩
  simp only [scattered, List.isChain_cons_cons] at h
  exact absurd h.1 (by decide +kernel)

end Verif.Props
