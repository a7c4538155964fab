import Verif.Props.Climatology7

/-
C91: seasonal climatology in general; C92: seasonal anomalies.
-/

set_option linter.unusedSectionVars false

namespace Verif.Props
open Model Spec Lemmas
variable {K : Type _} [Field K] [LinearOrder K] [IsStrictOrderedRing K]

/-- `C91`: each season's climatology is the mean over all its full months, in all years, of the month means, weighted with the lengths of
the months. -/
theorem C91_weighted (cal : Cal) (infer : InferFreq) (custom : List String) (s : Series K) (hn : 0 < s.ncell)
    (out : ClimOut K) (h : climatologyAverage cal infer "season" custom s = .ok out) :
    ∃ vals, out = .seasons vals ∧ vals.map (·.1) = (if custom = [] then ["DJF", "JJA", "MAM", "SON"] else custom) ∧
      ∀ x ∈ vals, ∃ months, seasonMonths x.1 = some months ∧
        ∃ ks : List ℤ, ks.Pairwise (· < ·) ∧ (∀ k, k ∈ ks ↔ FullMonth cal s k ∧ Cal.monthNo k ∈ months) ∧
          ∀ c < s.ncell, x.2 c = some (dayWeighted cal ks (fun k => (monthMean cal s.samples k c).getD 0)) := by
  obtain ⟨vals, h1, h2, h3⟩ := climatology_season cal infer custom s out h
  refine ⟨vals, h1, h2, fun x hx => ?_⟩
  obtain ⟨months, hm, hsc⟩ := h3 x hx
  exact ⟨months, hm, seasonClimate_eq cal s hn months x.2 hsc⟩

/-- `C91`, part: a season with at least one full month has a climatology between the smallest and the largest sample of the season in that
cell. Missing: a season with samples but no full month, where it fails (`C91_counterexample`). -/
theorem C91_bounds_partial (cal : Cal) (infer : InferFreq) (custom : List String) (s : Series K) (hn : 0 < s.ncell)
    (out : ClimOut K) (h : climatologyAverage cal infer "season" custom s = .ok out) :
    ∃ vals, out = .seasons vals ∧ ∀ x ∈ vals, ∃ months, seasonMonths x.1 = some months ∧
      ∀ c < s.ncell, ∀ lo hi : K, (∀ e ∈ s.samples, cal.month e.key ∈ months → ∀ v, e.val c = some v → lo ≤ v ∧ v ≤ hi) →
        (∃ k, FullMonth cal s k ∧ Cal.monthNo k ∈ months) → ∃ v, x.2 c = some v ∧ lo ≤ v ∧ v ≤ hi := by
  obtain ⟨vals, h1, -, h3⟩ := C91_weighted cal infer custom s hn out h
  refine ⟨vals, h1, fun x hx => ?_⟩
  obtain ⟨months, hm, ks, -, hmem, hval⟩ := h3 x hx
  refine ⟨months, hm, fun c hc lo hi hb ⟨k, hk⟩ => ⟨_, hval c hc, ?_⟩⟩
  refine dayWeighted_bounds cal ks (List.ne_nil_of_mem ((hmem k).mpr hk)) _ lo hi fun j hj => ?_
  obtain ⟨hfull, hmn⟩ := (hmem j).mp hj
  have hsome := hfull c hc
  unfold monthMean mean at hsome ⊢
  set vs := valuesIn s.samples (fun t => cal.monthOf t = j) c with hvs
  have hvb : ∀ v ∈ vs, lo ≤ v ∧ v ≤ hi := by
    intro v hv
    simp only [hvs, valuesIn, List.mem_filterMap, List.mem_filter, decide_eq_true_eq] at hv
    obtain ⟨e, ⟨he, hek⟩, hev⟩ := hv
    exact hb e he (by unfold Cal.month; rw [hek]; exact hmn) v hev
  split_ifs at hsome ⊢ with hne
  · cases hsome
  · have hl : (0 : K) < vs.length := by
      have := List.length_pos_of_ne_nil hne
      exact_mod_cast this
    rw [Option.getD_some, le_div_iff₀ hl, div_le_iff₀ hl]
    have h5 : ∀ (vs : List K), (∀ v ∈ vs, lo ≤ v ∧ v ≤ hi) → lo * vs.length ≤ vs.sum ∧ vs.sum ≤ hi * vs.length := by
      intro vs hvb
      induction vs with
      | nil => simp
      | cons v vs ih =>
        have h1 := ih (fun w hw => hvb w (by simp [hw]))
        have h2 := hvb v (by simp)
        rw [List.sum_cons, List.length_cons]
        push_cast
        constructor <;> nlinarith
    exact h5 vs hvb

/-- `C91`: a season none of whose months is full (one other cell is missing in each month, say) has climatology 0, not a missing value -/
theorem C91_none_full (cal : Cal) (infer : InferFreq) (custom : List String) (s : Series K) (hn : 0 < s.ncell)
    (out : ClimOut K) (h : climatologyAverage cal infer "season" custom s = .ok out) :
    ∃ vals, out = .seasons vals ∧ ∀ x ∈ vals, ∃ months, seasonMonths x.1 = some months ∧
      ((∀ k, Cal.monthNo k ∈ months → ¬ FullMonth cal s k) → ∀ c < s.ncell, x.2 c = some 0) := by
  obtain ⟨vals, h1, -, h3⟩ := C91_weighted cal infer custom s hn out h
  refine ⟨vals, h1, fun x hx => ?_⟩
  obtain ⟨months, hm, ks, -, hmem, hval⟩ := h3 x hx
  refine ⟨months, hm, fun hno c hc => ?_⟩
  have : ks = [] := by
    rw [List.eq_nil_iff_forall_not_mem]
    intro k hk
    exact hno k ((hmem k).mp hk).2 ((hmem k).mp hk).1
  rw [hval c hc, this]
  simp [dayWeighted]

/-- a year of monthly samples of two cells, all with value 5, except that the second cell is missing from December to February -/
def missingWinter : Series ℚ :=
  ⟨2, (List.range 12).map (fun i : ℕ => ⟨Cal.days360.monthStart i, fun c => if c = 1 ∧ (i = 11 ∨ i ≤ 1) then none else some 5⟩), true⟩

/-- `C91` is false of a season none of whose months is full: here every sample of the first cell is 5, in winter too, but its winter
climatology is 0, because the second cell is missing in winter. -/
theorem C91_counterexample :
    (∀ e ∈ missingWinter.samples, e.val 0 = some 5) ∧
    (climatologyAverage Cal.days360 (fun _ => .ok true) "season" [] missingWinter).toOption.map (fun o =>
      match o with
      | .seasons l => l.map (fun x => (x.1, x.2 0))
      | .times _ => []) = some [("DJF", some 0), ("JJA", some 5), ("MAM", some 5), ("SON", some 5)] := by
  decide +kernel

/-- the months of a meteorological season -/
theorem season_of_month (m : ℤ) (h : 1 ≤ m ∧ m ≤ 12) (name : String) (hname : name ∈ ["DJF", "JJA", "MAM", "SON"]) (months : List ℤ)
    (hm : seasonMonths name = some months) : seasonOf m = name ↔ m ∈ months := by
  simp only [List.mem_cons, List.not_mem_nil, or_false] at hname
  unfold seasonOf
  rcases hname with rfl | rfl | rfl | rfl <;>
    (simp only [seasonMonths, Option.some.injEq] at hm; subst hm; simp only [List.mem_cons, List.not_mem_nil, or_false]
     split_ifs <;> simp <;> omega)

/-- the four season names cover the year -/
theorem seasonOf_mem (m : ℤ) : seasonOf m ∈ ["DJF", "JJA", "MAM", "SON"] := by
  unfold seasonOf
  split_ifs <;> simp

/-- `C92`: the seasonal anomaly of a sample is its value minus the climatology of the season its month belongs to; missing samples stay
missing. -/
theorem C92_values (cal : Cal) (infer : InferFreq) (s : Series K) (hn : 0 < s.ncell)
    (out : List (Entry K)) (h : climateAnomaly cal infer "season" s = .ok out) :
    ∃ vals : List (String × (ℕ → Option K)), climatologyAverage cal infer "season" [] s = .ok (.seasons vals) ∧ out.length = s.samples.length ∧
      ∀ (i : ℕ) (e : Entry K), s.samples[i]? = some e → ∃ (o : Entry K) (x : String × (ℕ → Option K)), out[i]? = some o ∧ o.key = e.key ∧
        x ∈ vals ∧ (∃ months, seasonMonths x.1 = some months ∧ cal.month e.key ∈ months) ∧
        ∀ c < s.ncell, ∃ m, x.2 c = some m ∧ o.val c = (e.val c).map (fun v => v - m) := by
  unfold climateAnomaly at h
  simp only [bind, Except.bind] at h
  cases hi : s.isTime with
  | false => simp [hi, throw, throwThe, MonadExceptOf.throw] at h
  | true =>
    simp only [hi, not_true_eq_false, if_false] at h
    cases hc : climatologyAverage cal infer "season" [] s with
    | error e => simp only [hc] at h; cases h
    | ok o =>
      cases o with
      | times l => simp only [hc] at h; cases h
      | seasons vals =>
        simp only [hc] at h
        injection h with h
        obtain ⟨vals', h1, h2, h3⟩ := C91_weighted cal infer [] s hn _ hc
        injection h1 with h1
        subst h1
        rw [if_pos rfl] at h2
        refine ⟨vals, rfl, by rw [← h]; simp [minusGroup], fun i e hie => ?_⟩
        have hname := seasonOf_mem (cal.month e.key)
        have hr : 1 ≤ cal.month e.key ∧ cal.month e.key ≤ 12 := by unfold Cal.month Cal.monthNo; omega
        obtain ⟨x, hx⟩ : ∃ x, vals.find? (fun x => decide (x.1 = seasonOf (cal.month e.key))) = some x := by
          rw [← Option.isSome_iff_exists, List.find?_isSome]
          rw [← h2] at hname
          obtain ⟨y, hy, hyn⟩ := List.mem_map.mp hname
          exact ⟨y, hy, by simpa using hyn⟩
        have hxm := List.mem_of_find?_eq_some hx
        have hxn : x.1 = seasonOf (cal.month e.key) := by simpa using List.find?_some hx
        obtain ⟨months, hm, ks, -, -, hval⟩ := h3 x hxm
        refine ⟨⟨e.key, fun c => match e.val c, ((vals.find? (fun x => decide (x.1 = seasonOf (cal.month e.key)))).map (·.2 c)).join with
            | some x, some y => some (x - y) | _, _ => none⟩, x, ?_, rfl, hxm, ⟨months, hm, ?_⟩, fun c hcc => ⟨_, hval c hcc, ?_⟩⟩
        · rw [← h, minusGroup, List.getElem?_map, hie]
          rfl
        · rw [← season_of_month _ hr x.1 (by rw [hxn]; exact seasonOf_mem _) months hm]
          exact hxn.symm
        · rw [hx]
          simp only [Option.map_some, Option.join_some, hval c hcc]
          cases e.val c <;> rfl

/-- the months of a season by number -/
theorem season_index (m : ℤ) (h : 1 ≤ m ∧ m ≤ 12) (name : String) (hname : name ∈ ["DJF", "JJA", "MAM", "SON"]) (months : List ℤ)
    (hm : seasonMonths name = some months) : ∃ j, ∀ t, 1 ≤ t ∧ t ≤ 12 → (t ∈ months ↔ (t % 12) / 3 = j) := by
  simp only [List.mem_cons, List.not_mem_nil, or_false] at hname
  rcases hname with rfl | rfl | rfl | rfl <;> (simp only [seasonMonths, Option.some.injEq] at hm; subst hm)
  · exact ⟨0, fun t ht => by simp only [List.mem_cons, List.not_mem_nil, or_false]; omega⟩
  · exact ⟨2, fun t ht => by simp only [List.mem_cons, List.not_mem_nil, or_false]; omega⟩
  · exact ⟨1, fun t ht => by simp only [List.mem_cons, List.not_mem_nil, or_false]; omega⟩
  · exact ⟨3, fun t ht => by simp only [List.mem_cons, List.not_mem_nil, or_false]; omega⟩

/-- `C92`: with complete months of daily data the anomalies of each season add up to zero. -/
theorem C92_sum (cal : Cal) (infer : InferFreq) (s : Series K) (hn : 0 < s.ncell) (r : ℕ) (hd : CompleteMonths cal s r)
    (out : List (Entry K)) (h : climateAnomaly cal infer "season" s = .ok out) (name : String) (hname : name ∈ ["DJF", "JJA", "MAM", "SON"])
    (months : List ℤ) (hm : seasonMonths name = some months) (c : ℕ) (hc : c < s.ncell) :
    (valuesIn out (fun t => cal.month t ∈ months) c).sum = 0 := by
  have hrange : ∀ t, 1 ≤ cal.month t ∧ cal.month t ≤ 12 := fun t => by unfold Cal.month Cal.monthNo; omega
  obtain ⟨vals, hv, hlen, hent⟩ := C92_values cal infer s hn out h
  obtain ⟨vals', h1, hnames, hplain⟩ := C38_climatology cal infer [] s hn r hd _ hv
  injection h1 with h1
  subst h1
  rw [if_pos rfl] at hnames
  set f : ℤ → ℤ × ℤ × ℤ := fun t => ((cal.month t % 12) / 3, 0, 0) with hf
  obtain ⟨j, hj⟩ := season_index 1 (by omega) name hname months hm
  have hz := deviations_sum s.samples f c _ rfl (j, 0, 0)
  rw [← hz]
  congr 1
  have hP : ∀ t, (cal.month t ∈ months) ↔ f t = (j, 0, 0) := by
    intro t
    rw [hj _ (hrange t), hf]
    simp
  have hout : ∀ (i : ℕ) (o : Entry K), out[i]? = some o → ∃ e, s.samples[i]? = some e ∧ o.key = e.key ∧
      o.val c = (e.val c).map (fun v => v - (mean (valuesIn s.samples (fun t => f t = f e.key) c)).getD 0) := by
    intro i o ho
    have hi := (List.getElem?_eq_some_iff.mp ho).1
    rw [hlen] at hi
    obtain ⟨o', x, ho', hk, hx, ⟨ms, hms, hin⟩, hval⟩ := hent i s.samples[i] (List.getElem?_eq_getElem hi)
    rw [ho] at ho'
    injection ho' with ho'
    subst ho'
    refine ⟨_, List.getElem?_eq_getElem hi, hk, ?_⟩
    obtain ⟨m, hm1, hm2⟩ := hval c hc
    obtain ⟨ms', hms', hmean⟩ := hplain x hx
    rw [hms] at hms'
    injection hms' with hms'
    subst hms'
    have hxn : x.1 ∈ ["DJF", "JJA", "MAM", "SON"] := by
      rw [← hnames]
      exact List.mem_map.mpr ⟨x, hx, rfl⟩
    obtain ⟨j', hj'⟩ := season_index 1 (by omega) x.1 hxn ms hms
    have hfe : f s.samples[i].key = (j', 0, 0) := by
      rw [hf]
      simp only [Prod.mk.injEq, and_true]
      exact (hj' _ (hrange _)).mp hin
    rw [hm2]
    have : mean (valuesIn s.samples (fun t => f t = f s.samples[i].key) c) = some m := by
      rw [← hm1, hmean c hc]
      unfold valuesIn
      congr 2
      refine List.filter_congr fun e _ => ?_
      rw [Bool.eq_iff_iff, decide_eq_true_iff, decide_eq_true_iff, hfe]
      beta_reduce
      rw [hj' _ (hrange _), hf]
      simp
    rw [this]
    rfl
  have hall : out.map (fun o => (o.key, o.val c)) = (s.samples.map (fun e : Entry K => (⟨e.key, fun c => (e.val c).map
      (fun v => v - (mean (valuesIn s.samples (fun t => f t = f e.key) c)).getD 0)⟩ : Entry K))).map (fun o => (o.key, o.val c)) := by
    apply List.ext_getElem?
    intro i
    rw [List.map_map, List.getElem?_map, List.getElem?_map]
    cases ho : out[i]? with
    | none =>
      have : s.samples[i]? = none := by
        rw [List.getElem?_eq_none_iff] at ho ⊢
        omega
      rw [this]
      rfl
    | some o =>
      obtain ⟨e, he, hk, hval⟩ := hout i o ho
      rw [he]
      simp only [Option.map_some, Function.comp_apply, hk, hval]
  have hvi : ∀ (l : List (Entry K)) (P : ℤ → Prop) [DecidablePred P], valuesIn l P c =
      ((l.map (fun o => (o.key, o.val c))).filter (fun x => decide (P x.1))).filterMap (·.2) := by
    intro l P _
    unfold valuesIn
    rw [List.filter_map, List.filterMap_map]
    rfl
  rw [hvi, hvi, hall]
  congr 1
  refine List.filter_congr fun x _ => ?_
  rw [Bool.eq_iff_iff, decide_eq_true_iff, decide_eq_true_iff]
  exact hP _

/-- the sample of complete (one day) months has a seasonal climatology only if all four seasons occur: a year of it -/
def wholeDaily : Series ℚ := ⟨1, (List.range 24).map (fun i : ℕ => ⟨43200 * i, fun _ => some (i * i)⟩), true⟩

example : CompleteMonths oneDayMonths wholeDaily 2 where
  perDay := by decide
  noMissing := by
    intro e he c _
    simp only [wholeDaily, List.mem_map] at he
    obtain ⟨i, -, rfl⟩ := he
    rfl
  complete := by
    rintro k ⟨e, he, hk⟩
    have hl : ∀ k, oneDayMonths.len k = 1 := by intro k; unfold Cal.len; simp only [oneDayMonths]; omega
    rw [hl]
    simp only [wholeDaily, List.mem_map, List.mem_range] at he
    obtain ⟨i, hi, rfl⟩ := he
    simp only [oneDayMonths] at hk
    have : ∃ j : Fin 12, k = (j : ℕ) := ⟨⟨i / 2, by omega⟩, by simp; omega⟩
    obtain ⟨j, rfl⟩ := this
    clear hk
    revert j
    decide +kernel

example : (climateAnomaly oneDayMonths (fun _ => .ok true) "season" wholeDaily).toOption.map (fun l => (l.map (fun e => e.val 0)).take 3) =
    some [some (-1027/6), some (-1021/6), some (-1003/6)] := by decide +kernel

example : (climatologyAverage oneDayMonths (fun _ => .ok true) "season" [] wholeDaily).toOption.isSome = true := by decide +kernel

end Verif.Props
