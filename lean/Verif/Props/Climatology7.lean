import Verif.Props.Climatology6
import Mathlib.Tactic.FieldSimp

/-
C41, C42: anomalies.
-/

set_option linter.unusedSectionVars false

namespace Verif.Props
open Model Spec Lemmas
variable {K : Type _} [Field K] [LinearOrder K] [IsStrictOrderedRing K]

theorem before_irrefl (x : ℤ × ℤ × ℤ) : ¬ before x x := by
  unfold before
  omega

theorem filter_single {α β : Type _} [DecidableEq β] (l : List α) (f : α → β) (hn : (l.map f).Nodup) (o : α) (ho : o ∈ l) :
    l.filter (fun e => decide (f e = f o)) = [o] := by
  induction l with
  | nil => simp at ho
  | cons a l ih =>
    rw [List.map_cons, List.nodup_cons] at hn
    rcases List.mem_cons.mp ho with rfl | ho
    · rw [List.filter_cons_of_pos (by simp)]
      congr 1
      rw [List.filter_eq_nil_iff]
      intro e he
      rw [decide_eq_true_iff]
      intro h
      exact hn.1 (List.mem_map.mpr ⟨e, he, h⟩)
    · have hne : ¬ f a = f o := fun h => hn.1 (List.mem_map.mpr ⟨o, ho, h.symm⟩)
      rw [List.filter_cons_of_neg (by simpa using hne), ih hn.2 ho]

/-- a mean exists if there is a value -/
theorem mean_isSome_of (l : List (Entry K)) (P : ℤ → Prop) [DecidablePred P] (c : ℕ) (e : Entry K) (he : e ∈ l) (hP : P e.key) (v : K)
    (hv : e.val c = some v) : ∃ m, mean (valuesIn l P c) = some m := by
  unfold mean
  rw [if_neg]
  · exact ⟨_, rfl⟩
  · apply List.ne_nil_of_mem (a := v)
    simp only [valuesIn, List.mem_filterMap, List.mem_filter, decide_eq_true_eq]
    exact ⟨e, ⟨he, hP⟩, hv⟩

/-- subtracting the mean of each group: differences of a group add up to zero -/
theorem deviations_sum (l : List (Entry K)) (f : ℤ → ℤ × ℤ × ℤ) (c : ℕ) (out : List (Entry K))
    (ho : out = l.map (fun e => ⟨e.key, fun c => (e.val c).map (fun v => v - (mean (valuesIn l (fun t => f t = f e.key) c)).getD 0)⟩)) (x : ℤ × ℤ × ℤ) :
    (valuesIn out (fun t => f t = x) c).sum = 0 := by
  have h1 : valuesIn out (fun t => f t = x) c = (valuesIn l (fun t => f t = x) c).map (fun v => v - (mean (valuesIn l (fun t => f t = x) c)).getD 0) := by
    rw [ho]
    generalize hM : (fun y : ℤ × ℤ × ℤ => fun c => (mean (valuesIn l (fun t => f t = y) c)).getD 0) = M
    have hM' : ∀ y c, (mean (valuesIn l (fun t => f t = y) c)).getD 0 = M y c := fun y c => by rw [← hM]
    simp only [hM']
    unfold valuesIn
    clear ho hM hM'
    induction l with
    | nil => rfl
    | cons e l ih =>
      rw [List.map_cons]
      by_cases h : f e.key = x
      · rw [List.filter_cons_of_pos (by simpa using h), List.filter_cons_of_pos (by simpa using h), List.filterMap_cons, List.filterMap_cons, ih]
        cases hv : e.val c with
        | none => simp [hv]
        | some v => simp [hv, h]
      · rw [List.filter_cons_of_neg (by simpa using h), List.filter_cons_of_neg (by simpa using h), ih]
  rw [h1]
  generalize valuesIn l (fun t => f t = x) c = vs
  unfold mean
  split_ifs with hvs
  · rw [hvs]; rfl
  · have hl : (vs.length : K) ≠ 0 := by
      have := List.length_pos_of_ne_nil hvs
      positivity
    simp only [Option.getD_some]
    have : ∀ (vs : List K) (m : K), (vs.map (fun v => v - m)).sum = vs.sum - vs.length * m := by
      intro vs m
      induction vs with
      | nil => simp
      | cons v vs ih =>
        rw [List.map_cons, List.sum_cons, ih, List.sum_cons, List.length_cons]
        push_cast
        ring
    rw [this]
    field_simp
    ring

theorem anomaly_group (cal : Cal) (infer : InferFreq) (freq : String) (p : Period) (hf : freq = "day" ∧ p = .day ∨ freq = "month" ∧ p = .month)
    (s : Series K) (hvalid : ∀ e ∈ s.samples, ∃ t, cal.year t = medianYear cal s.samples ∧ stamp cal p t = stamp cal p e.key)
    (out : List (Entry K)) (h : climateAnomaly cal infer freq s = .ok out) :
    out = s.samples.map (fun e => ⟨e.key, fun c => (e.val c).map
      (fun v => v - (mean (valuesIn s.samples (fun t => stamp cal p t = stamp cal p e.key) c)).getD 0)⟩) := by
  have hg : GroupFreq freq p := by
    rcases hf with ⟨rfl, rfl⟩ | ⟨rfl, rfl⟩
    · exact Or.inr (Or.inl ⟨rfl, rfl⟩)
    · exact Or.inr (Or.inr ⟨rfl, rfl⟩)
  have hp := hg.simple
  obtain ⟨clim, hclim, hout⟩ : ∃ clim, climatologyAverage cal infer freq [] s = .ok (.times clim) ∧
      out = minusGroup s.samples (groupSum (stampKey cal p) clim) := by
    unfold climateAnomaly at h
    simp only [bind, Except.bind] at h
    cases hi : s.isTime with
    | false => simp [hi, throw, throwThe, MonadExceptOf.throw] at h
    | true =>
      simp only [hi, not_true_eq_false, if_false] at h
      rcases hf with ⟨rfl, rfl⟩ | ⟨rfl, rfl⟩
      · cases hc : climatologyAverage cal infer "day" [] s with
        | error e => simp only [hc] at h; cases h
        | ok o =>
          cases o with
          | seasons l => simp only [hc] at h; cases h
          | times l =>
            simp only [hc] at h
            injection h with h
            exact ⟨l, rfl, h.symm⟩
      · cases hc : climatologyAverage cal infer "month" [] s with
        | error e => simp only [hc] at h; cases h
        | ok o =>
          cases o with
          | seasons l => simp only [hc] at h; cases h
          | times l =>
            simp only [hc] at h
            injection h with h
            exact ⟨l, rfl, h.symm⟩
  obtain ⟨l, st, hl, hlen, hst, hmem, hval, hlab⟩ := C40_groups_partial cal infer freq p hg [] s _ hclim
  injection hl with hl
  subst hl
  have hlab' := hlab hvalid
  -- the labels of the climatology are distinct
  have hmap : clim.map (fun o => stamp cal p o.key) = st := by
    apply List.ext_getElem?
    intro i
    rw [List.getElem?_map]
    by_cases hi : i < clim.length
    · have h1 : clim[i]? = some clim[i] := List.getElem?_eq_getElem hi
      have h2 : st[i]? = some (st[i]'(by omega)) := List.getElem?_eq_getElem (by omega)
      obtain ⟨b, -, -, -, -, hs⟩ := hlab' i _ _ h1 h2
      rw [h1, h2]
      simp only [Option.map_some, hs]
    · rw [List.getElem?_eq_none (by omega), List.getElem?_eq_none (by omega)]
      rfl
  have hnd : (clim.map (fun o => stampKey cal p o.key)).Nodup := by
    have : (clim.map (fun o => stamp cal p o.key)).Nodup := by
      rw [hmap]
      refine hst.imp ?_
      rintro a b hab rfl
      exact before_irrefl a hab
    unfold List.Nodup at this ⊢
    rw [List.pairwise_map] at this ⊢
    exact this.imp (fun hab he => hab ((stampKey_eq cal p hp _ _).mp he))
  rw [hout]
  unfold minusGroup
  refine List.map_congr_left fun e he => ?_
  congr 1
  funext c
  -- the entry of the climatology for this sample
  obtain ⟨i, hi⟩ := List.getElem?_of_mem ((hmem _).mpr ⟨e, he, rfl⟩)
  have hil : i < clim.length := by
    by_contra hc
    rw [List.getElem?_eq_none (by omega)] at hi
    simp at hi
  have h1 : clim[i]? = some clim[i] := List.getElem?_eq_getElem hil
  obtain ⟨b, -, -, -, -, hs⟩ := hlab' i _ _ h1 hi
  have hv := hval i _ _ h1 hi c
  have hsum : groupSum (stampKey cal p) clim e.key c = some ((clim[i].val c).getD 0) := by
    unfold groupSum
    have hk : stampKey cal p e.key = stampKey cal p clim[i].key := (stampKey_eq cal p hp _ _).mpr hs.symm
    simp only [hk]
    rw [filter_single clim (fun o => stampKey cal p o.key) hnd clim[i] (List.getElem_mem hil)]
    rw [if_neg (by simp)]
    congr 1
    unfold nanSum
    cases hcv : clim[i].val c <;> simp [hcv]
  rw [hsum, hv]
  cases e.val c <;> rfl

/-- what C41 says about anomalies with respect to the groups given by a label: the anomaly of a sample is its value minus the mean of its
group (missing if and only if the sample is), and the anomalies of every group add up to zero -/
def IsAnomaly (f : ℤ → ℤ × ℤ × ℤ) (l out : List (Entry K)) : Prop :=
  out.length = l.length ∧
  (∀ (i : ℕ) (e o : Entry K), l[i]? = some e → out[i]? = some o → o.key = e.key ∧
    ∀ c, (e.val c = none → o.val c = none) ∧
      ∀ v, e.val c = some v → ∃ m, mean (valuesIn l (fun t => f t = f e.key) c) = some m ∧ ∃ a, o.val c = some a ∧ v = a + m) ∧
  ∀ (x : ℤ × ℤ × ℤ) (c : ℕ), (valuesIn out (fun t => f t = x) c).sum = 0

theorem isAnomaly_of (l out : List (Entry K)) (f : ℤ → ℤ × ℤ × ℤ)
    (ho : out = l.map (fun e => ⟨e.key, fun c => (e.val c).map (fun v => v - (mean (valuesIn l (fun t => f t = f e.key) c)).getD 0)⟩)) :
    IsAnomaly f l out := by
  refine ⟨by rw [ho, List.length_map], ?_, fun x c => deviations_sum l f c out ho x⟩
  intro i e o he hoi
  rw [ho, List.getElem?_map, he] at hoi
  simp only [Option.map_some, Option.some.injEq] at hoi
  subst hoi
  refine ⟨rfl, fun c => ⟨fun hn => by simp [hn], fun v hv => ?_⟩⟩
  obtain ⟨m, hm⟩ := mean_isSome_of l (fun t => f t = f e.key) c e (List.mem_of_getElem? he) rfl v hv
  refine ⟨m, hm, v - m, ?_, by ring⟩
  simp only [hv, hm, Option.map_some, Option.getD_some]

/-- C41, monthly anomalies. -/
theorem C41_month (cal : Cal) (infer : InferFreq) (s : Series K) (out : List (Entry K)) (h : climateAnomaly cal infer "month" s = .ok out) :
    IsAnomaly (fun t => (cal.month t, 0, 0)) s.samples out := by
  refine isAnomaly_of _ _ _ (anomaly_group cal infer "month" .month (Or.inr ⟨rfl, rfl⟩) s ?_ out h)
  intro e _
  have r := month_range cal e.key
  have hm : cal.monthOf (cal.monthStart (12 * medianYear cal s.samples + cal.month e.key - 1)) = 12 * medianYear cal s.samples + cal.month e.key - 1 :=
    monthOf_unique cal le_rfl (cal.pos _)
  refine ⟨cal.monthStart (12 * medianYear cal s.samples + cal.month e.key - 1), ?_, ?_⟩
  · unfold Cal.year; rw [hm]; omega
  · simp only [stamp, Prod.mk.injEq, and_true]
    unfold Cal.month Cal.monthNo at *
    rw [hm]
    omega

/-- C41, daily anomalies, if every calendar day of the data exists in the median year (otherwise the labels of the climatology can be
shifted by a day, or the call raises: C43). -/
theorem C41_day_partial (cal : Cal) (infer : InferFreq) (s : Series K) (out : List (Entry K)) (h : climateAnomaly cal infer "day" s = .ok out)
    (hvalid : ∀ e ∈ s.samples, cal.day e.key ≤ cal.len (12 * medianYear cal s.samples + cal.month e.key - 1)) :
    IsAnomaly (fun t => (cal.month t, cal.day t, 0)) s.samples out := by
  refine isAnomaly_of _ _ _ (anomaly_group cal infer "day" .day (Or.inl ⟨rfl, rfl⟩) s ?_ out h)
  intro e he
  have r := month_range cal e.key
  have d := day_range cal e.key
  have hv := hvalid e he
  rw [show 12 * medianYear cal s.samples + cal.month e.key - 1 = 12 * medianYear cal s.samples + (cal.month e.key - 1) by ring] at hv
  obtain ⟨t, t1, t2, t3, -⟩ := dayAt cal (medianYear cal s.samples) (cal.month e.key - 1) (cal.day e.key) ⟨by omega, by omega⟩ ⟨d.1, hv⟩
  refine ⟨t, t1, ?_⟩
  simp only [stamp, t2, t3, Prod.mk.injEq, and_true]
  omega

example : (climateAnomaly Cal.noleap (fun _ => .ok true) "month" twoYears).toOption.map (fun l => l.map (fun e => e.val 0)) =
    some ((List.range 24).map (fun i => if i < 12 then some (-6) else some 6)) := by decide +kernel

/-! ### C42 -/

theorem mem_yearOfMonths (y k : ℤ) : k ∈ yearOfMonths y ↔ k / 12 = y := by
  have := mem_periodMonths .year y k
  simpa [periodMonths, monthPeriod] using this

theorem full_year_sample (cal : Cal) (s : Series K) (hn : 0 < s.ncell) (k : ℤ) (h : FullMonth cal s k) :
    ∃ e ∈ s.samples, cal.monthOf e.key = k := full_sample cal .month s hn k h

theorem anomaly_year (cal : Cal) (infer : InferFreq) (s : Series K) (out : List (Entry K)) (h : climateAnomaly cal infer "year" s = .ok out) :
    ∃ clim, calendarAverage cal infer "year" s = .ok clim ∧ out = minusGroup s.samples (groupSum (fun t => cal.year t % 100) clim) := by
  unfold climateAnomaly at h
  simp only [bind, Except.bind] at h
  cases hi : s.isTime with
  | false => simp [hi, throw, throwThe, MonadExceptOf.throw] at h
  | true =>
    simp only [hi, not_true_eq_false, if_false] at h
    cases hc : calendarAverage cal infer "year" s with
    | error e => simp only [hc] at h; cases h
    | ok clim =>
      simp only [hc] at h
      injection h with h
      exact ⟨clim, rfl, h.symm⟩

/-- C42, part that holds: in a record of less than a hundred years, a sample whose year has a month with a value in every cell becomes
its value minus the (day-weighted) average of its own year. -/
theorem C42_year_partial (cal : Cal) (infer : InferFreq) (s : Series K) (hn : 0 < s.ncell) (out : List (Entry K))
    (h : climateAnomaly cal infer "year" s = .ok out)
    (hspan : ∀ e ∈ s.samples, ∀ e' ∈ s.samples, cal.year e.key - cal.year e'.key < 100) :
    out.length = s.samples.length ∧ ∀ (i : ℕ) (e o : Entry K), s.samples[i]? = some e → out[i]? = some o → o.key = e.key ∧
      ∀ c < s.ncell, ∀ ks, ks = (yearOfMonths (cal.year e.key)).filter (fun k => decide (FullMonth cal s k)) → ks ≠ [] →
        o.val c = (e.val c).map (fun v => v - dayWeighted cal ks (fun k => (monthMean cal s.samples k c).getD 0)) := by
  obtain ⟨clim, hclim, hout⟩ := anomaly_year cal infer s out h
  obtain ⟨b0, k0, k1, hk0, hk1, hb, hk0', hk1', hval⟩ := C37_year cal infer s hn clim hclim
  rw [mem_yearOfMonths] at hk0' hk1'
  refine ⟨by rw [hout, minusGroup, List.length_map], ?_⟩
  intro i e o he ho
  rw [hout, minusGroup, List.getElem?_map, he] at ho
  simp only [Option.map_some, Option.some.injEq] at ho
  subst ho
  refine ⟨rfl, fun c hc ks hks hne => ?_⟩
  -- the year of a label
  have hyear : ∀ (j : ℕ) (x : Entry K), clim[j]? = some x → cal.year x.key = b0 + j := by
    intro j x hx
    rw [(hval j x hx).1, year_within]
    have := monthStart_mono cal (show 12 * (b0 + (j : ℤ)) < 12 * (b0 + j) + 12 by omega)
    omega
  obtain ⟨k, hk⟩ := List.exists_mem_of_ne_nil _ hne
  rw [hks, List.mem_filter, decide_eq_true_iff, mem_yearOfMonths] at hk
  have hkb := hb k hk.2
  have hem := List.mem_of_getElem? he
  -- index of the sample's year
  have hj0 : b0 ≤ cal.year e.key := by omega
  have hj1 : cal.year e.key ≤ b0 + clim.length - 1 := by omega
  have hlen : (clim.length : ℤ) ≤ 100 := by
    obtain ⟨e0, he0, hm0⟩ := full_year_sample cal s hn k0 hk0
    obtain ⟨e1, he1, hm1⟩ := full_year_sample cal s hn k1 hk1
    have := hspan e1 he1 e0 he0
    unfold Cal.year at this
    rw [hm0, hm1] at this
    omega
  obtain ⟨x, hx⟩ : ∃ x, clim[(cal.year e.key - b0).toNat]? = some x := by
    rw [List.getElem?_eq_getElem (by omega)]
    exact ⟨_, rfl⟩
  have hxy := hyear _ x hx
  rw [Int.toNat_of_nonneg (by omega)] at hxy
  have hnd : (clim.map (fun o => cal.year o.key % 100)).Nodup := by
    rw [List.nodup_iff_pairwise_ne, List.pairwise_iff_getElem]
    intro a b ha hb' hab
    rw [List.length_map] at ha hb'
    rw [List.getElem_map, List.getElem_map, hyear a _ (List.getElem?_eq_getElem ha), hyear b _ (List.getElem?_eq_getElem hb')]
    omega
  have hsum : groupSum (fun t => cal.year t % 100) clim e.key c = some ((x.val c).getD 0) := by
    unfold groupSum
    have hke : cal.year e.key % 100 = cal.year x.key % 100 := by rw [hxy]; congr 1; omega
    simp only [hke]
    rw [filter_single clim (fun o => cal.year o.key % 100) hnd x (List.mem_of_getElem? hx)]
    rw [if_neg (by simp)]
    congr 1
    unfold nanSum
    cases hcv : x.val c <;> simp [hcv]
  obtain ⟨-, h2⟩ := (hval _ x hx).2 c hc ks (by rw [hks, Int.toNat_of_nonneg (by omega)]; congr 2; omega)
  obtain ⟨v, hv, hvw, -⟩ := h2 hne
  simp only
  rw [hsum, hv, hvw]
  cases e.val c <;> rfl

/-- one sample in each of the years 2000, 2050, 2100 -/
def century : Series ℚ := ⟨1, (List.range 3).map (fun i : ℕ => ⟨Cal.days360.monthStart (24000 + 600 * i), fun _ => some (i + 1)⟩), true⟩

/-- yearly data of two cells; the second one is missing in the middle year -/
def missingYear : Series ℚ := ⟨2, (List.range 3).map (fun i : ℕ => ⟨Cal.days360.monthStart (24000 + 12 * i), fun c => if i = 1 ∧ c = 1 then none else some (i + 1)⟩), true⟩

/-- C42 is false of the code: years are identified by their last two digits, so in a record of more than a hundred years the averages of
different years are added up (the anomaly of a single sample from its own year's average is 0, but the result is -3, 0, -1); and a year
dropped because another cell is missing counts as average 0. -/
theorem C42_counterexample :
    (climateAnomaly Cal.days360 (fun _ => .ok true) "year" century).toOption.map (fun l => l.map (fun e => e.val 0)) =
      some [some (-3), some 0, some (-1)] ∧
    (climateAnomaly Cal.days360 (fun _ => .ok true) "year" missingYear).toOption.map (fun l => l.map (fun e => e.val 0)) =
      some [some 0, some 2, some 0] := by
  constructor <;> decide +kernel

example : (climateAnomaly Cal.days360 (fun _ => .ok true) "year" sampleMonths).toOption.map (fun l => (l.map (fun e => e.val 0)).take 3) =
      some [some 0, some (-11/2), some (-9/2)] := by decide +kernel

end Verif.Props
