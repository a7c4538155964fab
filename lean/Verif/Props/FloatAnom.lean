import Verif.Lemmas.AnomRel
import Verif.Props.FloatClim
import Verif.Props.Climatology7

/-
C161: anomalies in floating-point arithmetic.
-/

set_option linter.unusedSectionVars false

namespace Verif.Props
open Model Spec Lemmas
variable {K : Type} [Field K] [LinearOrder K] [IsStrictOrderedRing K]

/-- the subtraction, rounded -/
def subFl (R : Rounding K) (x y : K) : K := R.fl (x - y)

theorem anomaly_exact (cal : Cal) (infer : InferFreq) (freq : String) (s : Series K) :
    climateAnomalyBy exactArith List.sum (fun x y => x - y) cal infer freq s = climateAnomaly cal infer freq s := by
  unfold climateAnomalyBy climateAnomaly
  simp only [climatology_exact, calendar_exact]
  rfl

/-- **C161** Without rounding this is the modelled function. -/
theorem C161_exact (cal : Cal) (infer : InferFreq) (freq : String) (s : Series K) :
    climateAnomalyBy (floatArith Rounding.exact List.sum) List.sum (subFl Rounding.exact) cal infer freq s = climateAnomaly cal infer freq s :=
  anomaly_exact cal infer freq s

theorem groups_length (f : ℤ → ℤ) (l : List (Entry K)) : GroupsUpTo l.length f l := fun _ => List.length_filter_le _ _

/-- **C161** Rounding changes neither which calls succeed nor the time stamps and missing values of the anomalies. -/
theorem C161_labels (R : Rounding K) (sum : List K → K) (cal : Cal) (infer : InferFreq) (freq : String) (s : Series K) :
    SameLabels (climateAnomalyBy (floatArith R sum) sum (subFl R) cal infer freq s) (climateAnomaly cal infer freq s) := by
  rw [← anomaly_exact]
  have hs : SeriesRel (fun _ _ => True) s s := series_self s (fun _ _ _ _ _ => trivial)
  have hl : ∀ f (o : Except PyErr (List (Entry K))), ∃ L, ∀ l, o = .ok l → GroupsUpTo L f l := by
    intro f o
    cases o with
    | error e => exact ⟨0, fun _ h => by cases h⟩
    | ok l => exact ⟨l.length, fun l' h => by cases h; exact groups_length f l⟩
  have hl' : ∀ f (o : Except PyErr (ClimOut K)), ∃ L, ∀ l, o = .ok (.times l) → GroupsUpTo L f l := by
    intro f o
    cases o with
    | error e => exact ⟨0, fun _ h => by cases h⟩
    | ok o => cases o with
      | times l => exact ⟨l.length, fun l' h => by cases h; exact groups_length f l⟩
      | seasons l => exact ⟨0, fun _ h => by cases h⟩
  obtain ⟨L1, h1⟩ := hl' (stampKey cal .day) (climatologyAverageBy exactArith cal infer "day" [] s)
  obtain ⟨L2, h2⟩ := hl' (stampKey cal .month) (climatologyAverageBy exactArith cal infer "month" [] s)
  obtain ⟨L3, h3⟩ := hl (fun t => cal.year t % 100) (calendarAverageBy exactArith cal infer "year" s)
  have hc := (C159_labels R sum cal infer freq "DJF" [] s).2.1
  have hy := (C159_labels R sum cal infer "year" "DJF" [] s).1
  rw [← climatology_exact] at hc
  rw [← calendar_exact] at hy
  exact rel_anomaly (L := max L1 (max L2 L3)) (ρ3 := fun _ _ => True) (fun _ _ _ _ => trivial) (fun _ _ _ => trivial) (fun _ _ _ _ _ _ => trivial) cal infer freq hs
    (fun _ => hc) (fun _ => hy) (fun _ l hl t => (h1 l hl t).trans (by omega)) (fun _ l hl t => (h2 l hl t).trans (by omega))
    (fun _ l hl t => (h3 l hl t).trans (by omega))

theorem addsUp_single {R : Rounding K} {sum : List K → K} (hs : AddsUp R sum) (x : K) : sum [x] = x := by
  obtain ⟨t, ht, e⟩ := hs.2 [x] (by simp)
  rw [e]
  cases t with
  | leaf y => simpa [SumTree.list, SumTree.sumFl] using ht
  | node a b =>
    exfalso
    have := ht.length_eq
    have ha := list_ne_nil a
    have hb := list_ne_nil b
    simp only [SumTree.list, List.length_append, List.length_singleton] at this
    omega

theorem tree_rep (R : Rounding K) (t : SumTree K) (h : ∀ x ∈ t.list, R.rep x) : R.rep (t.sumFl R) := by
  cases t with
  | leaf x => exact h x (by simp [SumTree.list])
  | node a b => exact R.rep_fl _

theorem addsUp_rep {R : Rounding K} {sum : List K → K} (hs : AddsUp R sum) (l : List K) (h : ∀ x ∈ l, R.rep x) : R.rep (sum l) := by
  by_cases hl : l = []
  · subst hl; rw [hs.1]; exact R.rep_zero
  · obtain ⟨t, ht, e⟩ := hs.2 l hl
    rw [e]
    exact tree_rep R t (fun x hx => h x (ht.mem_iff.mp hx))

/-- the averages are stored numbers -/
theorem rep_rel {R : Rounding K} {sum : List K → K} (hs : AddsUp R sum) {A' : ClimArith K} {N M : ℕ} {ρ0 ρ1 ρ2 : K → K → Prop}
    (H : ArithRel (floatArith R sum) A' N M ρ0 ρ1 ρ2) :
    ArithRel (floatArith R sum) A' N M ρ0 (fun x y => ρ1 x y ∧ R.rep x) (fun x y => ρ2 x y ∧ R.rep x) where
  mean l l' hl hN h := ⟨H.mean l l' hl hN h, R.rep_fl _⟩
  wsum D l l' hM hpos hD h := ⟨H.wsum D l l' hM hpos hD (h.imp (fun _ _ h => ⟨h.1.1, h.2⟩)),
    addsUp_rep hs _ (fun x hx => by obtain ⟨y, -, rfl⟩ := List.mem_map.mp hx; exact R.rep_fl _)⟩

/-- a sum of at most one average -/
theorem single_rel {R : Rounding K} {sum : List K → K} (hs : AddsUp R sum) {b : K} (hb : 0 ≤ b) (l l' : List K) (hl : l.length ≤ 1)
    (h : List.Forall₂ (fun x y => Within b x y ∧ R.rep x) l l') : Within b (sum l) l'.sum ∧ R.rep (sum l) := by
  cases h with
  | nil => rw [hs.1]; exact ⟨by simpa [Within] using hb, R.rep_zero⟩
  | @cons x y l l' h ht =>
    have : l = [] := by simpa using hl
    subst this
    cases ht
    rw [addsUp_single hs]
    simpa using h

theorem sub_rel {R : Rounding K} {u η : K} (A : R.Accurate u η) {b : K} (x y y' : K) (hx : R.rep x) (hy : R.rep y) (h : |y - y'| ≤ b) :
    |subFl R x y - (x - y')| ≤ u * |x - y'| + (1 + u) * b := by
  have h1 := A.add x (-y) hx (R.rep_neg _ hy)
  have hu := A.u_nonneg
  rw [← sub_eq_add_neg] at h1
  have h2 : |x - y| ≤ |x - y'| + b := by
    have : x - y = (x - y') - (y - y') := by ring
    rw [this]
    exact (abs_sub _ _).trans (by linarith)
  have h3 := mul_le_mul_of_nonneg_left h2 hu
  have h4 := abs_sub_le (subFl R x y) (x - y) (x - y')
  have h5 : |x - y - (x - y')| = |y - y'| := by rw [← abs_neg]; congr 1; ring
  unfold subFl at *
  rw [h5] at h4
  linarith

section float64
variable [FloorRing K]

/-- how far a rounded anomaly may be from the exact one: one rounding of the anomaly, and the error `b` of the average -/
def AnomalyWithin (b x y : K) : Prop := |x - y| ≤ 2 ^ (-53 : ℤ) * |y| + (1 + 2 ^ (-53 : ℤ)) * b

theorem float64Bound_nonneg (N M : ℕ) (X : K) (hX : 0 ≤ X) : 0 ≤ float64Bound N M X := by
  unfold float64Bound
  positivity

/-- accuracy in float64, where the average each sample is compared with is one average (`hday`, `hmonth`, `hyear`: the groups of
`clim.groupby(...)` have one member): the anomaly has at most one rounding error of its own and the error of the average (C159). -/
theorem anomaly_accuracy (sum : List K → K) (hsum : AddsUp float64 sum) (cal : Cal) (infer : InferFreq) (freq : String) (s : Series K)
    (N M : ℕ) (hM : 12 ≤ M) (hNM : N + M + 2 ≤ 2 ^ 52) (X : K) (hX : 0 ≤ X) (hst : StoredUpTo float64 X s) (hN : s.samples.length ≤ N)
    (k0 : ℤ) (hspan : ∀ e ∈ s.samples, k0 ≤ cal.monthOf e.key ∧ cal.monthOf e.key < k0 + M)
    (hday : freq = "day" → ∀ l, climatologyAverage cal infer "day" [] s = .ok (.times l) → GroupsUpTo 1 (stampKey cal .day) l)
    (hmonth : freq = "month" → ∀ l, climatologyAverage cal infer "month" [] s = .ok (.times l) → GroupsUpTo 1 (stampKey cal .month) l)
    (hyear : freq = "year" → ∀ l, calendarAverage cal infer "year" s = .ok l → GroupsUpTo 1 (fun t => cal.year t % 100) l) :
    OutRel (List.Forall₂ (EntryRel (AnomalyWithin (2 * (N + M + 2) * 2 ^ (-53 : ℤ) * X + 6 * M * 2 ^ (-1075 : ℤ) * (1 + X)))))
      (climateAnomalyBy (floatArith float64 sum) sum (subFl float64) cal infer freq s) (climateAnomaly cal infer freq s) := by
  rw [← anomaly_exact]
  change OutRel (List.Forall₂ (EntryRel (AnomalyWithin (float64Bound N M X)))) _ _
  have hf : ∀ q : Entry K → Bool, (s.samples.filter q).length ≤ N := fun q => (List.length_filter_le _ _).trans hN
  have hc : OutRel (ClimRel (fun x y => Within (float64Bound N M X) x y ∧ (float64 : Rounding K).rep x))
      (climatologyAverageBy (floatArith float64 sum) cal infer freq [] s) (climatologyAverageBy exactArith cal infer freq [] s) :=
    rel_climatology (rep_rel hsum (float_arith_rel float64_accurate hsum N M X hX)) cal infer freq [] (stored_rel hst) (fun _ _ _ _ => hf _) (fun _ => hf _)
      (months_bounded cal _ s k0 M hspan) _
      (fun x y h => ⟨(h.1.1.trans (mean_bound N (by omega) X hX)).trans (mean_le_weighted N M (by omega) X hX), h.2⟩)
      (fun x y h => ⟨h.1.trans (weighted_bound N M (by omega) hNM X hX), h.2⟩)
  have hmono : float64Bound N 12 X ≤ float64Bound N M X := by
    unfold float64Bound
    have : ((12 : ℕ) : K) ≤ M := by exact_mod_cast hM
    gcongr
  have hy : OutRel (List.Forall₂ (EntryRel (fun x y => Within (float64Bound N M X) x y ∧ (float64 : Rounding K).rep x)))
      (calendarAverageBy (floatArith float64 sum) cal infer "year" s) (calendarAverageBy exactArith cal infer "year" s) :=
    rel_calendar (rep_rel hsum (float_arith_rel float64_accurate hsum N 12 X hX)) cal infer "year" (stored_rel hst) (fun _ _ _ => hf _) _
      (fun x y h => ⟨((h.1.1.trans (mean_bound N (by omega) X hX)).trans (mean_le_weighted N 12 (by norm_num) X hX)).trans hmono, h.2⟩)
      (fun x y h => ⟨(h.1.trans (weighted_bound N 12 (by norm_num) (by omega) X hX)).trans hmono, h.2⟩)
  refine rel_anomaly (L := 1) (single_rel hsum (float64Bound_nonneg N M X hX)) (fun _ _ h => h) ?_ cal infer freq (stored_rel hst) (fun _ => hc) (fun _ => hy)
    ?_ ?_ ?_
  · intro x x' y y' hx hy
    rw [← hx.1]
    exact sub_rel float64_accurate x y y' hx.2.1 hy.2 hy.1
  · intro h l hl; rw [climatology_exact] at hl; exact hday h l hl
  · intro h l hl; rw [climatology_exact] at hl; exact hmonth h l hl
  · intro h l hl; rw [calendar_exact] at hl; exact hyear h l hl

end float64

theorem groups_one (f : ℤ → ℤ) (l : List (Entry K)) (h : (l.map (fun e => f e.key)).Nodup) : GroupsUpTo 1 f l := by
  intro t
  by_cases hx : ∃ o ∈ l, f o.key = f t
  · obtain ⟨o, ho, e⟩ := hx
    rw [← e, filter_single l (fun e => f e.key) h o ho]
    rfl
  · rw [List.filter_eq_nil_iff.mpr (fun a ha => by simpa using fun e => hx ⟨a, ha, e⟩)]
    simp

/-- the labels of a climatology are in different groups -/
theorem clim_groups (cal : Cal) (infer : InferFreq) (freq : String) (p : Period) (hg : GroupFreq freq p)
    (s : Series K) (hvalid : ∀ e ∈ s.samples, ∃ t, cal.year t = medianYear cal s.samples ∧ stamp cal p t = stamp cal p e.key)
    (clim : List (Entry K)) (hclim : climatologyAverage cal infer freq [] s = .ok (.times clim)) : GroupsUpTo 1 (stampKey cal p) clim := by
  obtain ⟨l, st, hl, hlen, hst, hmem, hval, hlab⟩ := C40_groups_partial cal infer freq p hg [] s _ hclim
  injection hl with hl
  subst hl
  have hlab' := hlab hvalid
  have hmap : clim.map (fun o => stamp cal p o.key) = st := by
    apply List.ext_getElem?
    intro i
    rw [List.getElem?_map]
    by_cases hi : i < clim.length
    · have h1 : clim[i]? = some clim[i] := List.getElem?_eq_getElem hi
      have h2 : st[i]? = some (st[i]'(by omega)) := List.getElem?_eq_getElem (by omega)
      obtain ⟨b, -, -, -, -, hs⟩ := hlab' i _ _ h1 h2
      rw [h1, h2]
      simp only [Option.map_some, hs]
    · rw [List.getElem?_eq_none (by omega), List.getElem?_eq_none (by omega)]
      rfl
  refine groups_one _ _ ?_
  have : (clim.map (fun o => stamp cal p o.key)).Nodup := by
    rw [hmap]
    refine hst.imp ?_
    rintro a b hab rfl
    exact before_irrefl a hab
  unfold List.Nodup at this ⊢
  rw [List.pairwise_map] at this ⊢
  exact this.imp (fun hab he => hab ((stampKey_eq cal p hg.simple _ _).mp he))

/-- the yearly averages of less than a hundred years are in different groups -/
theorem year_groups (cal : Cal) (infer : InferFreq) (s : Series K) (hn : 0 < s.ncell) (clim : List (Entry K)) (hclim : calendarAverage cal infer "year" s = .ok clim)
    (hspan : ∀ e ∈ s.samples, ∀ e' ∈ s.samples, cal.year e.key - cal.year e'.key < 100) : GroupsUpTo 1 (fun t => cal.year t % 100) clim := by
  obtain ⟨b0, k0, k1, hk0, hk1, hb, hk0', hk1', hval⟩ := C37_year cal infer s hn clim hclim
  rw [mem_yearOfMonths] at hk0' hk1'
  have hyear : ∀ (j : ℕ) (x : Entry K), clim[j]? = some x → cal.year x.key = b0 + j := by
    intro j x hx
    rw [(hval j x hx).1, year_within]
    have := monthStart_mono cal (show 12 * (b0 + (j : ℤ)) < 12 * (b0 + j) + 12 by omega)
    omega
  have hlen : (clim.length : ℤ) ≤ 100 := by
    obtain ⟨e0, he0, hm0⟩ := full_year_sample cal s hn k0 hk0
    obtain ⟨e1, he1, hm1⟩ := full_year_sample cal s hn k1 hk1
    have := hspan e1 he1 e0 he0
    unfold Cal.year at this
    rw [hm0, hm1] at this
    omega
  refine groups_one _ _ ?_
  rw [List.nodup_iff_pairwise_ne, List.pairwise_iff_getElem]
  intro a b ha hb' hab
  rw [List.length_map] at ha hb'
  rw [List.getElem_map, List.getElem_map, hyear a _ (List.getElem?_eq_getElem ha), hyear b _ (List.getElem?_eq_getElem hb')]
  omega

theorem month_valid (cal : Cal) (s : Series K) (e : Entry K) :
    ∃ t, cal.year t = medianYear cal s.samples ∧ stamp cal .month t = stamp cal .month e.key := by
  have r := month_range cal e.key
  have hm : cal.monthOf (cal.monthStart (12 * medianYear cal s.samples + cal.month e.key - 1)) = 12 * medianYear cal s.samples + cal.month e.key - 1 :=
    monthOf_unique cal le_rfl (cal.pos _)
  refine ⟨cal.monthStart (12 * medianYear cal s.samples + cal.month e.key - 1), ?_, ?_⟩
  · unfold Cal.year; rw [hm]; omega
  · simp only [stamp, Prod.mk.injEq, and_true]
    unfold Cal.month Cal.monthNo at *
    rw [hm]
    omega

theorem day_valid (cal : Cal) (s : Series K) (e : Entry K) (hv : cal.day e.key ≤ cal.len (12 * medianYear cal s.samples + cal.month e.key - 1)) :
    ∃ t, cal.year t = medianYear cal s.samples ∧ stamp cal .day t = stamp cal .day e.key := by
  have r := month_range cal e.key
  have d := day_range cal e.key
  rw [show 12 * medianYear cal s.samples + cal.month e.key - 1 = 12 * medianYear cal s.samples + (cal.month e.key - 1) by ring] at hv
  obtain ⟨t, t1, t2, t3, -⟩ := dayAt cal (medianYear cal s.samples) (cal.month e.key - 1) (cal.day e.key) ⟨by omega, by omega⟩ ⟨d.1, hv⟩
  refine ⟨t, t1, ?_⟩
  simp only [stamp, t2, t3, Prod.mk.injEq, and_true]
  omega

/-- what `climate_anomaly` needs to find the average of a sample's own group (see C41, C42): for daily anomalies the calendar days of the data exist in
the median year, for yearly anomalies the record is shorter than a hundred years -/
def FindsOwnGroup (cal : Cal) (freq : String) (s : Series K) : Prop :=
  (freq = "day" → ∀ e ∈ s.samples, cal.day e.key ≤ cal.len (12 * medianYear cal s.samples + cal.month e.key - 1)) ∧
  (freq = "year" → 0 < s.ncell ∧ ∀ e ∈ s.samples, ∀ e' ∈ s.samples, cal.year e.key - cal.year e'.key < 100)

section float64
variable [FloorRing K]

/-- **C161** Accuracy in float64: the anomaly has at most one rounding error of its own and the error of the average (C159). -/
theorem C161_accuracy (sum : List K → K) (hsum : AddsUp float64 sum) (cal : Cal) (infer : InferFreq) (freq : String) (s : Series K)
    (hown : FindsOwnGroup cal freq s)
    (N M : ℕ) (hM : 12 ≤ M) (hNM : N + M + 2 ≤ 2 ^ 52) (X : K) (hX : 0 ≤ X) (hst : StoredUpTo float64 X s) (hN : s.samples.length ≤ N)
    (k0 : ℤ) (hspan : ∀ e ∈ s.samples, k0 ≤ cal.monthOf e.key ∧ cal.monthOf e.key < k0 + M) :
    OutRel (List.Forall₂ (EntryRel (AnomalyWithin (2 * (N + M + 2) * 2 ^ (-53 : ℤ) * X + 6 * M * 2 ^ (-1075 : ℤ) * (1 + X)))))
      (climateAnomalyBy (floatArith float64 sum) sum (subFl float64) cal infer freq s) (climateAnomaly cal infer freq s) :=
  anomaly_accuracy sum hsum cal infer freq s N M hM hNM X hX hst hN k0 hspan
    (fun h l hl => clim_groups cal infer "day" .day (.inr (.inl ⟨rfl, rfl⟩)) s (fun e he => day_valid cal s e (hown.1 h e he)) l hl)
    (fun _ l hl => clim_groups cal infer "month" .month (.inr (.inr ⟨rfl, rfl⟩)) s (fun e _ => month_valid cal s e) l hl)
    (fun h l hl => year_groups cal infer s (hown.2 h).1 l hl (hown.2 h).2)

end float64

/-! ### data of similar size: the subtraction is exact -/

theorem stored_arith {R : Rounding K} {sum : List K → K} (hs : AddsUp R sum) (N M : ℕ) :
    ArithRel (floatArith R sum) (floatArith R sum) N M (fun _ _ => True) (fun x _ => R.rep x) (fun x _ => R.rep x) where
  mean _ _ _ _ _ := R.rep_fl _
  wsum _ _ _ _ _ _ _ := addsUp_rep hs _ (fun x hx => by obtain ⟨y, -, rfl⟩ := List.mem_map.mp hx; exact R.rep_fl _)

theorem rel_rep {R : Rounding K} {l l' : List (Entry K)} (h : List.Forall₂ (EntryRel (fun x _ => R.rep x)) l l') (e : Entry K) (he : e ∈ l) (c : ℕ) (x : K)
    (hx : e.val c = some x) : R.rep x := by
  induction h with
  | nil => simp at he
  | @cons a b l l' h _ ih =>
    rcases List.mem_cons.mp he with rfl | he
    · have := h.2 c
      rw [hx] at this
      revert this
      generalize b.val c = w
      intro this
      cases w with
      | none => exact this.elim
      | some w => exact this
    · exact ih he

/-- the averages are stored numbers -/
theorem clim_rep {R : Rounding K} {sum : List K → K} (hs : AddsUp R sum) (cal : Cal) (infer : InferFreq) (freq : String) (s : Series K) (clim : List (Entry K))
    (h : climatologyAverageBy (floatArith R sum) cal infer freq [] s = .ok (.times clim)) : ∀ e ∈ clim, ∀ c x, e.val c = some x → R.rep x := by
  obtain ⟨k0, M, hM⟩ := months_exist cal s.samples
  have := rel_climatology (stored_arith hs s.samples.length M) cal infer freq [] (series_self s (fun _ _ _ _ _ => trivial))
    (fun _ _ _ _ => List.length_filter_le _ _) (fun _ => List.length_filter_le _ _) (months_bounded cal _ s k0 M hM) (fun x _ => R.rep x) (fun _ _ h => h) (fun _ _ h => h)
  rw [h] at this
  exact fun e he c x hx => rel_rep this e he c x hx

theorem groups_transfer {ρ : K → K → Prop} {L : ℕ} {f : ℤ → ℤ} {l l' : List (Entry K)} (h : List.Forall₂ (EntryRel ρ) l l') (hL : GroupsUpTo L f l') : GroupsUpTo L f l := by
  intro t
  rw [(rel_filter h (fun e => decide (f e.key = f t)) (fun a b hab => by simp only [hab.1])).length_eq]
  exact hL t

/-- **C161** Where a sample and the average of its group are within a factor of two of each other (temperatures in Kelvin, pressures), the anomaly is the
exact difference of the two numbers, and adding the average gives the sample back exactly, for daily and monthly anomalies. -/
theorem C161_similar_size (R : Rounding K) (sum : List K → K) (hsum : AddsUp R sum) (cal : Cal) (infer : InferFreq) (freq : String) (p : Period)
    (hf : freq = "day" ∧ p = .day ∨ freq = "month" ∧ p = .month) (s : Series K) (hown : FindsOwnGroup cal freq s)
    (out clim : List (Entry K)) (hout : climateAnomalyBy (floatArith R sum) sum (subFl R) cal infer freq s = .ok out)
    (hclim : climatologyAverageBy (floatArith R sum) cal infer freq [] s = .ok (.times clim)) :
    out.length = s.samples.length ∧ ∀ (i : ℕ) (e o : Entry K), s.samples[i]? = some e → out[i]? = some o → o.key = e.key ∧
      ∀ a ∈ clim, stamp cal p a.key = stamp cal p e.key → ∀ c x m, e.val c = some x → a.val c = some m → R.rep x → 0 ≤ m → m ≤ 2 * x → x ≤ 2 * m →
        o.val c = some (x - m) ∧ R.fl (x - m + m) = x := by
  have hg : GroupFreq freq p := by
    rcases hf with ⟨rfl, rfl⟩ | ⟨rfl, rfl⟩
    · exact Or.inr (Or.inl ⟨rfl, rfl⟩)
    · exact Or.inr (Or.inr ⟨rfl, rfl⟩)
  have hone : GroupsUpTo 1 (stampKey cal p) clim := by
    have hl := (C159_labels R sum cal infer freq "DJF" [] s).2.1
    rw [hclim] at hl
    cases hc : climatologyAverage cal infer freq [] s with
    | error e => rw [hc] at hl; exact hl.elim
    | ok o => cases o with
      | seasons l => rw [hc] at hl; exact hl.elim
      | times l =>
        rw [hc] at hl
        refine groups_transfer hl (clim_groups cal infer freq p hg s ?_ l hc)
        intro e he
        rcases hf with ⟨rfl, rfl⟩ | ⟨rfl, rfl⟩
        · exact day_valid cal s e (hown.1 rfl e he)
        · exact month_valid cal s e
  have ho : out = minusGroupBy (subFl R) s.samples (groupSumBy sum (stampKey cal p) clim) := by
    unfold climateAnomalyBy at hout
    simp only [bind, Except.bind] at hout
    cases hi : s.isTime with
    | false => simp [hi, throw, throwThe, MonadExceptOf.throw] at hout
    | true =>
      simp only [hi, not_true_eq_false, if_false] at hout
      rcases hf with ⟨rfl, rfl⟩ | ⟨rfl, rfl⟩
      · simp only [hclim] at hout
        injection hout with h
        exact h.symm
      · simp only [hclim] at hout
        injection hout with h
        exact h.symm
  subst ho
  refine ⟨by rw [minusGroupBy, List.length_map], ?_⟩
  intro i e o he hoi
  rw [minusGroupBy, List.getElem?_map, he] at hoi
  simp only [Option.map_some, Option.some.injEq] at hoi
  subst hoi
  refine ⟨rfl, ?_⟩
  intro a ha hst c x m hx hm hrx hm0 h1 h2
  have hrm := clim_rep hsum cal infer freq s clim hclim a ha c m hm
  have hkey : stampKey cal p a.key = stampKey cal p e.key := (stampKey_eq cal p hg.simple _ _).mpr hst
  have hmem : a ∈ clim.filter (fun b => stampKey cal p b.key = stampKey cal p e.key) := List.mem_filter.mpr ⟨ha, by simpa using hkey⟩
  have hlist : clim.filter (fun b => stampKey cal p b.key = stampKey cal p e.key) = [a] := by
    have h1 := hone e.key
    generalize clim.filter (fun b => stampKey cal p b.key = stampKey cal p e.key) = l at *
    match l, hmem, h1 with
    | [b], hm, _ => rw [List.mem_singleton.mp hm]
    | _ :: _ :: _, _, h => simp at h
  have hsub : R.rep (x - m) := R.rep_sub x m hrx hrm hm0 h1 h2
  constructor
  · simp only [groupSumBy, hlist, List.filterMap_cons, hm, List.filterMap_nil, addsUp_single hsum, hx, reduceCtorEq, if_false, subFl]
    rw [R.fl_of_rep _ hsub]
  · rw [sub_add_cancel, R.fl_of_rep _ hrx]

section examples

/-- two years of monthly temperatures in Kelvin (a calendar without leap days) -/
def kelvinMonths : Series ℚ := ⟨1, (List.range 24).map (fun i : ℕ => ⟨Cal.noleap.monthStart (24240 + i), fun _ => some (float64.fl (27315 / 100 + i / 10))⟩), true⟩

-- every sample is within a factor of two of the average of its month: the hypotheses of `C161_similar_size`
example : ∃ out clim, climateAnomalyBy (floatArith float64 (leftSum float64)) (leftSum float64) (subFl float64) Cal.noleap (fun _ => .ok true) "month" kelvinMonths = .ok out ∧
    climatologyAverageBy (floatArith float64 (leftSum float64)) Cal.noleap (fun _ => .ok true) "month" [] kelvinMonths = .ok (.times clim) ∧
    (∀ a ∈ clim, ∀ e ∈ kelvinMonths.samples, ∀ x m, e.val 0 = some x → a.val 0 = some m → (float64 : Rounding ℚ).rep x ∧ 0 ≤ m ∧ m ≤ 2 * x ∧ x ≤ 2 * m) := by
  have h1 : (climateAnomalyBy (floatArith float64 (leftSum float64)) (leftSum float64) (subFl float64) Cal.noleap (fun _ => .ok true) "month" kelvinMonths).toOption.isSome := by
    decide +kernel
  have h2 : (climatologyAverageBy (floatArith float64 (leftSum float64)) Cal.noleap (fun _ => .ok true) "month" [] kelvinMonths).toOption.map
      (fun | .times l => l.map (fun e => decide (∃ m ∈ e.val 0, 200 ≤ m ∧ m ≤ 300)) | .seasons _ => []) = some (List.replicate 12 true) := by
    decide +kernel
  have h3 : kelvinMonths.samples.map (fun e => decide (∃ x ∈ e.val 0, 200 ≤ x ∧ x ≤ 300)) = List.replicate 24 true := by decide +kernel
  cases ho : climateAnomalyBy (floatArith float64 (leftSum float64)) (leftSum float64) (subFl float64) Cal.noleap (fun _ => .ok true) "month" kelvinMonths with
  | error e => rw [ho] at h1; cases h1
  | ok out =>
    cases hc : climatologyAverageBy (floatArith float64 (leftSum float64)) Cal.noleap (fun _ => .ok true) "month" [] kelvinMonths with
    | error e => rw [hc] at h2; cases h2
    | ok o => cases o with
      | seasons l => rw [hc] at h2; simp [Except.toOption] at h2
      | times clim =>
        refine ⟨out, clim, rfl, rfl, ?_⟩
        rw [hc] at h2
        simp only [Except.toOption, Option.map_some, Option.some.injEq] at h2
        intro a ha e he x m hx hm
        have h4 : decide (∃ m ∈ a.val 0, 200 ≤ m ∧ m ≤ 300) = true := by
          have : decide (∃ m ∈ a.val 0, 200 ≤ m ∧ m ≤ 300) ∈ List.replicate 12 true := h2 ▸ List.mem_map.mpr ⟨a, ha, rfl⟩
          exact List.eq_of_mem_replicate this
        have h5 : decide (∃ x ∈ e.val 0, 200 ≤ x ∧ x ≤ 300) = true := by
          have : decide (∃ x ∈ e.val 0, 200 ≤ x ∧ x ≤ 300) ∈ List.replicate 24 true := h3 ▸ List.mem_map.mpr ⟨e, he, rfl⟩
          exact List.eq_of_mem_replicate this
        simp only [hx, hm, Option.mem_def, Option.some.injEq, exists_eq_left', decide_eq_true_eq] at h4 h5
        refine ⟨?_, by linarith, by linarith, by linarith⟩
        obtain ⟨i, -, rfl⟩ := List.mem_map.mp he
        simp only [Option.some.injEq] at hx
        rw [← hx]
        exact float64.rep_fl _

-- the yearly anomaly of a constant is one rounding error (compare `C160_counterexample`), well inside the bound of `C161_accuracy`
example : ((climateAnomalyBy (floatArith float64 (leftSum float64)) (leftSum float64) (subFl float64) Cal.noleap (fun _ => .ok true) "year" (constantYear 1)).toOption.map
      (fun l => l.map (fun e => e.val 0))) = some (List.replicate 12 (some (1 / 2 ^ 53))) := by
  decide +kernel

example : OutRel (List.Forall₂ (EntryRel (AnomalyWithin (2 * (((12 : ℕ) : ℚ) + (12 : ℕ) + 2) * 2 ^ (-53 : ℤ) * 1 + 6 * (12 : ℕ) * 2 ^ (-1075 : ℤ) * (1 + 1)))))
    (climateAnomalyBy (floatArith float64 (leftSum float64)) (leftSum float64) (subFl float64) Cal.noleap (fun _ => .ok true) "year" (constantYear 1))
    (climateAnomaly Cal.noleap (fun _ => .ok true) "year" (constantYear 1)) :=
  C161_accuracy (leftSum float64) (leftSum_addsUp float64) Cal.noleap (fun _ => .ok true) "year" (constantYear 1)
    ⟨by decide, fun _ => ⟨by decide, by decide +kernel⟩⟩ 12 12 le_rfl (by norm_num) 1 (by norm_num) constantYear_stored (by decide) 24240 (by decide +kernel)

end examples

end Verif.Props
