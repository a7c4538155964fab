import Verif.Props.Climatology7

/-
C36: month_to_season.
-/

set_option linter.unusedSectionVars false

namespace Verif.Props
open Model Spec Lemmas
variable {K : Type _} [Field K] [LinearOrder K] [IsStrictOrderedRing K]

/-- monthly data: `12 * N` samples, one in each month from `k0` on -/
structure MonthlyRecord (cal : Cal) (s : Series K) (k0 : ℤ) (N : ℕ) : Prop where
  size : s.samples.length = 12 * N
  months : ∀ (i : ℕ) (e : Entry K), s.samples[i]? = some e → cal.monthOf e.key = k0 + i

/-- the table of seasons: months and anchor -/
theorem seasonQuarter_months (season : String) (months : List ℤ) (a : ℤ) (h : seasonQuarter season = some (months, a)) (k : ℤ) :
    (Cal.monthNo k ∈ months ↔ (k - (a - 1)) % 12 ≤ 2) ∧ (Cal.monthNo k = months.getD 1 0 ↔ (k - (a - 1)) % 12 = 1) ∧ 1 ≤ a ∧ a ≤ 12 := by
  unfold seasonQuarter at h
  split at h <;> simp only [Option.some.injEq, Prod.mk.injEq, reduceCtorEq] at h <;> obtain ⟨rfl, rfl⟩ := h <;>
    simp only [Cal.monthNo, List.mem_cons, List.not_mem_nil, or_false, List.getD_cons_succ, List.getD_cons_zero] <;> omega

/-- binning into quarters and selecting every fourth one -/
theorem quarters_core (cal : Cal) (a k0 : ℤ) (N : ℕ) (hN : 0 < N) (months : List ℤ)
    (hmon : ∀ k, (Cal.monthNo k ∈ months ↔ (k - (a - 1)) % 12 ≤ 2) ∧ (Cal.monthNo k = months.getD 1 0 ↔ (k - (a - 1)) % 12 = 1))
    (l L : List (Entry K)) (hsort : L.Pairwise (fun x y => x.key ≤ y.key))
    (hin : ∀ e ∈ L, k0 ≤ cal.monthOf e.key ∧ cal.monthOf e.key < k0 + 12 * N)
    (hmid : ∀ M, k0 ≤ M → M < k0 + 12 * N → (M - a) % 12 = 0 → ∃ e ∈ L, cal.monthOf e.key = M)
    (hlo : ∀ e ∈ L, (cal.monthOf e.key - (a - 1)) % 12 = 2 → k0 < cal.monthOf e.key)
    (hhi : ∀ e ∈ L, (cal.monthOf e.key - (a - 1)) % 12 = 0 → cal.monthOf e.key + 1 < k0 + 12 * N)
    (hval : ∀ M, k0 ≤ M → M < k0 + 12 * N → (M - a) % 12 = 0 →
      L.filter (fun e => decide (cal.monthOf e.key ∈ [M - 1, M, M + 1])) = l.filter (fun e => decide (cal.monthOf e.key ∈ [M - 1, M, M + 1]))) :
    ∃ M0, k0 ≤ M0 ∧ M0 < k0 + 12 ∧ Cal.monthNo M0 = months.getD 1 0 ∧ ∃ v : ℤ → ℕ → Option K,
      (resample (fun t => quarterOf a (cal.monthOf t)) (L.filter (fun e => decide (cal.month e.key ∈ months)))).map (fun g =>
        (((meanEach g).map (fun e => (⟨quarterMonth a e.key + 1, e.val⟩ : Entry K))).filter (fun e => decide (Cal.monthNo e.key = months.getD 1 0))).map
          (fun e => (⟨cal.monthStart e.key, e.val⟩ : Entry K))) =
        .ok ((List.range N).map (fun i : ℕ => ⟨cal.monthStart (M0 + 12 * i), v (M0 + 12 * i)⟩)) ∧
      ∀ i < N, ∀ c, v (M0 + 12 * i) c = mean (valuesIn l (fun t => cal.monthOf t ∈ [M0 + 12 * i - 1, M0 + 12 * i, M0 + 12 * i + 1]) c) := by
  -- the first middle month
  obtain ⟨j0, hj0a, hj0b⟩ : ∃ j0, k0 ≤ 12 * j0 + a ∧ 12 * j0 + a < k0 + 12 := ⟨(k0 - a + 11) / 12, by omega, by omega⟩
  set f := L.filter (fun e => decide (cal.month e.key ∈ months)) with hf
  have hfmem : ∀ e, e ∈ f ↔ e ∈ L ∧ (cal.monthOf e.key - (a - 1)) % 12 ≤ 2 := by
    intro e
    rw [hf, List.mem_filter, decide_eq_true_iff]
    unfold Cal.month
    rw [(hmon _).1]
  have hfsort : f.Pairwise (fun x y => x.key ≤ y.key) := hsort.filter _
  have hmidf : ∀ i < N, ∃ e ∈ f, cal.monthOf e.key = 12 * j0 + a + 12 * i := by
    intro i hi
    obtain ⟨e, he, hem⟩ := hmid (12 * j0 + a + 12 * i) (by omega) (by omega) (by omega)
    exact ⟨e, (hfmem e).mpr ⟨he, by rw [hem]; omega⟩, hem⟩
  have hfne : f ≠ [] := by
    obtain ⟨e, he, -⟩ := hmidf 0 hN
    exact List.ne_nil_of_mem he
  obtain ⟨h, hh⟩ : ∃ h, f.head? = some h := by
    cases hh : f.head? with
    | none => exact absurd (List.head?_eq_none_iff.mp hh) hfne
    | some h => exact ⟨h, rfl⟩
  obtain ⟨z, hz⟩ : ∃ z, f.getLast? = some z := by
    cases hh : f.getLast? with
    | none => exact absurd (List.getLast?_eq_none_iff.mp hh) hfne
    | some z => exact ⟨z, rfl⟩
  have hbound := head_last_bounds (fun e : Entry K => e.key) f hfsort h z hh hz
  obtain ⟨hhL, hhr⟩ := (hfmem h).mp (List.mem_of_mem_head? hh)
  obtain ⟨hzL, hzr⟩ := (hfmem z).mp (List.mem_of_getLast? hz)
  have hin1 := hin h hhL
  have hin2 := hin z hzL
  have hlo1 := hlo h hhL
  have hhi1 := hhi z hzL
  -- quarters of the first and the last sample
  have hq0 : quarterOf a (cal.monthOf h.key) = 4 * j0 := by
    obtain ⟨e, he, hem⟩ := hmidf 0 hN
    have := monthOf_mono cal (hbound e he).1
    unfold quarterOf
    omega
  have hq1 : quarterOf a (cal.monthOf z.key) = 4 * (j0 + N - 1) := by
    obtain ⟨e, he, hem⟩ := hmidf (N - 1) (by omega)
    have := monthOf_mono cal (hbound e he).2
    unfold quarterOf
    omega
  refine ⟨12 * j0 + a, hj0a, hj0b, ((hmon _).2).mpr (by omega),
    fun M c => mean (valuesIn l (fun t => cal.monthOf t ∈ [M - 1, M, M + 1]) c), ?_, fun i _ c => rfl⟩
  have hc : ¬ (f = [] ∨ ¬ f.Pairwise (fun a b => a.key ≤ b.key)) := by tauto
  unfold resample
  rw [if_neg hc]
  simp only [pure, Except.pure, Except.map]
  congr 1
  unfold bins meanEach
  simp only [hh, hz, hq0, hq1, List.map_map, List.filter_map]
  have hsel : (periodRange (4 * j0) (4 * (j0 + N - 1))).filter ((fun e : Entry K => decide (Cal.monthNo e.key = months.getD 1 0)) ∘
      ((fun e => (⟨quarterMonth a e.key + 1, e.val⟩ : Entry K)) ∘ ((fun g : ℤ × List (Entry K) => (⟨g.1, fun c => nanMean c g.2⟩ : Entry K)) ∘
        fun b => (b, f.filter (fun e => decide (quarterOf a (cal.monthOf e.key) = b)))))) = (List.range N).map (fun i : ℕ => 4 * (j0 + i)) := by
    refine sorted_ext ((periodRange_sorted _ _).filter _) ?_ ?_
    · rw [List.pairwise_map]
      exact List.pairwise_lt_range.imp (fun h => by omega)
    · intro q
      rw [List.mem_filter, mem_periodRange, List.mem_map]
      simp only [Function.comp_apply, decide_eq_true_iff, (hmon _).2, quarterMonth, List.mem_range]
      constructor
      · rintro ⟨hq, hr⟩
        exact ⟨((q - 4 * j0) / 4).toNat, by omega, by omega⟩
      · rintro ⟨i, hi, rfl⟩
        omega
  rw [hsel, List.map_map]
  refine List.map_congr_left fun i hi => ?_
  rw [List.mem_range] at hi
  simp only [Function.comp_apply, quarterMonth]
  rw [show 3 * (4 * (j0 + (i : ℤ))) + (a - 1) + 1 = 12 * j0 + a + 12 * i by ring]
  congr 1
  funext c
  have hfil : f.filter (fun e => decide (quarterOf a (cal.monthOf e.key) = 4 * (j0 + i))) =
      l.filter (fun e => decide (cal.monthOf e.key ∈ [12 * j0 + a + 12 * i - 1, 12 * j0 + a + 12 * i, 12 * j0 + a + 12 * i + 1])) := by
    rw [← hval (12 * j0 + a + 12 * i) (by omega) (by omega) (by omega), hf, List.filter_filter]
    refine List.filter_congr fun e he => ?_
    rw [Bool.eq_iff_iff, Bool.and_eq_true, decide_eq_true_iff, decide_eq_true_iff, decide_eq_true_iff]
    unfold Cal.month
    rw [(hmon _).1]
    simp only [quarterOf, List.mem_cons, List.not_mem_nil, or_false]
    omega
  rw [hfil]
  rfl

/-- the months of a record are increasing -/
theorem MonthlyRecord.pairwise {cal : Cal} {s : Series K} {k0 : ℤ} {N : ℕ} (hr : MonthlyRecord cal s k0 N) :
    s.samples.Pairwise (fun x y => x.key ≤ y.key) := by
  rw [List.pairwise_iff_getElem]
  intro i j hi hj hij
  have h1 := hr.months i s.samples[i] (List.getElem?_eq_getElem hi)
  have h2 := hr.months j s.samples[j] (List.getElem?_eq_getElem hj)
  by_contra hlt
  have := monthOf_mono cal (le_of_lt (not_le.mp hlt))
  omega

theorem MonthlyRecord.mem {cal : Cal} {s : Series K} {k0 : ℤ} {N : ℕ} (hr : MonthlyRecord cal s k0 N) (e : Entry K) (he : e ∈ s.samples) :
    k0 ≤ cal.monthOf e.key ∧ cal.monthOf e.key < k0 + 12 * N := by
  obtain ⟨i, hi⟩ := List.mem_iff_getElem?.mp he
  have h1 := hr.months i e hi
  have h2 := (List.getElem?_eq_some_iff.mp hi).1
  rw [hr.size] at h2
  omega

theorem MonthlyRecord.exists {cal : Cal} {s : Series K} {k0 : ℤ} {N : ℕ} (hr : MonthlyRecord cal s k0 N) (M : ℤ) (h0 : k0 ≤ M) (h1 : M < k0 + 12 * N) :
    ∃ i : ℕ, M = k0 + i ∧ ∃ e, s.samples[i]? = some e ∧ cal.monthOf e.key = M := by
  have hi : (M - k0).toNat < s.samples.length := by rw [hr.size]; omega
  refine ⟨(M - k0).toNat, by omega, s.samples[(M - k0).toNat], List.getElem?_eq_getElem hi, ?_⟩
  rw [hr.months _ _ (List.getElem?_eq_getElem hi)]
  omega

/-- a record whose start month suits the season: a December to February or November to January record starts in January, a record for
another season starts neither in the second nor in the third month of the season -/
def Suits (season : String) (months : List ℤ) (k0 : ℤ) : Prop :=
  if season = "DJF" ∨ season = "NDJ" then Cal.monthNo k0 = 1
  else Cal.monthNo k0 ≠ months.getD 1 0 ∧ Cal.monthNo k0 ≠ months.getD 2 0

instance (season : String) (months : List ℤ) (k0 : ℤ) : Decidable (Suits season months k0) := by unfold Suits; infer_instance

/-- the third month in the table -/
theorem seasonQuarter_third (season : String) (months : List ℤ) (a : ℤ) (h : seasonQuarter season = some (months, a)) (k : ℤ) :
    Cal.monthNo k = months.getD 2 0 ↔ (k - (a - 1)) % 12 = 2 := by
  unfold seasonQuarter at h
  split at h <;> simp only [Option.some.injEq, Prod.mk.injEq, reduceCtorEq] at h <;> obtain ⟨rfl, rfl⟩ := h <;>
    simp only [Cal.monthNo, List.getD_cons_succ, List.getD_cons_zero] <;> omega

/-- `C36`: for a record of `N` whole years starting in January (or, for seasons inside a calendar year, in any month that does not cut
a season at its second or third month) the result has exactly one entry per year: the entry is labelled with the start of the season's
middle month, the labels are all the middle months in the record, and the value is the mean of the samples in that month and its two neighbours. -/
theorem C36_seasons_partial (cal : Cal) (s : Series K) (season : String) (months : List ℤ) (a k0 : ℤ) (N : ℕ)
    (hs : seasonQuarter season = some (months, a)) (ht : s.isTime = true) (hN : 0 < N) (hr : MonthlyRecord cal s k0 N) (hstart : Suits season months k0) :
    ∃ out M0, monthToSeason cal season s = .ok out ∧ k0 ≤ M0 ∧ M0 < k0 + 12 ∧ Cal.monthNo M0 = months.getD 1 0 ∧ out.length = N ∧
      ∀ (i : ℕ) (o : Entry K), out[i]? = some o → o.key = cal.monthStart (M0 + 12 * i) ∧
        ∀ c, o.val c = mean (valuesIn s.samples (fun t => cal.monthOf t ∈ [M0 + 12 * i - 1, M0 + 12 * i, M0 + 12 * i + 1]) c) := by
  have hmon := seasonQuarter_months season months a hs
  have hthird := seasonQuarter_third season months a hs
  -- the samples kept before binning
  obtain ⟨L, hL, hsub, hlo, hhi, hkeep⟩ : ∃ L : List (Entry K),
      (if season = "DJF" then (s.samples.filter (fun e => decide (cal.month e.key ∈ months))).dropLast
        else if season = "NDJ" then (s.samples.filter (fun e => decide (cal.month e.key ∈ months))).tail
        else s.samples.filter (fun e => decide (cal.month e.key ∈ months))) = L.filter (fun e => decide (cal.month e.key ∈ months)) ∧
      L.Sublist s.samples ∧
      (∀ e ∈ L, (cal.monthOf e.key - (a - 1)) % 12 = 2 → k0 < cal.monthOf e.key) ∧
      (∀ e ∈ L, (cal.monthOf e.key - (a - 1)) % 12 = 0 → cal.monthOf e.key + 1 < k0 + 12 * N) ∧
      (∀ M, k0 ≤ M → M < k0 + 12 * N → (M - a) % 12 = 0 → ∀ P : ℤ → Prop, ∀ _ : DecidablePred P, (∀ m, P m → M - 1 ≤ m ∧ m ≤ M + 1) →
        L.filter (fun e => decide (P (cal.monthOf e.key))) = s.samples.filter (fun e => decide (P (cal.monthOf e.key)))) := by
    have hmem := hr.mem
    unfold Suits at hstart
    by_cases hD : season = "DJF"
    · subst hD
      simp only [seasonQuarter, Option.some.injEq, Prod.mk.injEq] at hs
      obtain ⟨rfl, rfl⟩ := hs
      simp only [true_or, if_true, Cal.monthNo] at hstart
      obtain ⟨init, last, hil⟩ : ∃ init last, s.samples = init ++ [last] := by
        rcases List.eq_nil_or_concat s.samples with h | ⟨i, l, h⟩
        · have := hr.size
          rw [h] at this
          simp at this
          omega
        · exact ⟨i, l, by rw [h, List.concat_eq_append]⟩
      have hlen : init.length + 1 = 12 * N := by
        have := hr.size
        rw [hil] at this
        simpa using this
      have hlast : cal.monthOf last.key = k0 + 12 * N - 1 := by
        have := hr.months init.length last (by rw [hil]; simp)
        omega
      have hinit : ∀ e ∈ init, cal.monthOf e.key < k0 + 12 * N - 1 := by
        intro e he
        obtain ⟨i, hi⟩ := List.mem_iff_getElem?.mp he
        have h2 := (List.getElem?_eq_some_iff.mp hi).1
        have h1 := hr.months i e (by rw [hil, List.getElem?_append_left h2, hi])
        omega
      refine ⟨init, ?_, ?_, ?_, ?_, ?_⟩
      · have hin : cal.month last.key ∈ ([12, 1, 2] : List ℤ) := by
          unfold Cal.month
          rw [(hmon _).1]
          omega
        rw [if_pos rfl, hil, List.filter_append, List.filter_singleton, decide_eq_true hin, cond_true, List.dropLast_concat]
      · rw [hil]; exact List.sublist_append_left _ _
      · intro e he h
        have := hmem e (by rw [hil]; simp [he])
        omega
      · intro e he h
        have := hinit e he
        omega
      · intro M h0 h1 h2 P _ hP
        have hnot : ¬ P (cal.monthOf last.key) := fun h => by
          have := hP _ h
          omega
        rw [hil, List.filter_append, List.filter_singleton, decide_eq_false hnot, cond_false, List.append_nil]
    by_cases hJ : season = "NDJ"
    · subst hJ
      simp only [seasonQuarter, Option.some.injEq, Prod.mk.injEq] at hs
      obtain ⟨rfl, rfl⟩ := hs
      simp only [or_true, if_true, Cal.monthNo] at hstart
      obtain ⟨first, rest, hil⟩ : ∃ first rest, s.samples = first :: rest := by
        cases h : s.samples with
        | nil =>
          have := hr.size
          rw [h] at this
          simp at this
          omega
        | cons a b => exact ⟨a, b, rfl⟩
      have hfirst : cal.monthOf first.key = k0 := by
        have := hr.months 0 first (by rw [hil]; rfl)
        simpa using this
      have hrest : ∀ e ∈ rest, k0 < cal.monthOf e.key := by
        intro e he
        obtain ⟨i, hi⟩ := List.mem_iff_getElem?.mp he
        have h1 := hr.months (i + 1) e (by rw [hil, List.getElem?_cons_succ, hi])
        push_cast at h1
        omega
      refine ⟨rest, ?_, ?_, ?_, ?_, ?_⟩
      · have hin : cal.month first.key ∈ ([11, 12, 1] : List ℤ) := by
          unfold Cal.month
          rw [(hmon _).1]
          omega
        rw [if_neg (by decide), if_pos rfl, hil, List.filter_cons, if_pos (by simpa using hin), List.tail_cons]
      · rw [hil]; exact List.sublist_cons_self _ _
      · intro e he h
        exact hrest e he
      · intro e he h
        have := hmem e (by rw [hil]; simp [he])
        omega
      · intro M h0 h1 h2 P _ hP
        have hnot : ¬ P (cal.monthOf first.key) := fun h => by
          have := hP _ h
          omega
        rw [hil, List.filter_cons, if_neg (by simpa using hnot)]
    · rw [if_neg (by tauto), Ne, Ne, hthird, (hmon _).2.1] at hstart
      refine ⟨s.samples, by rw [if_neg hD, if_neg hJ], List.Sublist.refl _, ?_, ?_, fun _ _ _ _ _ _ _ => rfl⟩
      · intro e he h
        have := hmem e he
        rcases hstart with ⟨h1, h2⟩
        omega
      · intro e he h
        have := hmem e he
        rcases hstart with ⟨h1, h2⟩
        omega
  obtain ⟨M0, hM0, hM1, hM2, v, hv1, hv2⟩ := quarters_core cal a k0 N hN months (fun k => ⟨(hmon k).1, (hmon k).2.1⟩) s.samples L
    (hr.pairwise.sublist hsub) (fun e he => hr.mem e (hsub.subset he))
    (fun M h0 h1 h2 => by
      obtain ⟨i, -, e, hi, hem⟩ := hr.exists M h0 h1
      have hx : e ∈ s.samples.filter (fun e => decide (cal.monthOf e.key = M)) :=
        List.mem_filter.mpr ⟨List.mem_iff_getElem?.mpr ⟨i, hi⟩, by simpa using hem⟩
      rw [← hkeep M h0 h1 h2 (fun m => m = M) inferInstance (by intro m hm; omega)] at hx
      exact ⟨e, (List.mem_filter.mp hx).1, hem⟩)
    hlo hhi
    (fun M h0 h1 h2 => hkeep M h0 h1 h2 (fun m => m ∈ [M - 1, M, M + 1]) inferInstance (by
      intro m hm
      simp only [List.mem_cons, List.not_mem_nil, or_false] at hm
      omega))
  have hrun : monthToSeason cal season s = .ok ((List.range N).map (fun i : ℕ => ⟨cal.monthStart (M0 + 12 * i), v (M0 + 12 * i)⟩)) := by
    unfold monthToSeason
    rw [← hv1]
    simp only [ht, hs, hr.size, Nat.mul_mod_right, ne_eq, not_true_eq_false, if_false, pure_bind, hL]
    cases resample (fun t => quarterOf a (cal.monthOf t)) (L.filter (fun e => decide (cal.month e.key ∈ months))) <;> rfl
  refine ⟨_, M0, hrun, hM0, hM1, hM2, by simp, ?_⟩
  intro i o hi
  rw [List.getElem?_map] at hi
  obtain ⟨j, hj, rfl⟩ := Option.map_eq_some_iff.mp hi
  obtain ⟨hlt, rfl⟩ := (List.getElem?_eq_some_iff.mp hj).elim fun h1 h2 => (⟨by simpa using h1, by simpa using h2.symm⟩ : i < N ∧ j = i)
  exact ⟨rfl, fun c => hv2 j hlt c⟩

/-- a monthly record from month `k0` on (in the 360 day calendar), values 0, 1, 2, ... -/
def monthlyFrom (k0 : ℤ) (N : ℕ) : Series ℚ := ⟨1, (List.range (12 * N)).map (fun i : ℕ => ⟨Cal.days360.monthStart (k0 + i), fun _ => some i⟩), true⟩

theorem monthlyFrom_record (k0 : ℤ) (N : ℕ) : MonthlyRecord Cal.days360 (monthlyFrom k0 N) k0 N where
  size := by simp [monthlyFrom]
  months := by
    intro i e he
    simp only [monthlyFrom, List.getElem?_map] at he
    obtain ⟨j, hj, rfl⟩ := Option.map_eq_some_iff.mp he
    obtain ⟨h1, h2⟩ := List.getElem?_eq_some_iff.mp hj
    rw [List.getElem_range] at h2
    subst h2
    exact monthOf_unique _ (le_refl _) (Cal.days360.pos _)

/-- two years from January 2000: all seasons' hypotheses hold -/
example : ∀ season ∈ ["DJF", "MAM", "MJJ", "NDJ"], ∃ months a, seasonQuarter season = some (months, a) ∧ Suits season months 24000 ∧
    MonthlyRecord Cal.days360 (monthlyFrom 24000 2) 24000 2 := by
  intro season h
  simp only [List.mem_cons, List.not_mem_nil, or_false] at h
  rcases h with rfl | rfl | rfl | rfl <;> exact ⟨_, _, rfl, by decide, monthlyFrom_record _ _⟩

example : (monthToSeason Cal.days360 "DJF" (monthlyFrom 24000 2)).toOption.map (fun l => l.map (fun e => e.val 0)) =
    some [some (1/2), some 12] := by decide +kernel

/-- The unrestricted claim is false of the code. A year from March 2000 on has one December to February season, complete, with mean
(9 + 10 + 11) / 3 = 10; its last month is dropped. A year from April on contains the label of one March to May season; the result has a
second entry, labelled April of the next year, outside the record. -/
theorem C36_counterexample :
    ¬ (∀ (s : Series ℚ) (season : String) (months : List ℤ) (a k0 : ℤ) (N : ℕ), seasonQuarter season = some (months, a) → s.isTime = true → 0 < N →
      MonthlyRecord Cal.days360 s k0 N → ∀ out, monthToSeason Cal.days360 season s = .ok out →
        ∀ o ∈ out, ∀ M, o.key = Cal.days360.monthStart M → o.val 0 = mean (valuesIn s.samples (fun t => Cal.days360.monthOf t ∈ [M - 1, M, M + 1]) 0)) ∧
    ¬ (∀ (s : Series ℚ) (season : String) (months : List ℤ) (a k0 : ℤ) (N : ℕ), seasonQuarter season = some (months, a) → s.isTime = true → 0 < N →
      MonthlyRecord Cal.days360 s k0 N → ∀ out, monthToSeason Cal.days360 season s = .ok out → out.length = N) := by
  constructor
  · intro h
    have := h (monthlyFrom 24002 1) "DJF" [12, 1, 2] 12 24002 1 rfl rfl (by decide) (monthlyFrom_record _ _)
    obtain ⟨out, ho⟩ : ∃ out, monthToSeason Cal.days360 "DJF" (monthlyFrom 24002 1) = .ok out := by
      cases hx : monthToSeason Cal.days360 "DJF" (monthlyFrom 24002 1) with
      | ok a => exact ⟨a, rfl⟩
      | error e =>
        have : (monthToSeason Cal.days360 "DJF" (monthlyFrom 24002 1)).toOption.isSome = true := by decide +kernel
        rw [hx] at this
        cases this
    have hk : (monthToSeason Cal.days360 "DJF" (monthlyFrom 24002 1)).toOption.map (fun l => l.map (fun e => (e.key, e.val 0))) =
        some [(Cal.days360.monthStart 24012, some (19/2))] := by decide +kernel
    rw [ho] at hk
    simp only [Except.toOption, Option.map_some, Option.some.injEq] at hk
    obtain ⟨o, hmem, heq⟩ : ∃ o ∈ out, (o.key, o.val 0) = (Cal.days360.monthStart 24012, some (19/2 : ℚ)) := by
      have : (Cal.days360.monthStart 24012, some (19/2 : ℚ)) ∈ out.map (fun e => (e.key, e.val 0)) := by rw [hk]; simp
      obtain ⟨o, h1, h2⟩ := List.mem_map.mp this
      exact ⟨o, h1, h2⟩
    rw [Prod.mk.injEq] at heq
    have h1 := this out ho o hmem 24012 heq.1
    rw [heq.2] at h1
    revert h1
    decide +kernel
  · intro h
    have := h (monthlyFrom 24003 1) "MAM" [3, 4, 5] 3 24003 1 rfl rfl (by decide) (monthlyFrom_record _ _)
    have hl : (monthToSeason Cal.days360 "MAM" (monthlyFrom 24003 1)).toOption.map List.length = some 2 := by decide +kernel
    cases hx : monthToSeason Cal.days360 "MAM" (monthlyFrom 24003 1) with
    | ok out =>
      rw [hx] at hl
      have h2 := this out hx
      simp only [Except.toOption, Option.map_some, Option.some.injEq] at hl
      omega
    | error e =>
      rw [hx] at hl
      cases hl

/-- `C36`: anything but one of the twelve season names is an error, and so is a record whose length is not a multiple of 12 -/
theorem C36_errors (cal : Cal) (s : Series K) (season : String) (h : seasonQuarter season = none ∨ s.samples.length % 12 ≠ 0) :
    ∃ e, monthToSeason cal season s = .error e ∧ (e = .valueError ∨ e = .keyError) := by
  unfold monthToSeason
  by_cases ht : ¬ (s.isTime = true)
  · exact ⟨.valueError, by simp only [if_pos ht]; rfl, .inl rfl⟩
  simp only [if_neg ht]
  by_cases hl : s.samples.length % 12 ≠ 0
  · exact ⟨.valueError, by simp only [if_pos hl]; rfl, .inl rfl⟩
  · have hs : seasonQuarter season = none := by tauto
    exact ⟨.keyError, by simp only [if_neg hl, hs]; rfl, .inr rfl⟩

end Verif.Props
