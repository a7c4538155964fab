import Verif.Props.ClimSelect
import Verif.Props.Climatology4
import Verif.Props.Climatology8
import Verif.Props.MonthToSeason2
import Verif.Props.Climatology7
import Mathlib.Analysis.Convex.Combination
import Mathlib.Algebra.BigOperators.Field

/-
Property theorems: relations between variables that the averages keep (linear combinations, change of units, order).
-/

set_option linter.unusedSectionVars false

namespace Verif.Spec
variable {K : Type _}

/-- the values of some variables (or cells) in one time step: all missing, or all present and in the relation `C` -/
def Together {ι : Type _} (cells : ι → ℕ) (C : Set (ι → K)) (v : ℕ → Option K) : Prop :=
  (∀ i, v (cells i) = none) ∨ ∃ x ∈ C, ∀ i, v (cells i) = some (x i)

end Verif.Spec

namespace Verif.Props
open Model Spec Lemmas
variable {K : Type _} [Field K] [LinearOrder K] [IsStrictOrderedRing K] {ι : Type _}

/-- weighted mean of a nonempty list of points of a convex set -/
theorem weighted_mem {α : Type _} (C : Set (ι → K)) (hC : Convex K C) (l : List α) (hl : l ≠ []) (w : α → K) (hw : ∀ a ∈ l, 0 < w a)
    (x : α → ι → K) (hx : ∀ a ∈ l, x a ∈ C) :
    (fun i => (l.map (fun a => w a * x a i)).sum / (l.map w).sum) ∈ C := by
  have hpos : 0 < (l.map w).sum := by
    cases l with
    | nil => exact absurd rfl hl
    | cons a t =>
      rw [List.map_cons, List.sum_cons]
      have h1 := hw a (by simp)
      have h2 : 0 ≤ (t.map w).sum := List.sum_nonneg (by
        intro y hy
        obtain ⟨b, hb, rfl⟩ := List.mem_map.mp hy
        exact (hw b (List.mem_cons_of_mem _ hb)).le)
      linarith
  have h := hC.sum_mem (t := (Finset.univ : Finset (Fin l.length))) (w := fun i => w l[i.1] / (l.map w).sum) (z := fun i => x l[i.1])
    (fun i _ => div_nonneg (hw _ (List.getElem_mem _)).le hpos.le)
    (by rw [← Finset.sum_div, Fin.sum_univ_fun_getElem l w, div_self hpos.ne'])
    (fun i _ => hx _ (List.getElem_mem _))
  rw [Fin.sum_univ_fun_getElem l (fun a => (w a / (l.map w).sum) • x a)] at h
  have e : (fun i => (l.map (fun a => w a * x a i)).sum / (l.map w).sum) = (l.map (fun a => (w a / (l.map w).sum) • x a)).sum := by
    funext i
    generalize (l.map w).sum = W
    clear h hpos hl hw hx
    induction l with
    | nil => simp
    | cons a t ih =>
      rw [List.map_cons, List.sum_cons, List.map_cons, List.sum_cons, Pi.add_apply, ← ih]
      simp only [Pi.smul_apply, smul_eq_mul]
      ring
  rw [e]
  exact h

/-- the values of the cells in a list of samples -/
theorem together_values (cells : ι → ℕ) (C : Set (ι → K)) (l : List (Entry K)) (h : ∀ e ∈ l, Together cells C e.val) :
    ∃ L : List (ι → K), (∀ x ∈ L, x ∈ C) ∧ ∀ i, l.filterMap (·.val (cells i)) = L.map (· i) := by
  induction l with
  | nil => exact ⟨[], by simp, fun i => rfl⟩
  | cons e t ih =>
    obtain ⟨L, hL, hv⟩ := ih (fun x hx => h x (List.mem_cons_of_mem _ hx))
    rcases h e (by simp) with hn | ⟨x, hx, hs⟩
    · refine ⟨L, hL, fun i => ?_⟩
      rw [List.filterMap_cons, hn i]
      exact hv i
    · refine ⟨x :: L, ?_, fun i => ?_⟩
      · intro y hy
        rcases List.mem_cons.mp hy with rfl | hy
        · exact hx
        · exact hL y hy
      · rw [List.filterMap_cons, hs i, List.map_cons, hv i]

/-- the means of the cells over some of the samples -/
theorem together_mean (cells : ι → ℕ) (C : Set (ι → K)) (hC : Convex K C) (l : List (Entry K)) (h : ∀ e ∈ l, Together cells C e.val) :
    Together cells C (fun c => nanMean c l) := by
  obtain ⟨L, hL, hv⟩ := together_values cells C l h
  unfold nanMean Together
  simp only [hv]
  by_cases hn : L = []
  · subst hn
    exact Or.inl (fun i => rfl)
  · refine Or.inr ⟨fun i => (L.map (· i)).sum / L.length, ?_, fun i => ?_⟩
    · have := weighted_mem C hC L hn (fun _ => 1) (fun _ _ => one_pos) (fun x => x) hL
      simpa using this
    · rw [if_neg (by simpa using hn), List.length_map]

theorem together_valuesIn (cells : ι → ℕ) (C : Set (ι → K)) (hC : Convex K C) (l : List (Entry K)) (h : ∀ e ∈ l, Together cells C e.val)
    (P : ℤ → Prop) [DecidablePred P] : Together cells C (fun c => mean (valuesIn l P c)) :=
  together_mean cells C hC (l.filter (fun e => decide (P e.key))) (fun e he => h e (List.mem_filter.mp he).1)

/-- the day-weighted mean over full months -/
theorem together_dayWeighted [Nonempty ι] (cal : Cal) (cells : ι → ℕ) (C : Set (ι → K)) (hC : Convex K C) (s : Series K)
    (h : ∀ e ∈ s.samples, Together cells C e.val) (hc : ∀ i, cells i < s.ncell) (ks : List ℤ) (hks : ∀ k ∈ ks, FullMonth cal s k) (hne : ks ≠ []) :
    ∃ x ∈ C, ∀ i, dayWeighted cal ks (fun k => (monthMean cal s.samples k (cells i)).getD 0) = x i := by
  have hx : ∀ k ∈ ks, (fun i => (monthMean cal s.samples k (cells i)).getD 0) ∈ C := by
    intro k hk
    rcases together_valuesIn cells C hC s.samples h (fun t => cal.monthOf t = k) with hn | ⟨x, hx, hs⟩
    · have i := Classical.arbitrary ι
      have h1 := hks k hk (cells i) (hc i)
      have h2 : monthMean cal s.samples k (cells i) = none := hn i
      rw [h2] at h1
      exact absurd h1 (by simp)
    · have e : (fun i => (monthMean cal s.samples k (cells i)).getD 0) = x := by
        funext i
        have h2 : monthMean cal s.samples k (cells i) = some (x i) := hs i
        rw [h2]
        rfl
      rw [e]
      exact hx
  have hm := weighted_mem C hC ks hne (fun k => (cal.len k : K)) (fun k _ => by
    exact_mod_cast len_pos cal k) (fun k i => (monthMean cal s.samples k (cells i)).getD 0) hx
  exact ⟨_, hm, fun i => rfl⟩

/-- C133, `calendar_average`: a relation between variables that is kept by averaging (a convex set) holds for the averages if it holds for
the samples. -/
theorem C133_calendar [Nonempty ι] (cal : Cal) (infer : InferFreq) (freq : String) (s : Series K) (cells : ι → ℕ) (hc : ∀ i, cells i < s.ncell)
    (C : Set (ι → K)) (hC : Convex K C) (h : ∀ e ∈ s.samples, Together cells C e.val) (out : List (Entry K))
    (ho : calendarAverage cal infer freq s = .ok out) : ∀ o ∈ out, Together cells C o.val := by
  have hn : 0 < s.ncell := lt_of_le_of_lt (Nat.zero_le _) (hc (Classical.arbitrary ι))
  have hq : (∃ p, GroupFreq freq p) ∨ freq = "season" ∨ freq = "year" := by
    unfold calendarAverage at ho
    unfold calendarPeriod at ho
    split at ho
    · exact Or.inl ⟨.hour, Or.inl ⟨rfl, rfl⟩⟩
    · exact Or.inl ⟨.day, Or.inr (Or.inl ⟨rfl, rfl⟩)⟩
    · exact Or.inl ⟨.month, Or.inr (Or.inr ⟨rfl, rfl⟩)⟩
    · exact Or.inr (Or.inl rfl)
    · exact Or.inr (Or.inr rfl)
    · cases ho
  intro o hmem
  obtain ⟨i, hi⟩ := List.mem_iff_getElem?.mp hmem
  rcases hq with ⟨p, hp⟩ | rfl | rfl
  · obtain ⟨b0, -, hv⟩ := C90_values cal infer freq p hp s hn out ho
    have := (hv i o hi).2
    have e : o.val = fun c => mean (valuesIn s.samples (fun t => periodOf cal p t = b0 + i) c) := funext this
    rw [e]
    exact together_valuesIn cells C hC s.samples h _
  · obtain ⟨b0, k0, k1, -, -, -, -, -, hv⟩ := C37_season cal infer s hn out ho
    have hv := (hv i o hi).2
    by_cases hks : (seasonOfMonths (b0 + i)).filter (fun k => decide (FullMonth cal s k)) = []
    · exact Or.inl (fun j => (hv (cells j) (hc j) _ rfl).1 hks)
    · obtain ⟨x, hx, he⟩ := together_dayWeighted cal cells C hC s h hc _ (fun k hk => of_decide_eq_true (List.mem_filter.mp hk).2) hks
      refine Or.inr ⟨x, hx, fun j => ?_⟩
      obtain ⟨y, hy, hy2, -⟩ := (hv (cells j) (hc j) _ rfl).2 hks
      rw [hy, hy2, he j]
  · obtain ⟨b0, k0, k1, -, -, -, -, -, hv⟩ := C37_year cal infer s hn out ho
    have hv := (hv i o hi).2
    by_cases hks : (yearOfMonths (b0 + i)).filter (fun k => decide (FullMonth cal s k)) = []
    · exact Or.inl (fun j => (hv (cells j) (hc j) _ rfl).1 hks)
    · obtain ⟨x, hx, he⟩ := together_dayWeighted cal cells C hC s h hc _ (fun k hk => of_decide_eq_true (List.mem_filter.mp hk).2) hks
      refine Or.inr ⟨x, hx, fun j => ?_⟩
      obtain ⟨y, hy, hy2, -⟩ := (hv (cells j) (hc j) _ rfl).2 hks
      rw [hy, hy2, he j]

/-- C133, `climatology_average` by hour, day or month. -/
theorem C133_climatology (cal : Cal) (infer : InferFreq) (freq : String) (p : Period) (hf : GroupFreq freq p) (custom : List String) (s : Series K)
    (cells : ι → ℕ) (C : Set (ι → K)) (hC : Convex K C) (h : ∀ e ∈ s.samples, Together cells C e.val) (out : ClimOut K)
    (ho : climatologyAverage cal infer freq custom s = .ok out) : ∃ l, out = .times l ∧ ∀ o ∈ l, Together cells C o.val := by
  obtain ⟨l, st, rfl, hl, -, -, hv, -⟩ := C40_groups_partial cal infer freq p hf custom s out ho
  refine ⟨l, rfl, fun o hmem => ?_⟩
  obtain ⟨i, hi⟩ := List.mem_iff_getElem?.mp hmem
  obtain ⟨hlt, -⟩ := List.getElem?_eq_some_iff.mp hi
  have hst : st[i]? = some (st[i]'(hl ▸ hlt)) := List.getElem?_eq_getElem _
  have e : o.val = fun c => mean (valuesIn s.samples (fun t => stamp cal p t = st[i]'(hl ▸ hlt)) c) := funext (hv i o _ hi hst)
  rw [e]
  exact together_valuesIn cells C hC s.samples h _

/-- C133, `climatology_average` by season: for a season with a full month, or if the relation holds for values that are all 0. -/
theorem C133_season [Nonempty ι] (cal : Cal) (infer : InferFreq) (custom : List String) (s : Series K) (cells : ι → ℕ)
    (hc : ∀ i, cells i < s.ncell) (C : Set (ι → K)) (hC : Convex K C) (h : ∀ e ∈ s.samples, Together cells C e.val) (out : ClimOut K)
    (ho : climatologyAverage cal infer "season" custom s = .ok out) :
    ∃ l, out = .seasons l ∧ ∀ x ∈ l, ∀ months, seasonMonths x.1 = some months →
      (0 ∈ C ∨ ∃ k, FullMonth cal s k ∧ Cal.monthNo k ∈ months) → ∃ v ∈ C, ∀ i, x.2 (cells i) = some (v i) := by
  have hn : 0 < s.ncell := lt_of_le_of_lt (Nat.zero_le _) (hc (Classical.arbitrary ι))
  obtain ⟨l, rfl, -, hv⟩ := C91_weighted cal infer custom s hn out ho
  refine ⟨l, rfl, fun x hx months hm hz => ?_⟩
  obtain ⟨months', hm', ks, -, hks, hval⟩ := hv x hx
  obtain rfl : months' = months := by rw [hm] at hm'; exact (Option.some.inj hm').symm
  by_cases hne : ks = []
  · rcases hz with h0 | ⟨k, hk⟩
    · refine ⟨0, h0, fun i => ?_⟩
      rw [hval (cells i) (hc i), hne]
      simp [dayWeighted]
    · have := (hks k).mpr hk
      rw [hne] at this
      exact absurd this (by simp)
  · obtain ⟨v, hvC, he⟩ := together_dayWeighted cal cells C hC s h hc ks (fun k hk => ((hks k).mp hk).1) hne
    exact ⟨v, hvC, fun i => by rw [hval (cells i) (hc i), he i]⟩

theorem bins_mem (per : ℤ → ℤ) (l : List (Entry K)) (g : ℤ × List (Entry K)) (hg : g ∈ bins per l) : ∀ e ∈ g.2, e ∈ l := by
  unfold bins at hg
  split at hg
  · obtain ⟨b, -, rfl⟩ := List.mem_map.mp hg
    exact fun e he => (List.mem_filter.mp he).1
  · cases hg

/-- C133, `month_to_season`. -/
theorem C133_month_to_season (cal : Cal) (season : String) (s : Series K) (cells : ι → ℕ) (C : Set (ι → K)) (hC : Convex K C)
    (h : ∀ e ∈ s.samples, Together cells C e.val) (out : List (Entry K)) (ho : monthToSeason cal season s = .ok out) :
    ∀ o ∈ out, Together cells C o.val := by
  unfold monthToSeason at ho
  by_cases ht : ¬ (s.isTime = true)
  · rw [if_pos ht] at ho; cases ho
  rw [if_neg ht] at ho
  by_cases hl : s.samples.length % 12 ≠ 0
  · rw [if_pos hl] at ho; cases ho
  rw [if_neg hl] at ho
  cases hs : seasonQuarter season with
  | none => rw [hs] at ho; cases ho
  | some r =>
    obtain ⟨months, a⟩ := r
    rw [hs] at ho
    simp only [pure_bind] at ho
    generalize hk : (if season = "DJF" then (s.samples.filter (fun e => decide (cal.month e.key ∈ months))).dropLast
      else if season = "NDJ" then (s.samples.filter (fun e => decide (cal.month e.key ∈ months))).tail
      else s.samples.filter (fun e => decide (cal.month e.key ∈ months))) = kept at ho
    have hkept : ∀ e ∈ kept, e ∈ s.samples := by
      intro e he
      subst hk
      split at he
      · exact (List.mem_filter.mp (List.mem_of_mem_dropLast he)).1
      · split at he
        · exact (List.mem_filter.mp (List.mem_of_mem_tail he)).1
        · exact (List.mem_filter.mp he).1
    unfold resample at ho
    by_cases hr : kept = [] ∨ ¬ kept.Pairwise (fun a b => a.key ≤ b.key)
    · rw [if_pos hr] at ho; cases ho
    · rw [if_neg hr] at ho
      injection ho with ho
      subst ho
      intro o hmem
      obtain ⟨x, hx, rfl⟩ := List.mem_map.mp hmem
      obtain ⟨y, hy, rfl⟩ := List.mem_map.mp (List.mem_filter.mp hx).1
      obtain ⟨g, hg, rfl⟩ := List.mem_map.mp hy
      exact together_mean cells C hC g.2 (fun e he => h e (hkept e (bins_mem _ _ g hg e he)))

/-! ### anomalies -/

theorem together_groupSum (cells : ι → ℕ) (C : Submodule K (ι → K)) (f : ℤ → ℤ) (clim : List (Entry K))
    (h : ∀ e ∈ clim, Together cells (C : Set (ι → K)) e.val) (t : ℤ) : Together cells (C : Set (ι → K)) (groupSum f clim t) := by
  obtain ⟨L, hL, hv⟩ := together_values cells (C : Set (ι → K)) (clim.filter (fun e => decide (f e.key = f t)))
    (fun e he => h e (List.mem_filter.mp he).1)
  unfold groupSum nanSum Together
  simp only [hv]
  split
  · exact Or.inl (fun i => rfl)
  · refine Or.inr ⟨L.sum, list_sum_mem hL, fun i => ?_⟩
    congr 1
    clear hv hL
    induction L with
    | nil => rfl
    | cons x t ih => rw [List.map_cons, List.sum_cons, List.sum_cons, ih]; rfl

theorem together_minusGroup (cells : ι → ℕ) (C : Submodule K (ι → K)) (l : List (Entry K)) (h : ∀ e ∈ l, Together cells (C : Set (ι → K)) e.val)
    (ref : ℤ → ℕ → Option K) (hr : ∀ t, Together cells (C : Set (ι → K)) (ref t)) :
    ∀ o ∈ minusGroup l ref, Together cells (C : Set (ι → K)) o.val := by
  intro o ho
  obtain ⟨e, he, rfl⟩ := List.mem_map.mp ho
  rcases h e he with hn | ⟨x, hx, hs⟩
  · exact Or.inl (fun i => by simp only [hn i])
  · rcases hr e.key with hn | ⟨y, hy, hs'⟩
    · exact Or.inl (fun i => by simp only [hn i]; split <;> simp_all)
    · exact Or.inr ⟨x - y, C.sub_mem hx hy, fun i => by simp only [hs i, hs' i]; rfl⟩

/-- C133, `climate_anomaly`: linear relations between variables hold for the anomalies if they hold for the samples. -/
theorem C133_anomaly [Nonempty ι] (cal : Cal) (infer : InferFreq) (freq : String) (s : Series K) (cells : ι → ℕ) (hc : ∀ i, cells i < s.ncell)
    (C : Submodule K (ι → K)) (h : ∀ e ∈ s.samples, Together cells (C : Set (ι → K)) e.val) (out : List (Entry K))
    (ho : climateAnomaly cal infer freq s = .ok out) : ∀ o ∈ out, Together cells (C : Set (ι → K)) o.val := by
  have hC : Convex K (C : Set (ι → K)) := C.convex
  unfold climateAnomaly at ho
  by_cases ht : ¬ (s.isTime = true)
  · rw [if_pos ht] at ho; cases ho
  rw [if_neg ht] at ho
  simp only [bind, Except.bind] at ho
  split at ho
  · cases hq : climatologyAverage cal infer "day" [] s with
    | error e => rw [hq] at ho; cases ho
    | ok q =>
      rw [hq] at ho
      obtain ⟨l, rfl, hl⟩ := C133_climatology cal infer "day" .day (Or.inr (Or.inl ⟨rfl, rfl⟩)) [] s cells _ hC h q hq
      injection ho with ho
      subst ho
      exact together_minusGroup cells C _ h _ (together_groupSum cells C _ l hl)
  · cases hq : climatologyAverage cal infer "month" [] s with
    | error e => rw [hq] at ho; cases ho
    | ok q =>
      rw [hq] at ho
      obtain ⟨l, rfl, hl⟩ := C133_climatology cal infer "month" .month (Or.inr (Or.inr ⟨rfl, rfl⟩)) [] s cells _ hC h q hq
      injection ho with ho
      subst ho
      exact together_minusGroup cells C _ h _ (together_groupSum cells C _ l hl)
  · cases hq : climatologyAverage cal infer "season" [] s with
    | error e => rw [hq] at ho; cases ho
    | ok q =>
      rw [hq] at ho
      obtain ⟨l, rfl, hl⟩ := C133_season cal infer [] s cells hc _ hC h q hq
      have hn : 0 < s.ncell := lt_of_le_of_lt (Nat.zero_le _) (hc (Classical.arbitrary ι))
      obtain ⟨l', hl', -, hv⟩ := C91_weighted cal infer [] s hn _ hq
      injection hl' with hl'
      subst hl'
      injection ho with ho
      subst ho
      refine together_minusGroup cells C _ h _ (fun t => ?_)
      cases hx : l.find? (fun x => decide (x.1 = seasonOf (cal.month t))) with
      | none => exact Or.inl (fun i => rfl)
      | some x =>
        have hmem := List.mem_of_find?_eq_some hx
        obtain ⟨months, hm, -⟩ := hv x hmem
        obtain ⟨v, hvC, he⟩ := hl x hmem months hm (Or.inl C.zero_mem)
        exact Or.inr ⟨v, hvC, fun i => by simp [he i]⟩
  · cases hq : calendarAverage cal infer "year" s with
    | error e => rw [hq] at ho; cases ho
    | ok q =>
      rw [hq] at ho
      have hl := C133_calendar cal infer "year" s cells hc _ hC h q hq
      injection ho with ho
      subst ho
      exact together_minusGroup cells C _ h _ (together_groupSum cells C _ q hl)
  · cases ho

end Verif.Props
