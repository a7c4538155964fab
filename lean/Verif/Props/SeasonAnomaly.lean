import Verif.Props.Seasons
import Verif.Props.Climatology7
import Verif.Props.ClimSteps
import Mathlib.Algebra.BigOperators.Ring.Finset
import Mathlib.Algebra.BigOperators.Field

/-
Property C211: the seasonal means of monthly anomalies are the anomalies of the seasonal means.
-/

set_option linter.unusedSectionVars false
namespace Verif.Props
open Model Spec Lemmas
variable {K : Type _} [Field K] [LinearOrder K] [IsStrictOrderedRing K]

namespace SeasonAnomaly

/-- sample `i` of the record lies in month `k0 + i` and has the value `x i` in cell `c` -/
def HasMonths (cal : Cal) (k0 : ℤ) (T : ℕ) (c : ℕ) (x : ℕ → K) (l : List (Entry K)) : Prop :=
  l.length = T ∧ ∀ (i : ℕ) (e : Entry K), l[i]? = some e → cal.monthOf e.key = k0 + i ∧ e.val c = some (x i)

/-- values of a record by the number of the sample -/
theorem values_list (cal : Cal) (k0 : ℤ) (T c : ℕ) (x : ℕ → K) (l : List (Entry K)) (h : HasMonths cal k0 T c x l) (P : ℤ → Prop) [DecidablePred P] (Q : ℕ → Prop)
    [DecidablePred Q] (hPQ : ∀ (i : ℕ) (e : Entry K), l[i]? = some e → (P e.key ↔ Q i)) :
    valuesIn l P c = ((List.range T).filter (fun j => decide (Q j))).map x := by
  obtain ⟨rfl, h⟩ := h
  unfold valuesIn
  induction l using List.reverseRecOn with
  | nil => rfl
  | append_singleton l e ih =>
    have hl : ∀ (i : ℕ) (d : Entry K), l[i]? = some d → (l ++ [e])[i]? = some d := by
      intro i d hd
      obtain ⟨hi, -⟩ := List.getElem?_eq_some_iff.mp hd
      rw [List.getElem?_append_left hi]
      exact hd
    have he : (l ++ [e])[l.length]? = some e := by simp
    rw [List.length_append, List.length_singleton, List.range_succ, List.filter_append, List.filter_append, List.filterMap_append, List.map_append,
      ih (fun i d hd => hPQ i d (hl i d hd)) (fun i d hd => h i d (hl i d hd))]
    congr 1
    have h1 := hPQ _ e he
    by_cases hq : Q l.length
    · simp [hq, h1.mpr hq, (h _ e he).2]
    · have hp : ¬ P e.key := fun hp => hq (h1.mp hp)
      simp [hq, hp]

theorem sum_filter (T : ℕ) (Q : ℕ → Prop) [DecidablePred Q] (x : ℕ → K) :
    (((List.range T).filter (fun j => decide (Q j))).map x).sum = ∑ j ∈ Finset.range T with Q j, x j := rfl

/-- the samples in one month of the calendar -/
theorem sum_month (N i : ℕ) (x : ℕ → K) : ∑ j ∈ Finset.range (12 * N) with j % 12 = i % 12, x j = ∑ y ∈ Finset.range N, x (i % 12 + 12 * y) := by
  refine Finset.sum_nbij' (fun j => j / 12) (fun y => i % 12 + 12 * y) ?_ ?_ ?_ ?_ ?_
  · intro j hj
    simp only [Finset.mem_filter, Finset.mem_range] at hj ⊢
    omega
  · intro y hy
    simp only [Finset.mem_filter, Finset.mem_range] at hy ⊢
    omega
  · intro j hj
    simp only [Finset.mem_filter, Finset.mem_range] at hj ⊢
    omega
  · intro y hy
    omega
  · intro j hj
    simp only [Finset.mem_filter, Finset.mem_range] at hj
    congr 1
    omega

/-- three months in a row -/
theorem sum_three (T q : ℕ) (hq : q + 2 < T) (x : ℕ → K) : ∑ j ∈ Finset.range T with q ≤ j ∧ j ≤ q + 2, x j = x q + x (q + 1) + x (q + 2) := by
  have : (Finset.range T).filter (fun j => q ≤ j ∧ j ≤ q + 2) = {q, q + 1, q + 2} := by
    ext j
    simp only [Finset.mem_filter, Finset.mem_range, Finset.mem_insert, Finset.mem_singleton]
    omega
  rw [this, Finset.sum_insert (by simp), Finset.sum_insert (by simp), Finset.sum_singleton, add_assoc]

theorem mean_values (T : ℕ) (Q : ℕ → Prop) [DecidablePred Q] (x : ℕ → K) (n : ℕ) (hn : n ≠ 0) (h1 : ∑ j ∈ Finset.range T with Q j, (1 : K) = n) :
    mean (((List.range T).filter (fun j => decide (Q j))).map x) = some ((∑ j ∈ Finset.range T with Q j, x j) / n) := by
  have hlen : ((((List.range T).filter (fun j => decide (Q j))).map x).length : K) = n := by
    rw [← h1, ← sum_filter]
    simp
  unfold mean
  rw [if_neg (fun h0 => by rw [h0] at hlen; exact hn (by exact_mod_cast hlen.symm)), hlen, sum_filter]

theorem mean_month (cal : Cal) (k0 : ℤ) (N c : ℕ) (hN : 0 < N) (x : ℕ → K) (l : List (Entry K)) (h : HasMonths cal k0 (12 * N) c x l) (i : ℕ) (e : Entry K) (he : l[i]? = some e) :
    mean (valuesIn l (fun t => (cal.month t, (0 : ℤ), (0 : ℤ)) = (cal.month e.key, 0, 0)) c) = some ((∑ y ∈ Finset.range N, x (i % 12 + 12 * y)) / N) := by
  rw [values_list cal k0 (12 * N) c x l h _ (fun j => j % 12 = i % 12) (fun j d hd => by
    simp only [Prod.mk.injEq, and_true]
    unfold Cal.month Cal.monthNo
    rw [(h.2 j d hd).1, (h.2 i e he).1]
    omega)]
  rw [mean_values _ _ x N hN.ne' (by rw [sum_month]; simp), sum_month]

theorem mean_three (cal : Cal) (k0 : ℤ) (T c : ℕ) (x : ℕ → K) (l : List (Entry K)) (h : HasMonths cal k0 T c x l) (M : ℤ) (q : ℕ) (hM : M - 1 = k0 + q) (hq : q + 2 < T) :
    mean (valuesIn l (fun t => cal.monthOf t ∈ [M - 1, M, M + 1]) c) = some ((x q + x (q + 1) + x (q + 2)) / 3) := by
  rw [values_list cal k0 T c x l h _ (fun j => q ≤ j ∧ j ≤ q + 2) (fun j d hd => by
    simp only [List.mem_cons, List.not_mem_nil, or_false]
    rw [(h.2 j d hd).1]
    omega)]
  rw [mean_values _ _ x 3 (by norm_num) (by rw [sum_three T q hq]; norm_num), sum_three T q hq]
  norm_num

end SeasonAnomaly
open SeasonAnomaly

/-- **C211.** For a record of whole years of monthly values and a season within the record's years, `month_to_season` of the monthly
anomalies gives the seasonal means minus their average over the years, in every cell without gaps. -/
theorem C211_either_order (cal : Cal) (infer : InferFreq) (s : Series K) (season : String) (a k0 : ℤ) (N : ℕ) (h : SeasonFrom season a) (ha : a ≤ 10)
    (ht : s.isTime = true) (hN : 0 < N) (hr : MonthlyRecord cal s k0 N) (hstart : (Cal.monthNo k0 - a) % 12 ≠ 1 ∧ (Cal.monthNo k0 - a) % 12 ≠ 2)
    (anom : List (Entry K)) (hanom : climateAnomaly cal infer "month" s = .ok anom) :
    ∃ sea sea', monthToSeason cal season s = .ok sea ∧ monthToSeason cal season (again s anom) = .ok sea' ∧ sea.length = N ∧
      sea'.map (·.key) = sea.map (·.key) ∧
      ∀ c, (∀ e ∈ s.samples, e.val c ≠ none) → ∃ y : ℕ → K, sea.map (·.val c) = (List.range N).map (fun i => some (y i)) ∧
        sea'.map (·.val c) = (List.range N).map (fun i => some (y i - (∑ j ∈ Finset.range N, y j) / N)) := by
  obtain ⟨hl, hv, -⟩ := C41_month cal infer s anom hanom
  have hr' : MonthlyRecord cal (again s anom) k0 N := by
    refine ⟨hl.trans hr.size, fun i o ho => ?_⟩
    obtain ⟨hi, -⟩ := List.getElem?_eq_some_iff.mp ho
    have hi' : i < s.samples.length := by rw [← hl]; exact hi
    have := hr.months i _ (List.getElem?_eq_getElem hi')
    rw [(hv i _ o (List.getElem?_eq_getElem hi') ho).1]
    exact this
  have hst : if 11 ≤ a then Cal.monthNo k0 = 1 else (Cal.monthNo k0 - a) % 12 ≠ 1 ∧ (Cal.monthNo k0 - a) % 12 ≠ 2 := by
    rw [if_neg (by omega)]
    exact hstart
  obtain ⟨sea, M0, h1, h2, h3, h4, h5, h6⟩ := C36_by_name_partial cal s season a k0 N h ht hN hr hst
  obtain ⟨sea', M0', h1', h2', h3', h4', h5', h6'⟩ := C36_by_name_partial cal (again s anom) season a k0 N h ht hN hr' hst
  have hM : M0' = M0 := by
    unfold Cal.monthNo at h4 h4'
    omega
  subst hM
  have hlo : k0 ≤ M0' - 1 ∧ M0' + 1 < k0 + 12 := by
    unfold Cal.monthNo at h4 hstart
    omega
  refine ⟨sea, sea', h1, h1', h5, ?_, fun c hc => ?_⟩
  · refine List.ext_getElem (by simp [h5, h5']) fun i hi hi' => ?_
    rw [List.length_map] at hi hi'
    rw [List.getElem_map, List.getElem_map, (h6 i _ (List.getElem?_eq_getElem hi')).1, (h6' i _ (List.getElem?_eq_getElem hi)).1]
  · have hx : ∃ x : ℕ → K, HasMonths cal k0 (12 * N) c x s.samples := by
      refine ⟨fun i => ((s.samples[i]?.map (·.val c)).join).getD 0, hr.size, fun i e he => ⟨hr.months i e he, ?_⟩⟩
      have := hc e (List.mem_of_getElem? he)
      show e.val c = some (((s.samples[i]?.map (·.val c)).join).getD 0)
      rw [he]
      cases hev : e.val c with
      | none => exact absurd hev this
      | some v => simp [hev]
    obtain ⟨x, hx⟩ := hx
    have hx' : HasMonths cal k0 (12 * N) c (fun i => x i - (∑ y ∈ Finset.range N, x (i % 12 + 12 * y)) / N) anom := by
      refine ⟨hl.trans hr.size, fun i o ho => ⟨hr'.months i o ho, ?_⟩⟩
      obtain ⟨hi, -⟩ := List.getElem?_eq_some_iff.mp ho
      have hi' : i < s.samples.length := by rw [← hl]; exact hi
      have he := List.getElem?_eq_getElem hi'
      obtain ⟨m, hm, w, hw, hvw⟩ := ((hv i _ o he ho).2 c).2 _ (hx.2 i _ he).2
      rw [mean_month cal k0 N c hN x s.samples hx i _ he] at hm
      show o.val c = some (x i - (∑ y ∈ Finset.range N, x (i % 12 + 12 * y)) / N)
      rw [hw, hvw, Option.some.inj hm]
      simp
    obtain ⟨q, hq⟩ : ∃ q : ℕ, M0' - 1 = k0 + q := ⟨(M0' - 1 - k0).toNat, by omega⟩
    refine ⟨fun i => (x (q + 12 * i) + x (q + 12 * i + 1) + x (q + 12 * i + 2)) / 3, ?_, ?_⟩
    · refine List.ext_getElem (by simp [h5]) fun i hi hi' => ?_
      rw [List.length_map] at hi
      rw [List.getElem_map, (h6 i _ (List.getElem?_eq_getElem hi)).2 c,
        mean_three cal k0 (12 * N) c x s.samples hx (M0' + 12 * i) (q + 12 * i) (by push_cast; omega) (by omega)]
      simp
    · refine List.ext_getElem (by simp [h5']) fun i hi hi' => ?_
      rw [List.length_map] at hi
      rw [List.getElem_map, (h6' i _ (List.getElem?_eq_getElem hi)).2 c]
      refine (mean_three cal k0 (12 * N) c _ anom hx' (M0' + 12 * i) (q + 12 * i) (by push_cast; omega) (by omega)).trans ?_
      simp only [List.getElem_map, List.getElem_range, Option.some.injEq]
      have e0 : (q + 12 * i) % 12 = q := by omega
      have e1 : (q + 12 * i + 1) % 12 = q + 1 := by omega
      have e2 : (q + 12 * i + 2) % 12 = q + 2 := by omega
      rw [e0, e1, e2, ← Finset.sum_div, Finset.sum_add_distrib, Finset.sum_add_distrib]
      have f1 : ∀ y, q + 1 + 12 * y = q + 12 * y + 1 := fun y => by ring
      have f2 : ∀ y, q + 2 + 12 * y = q + 12 * y + 2 := fun y => by ring
      simp only [f1, f2]
      ring

/-- two years from January 2000, values 0, 1, 2, ...: the summer means are 6 and 18, those of the anomalies -6 and 6 -/
example : SeasonFrom "JJA" 6 ∧ MonthlyRecord Cal.days360 (monthlyFrom 24000 2) 24000 2 ∧ (Cal.monthNo 24000 - 6) % 12 ≠ 1 ∧ (Cal.monthNo 24000 - 6) % 12 ≠ 2 ∧
    (monthToSeason Cal.days360 "JJA" (monthlyFrom 24000 2)).toOption.map (List.map (·.val 0)) = some [some 6, some 18] ∧
    ((climateAnomaly Cal.days360 (fun _ => .ok true) "month" (monthlyFrom 24000 2)).toOption.bind fun l =>
      (monthToSeason Cal.days360 "JJA" (again (monthlyFrom 24000 2) l)).toOption).map (List.map (·.val 0)) = some [some (-6), some 6] := by
  exact ⟨by decide +kernel, monthlyFrom_record _ _, by decide +kernel, by decide +kernel, by decide +kernel, by decide +kernel⟩

/-- The winter of the first year is cut off by the start of the record (C36), so that the season must lie within the record's years: the
winter means are 1/2 and 12, with anomalies -23/4 and 23/4; the winter means of the monthly anomalies are -6 and 2. -/
theorem C211_winter :
    (monthToSeason Cal.days360 "DJF" (monthlyFrom 24000 2)).toOption.map (List.map (·.val 0)) = some [some (1 / 2), some 12] ∧
    ((climateAnomaly Cal.days360 (fun _ => .ok true) "month" (monthlyFrom 24000 2)).toOption.bind fun l =>
      (monthToSeason Cal.days360 "DJF" (again (monthlyFrom 24000 2) l)).toOption).map (List.map (·.val 0)) = some [some (-6), some 2] := by
  exact ⟨by decide +kernel, by decide +kernel⟩

end Verif.Props
