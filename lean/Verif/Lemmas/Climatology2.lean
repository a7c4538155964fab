import Verif.Lemmas.Climatology

set_option linter.unusedSectionVars false

namespace Verif.Lemmas
open Model Spec
variable {K : Type _} [Field K] [LinearOrder K] [IsStrictOrderedRing K]

theorem filterMap_sum {α : Type _} (l : List α) (P : α → Prop) [DecidablePred P] (g : α → Option K) :
    ((l.filter (fun e => decide (P e))).filterMap g).sum = (l.map (fun e => if P e then (g e).getD 0 else 0)).sum := by
  induction l with
  | nil => rfl
  | cons e l ih =>
    rw [List.map_cons, List.sum_cons, ← ih]
    by_cases h : P e
    · rw [List.filter_cons_of_pos (by simpa using h), if_pos h, List.filterMap_cons]
      cases hg : g e with
      | none => simp
      | some v => simp
    · rw [List.filter_cons_of_neg (by simpa using h), if_neg h, zero_add]

theorem sum_indicator (L : List ℤ) (hn : L.Nodup) (j : ℤ) (w : K) :
    (L.map (fun k => if j = k then w else 0)).sum = if j ∈ L then w else 0 := by
  induction L with
  | nil => simp
  | cons k L ih =>
    obtain ⟨h1, h2⟩ := List.nodup_cons.mp hn
    rw [List.map_cons, List.sum_cons, ih h2]
    by_cases hj : j = k
    · subst hj
      simp [h1]
    · simp [hj]

theorem sum_map_comm {α β : Type _} (l : List α) (L : List β) (f : α → β → K) :
    (l.map (fun a => (L.map (fun b => f a b)).sum)).sum = (L.map (fun b => (l.map (fun a => f a b)).sum)).sum := by
  induction l with
  | nil => simp
  | cons a l ih =>
    rw [List.map_cons, List.sum_cons, ih, ← List.sum_map_add]
    rfl

/-- values of a period are the values of its months taken together: sum -/
theorem sum_by_months {α : Type _} (l : List α) (f : α → ℤ) (L : List ℤ) (hn : L.Nodup) (g : α → Option K) :
    ((l.filter (fun e => decide (f e ∈ L))).filterMap g).sum =
      (L.map (fun k => ((l.filter (fun e => decide (f e = k))).filterMap g).sum)).sum := by
  rw [filterMap_sum]
  simp only [filterMap_sum]
  rw [← sum_map_comm]
  congr 1
  refine List.map_congr_left fun e _ => ?_
  rw [sum_indicator L hn]

theorem filterMap_length_sum {α : Type _} (l : List α) (g : α → Option K) :
    ((l.filterMap g).length : K) = (l.filterMap (fun e => (g e).map (fun _ => (1 : K)))).sum := by
  induction l with
  | nil => simp
  | cons e l ih =>
    rw [List.filterMap_cons, List.filterMap_cons]
    cases g e with
    | none => simpa using ih
    | some v =>
      simp only [Option.map_some, List.length_cons, List.sum_cons, ← ih]
      push_cast
      ring

/-- values of a period: number -/
theorem length_by_months {α : Type _} (l : List α) (f : α → ℤ) (L : List ℤ) (hn : L.Nodup) (g : α → Option K) :
    (((l.filter (fun e => decide (f e ∈ L))).filterMap g).length : K) =
      (L.map (fun k => (((l.filter (fun e => decide (f e = k))).filterMap g).length : K))).sum := by
  rw [filterMap_length_sum, sum_by_months l f L hn]
  congr 1
  refine List.map_congr_left fun k _ => ?_
  rw [filterMap_length_sum]

theorem sum_filter_zero (L : List ℤ) (P : ℤ → Prop) [DecidablePred P] (w : ℤ → K) (h : ∀ k ∈ L, ¬ P k → w k = 0) :
    ((L.filter (fun k => decide (P k))).map w).sum = (L.map w).sum := by
  induction L with
  | nil => rfl
  | cons k L ih =>
    have ih' := ih (fun k hk => h k (by simp [hk]))
    by_cases hk : P k
    · rw [List.filter_cons_of_pos (by simpa using hk), List.map_cons, List.map_cons, List.sum_cons, List.sum_cons, ih']
    · rw [List.filter_cons_of_neg (by simpa using hk), List.map_cons, List.sum_cons, ih', h k (by simp) hk, zero_add]

theorem sum_len_pos (cal : Cal) (ks : List ℤ) (h : ks ≠ []) : 0 < (ks.map (fun k => (cal.len k : K))).sum := by
  refine List.sum_pos _ ?_ (by simpa using h)
  intro x hx
  simp only [List.mem_map] at hx
  obtain ⟨k, -, rfl⟩ := hx
  exact_mod_cast len_pos cal k

/-- a weighted mean lies between the bounds of its values -/
theorem dayWeighted_bounds (cal : Cal) (ks : List ℤ) (h : ks ≠ []) (x : ℤ → K) (lo hi : K) (hb : ∀ k ∈ ks, lo ≤ x k ∧ x k ≤ hi) :
    lo ≤ dayWeighted cal ks x ∧ dayWeighted cal ks x ≤ hi := by
  have hT := sum_len_pos (K := K) cal ks h
  unfold dayWeighted
  have hl : ∀ k, (0 : K) < cal.len k := fun k => by exact_mod_cast len_pos cal k
  constructor
  · rw [le_div_iff₀ hT, ← List.sum_map_mul_left]
    refine List.sum_le_sum fun k hk => ?_
    nlinarith [hl k, (hb k hk).1]
  · rw [div_le_iff₀ hT, ← List.sum_map_mul_left]
    refine List.sum_le_sum fun k hk => ?_
    nlinarith [hl k, (hb k hk).2]

/-- months with sample counts proportional to their lengths: the weighted mean of their means is the plain mean -/
theorem dayWeighted_plain (cal : Cal) (l : List (Entry K)) (c : ℕ) (ks : List ℤ) (hn : ks.Nodup) (hne : ks ≠ []) (r : K) (hr : r ≠ 0)
    (hc : ∀ k ∈ ks, ((valuesIn l (fun t => cal.monthOf t = k) c).length : K) = r * cal.len k) :
    some (dayWeighted cal ks (fun k => (monthMean cal l k c).getD 0)) = mean (valuesIn l (fun t => cal.monthOf t ∈ ks) c) := by
  have hT := sum_len_pos (K := K) cal ks hne
  have hs : (valuesIn l (fun t => cal.monthOf t ∈ ks) c).sum = (ks.map (fun k => (valuesIn l (fun t => cal.monthOf t = k) c).sum)).sum :=
    sum_by_months l (fun e => cal.monthOf e.key) ks hn _
  have hlen : ((valuesIn l (fun t => cal.monthOf t ∈ ks) c).length : K) = r * (ks.map (fun k => (cal.len k : K))).sum := by
    have := length_by_months (K := K) l (fun e => cal.monthOf e.key) ks hn (fun e => e.val c)
    rw [show ((valuesIn l (fun t => cal.monthOf t ∈ ks) c).length : K) = _ from this, ← List.sum_map_mul_left]
    congr 1
    exact List.map_congr_left fun k hk => hc k hk
  have hne' : valuesIn l (fun t => cal.monthOf t ∈ ks) c ≠ [] := by
    intro h
    rw [h] at hlen
    simp only [List.length_nil, Nat.cast_zero] at hlen
    rcases mul_eq_zero.mp hlen.symm with h | h
    · exact hr h
    · exact hT.ne' h
  unfold mean
  rw [if_neg hne', hs, hlen]
  congr 1
  unfold dayWeighted
  have he : ks.map (fun k => (cal.len k : K) * (monthMean cal l k c).getD 0) = ks.map (fun k => (valuesIn l (fun t => cal.monthOf t = k) c).sum * r⁻¹) := by
    refine List.map_congr_left fun k hk => ?_
    have hl : (cal.len k : K) ≠ 0 := by
      have : (0 : K) < cal.len k := by exact_mod_cast len_pos cal k
      exact this.ne'
    have hk' := hc k hk
    have hv : valuesIn l (fun t => cal.monthOf t = k) c ≠ [] := by
      intro h
      rw [h] at hk'
      simp only [List.length_nil, Nat.cast_zero] at hk'
      exact mul_ne_zero hr hl hk'.symm
    unfold monthMean mean
    rw [if_neg hv]
    simp only [Option.getD_some]
    rw [hk']
    field_simp
  rw [he, List.sum_map_mul_right]
  field_simp

/-- one season of `climatology_average` -/
theorem seasonClimate_eq (cal : Cal) (s : Series K) (hn : 0 < s.ncell) (months : List ℤ) (v : ℕ → Option K)
    (h : seasonClimate cal s months = .ok v) :
    ∃ ks : List ℤ, ks.Pairwise (· < ·) ∧ (∀ k, k ∈ ks ↔ FullMonth cal s k ∧ Cal.monthNo k ∈ months) ∧
      ∀ c < s.ncell, v c = some (dayWeighted cal ks (fun k => (monthMean cal s.samples k c).getD 0)) := by
  unfold seasonClimate at h
  set f := s.samples.filter (fun e => decide (cal.month e.key ∈ months)) with hf
  simp only [bind, Except.bind] at h
  by_cases hc : f = [] ∨ ¬ f.Pairwise (fun a b => a.key ≤ b.key)
  · rw [resample, if_pos hc] at h
    cases h
  · rw [resample, if_neg hc] at h
    push Not at hc
    injection h with h
    obtain ⟨hne, hs⟩ := hc
    obtain ⟨a, ha⟩ : ∃ a, f.head? = some a := by
      cases hh : f.head? with
      | none => exact absurd (List.head?_eq_none_iff.mp hh) hne
      | some a => exact ⟨a, rfl⟩
    obtain ⟨z, hz⟩ : ∃ z, f.getLast? = some z := by
      cases hh : f.getLast? with
      | none => exact absurd (List.getLast?_eq_none_iff.mp hh) hne
      | some z => exact ⟨z, rfl⟩
    -- the filtered series
    set s' : Series K := { s with samples := f } with hs'
    have hm : ∀ k c, monthMean cal f k c = if Cal.monthNo k ∈ months then monthMean cal s.samples k c else none := by
      intro k c
      unfold monthMean valuesIn
      rw [hf, List.filter_filter]
      split_ifs with hk
      · congr 2
        refine List.filter_congr fun e _ => ?_
        rw [Bool.eq_iff_iff]
        simp only [Bool.and_eq_true, decide_eq_true_eq]
        constructor
        · exact fun h => h.1
        · intro h
          refine ⟨h, ?_⟩
          unfold Cal.month
          rw [h]
          exact hk
      · rw [List.filter_eq_nil_iff.mpr]
        · rfl
        · intro e _
          simp only [Bool.and_eq_true, decide_eq_true_eq]
          rintro ⟨h, h'⟩
          unfold Cal.month at h'
          exact hk (by rw [← h]; exact h')
    have hfull : ∀ k, FullMonth cal s' k ↔ FullMonth cal s k ∧ Cal.monthNo k ∈ months := by
      intro k
      unfold FullMonth
      constructor
      · intro hk
        have hmk : Cal.monthNo k ∈ months := by
          have := hk 0 hn
          rw [show s'.samples = f from rfl, hm] at this
          by_contra hcc
          rw [if_neg hcc] at this
          simp at this
        refine ⟨fun c hc => ?_, hmk⟩
        have := hk c hc
        rwa [show s'.samples = f from rfl, hm, if_pos hmk] at this
      · rintro ⟨hk, hmk⟩ c hc
        rw [show s'.samples = f from rfl, hm, if_pos hmk]
        exact hk c hc
    refine ⟨fullMonths cal s' (cal.monthOf a.key) (cal.monthOf z.key), (periodRange_sorted _ _).filter _, ?_, ?_⟩
    · intro k
      rw [mem_fullMonths cal s' hn hs a z ha hz, hfull]
    · intro c hc
      have hmon := monthly_eq cal s' a z ha hz
      rw [← h, show dropna s.ncell (meanEach (bins cal.monthOf f)) = _ from hmon]
      refine congrArg some ?_
      refine (weighted_value cal _ (fun k c => monthMean cal s'.samples k c) c (fun k hk => ?_)).trans ?_
      · rw [mem_fullMonths cal s' hn hs a z ha hz] at hk
        exact hk c hc
      · unfold dayWeighted
        congr 2
        refine List.map_congr_left fun k hk => ?_
        rw [mem_fullMonths cal s' hn hs a z ha hz, hfull] at hk
        beta_reduce
        rw [show s'.samples = f from rfl, hm, if_pos hk.2]

end Verif.Lemmas
