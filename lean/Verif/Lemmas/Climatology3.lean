import Verif.Lemmas.Climatology2
import Mathlib.Data.Finset.Card

/-
Lemmas on labels within a year and on the median year.
-/

set_option linter.unusedSectionVars false

namespace Verif.Lemmas
open Model Spec
variable {K : Type _} [Field K] [LinearOrder K] [IsStrictOrderedRing K]

/-- frequencies of `climatology_average` other than seasons -/
def simple (p : Period) : Prop := p = .hour ∨ p = .day ∨ p = .month

theorem month_range (cal : Cal) (t : ℤ) : 1 ≤ cal.month t ∧ cal.month t ≤ 12 := by
  unfold Cal.month Cal.monthNo
  omega

theorem day_range (cal : Cal) (t : ℤ) : 1 ≤ cal.day t ∧ cal.day t ≤ cal.len (cal.monthOf t) ∧ cal.day t ≤ 31 := by
  unfold Cal.day Cal.len
  obtain ⟨h0, h1⟩ := cal.inMonth t
  have hs := cal.short (cal.monthOf t)
  obtain ⟨a, ha⟩ := cal.wholeDays (cal.monthOf t)
  obtain ⟨b, hb⟩ := cal.wholeDays (cal.monthOf t + 1)
  omega

theorem hour_range (t : ℤ) : 0 ≤ Cal.hour t ∧ Cal.hour t ≤ 23 := by
  unfold Cal.hour
  omega

theorem stampKey_lt (cal : Cal) (p : Period) (hp : simple p) (t t' : ℤ) :
    stampKey cal p t < stampKey cal p t' ↔ before (stamp cal p t) (stamp cal p t') := by
  have a := month_range cal t
  have b := month_range cal t'
  have c := day_range cal t
  have d := day_range cal t'
  have e := hour_range t
  have f := hour_range t'
  rcases hp with rfl | rfl | rfl <;> simp only [stampKey, before, stamp] <;> omega

theorem stampKey_eq (cal : Cal) (p : Period) (hp : simple p) (t t' : ℤ) :
    stampKey cal p t = stampKey cal p t' ↔ stamp cal p t = stamp cal p t' := by
  have a := month_range cal t
  have b := month_range cal t'
  have c := day_range cal t
  have d := day_range cal t'
  have e := hour_range t
  have f := hour_range t'
  rcases hp with rfl | rfl | rfl <;> simp only [stampKey, stamp, Prod.mk.injEq, and_true] <;> omega

theorem year_month (cal : Cal) (t : ℤ) : 12 * cal.year t + cal.month t - 1 = cal.monthOf t := by
  unfold Cal.year Cal.month Cal.monthNo
  omega

theorem keyPeriod_valid (cal : Cal) (p : Period) (hp : simple p) (t y : ℤ) (hy : cal.year t = y) :
    keyPeriod cal p y (stampKey cal p t) = .ok (periodOf cal p t) := by
  have a := month_range cal t
  obtain ⟨c1, c2, c3⟩ := day_range cal t
  have e := hour_range t
  have hk := year_month cal t
  rw [hy] at hk
  rcases hp with rfl | rfl | rfl
  · have e1 : ((cal.month t * 100 + cal.day t) * 100 + Cal.hour t) / 10000 = cal.month t := by omega
    have e2 : ((cal.month t * 100 + cal.day t) * 100 + Cal.hour t) / 100 % 100 = cal.day t := by omega
    have e3 : ((cal.month t * 100 + cal.day t) * 100 + Cal.hour t) % 100 = Cal.hour t := by omega
    simp only [keyPeriod, stampKey, periodOf, e1, e2, e3, hk, if_pos c2, pure, Except.pure]
    congr 1
    unfold Cal.day Cal.hour
    obtain ⟨x, hx⟩ := cal.wholeDays (cal.monthOf t)
    rw [hx]
    omega
  · have e1 : (cal.month t * 100 + cal.day t) / 100 = cal.month t := by omega
    have e2 : (cal.month t * 100 + cal.day t) % 100 = cal.day t := by omega
    simp only [keyPeriod, stampKey, periodOf, e1, e2, hk, if_pos c2, pure, Except.pure]
    congr 1
    unfold Cal.day
    obtain ⟨x, hx⟩ := cal.wholeDays (cal.monthOf t)
    rw [hx]
    omega
  · simp only [keyPeriod, stampKey, periodOf, hk, pure, Except.pure]

/-- a label that exists in year `y` names a period of that year with this label -/
theorem keyPeriod_back (cal : Cal) (p : Period) (hp : simple p) (t y b : ℤ) (h : keyPeriod cal p y (stampKey cal p t) = .ok b) :
    cal.year (periodStart cal p b) = y ∧ stampKey cal p (periodStart cal p b) = stampKey cal p t ∧ periodOf cal p (periodStart cal p b) = b := by
  have a := month_range cal t
  obtain ⟨c1, c2, c3⟩ := day_range cal t
  have e := hour_range t
  have hmon : Cal.monthNo (12 * y + cal.month t - 1) = cal.month t := by unfold Cal.monthNo; omega
  have hyr : (12 * y + cal.month t - 1) / 12 = y := by omega
  rcases hp with rfl | rfl | rfl
  · have e1 : ((cal.month t * 100 + cal.day t) * 100 + Cal.hour t) / 10000 = cal.month t := by omega
    have e2 : ((cal.month t * 100 + cal.day t) * 100 + Cal.hour t) / 100 % 100 = cal.day t := by omega
    have e3 : ((cal.month t * 100 + cal.day t) * 100 + Cal.hour t) % 100 = Cal.hour t := by omega
    simp only [keyPeriod, stampKey, e1, e2, e3, pure, Except.pure] at h
    split_ifs at h with hd
    · injection h with h
      obtain ⟨x, hx⟩ := cal.wholeDays (12 * y + cal.month t - 1)
      obtain ⟨z, hz⟩ := cal.wholeDays (12 * y + cal.month t - 1 + 1)
      unfold Cal.len at hd
      rw [hx, hz] at hd
      rw [hx] at h
      have hm : cal.monthOf (periodStart cal .hour b) = 12 * y + cal.month t - 1 := by
        refine monthOf_unique cal ?_ ?_ <;> simp only [periodStart, hx, hz] <;> omega
      refine ⟨?_, ?_, ?_⟩
      · unfold Cal.year; rw [hm, hyr]
      · have h1 : cal.month (periodStart cal .hour b) = cal.month t := by unfold Cal.month; rw [hm, hmon]; rfl
        have h2 : cal.day (periodStart cal .hour b) = cal.day t := by
          unfold Cal.day at c1 ⊢
          rw [hm, hx]
          simp only [periodStart]
          unfold Cal.day at h
          omega
        have h3 : Cal.hour (periodStart cal .hour b) = Cal.hour t := by
          unfold Cal.hour at e h ⊢
          simp only [periodStart]
          omega
        simp only [stampKey, h1, h2, h3]
      · simp only [periodOf, periodStart]; omega
  · have e1 : (cal.month t * 100 + cal.day t) / 100 = cal.month t := by omega
    have e2 : (cal.month t * 100 + cal.day t) % 100 = cal.day t := by omega
    simp only [keyPeriod, stampKey, e1, e2, pure, Except.pure] at h
    split_ifs at h with hd
    · injection h with h
      obtain ⟨x, hx⟩ := cal.wholeDays (12 * y + cal.month t - 1)
      obtain ⟨z, hz⟩ := cal.wholeDays (12 * y + cal.month t - 1 + 1)
      unfold Cal.len at hd
      rw [hx, hz] at hd
      rw [hx] at h
      have hm : cal.monthOf (periodStart cal .day b) = 12 * y + cal.month t - 1 := by
        refine monthOf_unique cal ?_ ?_ <;> simp only [periodStart, hx, hz] <;> omega
      refine ⟨?_, ?_, ?_⟩
      · unfold Cal.year; rw [hm, hyr]
      · have h1 : cal.month (periodStart cal .day b) = cal.month t := by unfold Cal.month; rw [hm, hmon]; rfl
        have h2 : cal.day (periodStart cal .day b) = cal.day t := by
          unfold Cal.day at c1 ⊢
          rw [hm, hx]
          simp only [periodStart]
          unfold Cal.day at h
          omega
        simp only [stampKey, h1, h2]
      · simp only [periodOf, periodStart]; omega
  · simp only [keyPeriod, stampKey, pure, Except.pure] at h
    injection h with h
    have hm : cal.monthOf (periodStart cal .month b) = b := monthOf_unique cal le_rfl (cal.pos b)
    refine ⟨?_, ?_, ?_⟩
    · unfold Cal.year; rw [hm, ← h, hyr]
    · simp only [stampKey]
      unfold Cal.month
      rw [hm, ← h, hmon]
      rfl
    · exact hm

/-- within a year the order of the labels is the order of the periods -/
theorem stampKey_mono (cal : Cal) (p : Period) (hp : simple p) (t t' : ℤ) (hy : cal.year t = cal.year t') :
    stampKey cal p t < stampKey cal p t' ↔ periodOf cal p t < periodOf cal p t' := by
  have a := month_range cal t
  have b := month_range cal t'
  have c := day_range cal t
  have d := day_range cal t'
  have e := hour_range t
  have f := hour_range t'
  have hk := year_month cal t
  have hk' := year_month cal t'
  obtain ⟨i0, i1⟩ := cal.inMonth t
  obtain ⟨j0, j1⟩ := cal.inMonth t'
  have cmp : cal.month t < cal.month t' ↔ cal.monthOf t < cal.monthOf t' := by omega
  have below : ∀ k k', k < k' → cal.monthStart (k + 1) ≤ cal.monthStart k' := by
    intro k k' h
    rcases eq_or_lt_of_le (show k + 1 ≤ k' by omega) with e | e
    · rw [e]
    · exact (monthStart_mono cal e).le
  obtain ⟨x, hx⟩ := cal.wholeDays (cal.monthOf t)
  obtain ⟨x', hx'⟩ := cal.wholeDays (cal.monthOf t')
  obtain ⟨z, hz⟩ := cal.wholeDays (cal.monthOf t + 1)
  obtain ⟨z', hz'⟩ := cal.wholeDays (cal.monthOf t' + 1)
  rcases lt_trichotomy (cal.monthOf t) (cal.monthOf t') with h | h | h
  · have h1 := below _ _ h
    have h2 := cmp.mpr h
    rcases hp with rfl | rfl | rfl <;> simp only [stampKey, periodOf] <;> omega
  · have h2 : cal.month t = cal.month t' := by unfold Cal.month; rw [h]
    rcases hp with rfl | rfl | rfl
    · simp only [stampKey, periodOf]
      unfold Cal.day Cal.hour at *
      rw [h2]
      rw [h] at hx hz i0 i1 ⊢
      omega
    · simp only [stampKey, periodOf]
      unfold Cal.day at *
      rw [h2]
      rw [h] at hx hz i0 i1 ⊢
      omega
    · simp only [stampKey, periodOf]
      omega
  · have h1 := below _ _ h
    have h2 : cal.month t' < cal.month t := by omega
    rcases hp with rfl | rfl | rfl <;> simp only [stampKey, periodOf] <;> omega

/-- the centre of a period lies in the period -/
theorem center_same (cal : Cal) (p : Period) (hp : simple p) (b : ℤ) (hb : periodOf cal p (periodStart cal p b) = b) :
    cal.year (periodCenter cal p b) = cal.year (periodStart cal p b) ∧ stamp cal p (periodCenter cal p b) = stamp cal p (periodStart cal p b) := by
  have hm : cal.monthOf (periodCenter cal p b) = cal.monthOf (periodStart cal p b) := by
    obtain ⟨h0, h1⟩ := cal.inMonth (periodStart cal p b)
    obtain ⟨x, hx⟩ := cal.wholeDays (cal.monthOf (periodStart cal p b))
    obtain ⟨z, hz⟩ := cal.wholeDays (cal.monthOf (periodStart cal p b) + 1)
    rcases hp with rfl | rfl | rfl
    · refine monthOf_unique cal ?_ ?_ <;> simp only [periodCenter, periodStart] at * <;> omega
    · refine monthOf_unique cal ?_ ?_ <;> simp only [periodCenter, periodStart] at * <;> omega
    · have := cal.pos b
      simp only [periodOf] at hb
      rw [hb] at h0 h1 ⊢
      refine monthOf_unique cal ?_ ?_ <;> simp only [periodCenter, periodStart] at * <;> omega
  refine ⟨by unfold Cal.year; rw [hm], ?_⟩
  have h1 : cal.month (periodCenter cal p b) = cal.month (periodStart cal p b) := by unfold Cal.month; rw [hm]
  obtain ⟨x, hx⟩ := cal.wholeDays (cal.monthOf (periodStart cal p b))
  rcases hp with rfl | rfl | rfl
  · have h2 : cal.day (periodCenter cal .hour b) = cal.day (periodStart cal .hour b) := by
      unfold Cal.day
      rw [hm]
      simp only [periodCenter, periodStart] at *
      omega
    have h3 : Cal.hour (periodCenter cal .hour b) = Cal.hour (periodStart cal .hour b) := by
      unfold Cal.hour
      simp only [periodCenter, periodStart]
      omega
    simp only [stamp, h1, h2, h3]
  · have h2 : cal.day (periodCenter cal .day b) = cal.day (periodStart cal .day b) := by
      unfold Cal.day
      rw [hm]
      simp only [periodCenter, periodStart] at *
      omega
    simp only [stamp, h1, h2]
  · simp only [stamp, h1]

/-- a period between two periods of a year belongs to that year -/
theorem period_between (cal : Cal) (p : Period) (hp : simple p) (a z b y : ℤ) (ha : cal.year (periodStart cal p a) = y)
    (hz : cal.year (periodStart cal p z) = y) (ha' : periodOf cal p (periodStart cal p a) = a) (hz' : periodOf cal p (periodStart cal p z) = z)
    (h0 : a ≤ b) (h1 : b ≤ z) : cal.year (periodStart cal p b) = y ∧ periodOf cal p (periodStart cal p b) = b := by
  have hb : periodOf cal p (periodStart cal p b) = b := by
    rcases hp with rfl | rfl | rfl
    · simp only [periodOf, periodStart]; omega
    · simp only [periodOf, periodStart]; omega
    · exact monthOf_unique cal le_rfl (cal.pos b)
  refine ⟨?_, hb⟩
  have m1 : cal.monthOf (periodStart cal p a) ≤ cal.monthOf (periodStart cal p b) := by
    rcases hp with rfl | rfl | rfl
    · exact monthOf_mono cal (by simp only [periodStart]; omega)
    · exact monthOf_mono cal (by simp only [periodStart]; omega)
    · simp only [periodOf] at ha' hb; rw [ha', hb]; exact h0
  have m2 : cal.monthOf (periodStart cal p b) ≤ cal.monthOf (periodStart cal p z) := by
    rcases hp with rfl | rfl | rfl
    · exact monthOf_mono cal (by simp only [periodStart]; omega)
    · exact monthOf_mono cal (by simp only [periodStart]; omega)
    · simp only [periodOf] at hz' hb; rw [hz', hb]; exact h1
  unfold Cal.year at *
  omega

/-! ### median year -/

theorem roundHalf_bounds (a b lo hi : ℤ) (ha : lo ≤ a ∧ a ≤ hi) (hb : lo ≤ b ∧ b ≤ hi) : lo ≤ roundHalf (a + b) ∧ roundHalf (a + b) ≤ hi := by
  unfold roundHalf
  split_ifs <;> omega

theorem getD_mem {α : Type _} (l : List α) (i : ℕ) (d : α) (h : i < l.length) : l.getD i d ∈ l := by
  rw [List.getD_eq_getElem?_getD, List.getElem?_eq_getElem h]
  exact List.getElem_mem h

/-- the median year lies between the years of the data -/
theorem medianYear_bounds (cal : Cal) (l : List (Entry K)) (hne : l ≠ []) (lo hi : ℤ) (h : ∀ e ∈ l, lo ≤ cal.year e.key ∧ cal.year e.key ≤ hi) :
    lo ≤ medianYear cal l ∧ medianYear cal l ≤ hi := by
  unfold medianYear median2
  simp only
  have hl : 0 < l.length := List.length_pos_of_ne_nil hne
  have hlen : ((l.map (fun e => cal.year e.key)).insertionSort (· ≤ ·)).length = l.length := by rw [List.length_insertionSort, List.length_map]
  have hm : ∀ i < l.length, lo ≤ ((l.map (fun e => cal.year e.key)).insertionSort (· ≤ ·)).getD i 0 ∧
      ((l.map (fun e => cal.year e.key)).insertionSort (· ≤ ·)).getD i 0 ≤ hi := by
    intro i hi
    have := getD_mem ((l.map (fun e => cal.year e.key)).insertionSort (· ≤ ·)) i 0 (by omega)
    rw [List.mem_insertionSort, List.mem_map] at this
    obtain ⟨e, he, hee⟩ := this
    rw [← hee]
    exact h e he
  exact roundHalf_bounds _ _ _ _ (hm _ (by omega)) (hm _ (by omega))

/-! ### groups -/

/-- distinct keys in increasing order -/
def sortedKeys (f : ℤ → ℤ) (l : List (Entry K)) : List ℤ := ((l.map (fun e => f e.key)).dedup).insertionSort (· ≤ ·)

theorem mem_sortedKeys (f : ℤ → ℤ) (l : List (Entry K)) (k : ℤ) : k ∈ sortedKeys f l ↔ ∃ e ∈ l, f e.key = k := by
  unfold sortedKeys
  rw [List.mem_insertionSort, List.mem_dedup, List.mem_map]

theorem sortedKeys_sorted (f : ℤ → ℤ) (l : List (Entry K)) : (sortedKeys f l).Pairwise (· < ·) := by
  have h1 : (sortedKeys f l).Pairwise (· ≤ ·) := List.pairwise_insertionSort _ _
  have h2 : (sortedKeys f l).Nodup := (List.perm_insertionSort _ _).nodup_iff.mpr (List.nodup_dedup _)
  exact h1.and h2 |>.imp (fun h => lt_of_le_of_ne h.1 h.2)

theorem groupKeys_eq (f : ℤ → ℤ) (l : List (Entry K)) :
    groupKeys f l = (sortedKeys f l).map (fun k => (k, l.filter (fun e => decide (f e.key = k)))) := rfl

theorem sortedKeys_nil (f : ℤ → ℤ) (l : List (Entry K)) (h : l ≠ []) : sortedKeys f l ≠ [] := by
  obtain ⟨e, he⟩ := List.exists_mem_of_ne_nil _ h
  exact List.ne_nil_of_mem ((mem_sortedKeys f l _).mpr ⟨e, he, rfl⟩)

/-- value of a group -/
def groupValue (f : ℤ → ℤ) (l : List (Entry K)) (k : ℤ) (c : ℕ) : Option K := nanMean c (l.filter (fun e => decide (f e.key = k)))

/-- `groupClimate`, in terms of the sorted keys -/
theorem groupClimate_eq (cal : Cal) (p : Period) (s : Series K) (a z : ℤ) (ha : (sortedKeys (stampKey cal p) s.samples).head? = some a)
    (hz : (sortedKeys (stampKey cal p) s.samples).getLast? = some z) :
    groupClimate cal p s = (if ¬ (1000 ≤ medianYear cal s.samples ∧ medianYear cal s.samples ≤ 99999) then .error .valueError else
      (keyPeriod cal p (medianYear cal s.samples) a).bind (fun b0 => (keyPeriod cal p (medianYear cal s.samples) z).bind (fun b1 =>
        centerBounds cal p b0 b1 ((sortedKeys (stampKey cal p) s.samples).map (fun k => ⟨k, fun c => groupValue (stampKey cal p) s.samples k c⟩))))) := by
  unfold groupClimate
  simp only [groupKeys_eq, List.head?_map, List.getLast?_map, ha, hz, Option.map_some, bind, meanEach, List.map_map]
  rfl

theorem groupClimate_ok (cal : Cal) (p : Period) (s : Series K) (out : List (Entry K)) (h : groupClimate cal p s = .ok out) :
    ∃ a z b0 b1, (sortedKeys (stampKey cal p) s.samples).head? = some a ∧ (sortedKeys (stampKey cal p) s.samples).getLast? = some z ∧
      (1000 ≤ medianYear cal s.samples ∧ medianYear cal s.samples ≤ 99999) ∧
      keyPeriod cal p (medianYear cal s.samples) a = .ok b0 ∧ keyPeriod cal p (medianYear cal s.samples) z = .ok b1 ∧
      (periodRange b0 b1).length = (sortedKeys (stampKey cal p) s.samples).length ∧
      out = List.zipWith (fun b k => (⟨periodCenter cal p b, fun c => groupValue (stampKey cal p) s.samples k c⟩ : Entry K)) (periodRange b0 b1)
        (sortedKeys (stampKey cal p) s.samples) := by
  cases ha : (sortedKeys (stampKey cal p) s.samples).head? with
  | none =>
    unfold groupClimate at h
    simp only [groupKeys_eq, List.head?_map, ha, Option.map_none] at h
    cases h
  | some a =>
    cases hz : (sortedKeys (stampKey cal p) s.samples).getLast? with
    | none =>
      rw [List.getLast?_eq_none_iff] at hz
      rw [hz] at ha
      simp at ha
    | some z =>
      rw [groupClimate_eq cal p s a z ha hz] at h
      split_ifs at h with hy
      cases h0 : keyPeriod cal p (medianYear cal s.samples) a with
      | error e => rw [h0] at h; cases h
      | ok b0 =>
        cases h1 : keyPeriod cal p (medianYear cal s.samples) z with
        | error e => rw [h0, h1] at h; cases h
        | ok b1 =>
          rw [h0, h1] at h
          simp only [Except.bind] at h
          unfold centerBounds at h
          split_ifs at h with hl
          · rw [List.length_map] at hl
            injection h with h
            refine ⟨a, z, b0, b1, rfl, rfl, hy, h0, h1, hl, ?_⟩
            rw [← h, List.zipWith_map_right]

/-- a strictly increasing list within bounds, of maximal length, is the whole range -/
theorem range_of_length (l : List ℤ) (a z : ℤ) (hs : l.Pairwise (· < ·)) (hb : ∀ x ∈ l, a ≤ x ∧ x ≤ z) (hl : (periodRange a z).length ≤ l.length) :
    l = periodRange a z := by
  refine sorted_ext hs (periodRange_sorted a z) ?_
  have hsub : l.toFinset ⊆ (periodRange a z).toFinset := by
    intro x hx
    rw [List.mem_toFinset] at hx ⊢
    exact (mem_periodRange a z x).mpr (hb x hx)
  have hn : l.Nodup := hs.imp (fun h => ne_of_lt h)
  have hn' : (periodRange a z).Nodup := (periodRange_sorted a z).imp (fun h => ne_of_lt h)
  have he := Finset.eq_of_subset_of_card_le hsub (by rw [List.toFinset_card_of_nodup hn, List.toFinset_card_of_nodup hn']; exact hl)
  intro x
  rw [← List.mem_toFinset, he, List.mem_toFinset]

end Verif.Lemmas
