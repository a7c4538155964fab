import Verif.Props.MonthToSeason2
import Verif.Props.Climatology2
import Verif.Props.ClimSteps

/-
C145: the two ways to seasonal means of monthly data, month_to_season and calendar_average(freq="season").
-/

set_option linter.unusedSectionVars false

namespace Verif.Props
open Model Spec Lemmas
variable {K : Type _} [Field K] [LinearOrder K] [IsStrictOrderedRing K]

/-- the samples of a monthly record, by month -/
theorem record_samples {cal : Cal} {s : Series K} {k0 : ℤ} {N : ℕ} (hr : MonthlyRecord cal s k0 N) :
    ∃ E : ℤ → Entry K, s.samples = (periodRange k0 (k0 + 12 * N - 1)).map E ∧ ∀ k ∈ periodRange k0 (k0 + 12 * N - 1), cal.monthOf (E k).key = k := by
  refine ⟨fun k => s.samples[(k - k0).toNat]?.getD ⟨0, fun _ => none⟩, ?_, ?_⟩
  · unfold periodRange
    rw [show (k0 + 12 * N - 1 - k0 + 1).toNat = 12 * N by omega, List.map_map]
    apply List.ext_getElem?
    intro i
    rw [List.getElem?_map]
    by_cases hi : i < 12 * N
    · rw [List.getElem?_range hi]
      simp only [Option.map_some, Function.comp_apply]
      rw [show (k0 + (i : ℤ) - k0).toNat = i by omega, List.getElem?_eq_getElem (by rw [hr.size]; exact hi)]
      rfl
    · rw [List.getElem?_eq_none (by rw [hr.size]; omega), List.getElem?_eq_none (by simp; omega)]
      rfl
  · intro k hk
    rw [mem_periodRange] at hk
    have hi : (k - k0).toNat < s.samples.length := by rw [hr.size]; omega
    simp only [List.getElem?_eq_getElem hi, Option.getD_some]
    rw [hr.months _ _ (List.getElem?_eq_getElem hi)]
    omega

/-- the values of a complete monthly record in some months -/
theorem record_values {cal : Cal} {s : Series K} {k0 : ℤ} {N : ℕ} (hr : MonthlyRecord cal s k0 N) (c : ℕ)
    (hfull : ∀ e ∈ s.samples, (e.val c).isSome) :
    ∃ v : ℤ → K, ∀ P : ℤ → Prop, ∀ _ : DecidablePred P,
      valuesIn s.samples (fun t => P (cal.monthOf t)) c = ((periodRange k0 (k0 + 12 * N - 1)).filter (fun k => decide (P k))).map v := by
  obtain ⟨E, hE, hm⟩ := record_samples hr
  refine ⟨fun k => ((E k).val c).getD 0, fun P _ => ?_⟩
  unfold valuesIn
  rw [hE, List.filter_map, List.filterMap_map]
  have h1 : (periodRange k0 (k0 + 12 * N - 1)).filter ((fun e : Entry K => decide (P (cal.monthOf e.key))) ∘ E) =
      (periodRange k0 (k0 + 12 * N - 1)).filter (fun k => decide (P k)) := by
    refine List.filter_congr fun k hk => ?_
    simp only [Function.comp_apply, hm k hk]
  rw [h1, ← List.filterMap_eq_map]
  refine List.filterMap_congr fun k hk => ?_
  have hk' := (List.mem_filter.mp hk).1
  have := hfull (E k) (by rw [hE]; exact List.mem_map.mpr ⟨k, hk', rfl⟩)
  simp only [Function.comp_apply]
  cases h : (E k).val c with
  | none => rw [h] at this; cases this
  | some x => simp

/-- plain mean of some months -/
def plain (ks : List ℤ) (x : ℤ → K) : K := (ks.map x).sum / ks.length

theorem plain_eq_weighted (cal : Cal) (ks : List ℤ) (x : ℤ → K) (d : ℤ) (hd : d ≠ 0) (h : ∀ k ∈ ks, cal.len k = d) : plain ks x = dayWeighted cal ks x := by
  unfold plain dayWeighted
  have h1 : ks.map (fun k => (cal.len k : K) * x k) = ks.map (fun k => (d : K) * x k) := List.map_congr_left fun k hk => by rw [h k hk]
  have h2 : ks.map (fun k => (cal.len k : K)) = ks.map (fun _ => (d : K)) := List.map_congr_left fun k hk => by rw [h k hk]
  have hd' : (d : K) ≠ 0 := by exact_mod_cast hd
  rw [h1, h2, List.sum_map_mul_left, List.map_const', List.sum_replicate, nsmul_eq_mul, mul_comm (ks.length : K), mul_div_mul_left _ _ hd']

theorem abs_sub_two {a b u v R : K} (ha : 28 ≤ a) (ha' : a ≤ 31) (hb : 28 ≤ b) (hb' : b ≤ 31) (hu : 0 ≤ u) (hu' : u ≤ R) (hv : 0 ≤ v) (hv' : v ≤ R) :
    |(u + v) / 2 - (a * u + b * v) / (a + b)| ≤ R / 39 := by
  have hW : 0 < a + b := by linarith
  rw [show (u + v) / 2 - (a * u + b * v) / (a + b) = ((b - a) * u + (a - b) * v) / (2 * (a + b)) by field_simp; ring, abs_div, abs_of_pos (show 0 < 2 * (a + b) by linarith),
    div_le_iff₀ (by linarith)]
  have hR : 0 ≤ R := by linarith
  have e : R / 39 * (2 * (a + b)) = R * (2 * (a + b) / 39) := by ring
  rw [e, abs_le]
  rcases le_total a b with h | h
  · have h1 : (b - a) * u ≤ (b - a) * R := mul_le_mul_of_nonneg_left hu' (by linarith)
    have h2 : (b - a) * v ≤ (b - a) * R := mul_le_mul_of_nonneg_left hv' (by linarith)
    have h3 := mul_nonneg (show 0 ≤ b - a by linarith) hu
    have h4 := mul_nonneg (show 0 ≤ b - a by linarith) hv
    have h5 : R * (b - a) ≤ R * (2 * (a + b) / 39) := mul_le_mul_of_nonneg_left (by linarith) hR
    constructor <;> linarith
  · have h1 : (a - b) * u ≤ (a - b) * R := mul_le_mul_of_nonneg_left hu' (by linarith)
    have h2 : (a - b) * v ≤ (a - b) * R := mul_le_mul_of_nonneg_left hv' (by linarith)
    have h3 := mul_nonneg (show 0 ≤ a - b by linarith) hu
    have h4 := mul_nonneg (show 0 ≤ a - b by linarith) hv
    have h5 : R * (a - b) ≤ R * (2 * (a + b) / 39) := mul_le_mul_of_nonneg_left (by linarith) hR
    constructor <;> linarith

theorem scaled_bounds {p u R : K} (hu : 0 ≤ u) (hu' : u ≤ R) : min p 0 * R ≤ p * u ∧ p * u ≤ max p 0 * R := by
  have hR : 0 ≤ R := hu.trans hu'
  rcases le_total 0 p with h | h
  · rw [min_eq_right h, max_eq_left h]
    exact ⟨by rw [zero_mul]; exact mul_nonneg h hu, mul_le_mul_of_nonneg_left hu' h⟩
  · rw [min_eq_left h, max_eq_right h]
    exact ⟨mul_le_mul_of_nonpos_left hu' h, by rw [zero_mul]; exact mul_nonpos_of_nonpos_of_nonneg h hu⟩

theorem abs_sub_three {a b c u v w R : K} (ha : 28 ≤ a) (ha' : a ≤ 31) (hb : 28 ≤ b) (hb' : b ≤ 31) (hc : 28 ≤ c) (hc' : c ≤ 31)
    (hu : 0 ≤ u) (hu' : u ≤ R) (hv : 0 ≤ v) (hv' : v ≤ R) (hw : 0 ≤ w) (hw' : w ≤ R) :
    |(u + v + w) / 3 - (a * u + b * v + c * w) / (a + b + c)| ≤ R / 39 := by
  have hW : 0 < a + b + c := by linarith
  rw [show (u + v + w) / 3 - (a * u + b * v + c * w) / (a + b + c) =
      ((b + c - 2 * a) * u + (a + c - 2 * b) * v + (a + b - 2 * c) * w) / (3 * (a + b + c)) by field_simp; ring, abs_div, abs_of_pos (show 0 < 3 * (a + b + c) by linarith),
    div_le_iff₀ (by linarith)]
  have hR : 0 ≤ R := by linarith
  have e : R / 39 * (3 * (a + b + c)) = (a + b + c) / 13 * R := by ring
  rw [e, abs_le]
  have h1 := scaled_bounds (p := b + c - 2 * a) hu hu'
  have h2 := scaled_bounds (p := a + c - 2 * b) hv hv'
  have h3 := scaled_bounds (p := a + b - 2 * c) hw hw'
  have h4 : max (b + c - 2 * a) 0 + max (a + c - 2 * b) 0 + max (a + b - 2 * c) 0 ≤ (a + b + c) / 13 := by
    rcases le_total 0 (b + c - 2 * a) with h | h <;> rcases le_total 0 (a + c - 2 * b) with h' | h' <;> rcases le_total 0 (a + b - 2 * c) with h'' | h'' <;>
      simp only [max_eq_left, max_eq_right, h, h', h''] <;> linarith
  have h5 : -((a + b + c) / 13) ≤ min (b + c - 2 * a) 0 + min (a + c - 2 * b) 0 + min (a + b - 2 * c) 0 := by
    rcases le_total 0 (b + c - 2 * a) with h | h <;> rcases le_total 0 (a + c - 2 * b) with h' | h' <;> rcases le_total 0 (a + b - 2 * c) with h'' | h'' <;>
      simp only [min_eq_left, min_eq_right, h, h', h''] <;> linarith
  have h6 := mul_le_mul_of_nonneg_right h4 hR
  have h7 := mul_le_mul_of_nonneg_right h5 hR
  constructor <;> linarith [h1.1, h1.2, h2.1, h2.2, h3.1, h3.2]

theorem full_iff {cal : Cal} {s : Series K} {k0 : ℤ} {N : ℕ} (hr : MonthlyRecord cal s k0 N) (hn : 0 < s.ncell)
    (hfull : ∀ e ∈ s.samples, ∀ c < s.ncell, (e.val c).isSome) (k : ℤ) : FullMonth cal s k ↔ k0 ≤ k ∧ k ≤ k0 + 12 * N - 1 := by
  have key : ∀ c < s.ncell, (monthMean cal s.samples k c).isSome ↔ k0 ≤ k ∧ k ≤ k0 + 12 * N - 1 := by
    intro c hc
    obtain ⟨v, hv⟩ := record_values hr c (fun e he => hfull e he c hc)
    unfold monthMean
    rw [hv (fun m => m = k) inferInstance]
    by_cases hk : k ∈ periodRange k0 (k0 + 12 * N - 1)
    · rw [filter_eq_single _ _ _ hk]
      rw [mem_periodRange] at hk
      simp [mean, hk]
    · have : (periodRange k0 (k0 + 12 * N - 1)).filter (fun m => decide (m = k)) = [] := by
        rw [List.filter_eq_nil_iff]
        rintro m hm h
        rw [decide_eq_true_iff] at h
        exact hk (h ▸ hm)
      rw [this]
      rw [mem_periodRange] at hk
      simp [mean, hk]
  constructor
  · intro h; exact (key 0 hn).mp (h 0 hn)
  · intro h c hc; exact (key c hc).mpr h

/-- C145: month_to_season and calendar_average(freq="season") of a complete monthly record of whole calendar years: for each entry of the first there is one
of the second for the same season. The values agree when the months of the season are equally long; when months have 28 to 31 days, the values
differ by at most 1/39 of the range of the data. -/
theorem C145_partial (cal : Cal) (infer : InferFreq) (s : Series K) (hn : 0 < s.ncell) (season : String)
    (hseason : season = "DJF" ∨ season = "MAM" ∨ season = "JJA" ∨ season = "SON") (k0 : ℤ) (N : ℕ) (hN : 0 < N) (hr : MonthlyRecord cal s k0 N)
    (hjan : k0 % 12 = 0) (hfull : ∀ e ∈ s.samples, ∀ c < s.ncell, (e.val c).isSome) (out out' : List (Entry K))
    (h : monthToSeason cal season s = .ok out) (h' : calendarAverage cal infer "season" s = .ok out') (o : Entry K) (ho : o ∈ out) :
    ∃ (b : ℤ) (o' : Entry K), o' ∈ out' ∧ o.key = cal.monthStart (3 * b) ∧
      o'.key = (cal.monthStart (3 * b - 1) + cal.monthStart (3 * b + 2)) / 2 ∧
      ∀ c < s.ncell, ∃ x y, o.val c = some x ∧ o'.val c = some y ∧
        (cal.len (3 * b - 1) = cal.len (3 * b) ∧ cal.len (3 * b + 1) = cal.len (3 * b) → x = y) ∧
        ((∀ k, 28 ≤ cal.len k) → ∀ lo hi, (∀ e ∈ s.samples, ∀ v, e.val c = some v → lo ≤ v ∧ v ≤ hi) → |x - y| ≤ (hi - lo) / 39) := by
  have ht : s.isTime = true := by
    by_contra hc
    unfold monthToSeason at h
    simp only [if_pos hc] at h
    cases h
  obtain ⟨months, a, hs, hstart, hmid⟩ : ∃ months a, seasonQuarter season = some (months, a) ∧ Suits season months k0 ∧
      ∀ M, Cal.monthNo M = months.getD 1 0 → M % 12 = 0 ∨ M % 12 = 3 ∨ M % 12 = 6 ∨ M % 12 = 9 := by
    rcases hseason with rfl | rfl | rfl | rfl <;>
    · refine ⟨_, _, rfl, ?_, ?_⟩
      · simp [Suits, Cal.monthNo, hjan]
      · intro M hM
        simp only [Cal.monthNo, List.getD_cons_succ, List.getD_cons_zero] at hM
        omega
  obtain ⟨out1, M0, h1, hM0, hM1, hM2, hlen, hval⟩ := C36_seasons_partial cal s season months a k0 N hs ht hN hr hstart
  rw [h1] at h
  injection h with h
  subst h
  obtain ⟨i, hi⟩ := List.mem_iff_getElem?.mp ho
  obtain ⟨hkey, hv⟩ := hval i o hi
  have hiN : i < N := by
    have := (List.getElem?_eq_some_iff.mp hi).1
    omega
  have hM3 := hmid M0 hM2
  obtain ⟨b, hb⟩ : ∃ b : ℤ, M0 + 12 * i = 3 * b := ⟨(M0 + 12 * i) / 3, by omega⟩
  rw [hb] at hkey hv
  obtain ⟨b0, j0, j1, f0, f1, fb, hj0, hj1, hseas⟩ := C37_season cal infer s hn out' h'
  have hfi := full_iff hr hn hfull
  have hmin := fb k0 ((hfi k0).mpr (by omega))
  have hmax := fb (k0 + 12 * N - 1) ((hfi _).mpr (by omega))
  rw [hfi] at f0 f1
  simp only [seasonOfMonths, List.mem_cons, List.not_mem_nil, or_false] at hj0 hj1
  have hb0 : k0 = 3 * b0 := by omega
  have hl' : (out'.length : ℤ) = 4 * N + 1 := by omega
  obtain ⟨j, hj⟩ : ∃ j : ℕ, b = b0 + j := ⟨(b - b0).toNat, by omega⟩
  have hjl : j < out'.length := by omega
  obtain ⟨k1, k2⟩ := hseas j out'[j] (List.getElem?_eq_getElem hjl)
  rw [← hj] at k1 k2
  refine ⟨b, out'[j], List.getElem_mem hjl, hkey, k1, ?_⟩
  intro c hc
  obtain ⟨v, hvv⟩ := record_values hr c (fun e he => hfull e he c hc)
  obtain ⟨-, hy⟩ := k2 c hc _ rfl
  -- the months of the season in the record
  set ks := (seasonOfMonths b).filter (fun k => decide (FullMonth cal s k)) with hks
  have hmem : ∀ k, k ∈ ks ↔ (3 * b - 1 ≤ k ∧ k ≤ 3 * b + 1) ∧ (k0 ≤ k ∧ k ≤ k0 + 12 * N - 1) := by
    intro k
    rw [hks, List.mem_filter, decide_eq_true_iff, hfi]
    simp only [seasonOfMonths, List.mem_cons, List.not_mem_nil, or_false]
    omega
  have hsorted : ks.Pairwise (· < ·) := by
    rw [hks]
    refine List.Pairwise.filter _ ?_
    simp [seasonOfMonths]
    omega
  have hne : ks ≠ [] := by
    intro hnil
    have := (hmem (3 * b)).mpr (by omega)
    rw [hnil] at this
    cases this
  obtain ⟨y, ey, hyw, -⟩ := hy hne
  have hx : o.val c = some (plain ks v) := by
    rw [hv c, hvv (fun m => m ∈ [3 * b - 1, 3 * b, 3 * b + 1]) inferInstance]
    have : (periodRange k0 (k0 + 12 * N - 1)).filter (fun k => decide (k ∈ [3 * b - 1, 3 * b, 3 * b + 1])) = ks := by
      refine sorted_ext ((periodRange_sorted _ _).filter _) hsorted ?_
      intro k
      rw [hmem, List.mem_filter, mem_periodRange, decide_eq_true_iff]
      simp only [List.mem_cons, List.not_mem_nil, or_false]
      omega
    rw [this]
    unfold mean plain
    rw [if_neg (by simpa using hne), List.length_map]
  have hsingle : ∀ k ∈ ks, (monthMean cal s.samples k c).getD 0 = v k := by
    intro k hk
    unfold monthMean
    rw [hvv (fun m => m = k) inferInstance, filter_eq_single _ _ _ ((mem_periodRange _ _ _).mpr ((hmem k).mp hk).2)]
    simp [mean]
  have hyw' : y = dayWeighted cal ks v := by
    rw [hyw]
    unfold dayWeighted
    congr 2
    exact List.map_congr_left fun k hk => by simp only [hsingle k hk]
  refine ⟨_, y, hx, ey, ?_, ?_⟩
  · rintro ⟨e1, e2⟩
    rw [hyw']
    refine plain_eq_weighted cal ks v (cal.len (3 * b)) (ne_of_gt (len_pos cal _)) ?_
    intro k hk
    have := (hmem k).mp hk
    rcases (show k = 3 * b - 1 ∨ k = 3 * b ∨ k = 3 * b + 1 by omega) with rfl | rfl | rfl
    · exact e1
    · rfl
    · exact e2
  · intro h28 lo hi hlohi
    have hvb : ∀ k, k0 ≤ k → k ≤ k0 + 12 * N - 1 → lo ≤ v k ∧ v k ≤ hi := by
      intro k hk1 hk2
      have hin : v k ∈ valuesIn s.samples (fun t => cal.monthOf t = k) c := by
        rw [hvv (fun m => m = k) inferInstance, filter_eq_single _ _ _ ((mem_periodRange _ _ _).mpr ⟨hk1, hk2⟩)]
        simp
      unfold valuesIn at hin
      obtain ⟨e, he, hev⟩ := List.mem_filterMap.mp hin
      exact hlohi e (List.mem_filter.mp he).1 _ hev
    have hlen28 : ∀ k, (28 : K) ≤ (cal.len k : K) ∧ (cal.len k : K) ≤ 31 := by
      intro k
      refine ⟨by exact_mod_cast h28 k, ?_⟩
      have h1 := cal.short k
      have : cal.len k ≤ 31 := by unfold Cal.len; omega
      exact_mod_cast this
    have A := hvb (3 * b) (by omega) (by omega)
    have B := hvb (3 * b + 1) (by omega) (by omega)
    have la := hlen28 (3 * b - 1)
    have lb := hlen28 (3 * b)
    have lc := hlen28 (3 * b + 1)
    rw [hyw']
    by_cases hfirst : k0 ≤ 3 * b - 1
    · have hk3 : ks = [3 * b - 1, 3 * b, 3 * b + 1] := by
        refine sorted_ext hsorted (by simp; omega) ?_
        intro k
        rw [hmem]
        simp only [List.mem_cons, List.not_mem_nil, or_false]
        omega
      have C := hvb (3 * b - 1) hfirst (by omega)
      have := abs_sub_three la.1 la.2 lb.1 lb.2 lc.1 lc.2 (sub_nonneg.mpr C.1) (sub_le_sub_right C.2 lo) (sub_nonneg.mpr A.1) (sub_le_sub_right A.2 lo)
        (sub_nonneg.mpr B.1) (sub_le_sub_right B.2 lo)
      refine le_of_eq_of_le ?_ this
      rw [hk3]
      unfold plain dayWeighted
      have hW : (cal.len (3 * b - 1) : K) + cal.len (3 * b) + cal.len (3 * b + 1) ≠ 0 := by linarith [la.1, lb.1, lc.1]
      congr 1
      simp only [List.map_cons, List.map_nil, List.sum_cons, List.sum_nil, List.length_cons, List.length_nil]
      rw [show (cal.len (3 * b - 1) : K) + (cal.len (3 * b) + (cal.len (3 * b + 1) + 0)) = cal.len (3 * b - 1) + cal.len (3 * b) + cal.len (3 * b + 1) by ring]
      push_cast
      field_simp
      ring
    · have hk2 : ks = [3 * b, 3 * b + 1] := by
        refine sorted_ext hsorted (by simp) ?_
        intro k
        rw [hmem]
        simp only [List.mem_cons, List.not_mem_nil, or_false]
        omega
      have := abs_sub_two lb.1 lb.2 lc.1 lc.2 (sub_nonneg.mpr A.1) (sub_le_sub_right A.2 lo) (sub_nonneg.mpr B.1) (sub_le_sub_right B.2 lo)
      refine le_of_eq_of_le ?_ this
      rw [hk2]
      unfold plain dayWeighted
      have hW : (cal.len (3 * b) : K) + cal.len (3 * b + 1) ≠ 0 := by linarith [lb.1, lc.1]
      congr 1
      simp only [List.map_cons, List.map_nil, List.sum_cons, List.sum_nil, List.length_cons, List.length_nil]
      rw [show (cal.len (3 * b) : K) + (cal.len (3 * b + 1) + 0) = cal.len (3 * b) + cal.len (3 * b + 1) by ring]
      push_cast
      field_simp
      ring

/-- the monthly record 0, 1, 2, ... in the 365-day calendar -/
def noleapMonths (k0 : ℤ) (N : ℕ) : Series ℚ := ⟨1, (List.range (12 * N)).map (fun i : ℕ => ⟨Cal.noleap.monthStart (k0 + i), fun _ => some i⟩), true⟩

/-- C145 without restriction is false: in the 365-day calendar the two means of January and February of the record 0, 1, 2, ... are 1/2 and 28/59. -/
theorem C145_counterexample :
    (monthToSeason Cal.noleap "DJF" (noleapMonths 24000 1)).toOption.map (rows 1) = some [(Cal.noleap.monthStart 24000, [some (1 / 2)])] ∧
    (calendarAverage Cal.noleap (fun _ => .ok true) "season" (noleapMonths 24000 1)).toOption.map (fun l => ((rows 1 l).take 1).map (fun r => r.2)) = some [[some (28 / 59)]] := by
  constructor <;> decide +kernel

theorem noleapMonths_record (k0 : ℤ) (N : ℕ) : MonthlyRecord Cal.noleap (noleapMonths k0 N) k0 N where
  size := by simp [noleapMonths]
  months := by
    intro i e he
    simp only [noleapMonths, List.getElem?_map] at he
    obtain ⟨j, hj, rfl⟩ := Option.map_eq_some_iff.mp he
    obtain ⟨h1, h2⟩ := List.getElem?_eq_some_iff.mp hj
    rw [List.getElem_range] at h2
    subst h2
    exact monthOf_unique Cal.noleap le_rfl (Cal.noleap.pos _)

/-- the hypotheses of C145 hold for two years of this record, and both calls succeed -/
example : (∃ out out', monthToSeason Cal.noleap "JJA" (noleapMonths 24000 2) = .ok out ∧
      calendarAverage Cal.noleap (fun _ => .ok true) "season" (noleapMonths 24000 2) = .ok out' ∧ out.length = 2) ∧
    MonthlyRecord Cal.noleap (noleapMonths 24000 2) 24000 2 ∧ (∀ e ∈ (noleapMonths 24000 2).samples, ∀ c < 1, (e.val c).isSome) := by
  refine ⟨?_, noleapMonths_record _ _, ?_⟩
  · have h1 : (monthToSeason Cal.noleap "JJA" (noleapMonths 24000 2)).toOption.map List.length = some 2 := by decide +kernel
    have h2 : (calendarAverage Cal.noleap (fun _ => .ok true) "season" (noleapMonths 24000 2)).toOption.isSome := by decide +kernel
    cases e1 : monthToSeason Cal.noleap "JJA" (noleapMonths 24000 2) with
    | error e => rw [e1] at h1; cases h1
    | ok out =>
      cases e2 : calendarAverage Cal.noleap (fun _ => .ok true) "season" (noleapMonths 24000 2) with
      | error e => rw [e2] at h2; cases h2
      | ok out' =>
        rw [e1] at h1
        exact ⟨out, out', rfl, rfl, by simpa [Except.toOption] using h1⟩
  · intro e he c _
    simp only [noleapMonths, List.mem_map] at he
    obtain ⟨i, -, rfl⟩ := he
    rfl

end Verif.Props
