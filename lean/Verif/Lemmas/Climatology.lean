import Verif.Model.Climatology
import Verif.Spec.Climate
import Mathlib.Algebra.Order.Field.Basic
import Mathlib.Algebra.BigOperators.Ring.List
import Mathlib.Algebra.Order.BigOperators.Group.List
import Mathlib.Tactic.Linarith
import Mathlib.Tactic.FieldSimp
import Mathlib.Tactic.Ring

set_option linter.unusedSectionVars false

namespace Verif.Lemmas
open Model Spec
variable {K : Type _} [Field K] [LinearOrder K] [IsStrictOrderedRing K]

/-! ### calendars -/

theorem monthStart_mono (cal : Cal) {i j : ℤ} (h : i < j) : cal.monthStart i < cal.monthStart j := by
  have := Cal.starts_lower cal.monthStart cal.pos (j - i).toNat i
  rw [Int.toNat_of_nonneg (by omega)] at this
  have e : i + (j - i) = j := by omega
  rw [e] at this
  omega

theorem monthOf_unique (cal : Cal) {t k : ℤ} (h0 : cal.monthStart k ≤ t) (h1 : t < cal.monthStart (k + 1)) : cal.monthOf t = k := by
  obtain ⟨a, b⟩ := cal.inMonth t
  rcases lt_trichotomy (cal.monthOf t) k with h | h | h
  · have : cal.monthStart (cal.monthOf t + 1) ≤ cal.monthStart k := by
      rcases eq_or_lt_of_le (show cal.monthOf t + 1 ≤ k by omega) with e | e
      · rw [e]
      · exact (monthStart_mono cal e).le
    omega
  · exact h
  · have : cal.monthStart (k + 1) ≤ cal.monthStart (cal.monthOf t) := by
      rcases eq_or_lt_of_le (show k + 1 ≤ cal.monthOf t by omega) with e | e
      · rw [e]
      · exact (monthStart_mono cal e).le
    omega

theorem monthOf_mono (cal : Cal) {t t' : ℤ} (h : t ≤ t') : cal.monthOf t ≤ cal.monthOf t' := by
  by_contra hc
  have h1 := (cal.inMonth t).1
  have h2 := (cal.inMonth t').2
  have : cal.monthStart (cal.monthOf t' + 1) ≤ cal.monthStart (cal.monthOf t) := by
    rcases eq_or_lt_of_le (show cal.monthOf t' + 1 ≤ cal.monthOf t by omega) with e | e
    · rw [e]
    · exact (monthStart_mono cal e).le
  omega

theorem len_pos (cal : Cal) (k : ℤ) : 0 < cal.len k := by
  unfold Cal.len
  have h := cal.pos k
  obtain ⟨a, ha⟩ := cal.wholeDays k
  obtain ⟨b, hb⟩ := cal.wholeDays (k + 1)
  omega

theorem periodOf_mono (cal : Cal) (p : Period) {t t' : ℤ} (h : t ≤ t') : periodOf cal p t ≤ periodOf cal p t' := by
  have := monthOf_mono cal h
  cases p <;> simp only [periodOf] <;> omega

/-! ### lists of integers -/

theorem mem_periodRange (a z b : ℤ) : b ∈ periodRange a z ↔ a ≤ b ∧ b ≤ z := by
  simp only [periodRange, List.mem_map, List.mem_range]
  constructor
  · rintro ⟨i, hi, rfl⟩
    omega
  · rintro ⟨h1, h2⟩
    exact ⟨(b - a).toNat, by omega, by omega⟩

theorem periodRange_length (a z : ℤ) : (periodRange a z).length = (z - a + 1).toNat := by simp [periodRange]

theorem periodRange_sorted (a z : ℤ) : (periodRange a z).Pairwise (· < ·) := by
  unfold periodRange
  rw [List.pairwise_map]
  refine List.Pairwise.imp ?_ List.pairwise_lt_range
  intro i j h
  omega

theorem periodRange_getElem? (a z : ℤ) (i : ℕ) (h : (i : ℤ) ≤ z - a) : (periodRange a z)[i]? = some (a + i) := by
  unfold periodRange
  rw [List.getElem?_map, List.getElem?_range (by omega)]
  rfl

/-- strictly increasing lists with the same members are equal -/
theorem sorted_ext {l l' : List ℤ} (h : l.Pairwise (· < ·)) (h' : l'.Pairwise (· < ·)) (hm : ∀ x, x ∈ l ↔ x ∈ l') : l = l' := by
  have n1 : l.Nodup := h.imp (fun h => ne_of_lt h)
  have n2 : l'.Nodup := h'.imp (fun h => ne_of_lt h)
  refine List.Perm.eq_of_pairwise (le := (· < ·)) ?_ h h' ((List.perm_ext_iff_of_nodup n1 n2).mpr hm)
  intro a b _ _ h1 h2
  exact absurd h1 (lt_asymm h2)

theorem periodRange_head (a z : ℤ) (h : a ≤ z) : (periodRange a z).head? = some a := by
  rw [List.head?_eq_getElem?, periodRange_getElem? a z 0 (by omega)]
  simp

theorem periodRange_last (a z : ℤ) (h : a ≤ z) : (periodRange a z).getLast? = some z := by
  rw [List.getLast?_eq_getElem?, periodRange_length, periodRange_getElem? a z _ (by omega)]
  congr 1
  omega

/-- the first and the last element of a list sorted by `f` are its bounds -/
theorem head_last_bounds {α : Type _} (f : α → ℤ) (l : List α) (hs : l.Pairwise (fun a b => f a ≤ f b)) (a z : α) (ha : l.head? = some a)
    (hz : l.getLast? = some z) (e : α) (he : e ∈ l) : f a ≤ f e ∧ f e ≤ f z := by
  constructor
  · cases l with
    | nil => simp at he
    | cons x xs =>
      simp only [List.head?_cons, Option.some.injEq] at ha
      subst ha
      rcases List.mem_cons.mp he with rfl | h
      · exact le_refl _
      · exact (List.pairwise_cons.mp hs).1 e h
  · obtain ⟨ys, hy⟩ := List.getLast?_eq_some_iff.mp hz
    rw [hy] at hs he
    rcases List.mem_append.mp he with h | h
    · exact (List.pairwise_append.mp hs).2.2 e h z (by simp)
    · simp only [List.mem_singleton] at h
      rw [h]

/-! ### months -/

/-- the months between two bounds that have a value in every cell -/
def fullMonths (cal : Cal) (s : Series K) (a z : ℤ) : List ℤ := (periodRange a z).filter (fun k => decide (FullMonth cal s k))

theorem nanMean_month (cal : Cal) (l : List (Entry K)) (k : ℤ) (c : ℕ) :
    nanMean c (l.filter (fun e => decide (cal.monthOf e.key = k))) = monthMean cal l k c := rfl

theorem monthly_eq (cal : Cal) (s : Series K) (a z : Entry K) (ha : s.samples.head? = some a) (hz : s.samples.getLast? = some z) :
    dropna s.ncell (meanEach (bins cal.monthOf s.samples)) =
      (fullMonths cal s (cal.monthOf a.key) (cal.monthOf z.key)).map (fun k => ⟨k, fun c => monthMean cal s.samples k c⟩) := by
  unfold dropna meanEach bins fullMonths
  simp only [ha, hz, List.map_map, List.filter_map]
  congr 1
  apply List.filter_congr
  intro k _
  rw [Bool.eq_iff_iff, decide_eq_true_iff]
  simp only [Function.comp_apply, List.all_eq_true, List.mem_range, FullMonth, nanMean_month]

theorem full_in_range (cal : Cal) (s : Series K) (hn : 0 < s.ncell) (hs : s.samples.Pairwise (fun a b => a.key ≤ b.key)) (a z : Entry K)
    (ha : s.samples.head? = some a) (hz : s.samples.getLast? = some z) (k : ℤ) (hk : FullMonth cal s k) :
    cal.monthOf a.key ≤ k ∧ k ≤ cal.monthOf z.key := by
  have h := hk 0 hn
  unfold monthMean mean at h
  split_ifs at h with hv
  · simp at h
  · obtain ⟨v, hv'⟩ := List.exists_mem_of_ne_nil _ hv
    simp only [valuesIn, List.mem_filterMap, List.mem_filter, decide_eq_true_eq] at hv'
    obtain ⟨e, ⟨he, hek⟩, -⟩ := hv'
    obtain ⟨h1, h2⟩ := head_last_bounds (fun e : Entry K => e.key) s.samples hs a z ha hz e he
    rw [← hek]
    exact ⟨monthOf_mono cal h1, monthOf_mono cal h2⟩

theorem mem_fullMonths (cal : Cal) (s : Series K) (hn : 0 < s.ncell) (hs : s.samples.Pairwise (fun a b => a.key ≤ b.key)) (a z : Entry K)
    (ha : s.samples.head? = some a) (hz : s.samples.getLast? = some z) (k : ℤ) :
    k ∈ fullMonths cal s (cal.monthOf a.key) (cal.monthOf z.key) ↔ FullMonth cal s k := by
  simp only [fullMonths, List.mem_filter, mem_periodRange, decide_eq_true_eq]
  exact ⟨fun h => h.2, fun h => ⟨full_in_range cal s hn hs a z ha hz k h, h⟩⟩

/-- the months of a season or year -/
def periodMonths (p : Period) (b : ℤ) : List ℤ :=
  match p with
  | .season => seasonOfMonths b
  | .year => yearOfMonths b
  | _ => [b]

theorem mem_periodMonths (p : Period) (b k : ℤ) : k ∈ periodMonths p b ↔ monthPeriod p k = b := by
  cases p <;> simp only [periodMonths, monthPeriod, seasonOfMonths, yearOfMonths, List.mem_cons, List.not_mem_nil, or_false, List.mem_map, List.mem_range]
  · omega
  · constructor
    · rintro ⟨i, hi, rfl⟩
      omega
    · intro h
      exact ⟨(k % 12).toNat, by omega, by omega⟩

theorem periodMonths_sorted (p : Period) (b : ℤ) : (periodMonths p b).Pairwise (· < ·) := by
  cases p <;> simp only [periodMonths, seasonOfMonths, yearOfMonths]
  · simp
  · simp
  · simp
  · simp only [List.pairwise_cons, List.mem_cons, List.not_mem_nil, or_false]
    refine ⟨?_, ?_, ?_, ?_⟩
    · rintro x (rfl | rfl) <;> omega
    · rintro x rfl; omega
    · rintro x h; exact absurd h (by simp)
    · exact List.Pairwise.nil
  · rw [List.pairwise_map]
    refine List.Pairwise.imp ?_ List.pairwise_lt_range
    intro i j h
    omega

theorem monthPeriod_mono (p : Period) {k k' : ℤ} (h : k ≤ k') : monthPeriod p k ≤ monthPeriod p k' := by
  cases p <;> simp only [monthPeriod] <;> omega

/-- full months of a period, as found by the code and as in the specification -/
theorem fullMonths_period (cal : Cal) (s : Series K) (hn : 0 < s.ncell) (hs : s.samples.Pairwise (fun a b => a.key ≤ b.key)) (a z : Entry K)
    (ha : s.samples.head? = some a) (hz : s.samples.getLast? = some z) (p : Period) (b : ℤ) :
    (fullMonths cal s (cal.monthOf a.key) (cal.monthOf z.key)).filter (fun k => decide (monthPeriod p k = b)) =
      (periodMonths p b).filter (fun k => decide (FullMonth cal s k)) := by
  refine sorted_ext ?_ ?_ ?_
  · exact ((periodRange_sorted _ _).filter _).filter _
  · exact (periodMonths_sorted p b).filter _
  · intro k
    simp only [List.mem_filter, mem_fullMonths cal s hn hs a z ha hz, mem_periodMonths, decide_eq_true_eq]
    tauto

/-- weights of the code and of the specification -/
theorem weighted_value (cal : Cal) (ks : List ℤ) (x : ℤ → ℕ → Option K) (c : ℕ) (hx : ∀ k ∈ ks, (x k c).isSome) :
    nanSum c ((ks.map (fun k => (⟨k, fun c => x k c⟩ : Entry K))).map (fun e => (⟨e.key, fun c => (e.val c).map
      (fun v => v * ((cal.len e.key : K) / totalDays cal (ks.map (fun k => (⟨k, fun c => x k c⟩ : Entry K)))))⟩ : Entry K))) =
      dayWeighted cal ks (fun k => (x k c).getD 0) := by
  unfold nanSum dayWeighted totalDays
  simp only [List.map_map, List.filterMap_map, Function.comp_def]
  generalize (ks.map (fun k => (cal.len k : K))).sum = T
  have : ks.filterMap (fun k => (x k c).map (fun v => v * ((cal.len k : K) / T))) =
      ks.map (fun k => ((cal.len k : K) * (x k c).getD 0) / T) := by
    induction ks with
    | nil => rfl
    | cons k ks ih =>
      obtain ⟨v, hv⟩ := Option.isSome_iff_exists.mp (hx k (by simp))
      have hv' : (x k c).map (fun v => v * ((cal.len k : K) / T)) = some (v * ((cal.len k : K) / T)) := by rw [hv]; rfl
      rw [List.filterMap_cons, hv', List.map_cons]
      simp only
      congr 1
      · rw [hv]
        simp only [Option.getD_some]
        ring
      · have := ih (fun k hk => hx k (by simp [hk]))
        exact this
  rw [this]
  simp only [div_eq_mul_inv]
  rw [List.sum_map_mul_right]

/-- season or year sums of the code -/
theorem weightedSums_eq (cal : Cal) (s : Series K) (hn : 0 < s.ncell) (hs : s.samples.Pairwise (fun a b => a.key ≤ b.key)) (a z : Entry K)
    (ha : s.samples.head? = some a) (hz : s.samples.getLast? = some z) (p : Period) (k0 k1 : ℤ)
    (h0 : (fullMonths cal s (cal.monthOf a.key) (cal.monthOf z.key)).head? = some k0)
    (h1 : (fullMonths cal s (cal.monthOf a.key) (cal.monthOf z.key)).getLast? = some k1) :
    ∃ v : ℤ → ℕ → Option K,
      weightedSums cal p (dropna s.ncell (meanEach (bins cal.monthOf s.samples))) =
        (periodRange (monthPeriod p k0) (monthPeriod p k1)).map (fun b => ⟨b, v b⟩) ∧
      ∀ b, ∀ c < s.ncell, v b c = if (periodMonths p b).filter (fun k => decide (FullMonth cal s k)) = [] then none
          else some (dayWeighted cal ((periodMonths p b).filter (fun k => decide (FullMonth cal s k)))
            (fun k => (monthMean cal s.samples k c).getD 0)) := by
  rw [monthly_eq cal s a z ha hz]
  unfold weightedSums
  set F := fullMonths cal s (cal.monthOf a.key) (cal.monthOf z.key) with hF
  have hb : bins (monthPeriod p) (F.map (fun k => (⟨k, fun c => monthMean cal s.samples k c⟩ : Entry K))) =
      (periodRange (monthPeriod p k0) (monthPeriod p k1)).map (fun b => (b,
        ((periodMonths p b).filter (fun k => decide (FullMonth cal s k))).map (fun k => (⟨k, fun c => monthMean cal s.samples k c⟩ : Entry K)))) := by
    unfold bins
    rw [List.head?_map, List.getLast?_map, h0, h1]
    simp only [Option.map_some]
    refine List.map_congr_left fun b _ => ?_
    rw [List.filter_map, ← fullMonths_period cal s hn hs a z ha hz p b]
    rfl
  rw [hb, List.map_map]
  refine ⟨_, List.map_congr_left fun b _ => rfl, fun b c hc => ?_⟩
  simp only [List.map_eq_nil_iff]
  split_ifs with he
  · rfl
  · congr 1
    refine weighted_value cal _ (fun k c => monthMean cal s.samples k c) c (fun k hk => ?_)
    simp only [List.mem_filter, decide_eq_true_eq] at hk
    exact hk.2 c hc

theorem centerBounds_map (cal : Cal) (p : Period) (a z : ℤ) (v : ℤ → ℕ → Option K) :
    centerBounds cal p a z ((periodRange a z).map (fun b => (⟨b, v b⟩ : Entry K))) =
      .ok ((periodRange a z).map (fun b => ⟨periodCenter cal p b, v b⟩)) := by
  unfold centerBounds
  rw [List.length_map, if_pos rfl]
  simp only [pure, Except.pure]
  congr 1
  rw [List.zipWith_map_right, List.zipWith_self]

/-- what is left of `calendar_average` once the frequency is known -/
def calBody (cal : Cal) (infer : InferFreq) (p : Period) (s : Series K) : Except PyErr (List (Entry K)) := do
  let key := if p = .season ∨ p = .year then .month else p
  if ¬ s.isTime then throw .valueError
  checkUniform cal infer s
  let g ← resample (periodOf cal key) s.samples
  let m := dropna s.ncell (meanEach g)
  let out := if p = .season ∨ p = .year then weightedSums cal p m else m
  match out.head?, out.getLast? with
  | some a, some z => centerBounds cal p a.key z.key out
  | _, _ => throw (if p = .season ∨ p = .year then .valueError else .indexError)

theorem calendar_eq (cal : Cal) (infer : InferFreq) (freq : String) (p : Period) (h : calendarPeriod freq = .ok p) (s : Series K) :
    calendarAverage cal infer freq s = calBody cal infer p s := by
  unfold calendarAverage
  rw [h]
  rfl

/-- a call that passes the checks: the data is in increasing order -/
theorem calBody_ok (cal : Cal) (infer : InferFreq) (p : Period) (s : Series K) (out : List (Entry K)) (h : calBody cal infer p s = .ok out) :
    s.isTime = true ∧ checkUniform cal infer s = .ok () ∧ s.samples ≠ [] ∧ s.samples.Pairwise (fun a b => a.key ≤ b.key) := by
  unfold calBody at h
  simp only [bind, Except.bind] at h
  cases hi : s.isTime with
  | false => simp [hi, throw, throwThe, MonadExceptOf.throw] at h
  | true =>
    simp only [hi, not_true_eq_false, if_false] at h
    cases hu : checkUniform cal infer s with
    | error e => rw [hu] at h; cases h
    | ok u =>
      rw [hu] at h
      simp only at h
      by_cases hc : s.samples = [] ∨ ¬ s.samples.Pairwise (fun a b => a.key ≤ b.key)
      · rw [resample, if_pos hc] at h
        cases h
      · push Not at hc
        exact ⟨rfl, rfl, hc.1, hc.2⟩

theorem calBody_eq (cal : Cal) (infer : InferFreq) (p : Period) (s : Series K) (hi : s.isTime = true) (hu : checkUniform cal infer s = .ok ())
    (hne : s.samples ≠ []) (hs : s.samples.Pairwise (fun a b => a.key ≤ b.key)) (out : List (Entry K))
    (ho : out = if p = .season ∨ p = .year then weightedSums cal p (dropna s.ncell (meanEach (bins (periodOf cal (if p = .season ∨ p = .year then .month else p)) s.samples)))
      else dropna s.ncell (meanEach (bins (periodOf cal (if p = .season ∨ p = .year then .month else p)) s.samples))) :
    calBody cal infer p s = match out.head?, out.getLast? with
      | some a, some z => centerBounds cal p a.key z.key out
      | _, _ => .error (if p = .season ∨ p = .year then .valueError else .indexError) := by
  unfold calBody resample
  have hc : ¬ (s.samples = [] ∨ ¬ s.samples.Pairwise (fun a b => a.key ≤ b.key)) := by tauto
  rw [ho]
  simp only [hi, hu, hc, bind, Except.bind, pure, Except.pure, if_false, not_true_eq_false]
  rfl

end Verif.Lemmas
