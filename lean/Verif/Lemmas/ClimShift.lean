import Verif.Model.ClimArith
import Verif.Lemmas.Climatology3

/-
Records moved in time: every step of climatologies.py commutes with adding a constant to all time stamps, if the calendar repeats itself after that time.
-/

set_option linter.unusedSectionVars false

namespace Verif.Spec
variable {K : Type _}

/-- the calendar looks the same `n` years (`S` seconds) later -/
def Repeats (cal : Cal) (n S : ℤ) : Prop := ∀ k, cal.monthStart (k + 12 * n) = cal.monthStart k + S

/-- the same values `S` later -/
def Entry.later (S : ℤ) (e : Entry K) : Entry K := ⟨e.key + S, e.val⟩

/-- the same record, every sample taken `S` seconds later -/
def later (S : ℤ) (s : Series K) : Series K := ⟨s.ncell, s.samples.map (Entry.later S), s.isTime⟩

end Verif.Spec

namespace Verif.Lemmas
open Model Spec
variable {K : Type _} [Field K] [LinearOrder K] [IsStrictOrderedRing K] (A : ClimArith K)
variable {cal : Cal} {n S : ℤ}

theorem _root_.Verif.Spec.Repeats.days (h : Repeats cal n S) : 86400 ∣ S := by
  have h0 := h 0
  have h1 := cal.wholeDays 0
  have h2 := cal.wholeDays (0 + 12 * n)
  omega

theorem _root_.Verif.Spec.Repeats.monthOf (h : Repeats cal n S) (t : ℤ) : cal.monthOf (t + S) = cal.monthOf t + 12 * n := by
  apply monthOf_unique cal
  · rw [h]; have := (cal.inMonth t).1; omega
  · have e : cal.monthOf t + 12 * n + 1 = cal.monthOf t + 1 + 12 * n := by ring
    rw [e, h]; have := (cal.inMonth t).2; omega

theorem _root_.Verif.Spec.Repeats.len (h : Repeats cal n S) (k : ℤ) : cal.len (k + 12 * n) = cal.len k := by
  unfold Cal.len
  have e : k + 12 * n + 1 = k + 1 + 12 * n := by ring
  rw [e, h, h]
  congr 1
  omega

/-- by how much the number of a period grows -/
def periodShift (n S : ℤ) : Period → ℤ
  | .hour => S / 3600
  | .day => S / 86400
  | .month => 12 * n
  | .season => 4 * n
  | .year => n

theorem _root_.Verif.Spec.Repeats.periodOf (h : Repeats cal n S) (p : Period) (t : ℤ) : periodOf cal p (t + S) = periodOf cal p t + periodShift n S p := by
  have hd := h.days
  have hm := h.monthOf t
  cases p <;> simp only [Model.periodOf, periodShift] <;> (try rw [hm]) <;> omega

theorem _root_.Verif.Spec.Repeats.periodStart (h : Repeats cal n S) (p : Period) (b : ℤ) : periodStart cal p (b + periodShift n S p) = periodStart cal p b + S := by
  have hd := h.days
  cases p <;> simp only [Model.periodStart, periodShift]
  · omega
  · omega
  · exact h b
  · rw [← h]; congr 1; ring
  · rw [← h]; congr 1; ring

theorem _root_.Verif.Spec.Repeats.periodCenter (h : Repeats cal n S) (p : Period) (b : ℤ) : periodCenter cal p (b + periodShift n S p) = periodCenter cal p b + S := by
  unfold Model.periodCenter
  have e : b + periodShift n S p + 1 = b + 1 + periodShift n S p := by ring
  rw [e, h.periodStart, h.periodStart]
  omega

theorem _root_.Verif.Spec.Repeats.monthPeriod (n S : ℤ) (p : Period) (hp : p = .season ∨ p = .year) (k : ℤ) :
    monthPeriod p (k + 12 * n) = monthPeriod p k + periodShift n S p := by
  rcases hp with rfl | rfl <;> simp only [Model.monthPeriod, periodShift] <;> omega

theorem _root_.Verif.Spec.Repeats.month (h : Repeats cal n S) (t : ℤ) : cal.month (t + S) = cal.month t := by
  unfold Cal.month Cal.monthNo
  rw [h.monthOf]
  omega

theorem _root_.Verif.Spec.Repeats.day (h : Repeats cal n S) (t : ℤ) : cal.day (t + S) = cal.day t := by
  unfold Cal.day
  rw [h.monthOf, h]
  congr 2
  omega

theorem _root_.Verif.Spec.Repeats.hour (h : Repeats cal n S) (t : ℤ) : Cal.hour (t + S) = Cal.hour t := by
  have hd := h.days
  unfold Cal.hour
  omega

theorem _root_.Verif.Spec.Repeats.year (h : Repeats cal n S) (t : ℤ) : cal.year (t + S) = cal.year t + n := by
  unfold Cal.year
  rw [h.monthOf]
  omega

theorem _root_.Verif.Spec.Repeats.stampKey (h : Repeats cal n S) (p : Period) (t : ℤ) : stampKey cal p (t + S) = stampKey cal p t := by
  cases p <;> simp only [Model.stampKey, h.month, h.day, h.hour]

theorem _root_.Verif.Spec.Repeats.keyPeriod (h : Repeats cal n S) (p : Period) (hp : p = .hour ∨ p = .day ∨ p = .month) (y key : ℤ) :
    keyPeriod cal p (y + n) key = (keyPeriod cal p y key).map (· + periodShift n S p) := by
  have hd := h.days
  rcases hp with rfl | rfl | rfl
  · simp only [Model.keyPeriod, periodShift]
    have e : 12 * (y + n) + key / 10000 - 1 = 12 * y + key / 10000 - 1 + 12 * n := by ring
    rw [e, h.len, h]
    split
    · simp only [pure, Except.pure, Except.map, Except.ok.injEq]
      have := cal.wholeDays (12 * y + key / 10000 - 1)
      omega
    · rfl
  · simp only [Model.keyPeriod, periodShift]
    have e : 12 * (y + n) + key / 100 - 1 = 12 * y + key / 100 - 1 + 12 * n := by ring
    rw [e, h.len, h]
    split
    · simp only [pure, Except.pure, Except.map, Except.ok.injEq]
      have := cal.wholeDays (12 * y + key / 100 - 1)
      omega
    · rfl
  · simp only [Model.keyPeriod, periodShift, pure, Except.pure, Except.map, Except.ok.injEq]
    ring

/-! ### The steps -/

theorem later_key (a : ℤ) (e : Entry K) : (Entry.later a e).key = e.key + a := rfl

theorem filterMap_later (a : ℤ) (l : List (Entry K)) (c : ℕ) : (l.map (Entry.later a)).filterMap (·.val c) = l.filterMap (·.val c) := by
  rw [List.filterMap_map]; rfl

theorem filter_later (a : ℤ) (P Q : ℤ → Bool) (h : ∀ t, P (t + a) = Q t) (l : List (Entry K)) :
    (l.map (Entry.later a)).filter (fun e => P e.key) = (l.filter (fun e => Q e.key)).map (Entry.later a) := by
  rw [List.filter_map]
  congr 1
  apply List.filter_congr
  intro e _
  exact h e.key

theorem periodRange_add (a b c : ℤ) : periodRange (a + c) (b + c) = (periodRange a b).map (· + c) := by
  unfold periodRange
  have e : b + c - (a + c) + 1 = b - a + 1 := by ring
  rw [e, List.map_map]
  apply List.map_congr_left
  intro i _
  simp only [Function.comp_apply]
  ring

/-- the bins of a moved record -/
def binLater (a c : ℤ) (g : ℤ × List (Entry K)) : ℤ × List (Entry K) := (g.1 + c, g.2.map (Entry.later a))

theorem bins_later {per : ℤ → ℤ} {a c : ℤ} (h : ∀ t, per (t + a) = per t + c) (l : List (Entry K)) :
    bins per (l.map (Entry.later a)) = (bins per l).map (binLater a c) := by
  unfold bins
  rw [List.head?_map, List.getLast?_map]
  cases l.head? with
  | none => rfl
  | some x =>
    cases l.getLast? with
    | none => rfl
    | some z =>
      simp only [Option.map_some, later_key, h, periodRange_add, List.map_map]
      apply List.map_congr_left
      intro b _
      simp only [Function.comp_apply, binLater, Prod.mk.injEq, true_and]
      exact filter_later a (fun t => decide (per t = b + c)) (fun t => decide (per t = b)) (fun t => by simp [h]) l

theorem resample_later {per : ℤ → ℤ} {a c : ℤ} (h : ∀ t, per (t + a) = per t + c) (l : List (Entry K)) :
    resample per (l.map (Entry.later a)) = (resample per l).map (List.map (binLater a c)) := by
  unfold resample
  have hi : (l.map (Entry.later a) = [] ∨ ¬ (l.map (Entry.later a)).Pairwise (fun a b => a.key ≤ b.key)) ↔
      (l = [] ∨ ¬ l.Pairwise (fun a b => a.key ≤ b.key)) := by
    rw [List.map_eq_nil_iff, List.pairwise_map]
    simp only [later_key, add_le_add_iff_right]
  by_cases hc : l = [] ∨ ¬ l.Pairwise (fun a b => a.key ≤ b.key)
  · rw [if_pos hc, if_pos (hi.mpr hc)]; rfl
  · rw [if_neg hc, if_neg (mt hi.mp hc), bins_later h]; rfl

theorem meanEachBy_later (a c : ℤ) (g : List (ℤ × List (Entry K))) :
    meanEachBy A (g.map (binLater a c)) = (meanEachBy A g).map (Entry.later c) := by
  unfold meanEachBy
  rw [List.map_map, List.map_map]
  apply List.map_congr_left
  intro x _
  simp only [Function.comp_apply, Entry.later, binLater, nanMeanBy, filterMap_later]

theorem dropna_later (m : ℕ) (c : ℤ) (l : List (Entry K)) : dropna m (l.map (Entry.later c)) = (dropna m l).map (Entry.later c) := by
  unfold dropna
  rw [List.filter_map]
  rfl

theorem totalDays_later (h : Repeats cal n S) (g : List (Entry K)) : totalDays cal (g.map (Entry.later (12 * n))) = totalDays cal g := by
  unfold totalDays
  rw [List.map_map]
  congr 1
  apply List.map_congr_left
  intro e _
  simp only [Function.comp_apply, later_key, h.len]

theorem dayValues_later (h : Repeats cal n S) (c : ℕ) (g : List (Entry K)) : dayValues cal c (g.map (Entry.later (12 * n))) = dayValues cal c g := by
  unfold dayValues
  rw [List.filterMap_map]
  congr 1
  funext e
  simp only [Function.comp_apply, later_key, h.len]
  rfl

theorem weightedSumsBy_later (h : Repeats cal n S) (p : Period) (hp : p = .season ∨ p = .year) (m : List (Entry K)) :
    weightedSumsBy A cal p (m.map (Entry.later (12 * n))) = (weightedSumsBy A cal p m).map (Entry.later (periodShift n S p)) := by
  unfold weightedSumsBy
  rw [bins_later (Repeats.monthPeriod n S p hp), List.map_map, List.map_map]
  apply List.map_congr_left
  intro g _
  simp only [Function.comp_apply, Entry.later, binLater, Entry.mk.injEq, true_and, List.map_eq_nil_iff]
  funext c
  have h1 := totalDays_later h g.2
  have h2 := dayValues_later h c g.2
  split
  · rfl
  · rw [Option.some_inj, h1, h2]

theorem centerBounds_later (h : Repeats cal n S) (p : Period) (a z c : ℤ) (l : List (Entry K)) :
    centerBounds cal p (a + periodShift n S p) (z + periodShift n S p) (l.map (Entry.later c)) = (centerBounds cal p a z l).map (List.map (Entry.later S)) := by
  unfold centerBounds
  rw [periodRange_add, List.length_map, List.length_map]
  split
  · simp only [pure, Except.pure, Except.map, List.map_zipWith, List.zipWith_map]
    congr 2
    funext b e
    simp only [Entry.later, h.periodCenter]
  · rfl

theorem checkUniform_later (h : Repeats cal n S) (infer : InferFreq) (s : Series K)
    (hi : infer ((s.samples.map (·.key)).map (· + S)) = infer (s.samples.map (·.key))) :
    checkUniform cal infer (later S s) = checkUniform cal infer s := by
  unfold checkUniform
  have e : (later S s).samples.map (·.key) = (s.samples.map (·.key)).map (· + S) := by
    simp only [later, List.map_map]
    rfl
  rw [e, hi]
  cases infer (s.samples.map (·.key)) with
  | error e => rfl
  | ok b =>
    simp only [bind, Except.bind]
    cases b with
    | true => rfl
    | false =>
      simp only [later, resample_later h.monthOf, Bool.false_eq_true, if_false]
      cases resample cal.monthOf s.samples with
      | error e => rfl
      | ok g =>
        simp only [Except.map, List.all_map, Function.comp_def, binLater, List.length_map]

theorem groupKeys_later {f : ℤ → ℤ} {a : ℤ} (h : ∀ t, f (t + a) = f t) (l : List (Entry K)) :
    groupKeys f (l.map (Entry.later a)) = (groupKeys f l).map (binLater a 0) := by
  unfold groupKeys
  rw [List.map_map, List.map_map]
  have e : (l.map ((fun e => f e.key) ∘ Entry.later a)) = l.map (fun e => f e.key) := by
    apply List.map_congr_left
    intro x _
    simp only [Function.comp_apply, later_key, h]
  rw [e]
  apply List.map_congr_left
  intro k _
  simp only [Function.comp_apply, binLater, add_zero, Prod.mk.injEq, true_and]
  exact filter_later a (fun t => decide (f t = k)) (fun t => decide (f t = k)) (fun t => by simp [h]) l

theorem median2_add (l : List ℤ) (hl : l ≠ []) (n : ℤ) : median2 (l.map (· + n)) = median2 l + 2 * n := by
  unfold median2
  have e : (l.map (· + n)).insertionSort (· ≤ ·) = (l.insertionSort (· ≤ ·)).map (· + n) := by
    rw [← List.map_insertionSort (r := (· ≤ ·)) (s := (· ≤ ·))]
    intro a _ b _
    simp
  have hlen : 0 < (l.insertionSort (· ≤ ·)).length := by
    rw [List.length_insertionSort]
    exact List.length_pos_iff.mpr hl
  simp only [e, List.length_map]
  set s := l.insertionSort (· ≤ ·)
  have g : ∀ i < s.length, (s.map (· + n)).getD i 0 = s.getD i 0 + n := by
    intro i hi
    simp [List.getD_eq_getElem?_getD, hi]
  rw [g _ (by omega), g _ (by omega)]
  ring

theorem medianYear_later (h : Repeats cal n S) (l : List (Entry K)) (hl : l ≠ []) :
    medianYear cal (l.map (Entry.later S)) = roundHalf (median2 (l.map (fun e => cal.year e.key)) + 2 * n) := by
  unfold medianYear
  rw [← median2_add _ (by simpa using hl), List.map_map, List.map_map]
  congr 2
  apply List.map_congr_left
  intro e _
  simp only [Function.comp_apply, later_key, h.year]

theorem roundHalf_even (m n : ℤ) (hn : n % 2 = 0) : roundHalf (m + 2 * n) = roundHalf m + n := by
  unfold roundHalf
  split_ifs <;> omega

/-- moved by an odd number of years, the label of an even number of years moves by one year more or less -/
theorem roundHalf_near (m n : ℤ) : ∃ d, (d = -1 ∨ d = 0 ∨ d = 1) ∧ roundHalf (m + 2 * n) = roundHalf m + (n + d) := by
  refine ⟨roundHalf (m + 2 * n) - roundHalf m - n, ?_, by ring⟩
  unfold roundHalf
  split_ifs <;> omega

/-- the label year moves by `j` years: so do all labels -/
theorem groupClimateBy_later (h : Repeats cal n S) {j T : ℤ} (hj : Repeats cal j T) (p : Period) (hp : p = .hour ∨ p = .day ∨ p = .month) (s : Series K)
    (hy : medianYear cal (later S s).samples = medianYear cal s.samples + j)
    (h0 : 1000 ≤ medianYear cal s.samples ∧ medianYear cal s.samples ≤ 99999)
    (h1 : 1000 ≤ medianYear cal (later S s).samples ∧ medianYear cal (later S s).samples ≤ 99999) :
    groupClimateBy A cal p (later S s) = (groupClimateBy A cal p s).map (List.map (Entry.later T)) := by
  unfold groupClimateBy
  have hg : groupKeys (stampKey cal p) (later S s).samples = (groupKeys (stampKey cal p) s.samples).map (binLater S 0) :=
    groupKeys_later (h.stampKey p) s.samples
  simp only [hg, List.head?_map, List.getLast?_map]
  cases (groupKeys (stampKey cal p) s.samples).head? with
  | none => rfl
  | some a =>
    cases (groupKeys (stampKey cal p) s.samples).getLast? with
    | none => rfl
    | some z =>
      simp only [Option.map_some, h0, h1, and_self, not_true_eq_false, if_false, binLater, add_zero]
      rw [hy, hj.keyPeriod p hp, hj.keyPeriod p hp]
      cases keyPeriod cal p (medianYear cal s.samples) a.1 with
      | error e => rfl
      | ok v =>
        cases keyPeriod cal p (medianYear cal s.samples) z.1 with
        | error e => rfl
        | ok w =>
          simp only [Except.map, bind, Except.bind]
          have := meanEachBy_later A S 0 (groupKeys (stampKey cal p) s.samples)
          rw [this]
          exact centerBounds_later hj p v w 0 _

theorem seasonClimateBy_later (h : Repeats cal n S) (s : Series K) (months : List ℤ) :
    seasonClimateBy A cal (later S s) months = seasonClimateBy A cal s months := by
  unfold seasonClimateBy
  have hf := filter_later S (fun t => decide (cal.month t ∈ months)) (fun t => decide (cal.month t ∈ months)) (fun t => by simp only [h.month]) s.samples
  simp only [later]
  rw [hf, resample_later h.monthOf]
  cases resample cal.monthOf (s.samples.filter (fun e => decide (cal.month e.key ∈ months))) with
  | error e => rfl
  | ok g =>
    simp only [Except.map, bind, Except.bind, meanEachBy_later, dropna_later, totalDays_later h, dayValues_later h]

theorem groupSumBy_later (sum : List K → K) {f : ℤ → ℤ} {a b : ℤ} (h : ∀ t u, f (t + a) = f (u + b) ↔ f t = f u) (l : List (Entry K)) (t : ℤ) (c : ℕ) :
    groupSumBy sum f (l.map (Entry.later a)) (t + b) c = groupSumBy sum f l t c := by
  unfold groupSumBy
  have hf := filter_later a (fun u => decide (f u = f (t + b))) (fun u => decide (f u = f t)) (fun u => by simp only [h u t]) l
  simp only [hf, List.map_eq_nil_iff, filterMap_later]

theorem minusGroupBy_later (sub : K → K → K) (a : ℤ) (l : List (Entry K)) (r r' : ℤ → ℕ → Option K) (h : ∀ t c, r' (t + a) c = r t c) :
    minusGroupBy sub (l.map (Entry.later a)) r' = (minusGroupBy sub l r).map (Entry.later a) := by
  unfold minusGroupBy
  rw [List.map_map, List.map_map]
  apply List.map_congr_left
  intro e _
  simp only [Function.comp_apply, Entry.later, h]

end Verif.Lemmas
