import Verif.Props.FloatClim
import Verif.Lemmas.Climatology3
import Verif.Props.ClimSteps

/-
C173: the averages of a long record computed piece by piece.

Everything is stated for an arbitrary arithmetic (`ClimArith`): for exact numbers as well as for floating-point numbers, where the results are
the same bit for bit.
-/

set_option linter.unusedSectionVars false

namespace Verif.Spec
variable {K : Type _}

/-- `s` is the record `a` followed by the record `b` (`xr.concat` along time) -/
structure Joined (s a b : Series K) : Prop where
  samples : s.samples = a.samples ++ b.samples
  left : s.ncell = a.ncell
  right : s.ncell = b.ncell

/-- rows without any value, such as `resample` makes for periods without data -/
def AllMissing (rows : List (Entry K)) : Prop := ∀ e ∈ rows, ∀ c, e.val c = none

end Verif.Spec

namespace Verif.Lemmas
open Model Spec Props
variable {K : Type _} [Field K] [LinearOrder K] [IsStrictOrderedRing K]

theorem range_split (x y w z : ℤ) (h1 : x ≤ y) (h2 : y < w) (h3 : w ≤ z) :
    periodRange x z = periodRange x y ++ (periodRange (y + 1) (w - 1) ++ periodRange w z) := by
  refine sorted_ext (periodRange_sorted x z) ?_ (fun k => ?_)
  · rw [List.pairwise_append, List.pairwise_append]
    refine ⟨periodRange_sorted _ _, ⟨periodRange_sorted _ _, periodRange_sorted _ _, ?_⟩, ?_⟩
    · intro i hi j hj
      rw [mem_periodRange] at hi hj
      omega
    · intro i hi j hj
      rw [List.mem_append, mem_periodRange, mem_periodRange] at hj
      rw [mem_periodRange] at hi
      omega
  · simp only [List.mem_append, mem_periodRange]
    omega

/-- the bins of a joined list: those of the parts, and empty ones between -/
theorem bins_append (per : ℤ → ℤ) (l l' : List (Entry K)) (hs : l.Pairwise (fun a b => per a.key ≤ per b.key))
    (hs' : l'.Pairwise (fun a b => per a.key ≤ per b.key)) (hc : ∀ x ∈ l, ∀ y ∈ l', per x.key < per y.key) (z a' : Entry K)
    (hz : l.getLast? = some z) (ha' : l'.head? = some a') :
    bins per (l ++ l') = bins per l ++ ((periodRange (per z.key + 1) (per a'.key - 1)).map (fun b => (b, [])) ++ bins per l') := by
  obtain ⟨a, ha⟩ : ∃ a, l.head? = some a := by
    cases l with
    | nil => simp at hz
    | cons x _ => exact ⟨x, rfl⟩
  obtain ⟨z', hz'⟩ : ∃ z', l'.getLast? = some z' := by
    cases h : l'.getLast? with
    | none => rw [List.getLast?_eq_none_iff] at h; rw [h] at ha'; simp at ha'
    | some z' => exact ⟨z', rfl⟩
  have hzm : z ∈ l := List.mem_of_getLast? hz
  have ham : a' ∈ l' := List.mem_of_head? ha'
  have e1 : (l ++ l').head? = some a := by rw [List.head?_append, ha]; rfl
  have e2 : (l ++ l').getLast? = some z' := by rw [List.getLast?_append, hz']; rfl
  have b1 := fun e he => head_last_bounds (fun e : Entry K => per e.key) l hs a z ha hz e he
  have b2 := fun e he => head_last_bounds (fun e : Entry K => per e.key) l' hs' a' z' ha' hz' e he
  have h12 : per z.key < per a'.key := hc z hzm a' ham
  unfold bins
  rw [e1, e2, ha, hz, ha', hz']
  dsimp only
  rw [range_split _ _ _ _ (b1 z hzm).1 h12 (b2 a' ham).2, List.map_append, List.map_append]
  congr 1
  · refine List.map_congr_left fun b hb => ?_
    rw [mem_periodRange] at hb
    rw [List.filter_append]
    have : l'.filter (fun e => decide (per e.key = b)) = [] := by
      rw [List.filter_eq_nil_iff]
      intro e he
      have := (b2 e he).1
      simp only [decide_eq_true_eq]
      omega
    rw [this, List.append_nil]
  · congr 1
    · refine List.map_congr_left fun b hb => ?_
      rw [mem_periodRange] at hb
      have : (l ++ l').filter (fun e => decide (per e.key = b)) = [] := by
        rw [List.filter_eq_nil_iff]
        intro e he
        simp only [decide_eq_true_eq]
        rcases List.mem_append.mp he with he | he
        · have := (b1 e he).2; omega
        · have := (b2 e he).1; omega
      rw [this]
    · refine List.map_congr_left fun b hb => ?_
      rw [mem_periodRange] at hb
      rw [List.filter_append]
      have : l.filter (fun e => decide (per e.key = b)) = [] := by
        rw [List.filter_eq_nil_iff]
        intro e he
        have := (b1 e he).2
        simp only [decide_eq_true_eq]
        omega
      rw [this, List.nil_append]

theorem meanEachBy_append (A : ClimArith K) (l l' : List (ℤ × List (Entry K))) : meanEachBy A (l ++ l') = meanEachBy A l ++ meanEachBy A l' := by
  unfold meanEachBy
  rw [List.map_append]

theorem dropna_append (n : ℕ) (l l' : List (Entry K)) : dropna n (l ++ l') = dropna n l ++ dropna n l' := by
  unfold dropna
  rw [List.filter_append]

theorem dropna_gap (A : ClimArith K) (n : ℕ) (hn : 0 < n) (L : List ℤ) : dropna n (meanEachBy A (L.map (fun b => (b, [])))) = [] := by
  unfold dropna
  rw [List.filter_eq_nil_iff]
  intro e he
  simp only [meanEachBy, List.map_map, List.mem_map, Function.comp_apply] at he
  obtain ⟨b, -, rfl⟩ := he
  simp only [List.all_eq_true, List.mem_range, not_forall]
  exact ⟨0, hn, by simp [nanMeanBy]⟩

/-- the means of the hours, days or months -/
def stepMeans (A : ClimArith K) (cal : Cal) (q : Period) (s : Series K) : List (Entry K) :=
  dropna s.ncell (meanEachBy A (bins (periodOf cal q) s.samples))

theorem stepMeans_joined (A : ClimArith K) (cal : Cal) (q : Period) (s a b : Series K) (hj : Joined s a b) (hn : 0 < s.ncell)
    (hs : s.samples.Pairwise (fun x y => x.key ≤ y.key)) (ha : a.samples ≠ []) (hb : b.samples ≠ [])
    (hc : ∀ x ∈ a.samples, ∀ y ∈ b.samples, periodOf cal q x.key < periodOf cal q y.key) :
    stepMeans A cal q s = stepMeans A cal q a ++ stepMeans A cal q b := by
  have hs2 : s.samples.Pairwise (fun x y => periodOf cal q x.key ≤ periodOf cal q y.key) := hs.imp (fun h => periodOf_mono cal q h)
  rw [hj.samples, List.pairwise_append] at hs2
  have hz := List.getLast?_eq_getLast_of_ne_nil ha
  have ha' := List.head?_eq_some_head hb
  unfold stepMeans
  rw [hj.samples, bins_append _ _ _ hs2.1 hs2.2.1 hc _ _ hz ha', meanEachBy_append, meanEachBy_append, dropna_append, dropna_append,
    dropna_gap A _ hn, List.nil_append, ← hj.left, ← hj.right]

theorem bins_keys (per : ℤ → ℤ) (l : List (Entry K)) : ((bins per l).map (·.1)).Pairwise (· < ·) := by
  unfold bins
  split
  · rw [List.map_map]
    have e : ((fun x : ℤ × List (Entry K) => x.1) ∘ fun b => (b, l.filter (fun e => decide (per e.key = b)))) = id := rfl
    rw [e, List.map_id]
    exact periodRange_sorted _ _
  · exact List.Pairwise.nil

theorem stepMeans_keys (A : ClimArith K) (cal : Cal) (q : Period) (s : Series K) : (stepMeans A cal q s).Pairwise (fun x y => x.key < y.key) := by
  unfold stepMeans dropna
  apply List.Pairwise.filter
  unfold meanEachBy
  rw [List.pairwise_map]
  have := bins_keys (periodOf cal q) s.samples
  rwa [List.pairwise_map] at this

/-- the period of a mean is that of some sample, and no sample of it lies outside the record -/
theorem stepMeans_bounds (A : ClimArith K) (cal : Cal) (q : Period) (s : Series K)
    (hn : 0 < s.ncell) (e : Entry K) (he : e ∈ stepMeans A cal q s) : ∃ x ∈ s.samples, periodOf cal q x.key = e.key := by
  unfold stepMeans dropna at he
  rw [List.mem_filter] at he
  obtain ⟨h1, h2⟩ := he
  unfold meanEachBy bins at h1
  split at h1
  · simp only [List.map_map, List.mem_map, Function.comp_apply] at h1
    obtain ⟨b, -, rfl⟩ := h1
    simp only [List.all_eq_true, List.mem_range] at h2
    have := h2 0 hn
    unfold nanMeanBy at this
    split_ifs at this with hv
    · simp at this
    · obtain ⟨v, hv'⟩ := List.exists_mem_of_ne_nil _ hv
      simp only [List.mem_filterMap, List.mem_filter, decide_eq_true_eq] at hv'
      obtain ⟨x, ⟨hx, hxk⟩, -⟩ := hv'
      exact ⟨x, hx, hxk⟩
  · simp at h1

/-- what `calendar_average` labels and returns -/
def averagesBy (A : ClimArith K) (cal : Cal) (p : Period) (s : Series K) : List (Entry K) :=
  if p = .season ∨ p = .year then weightedSumsBy A cal p (stepMeans A cal .month s) else stepMeans A cal p s

/-- a row under the centre of its period -/
def centred (cal : Cal) (p : Period) (e : Entry K) : Entry K := ⟨periodCenter cal p e.key, e.val⟩

theorem averagesBy_keys (A : ClimArith K) (cal : Cal) (p : Period) (s : Series K) : (averagesBy A cal p s).Pairwise (fun x y => x.key < y.key) := by
  unfold averagesBy
  split_ifs
  · unfold weightedSumsBy
    rw [List.pairwise_map]
    have := bins_keys (monthPeriod p) (stepMeans A cal .month s)
    rwa [List.pairwise_map] at this
  · exact stepMeans_keys A cal p s

theorem centerBounds_centred (cal : Cal) (p : Period) (l r : List (Entry K)) (hs : l.Pairwise (fun x y => x.key < y.key)) (a z : Entry K)
    (ha : l.head? = some a) (hz : l.getLast? = some z) (h : centerBounds cal p a.key z.key l = .ok r) : r = l.map (centred cal p) := by
  unfold centerBounds at h
  split_ifs at h with hl
  simp only [pure, Except.pure, Except.ok.injEq] at h
  have hb := fun e he => head_last_bounds (fun e : Entry K => e.key) l (hs.imp (fun h => le_of_lt h)) a z ha hz e he
  have hk : l.map (·.key) = periodRange a.key z.key := by
    refine range_of_length _ _ _ (List.pairwise_map.mpr hs) ?_ (by rw [List.length_map]; omega)
    intro x hx
    obtain ⟨e, he, rfl⟩ := List.mem_map.mp hx
    exact hb e he
  rw [← h, ← hk, List.zipWith_map_left, List.zipWith_self]
  rfl

theorem calendarBy_ok (A : ClimArith K) (cal : Cal) (infer : InferFreq) (freq : String) (p : Period) (hp : calendarPeriod freq = .ok p) (s : Series K)
    (r : List (Entry K)) (h : calendarAverageBy A cal infer freq s = .ok r) :
    s.samples ≠ [] ∧ s.samples.Pairwise (fun x y => x.key ≤ y.key) ∧ r = (averagesBy A cal p s).map (centred cal p) ∧ averagesBy A cal p s ≠ [] := by
  unfold calendarAverageBy at h
  rw [hp] at h
  simp only [bind, Except.bind] at h
  cases hi : s.isTime with
  | false => simp [hi, throw, throwThe, MonadExceptOf.throw] at h
  | true =>
    simp only [hi, not_true_eq_false, if_false] at h
    cases hu : checkUniform cal infer s with
    | error e => rw [hu] at h; cases h
    | ok u =>
      rw [hu] at h
      dsimp only at h
      by_cases hc : s.samples = [] ∨ ¬ s.samples.Pairwise (fun a b => a.key ≤ b.key)
      · rw [resample, if_pos hc] at h
        cases h
      · rw [resample, if_neg hc] at h
        simp only [pure, Except.pure] at h
        push Not at hc
        refine ⟨hc.1, hc.2, ?_⟩
        have ho : averagesBy A cal p s =
            (if p = .season ∨ p = .year then
              weightedSumsBy A cal p (dropna s.ncell (meanEachBy A (bins (periodOf cal (if p = .season ∨ p = .year then .month else p)) s.samples)))
            else dropna s.ncell (meanEachBy A (bins (periodOf cal (if p = .season ∨ p = .year then .month else p)) s.samples))) := by
          unfold averagesBy stepMeans
          split_ifs <;> rfl
        rw [← ho] at h
        cases h1 : (averagesBy A cal p s).head? with
        | none => rw [h1] at h; simp [throw, throwThe, MonadExceptOf.throw] at h
        | some x =>
          cases h2 : (averagesBy A cal p s).getLast? with
          | none => rw [h1, h2] at h; simp [throw, throwThe, MonadExceptOf.throw] at h
          | some z =>
            rw [h1, h2] at h
            refine ⟨centerBounds_centred cal p _ r (averagesBy_keys A cal p s) x z h1 h2 h, ?_⟩
            intro hn
            rw [hn] at h1
            simp at h1

theorem month_of_period (cal : Cal) (p : Period) (hp : p = .season ∨ p = .year) (t : ℤ) : periodOf cal p t = monthPeriod p (periodOf cal .month t) := by
  rcases hp with rfl | rfl <;> rfl

end Verif.Lemmas

namespace Verif.Props
open Model Spec Lemmas
variable {K : Type _} [Field K] [LinearOrder K] [IsStrictOrderedRing K]

/-- **C173**. A record `a` followed by a record `b`, no period of `freq` having samples in both: averaging the joined record gives the rows of
`a`, then the rows of `b`, with at most rows without any value in between (seasons or years in which neither piece has a complete month); the
values are the same floating-point numbers. -/
theorem C173_pieces (A : ClimArith K) (cal : Cal) (infer : InferFreq) (freq : String) (p : Period) (hp : calendarPeriod freq = .ok p) (s a b : Series K)
    (hj : Joined s a b) (hn : 0 < s.ncell) (hcut : ∀ x ∈ a.samples, ∀ y ∈ b.samples, periodOf cal p x.key < periodOf cal p y.key)
    (r ra rb : List (Entry K)) (h : calendarAverageBy A cal infer freq s = .ok r) (ha : calendarAverageBy A cal infer freq a = .ok ra)
    (hb : calendarAverageBy A cal infer freq b = .ok rb) :
    ∃ gap, r = ra ++ (gap ++ rb) ∧ AllMissing gap ∧ (¬ (p = .season ∨ p = .year) → gap = []) ∧
      -- no row in between if the pieces meet in neighbouring periods whose months at the cut are complete
      ((∃ x ∈ a.samples, ∃ y ∈ b.samples, FullMonth cal a (cal.monthOf x.key) ∧ FullMonth cal b (cal.monthOf y.key) ∧
        periodOf cal p y.key = periodOf cal p x.key + 1) → gap = []) := by
  obtain ⟨-, hs, hr, -⟩ := calendarBy_ok A cal infer freq p hp s r h
  obtain ⟨hae, has, hra, hane⟩ := calendarBy_ok A cal infer freq p hp a ra ha
  obtain ⟨hbe, hbs, hrb, hbne⟩ := calendarBy_ok A cal infer freq p hp b rb hb
  by_cases hpp : p = .season ∨ p = .year
  · -- months first, then the seasons or years of the months
    have hmono : ∀ k k' : ℤ, k ≤ k' → monthPeriod p k ≤ monthPeriod p k' := fun k k' h => monthPeriod_mono p h
    have hcm : ∀ x ∈ a.samples, ∀ y ∈ b.samples, periodOf cal .month x.key < periodOf cal .month y.key := by
      intro x hx y hy
      have := hcut x hx y hy
      rw [month_of_period cal p hpp, month_of_period cal p hpp] at this
      by_contra hc
      exact absurd this (not_lt.mpr (hmono _ _ (not_lt.mp hc)))
    have hm := stepMeans_joined A cal .month s a b hj hn hs hae hbe hcm
    have hka := stepMeans_keys A cal .month a
    have hkb := stepMeans_keys A cal .month b
    set ma := stepMeans A cal .month a with hma
    set mb := stepMeans A cal .month b with hmb
    have hmane : ma ≠ [] := by
      intro hnil
      apply hane
      unfold averagesBy
      rw [if_pos hpp, ← hma, hnil]
      rfl
    have hmbne : mb ≠ [] := by
      intro hnil
      apply hbne
      unfold averagesBy
      rw [if_pos hpp, ← hmb, hnil]
      rfl
    have hzl := List.getLast?_eq_getLast_of_ne_nil hmane
    have hhd := List.head?_eq_some_head hmbne
    have hlt : ∀ x ∈ ma, ∀ y ∈ mb, monthPeriod p x.key < monthPeriod p y.key := by
      intro x hx y hy
      obtain ⟨x', hx', ex⟩ := stepMeans_bounds A cal .month a (by rw [← hj.left]; exact hn) x hx
      obtain ⟨y', hy', ey⟩ := stepMeans_bounds A cal .month b (by rw [← hj.right]; exact hn) y hy
      rw [← ex, ← ey, ← month_of_period cal p hpp, ← month_of_period cal p hpp]
      exact hcut x' hx' y' hy'
    have hbin := bins_append (monthPeriod p) ma mb (hka.imp (fun h => hmono _ _ (le_of_lt h))) (hkb.imp (fun h => hmono _ _ (le_of_lt h))) hlt
      (ma.getLast hmane) (mb.head hmbne) hzl hhd
    set L := periodRange (monthPeriod p (ma.getLast hmane).key + 1) (monthPeriod p (mb.head hmbne).key - 1) with hL
    refine ⟨L.map (fun k => ⟨periodCenter cal p k, fun _ => none⟩), ?_, ?_, fun hc => absurd hpp hc, ?_⟩
    · rw [hr, hra, hrb]
      unfold averagesBy
      rw [if_pos hpp, if_pos hpp, if_pos hpp, hm]
      unfold weightedSumsBy
      rw [hbin]
      simp only [List.map_append, List.map_map]
      rfl
    · intro e he c
      obtain ⟨k, -, rfl⟩ := List.mem_map.mp he
      rfl
    · rintro ⟨x, hx, y, hy, hfx, hfy, hxy⟩
      have full : ∀ (t : Series K), 0 < t.ncell → t.samples.Pairwise (fun x y => x.key ≤ y.key) → ∀ x ∈ t.samples, FullMonth cal t (cal.monthOf x.key) →
          ∃ e ∈ stepMeans A cal .month t, e.key = cal.monthOf x.key := by
        intro t htn hts x hx hfull
        obtain ⟨u, hu⟩ : ∃ u, t.samples.head? = some u := by
          cases hh : t.samples with
          | nil => rw [hh] at hx; simp at hx
          | cons u _ => exact ⟨u, rfl⟩
        obtain ⟨w, hw⟩ : ∃ w, t.samples.getLast? = some w := by
          cases hh : t.samples.getLast? with
          | none => rw [List.getLast?_eq_none_iff] at hh; rw [hh] at hx; simp at hx
          | some w => exact ⟨w, rfl⟩
        have hbd := head_last_bounds (fun e : Entry K => e.key) t.samples hts u w hu hw x hx
        refine ⟨⟨cal.monthOf x.key, fun c => nanMeanBy A c (t.samples.filter (fun e => decide (cal.monthOf e.key = cal.monthOf x.key)))⟩, ?_, rfl⟩
        unfold stepMeans dropna
        rw [List.mem_filter]
        constructor
        · unfold meanEachBy bins
          rw [hu, hw]
          simp only [List.map_map, List.mem_map, Function.comp_apply]
          exact ⟨cal.monthOf x.key, (mem_periodRange _ _ _).mpr ⟨monthOf_mono cal hbd.1, monthOf_mono cal hbd.2⟩, rfl⟩
        · simp only [List.all_eq_true, List.mem_range]
          intro c hc
          have hf := hfull c hc
          rw [← nanMean_month] at hf
          unfold nanMean at hf
          unfold nanMeanBy
          split_ifs at hf ⊢ with hv
          · simp at hf
          · rfl
      obtain ⟨ex, hex, ekx⟩ := full a (by rw [← hj.left]; exact hn) has x hx hfx
      obtain ⟨ey, hey, eky⟩ := full b (by rw [← hj.right]; exact hn) hbs y hy hfy
      have b1 := (head_last_bounds (fun e : Entry K => e.key) ma (hka.imp (fun h => le_of_lt h)) (ma.head hmane) _ (List.head?_eq_some_head hmane)
        hzl ex hex).2
      have b2 := (head_last_bounds (fun e : Entry K => e.key) mb (hkb.imp (fun h => le_of_lt h)) _ (mb.getLast hmbne) hhd
        (List.getLast?_eq_getLast_of_ne_nil hmbne) ey hey).1
      have m1 := hmono _ _ b1
      have m2 := hmono _ _ b2
      rw [month_of_period cal p hpp, month_of_period cal p hpp] at hxy
      simp only [periodOf] at hxy
      rw [ekx] at m1
      rw [eky] at m2
      have : L = [] := by
        rw [hL]
        unfold periodRange
        have : (monthPeriod p (mb.head hmbne).key - 1 - (monthPeriod p (ma.getLast hmane).key + 1) + 1).toNat = 0 := by omega
        rw [this]
        rfl
      rw [this]
      rfl
  · have hm := stepMeans_joined A cal p s a b hj hn hs hae hbe hcut
    refine ⟨[], ?_, fun e he => absurd he (by simp), fun _ => rfl, fun _ => rfl⟩
    rw [hr, hra, hrb]
    unfold averagesBy
    rw [if_neg hpp, if_neg hpp, if_neg hpp, hm, List.map_append]
    rfl

/-- `n` years of monthly data from the year `y` on, in a calendar with months of 30 days; month `i` of the whole has the value `i` squared -/
def squaresFrom (y n : ℕ) : Series ℚ :=
  ⟨1, (List.range (12 * n)).map (fun i : ℕ => ⟨Cal.days360.monthStart (12 * y + i), fun _ => some (((12 * y + i : ℕ) : ℚ) ^ 2)⟩), true⟩

/-- the hypotheses of `C173_pieces` for yearly averages of a record of five years cut after the second -/
example : Joined (squaresFrom 2000 5) (squaresFrom 2000 2) (squaresFrom 2002 3) ∧
    (∀ x ∈ (squaresFrom 2000 2).samples, ∀ y ∈ (squaresFrom 2002 3).samples, periodOf Cal.days360 .year x.key < periodOf Cal.days360 .year y.key) ∧
    (calendarAverageBy exactArith Cal.days360 (fun _ => .ok true) "year" (squaresFrom 2000 5)).toOption.isSome ∧
    (calendarAverageBy exactArith Cal.days360 (fun _ => .ok true) "year" (squaresFrom 2000 2)).toOption.isSome ∧
    (calendarAverageBy exactArith Cal.days360 (fun _ => .ok true) "year" (squaresFrom 2002 3)).toOption.isSome := by
  refine ⟨⟨?_, rfl, rfl⟩, by decide +kernel, by decide +kernel, by decide +kernel, by decide +kernel⟩
  rfl

theorem seasonQuarter_inside (season : String) (months : List ℤ) (anchor : ℤ) (h : seasonQuarter season = some (months, anchor)) (h1 : season ≠ "DJF")
    (h2 : season ≠ "NDJ") : months = [anchor, anchor + 1, anchor + 2] ∧ 1 ≤ anchor ∧ anchor ≤ 10 := by
  unfold seasonQuarter at h
  split at h <;> first
    | exact absurd rfl h1
    | exact absurd rfl h2
    | (simp only [Option.some.injEq, Prod.mk.injEq] at h; obtain ⟨rfl, rfl⟩ := h; decide)
    | exact absurd h (by simp)

/-- a month of a season within one year: its quarter is numbered by the year -/
theorem quarter_year (cal : Cal) (anchor : ℤ) (h1 : 1 ≤ anchor) (h2 : anchor ≤ 10) (t : ℤ) (ht : cal.month t ∈ [anchor, anchor + 1, anchor + 2]) :
    quarterOf anchor (cal.monthOf t) = 4 * cal.year t := by
  have := year_month cal t
  unfold quarterOf
  simp only [List.mem_cons, List.not_mem_nil, or_false] at ht
  omega

theorem monthToSeasonBy_ok (A : ClimArith K) (cal : Cal) (season : String) (months : List ℤ) (anchor : ℤ) (hq : seasonQuarter season = some (months, anchor))
    (h1 : season ≠ "DJF") (h2 : season ≠ "NDJ") (s : Series K) (r : List (Entry K)) (h : monthToSeasonBy A cal season s = .ok r) :
    s.samples.filter (fun e => decide (cal.month e.key ∈ months)) ≠ [] ∧
    (s.samples.filter (fun e => decide (cal.month e.key ∈ months))).Pairwise (fun x y => x.key ≤ y.key) ∧
    r = ((((meanEachBy A (bins (fun t => quarterOf anchor (cal.monthOf t)) (s.samples.filter (fun e => decide (cal.month e.key ∈ months))))).map
      (fun e => (⟨quarterMonth anchor e.key + 1, e.val⟩ : Entry K))).filter (fun e => decide (Cal.monthNo e.key = months.getD 1 0))).map
        (fun e => ⟨cal.monthStart e.key, e.val⟩)) := by
  unfold monthToSeasonBy at h
  simp only [bind, Except.bind] at h
  cases hi : s.isTime with
  | false => simp [hi, throw, throwThe, MonadExceptOf.throw] at h
  | true =>
    simp only [hi, not_true_eq_false, if_false, pure, Except.pure] at h
    by_cases hl : s.samples.length % 12 ≠ 0
    · rw [if_pos hl] at h; simp [throw, throwThe, MonadExceptOf.throw] at h
    · rw [if_neg hl, hq] at h
      simp only [if_neg h1, if_neg h2] at h
      by_cases hc : s.samples.filter (fun e => decide (cal.month e.key ∈ months)) = [] ∨
          ¬ (s.samples.filter (fun e => decide (cal.month e.key ∈ months))).Pairwise (fun a b => a.key ≤ b.key)
      · rw [resample, if_pos hc] at h
        cases h
      · rw [resample, if_neg hc] at h
        simp only [pure, Except.pure, Except.ok.injEq] at h
        push Not at hc
        exact ⟨hc.1, hc.2, h.symm⟩

/-- **C173** for `month_to_season` and a season within one calendar year: a record cut between two years (for DJF and NDJ it is
false, `C173_months_counterexample`). Rows in between belong to years without
any data for the season; there are none when the season has data in the two years at the cut. -/
theorem C173_months_partial (A : ClimArith K) (cal : Cal) (season : String) (months : List ℤ) (anchor : ℤ) (hq : seasonQuarter season = some (months, anchor))
    (h1 : season ≠ "DJF") (h2 : season ≠ "NDJ") (s a b : Series K) (hj : Joined s a b)
    (hcut : ∀ x ∈ a.samples, ∀ y ∈ b.samples, cal.year x.key < cal.year y.key) (r ra rb : List (Entry K))
    (h : monthToSeasonBy A cal season s = .ok r) (ha : monthToSeasonBy A cal season a = .ok ra) (hb : monthToSeasonBy A cal season b = .ok rb) :
    ∃ gap, r = ra ++ (gap ++ rb) ∧ AllMissing gap ∧
      ((∃ x ∈ a.samples, ∃ y ∈ b.samples, cal.month x.key ∈ months ∧ cal.month y.key ∈ months ∧ cal.year y.key = cal.year x.key + 1) → gap = []) := by
  obtain ⟨-, hs, hr⟩ := monthToSeasonBy_ok A cal season months anchor hq h1 h2 s r h
  obtain ⟨hae, has, hra⟩ := monthToSeasonBy_ok A cal season months anchor hq h1 h2 a ra ha
  obtain ⟨hbe, hbs, hrb⟩ := monthToSeasonBy_ok A cal season months anchor hq h1 h2 b rb hb
  obtain ⟨hm, h3, h4⟩ := seasonQuarter_inside season months anchor hq h1 h2
  have hqy := fun t (ht : cal.month t ∈ months) => quarter_year cal anchor h3 h4 t (hm ▸ ht)
  set fa := a.samples.filter (fun e => decide (cal.month e.key ∈ months)) with hfa
  set fb := b.samples.filter (fun e => decide (cal.month e.key ∈ months)) with hfb
  have hfs : s.samples.filter (fun e => decide (cal.month e.key ∈ months)) = fa ++ fb := by rw [hj.samples, List.filter_append]
  have qmono : ∀ x y : Entry K, x.key ≤ y.key → quarterOf anchor (cal.monthOf x.key) ≤ quarterOf anchor (cal.monthOf y.key) := by
    intro x y hxy
    have := monthOf_mono cal hxy
    unfold quarterOf
    omega
  have mem_a : ∀ x ∈ fa, x ∈ a.samples ∧ cal.month x.key ∈ months := fun x hx => by simpa [hfa] using hx
  have mem_b : ∀ x ∈ fb, x ∈ b.samples ∧ cal.month x.key ∈ months := fun x hx => by simpa [hfb] using hx
  have hz := List.getLast?_eq_getLast_of_ne_nil hae
  have hhd := List.head?_eq_some_head hbe
  have hbin := bins_append (fun t => quarterOf anchor (cal.monthOf t)) fa fb (has.imp (fun h => qmono _ _ h)) (hbs.imp (fun h => qmono _ _ h))
    (fun x hx y hy => by
      rw [hqy _ (mem_a x hx).2, hqy _ (mem_b y hy).2]
      have := hcut x (mem_a x hx).1 y (mem_b y hy).1
      omega) _ _ hz hhd
  rw [hfs, hbin] at hr
  simp only [meanEachBy_append, List.map_append, List.filter_append] at hr
  rw [← hra, ← hrb] at hr
  refine ⟨_, hr, ?_, ?_⟩
  · intro e he c
    simp only [meanEachBy, List.mem_map, List.mem_filter, List.map_map] at he
    obtain ⟨e1, ⟨⟨q, -, rfl⟩, -⟩, rfl⟩ := he
    simp [nanMeanBy]
  · rintro ⟨x, hx, y, hy, hmx, hmy, hyear⟩
    rw [List.map_eq_nil_iff, List.filter_eq_nil_iff]
    intro e he
    simp only [meanEachBy, List.mem_map, List.map_map] at he
    obtain ⟨q, hqr, rfl⟩ := he
    rw [mem_periodRange, hqy _ (mem_a _ (List.getLast_mem hae)).2, hqy _ (mem_b _ (List.head_mem hbe)).2] at hqr
    have hx' : x ∈ fa := by rw [hfa, List.mem_filter]; exact ⟨hx, by simpa using hmx⟩
    have hy' : y ∈ fb := by rw [hfb, List.mem_filter]; exact ⟨hy, by simpa using hmy⟩
    have b1 := (head_last_bounds (fun e : Entry K => e.key) fa has (fa.head hae) _ (List.head?_eq_some_head hae) hz x hx').2
    have b2 := (head_last_bounds (fun e : Entry K => e.key) fb hbs _ (fb.getLast hbe) hhd (List.getLast?_eq_getLast_of_ne_nil hbe) y hy').1
    have c1 := monthOf_mono cal b1
    have c2 := monthOf_mono cal b2
    have d1 : cal.year x.key ≤ cal.year (fa.getLast hae).key := by unfold Cal.year; omega
    have d2 : cal.year (fb.head hbe).key ≤ cal.year y.key := by unfold Cal.year; omega
    rw [hm]
    simp only [decide_eq_true_eq, quarterMonth, Cal.monthNo, Function.comp_apply, List.getD_cons_succ, List.getD_cons_zero]
    omega

/-- the hypotheses of `C173_months_partial` -/
example : (∀ x ∈ (squaresFrom 2000 2).samples, ∀ y ∈ (squaresFrom 2002 1).samples, Cal.days360.year x.key < Cal.days360.year y.key) ∧
    (monthToSeasonBy exactArith Cal.days360 "JJA" (squaresFrom 2000 3)).toOption.isSome ∧
    (monthToSeasonBy exactArith Cal.days360 "JJA" (squaresFrom 2000 2)).toOption.isSome ∧
    (monthToSeasonBy exactArith Cal.days360 "JJA" (squaresFrom 2002 1)).toOption.isSome := by
  decide +kernel

/-- For `DJF` a cut between two years changes the values: each piece drops its last December, so the winter at the cut loses it. -/
theorem C173_months_counterexample :
    (monthToSeasonBy exactArith Cal.days360 "DJF" (squaresFrom 0 2)).toOption.map (rows 1) =
      some [(0, [some (1 / 2)]), (360 * 86400, [some (434 / 3)])] ∧
    (monthToSeasonBy exactArith Cal.days360 "DJF" (squaresFrom 0 1)).toOption.map (rows 1) = some [(0, [some (1 / 2)])] ∧
    (monthToSeasonBy exactArith Cal.days360 "DJF" (squaresFrom 1 1)).toOption.map (rows 1) = some [(360 * 86400, [some (313 / 2)])] := by
  decide +kernel

end Verif.Props
