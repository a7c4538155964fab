import Verif.Props.ClimSteps
import Verif.Props.ClimUnits

/-
Property theorems: anomalies do not depend on what all samples of a group have in common.
-/

set_option linter.unusedSectionVars false

namespace Verif.Spec
variable {K : Type _} [Field K] [LinearOrder K]

/-- two times whose samples `climate_anomaly` compares with the same average: the same day or month of the calendar, season or year -/
def SameGroup (cal : Cal) (freq : String) (t t' : ℤ) : Prop :=
  (freq = "day" ∧ cal.month t = cal.month t' ∧ cal.day t = cal.day t') ∨ (freq = "month" ∧ cal.month t = cal.month t') ∨
  (freq = "season" ∧ cal.month t % 12 / 3 = cal.month t' % 12 / 3) ∨ (freq = "year" ∧ cal.year t = cal.year t')

/-- the record with `f t c` added to the value of cell `c` at time `t` -/
def plus (f : ℤ → ℕ → K) (s : Series K) : Series K :=
  ⟨s.ncell, s.samples.map (fun e => ⟨e.key, fun c => (e.val c).map (fun x => x + f e.key c)⟩), s.isTime⟩

end Verif.Spec

namespace Verif.Props
open Model Spec Lemmas
variable {K : Type _} [Field K] [LinearOrder K] [IsStrictOrderedRing K]

/-! ### a record next to itself with something added -/

def bothPlus (f : ℤ → ℕ → K) (s : Series K) : Series K :=
  ⟨2 * s.ncell, s.samples.map (fun e => ⟨e.key, fun c => if c % 2 = 0 then e.val (c / 2) else (e.val (c / 2)).map (fun x => x + f e.key (c / 2))⟩), s.isTime⟩

theorem plus_first (f : ℤ → ℕ → K) (s : Series K) : selected s.ncell (fun c => 2 * c) (bothPlus f s) = s := by
  obtain ⟨n, l, t⟩ := s
  simp only [selected, bothPlus, List.map_map, Series.mk.injEq, true_and, and_true]
  conv_rhs => rw [← List.map_id l]
  refine List.map_congr_left fun e _ => ?_
  obtain ⟨k, v⟩ := e
  simp only [Function.comp_apply, Entry.at, id, Entry.mk.injEq, true_and]
  funext c
  rw [if_pos (by omega), show 2 * c / 2 = c by omega]

theorem plus_second (f : ℤ → ℕ → K) (s : Series K) : selected s.ncell (fun c => 2 * c + 1) (bothPlus f s) = plus f s := by
  simp only [selected, bothPlus, plus, List.map_map, Series.mk.injEq, true_and, and_true]
  apply List.map_congr_left
  intro e _
  simp only [Function.comp_apply, Entry.at, Entry.mk.injEq, true_and]
  funext c
  rw [if_neg (by omega), show (2 * c + 1) / 2 = c by omega]

theorem bothPlus_values (f : ℤ → ℕ → K) (s : Series K) (P : ℤ → Prop) [DecidablePred P] (c : ℕ) :
    (mean (valuesIn (bothPlus f s).samples P c)).isSome = (mean (valuesIn s.samples P (c / 2))).isSome := by
  have h : valuesIn (bothPlus f s).samples P c = [] ↔ valuesIn s.samples P (c / 2) = [] := by
    unfold valuesIn bothPlus
    simp only [List.filter_map, List.filterMap_map, List.filterMap_eq_nil_iff, List.mem_filter, Function.comp_apply]
    refine forall_congr' fun e => imp_congr_right fun _ => ?_
    split <;> simp
  unfold mean
  by_cases h0 : valuesIn s.samples P (c / 2) = []
  · rw [if_pos h0, if_pos (h.mpr h0)]
  · rw [if_neg h0, if_neg (mt h.mp h0)]; rfl

theorem bothPlus_gaps (cal : Cal) (p : Period) (f : ℤ → ℕ → K) (s : Series K) (r : ℕ) (hr : r < 2) :
    SameGaps cal p s.ncell (fun c => 2 * c + r) (bothPlus f s) := by
  intro e _
  unfold FullPeriod
  have hs : (selected s.ncell (fun c => 2 * c + r) (bothPlus f s)).samples = (bothPlus f s).samples.map (Entry.at fun c => 2 * c + r) := rfl
  have hn : (selected s.ncell (fun c => 2 * c + r) (bothPlus f s)).ncell = s.ncell := rfl
  have hn' : (bothPlus f s).ncell = 2 * s.ncell := rfl
  rw [hs, hn, hn']
  simp only [valuesIn_at, bothPlus_values]
  constructor
  · intro h c hc
    exact h (2 * c + r) (by omega)
  · intro h c hc
    have := h (c / 2) (by omega)
    rwa [show (2 * (c / 2) + r) / 2 = c / 2 by omega] at this

/-- both calls raise the same error or both return -/
theorem plus_outcome (cal : Cal) (infer : InferFreq) (freq : String) (f : ℤ → ℕ → K) (s : Series K) (hn : 0 < s.ncell) :
    (∃ e, climateAnomaly cal infer freq s = .error e ∧ climateAnomaly cal infer freq (plus f s) = .error e) ∨
    ∃ o o', climateAnomaly cal infer freq s = .ok o ∧ climateAnomaly cal infer freq (plus f s) = .ok o' := by
  have hn2 : 0 < (bothPlus f s).ncell := by show 0 < 2 * s.ncell; omega
  have h1 := C125_anomaly_partial cal infer freq (bothPlus f s) s.ncell (fun c => 2 * c) hn2 hn (bothPlus_gaps cal .month f s 0 (by omega))
  have h2 := C125_anomaly_partial cal infer freq (bothPlus f s) s.ncell (fun c => 2 * c + 1) hn2 hn (bothPlus_gaps cal .month f s 1 (by omega))
  rw [plus_first] at h1
  rw [plus_second] at h2
  rw [h1, h2]
  cases climateAnomaly cal infer freq (bothPlus f s) with
  | error e => exact Or.inl ⟨e, rfl, rfl⟩
  | ok S => exact Or.inr ⟨_, _, rfl, rfl⟩

/-! ### means -/

theorem valuesIn_plus (f : ℤ → ℕ → K) (s : Series K) (P : ℤ → Prop) [DecidablePred P] (c : ℕ) (y : K)
    (h : ∀ e ∈ s.samples, P e.key → f e.key c = y) : valuesIn (plus f s).samples P c = (valuesIn s.samples P c).map (fun x => x + y) := by
  unfold valuesIn plus
  generalize s.samples = l at h
  induction l with
  | nil => rfl
  | cons e l ih =>
    have ih := ih fun e he => h e (List.mem_cons_of_mem _ he)
    simp only [List.map_cons, List.filter_cons]
    by_cases hP : P e.key
    · rw [if_pos (by simpa using hP), if_pos (by simpa using hP)]
      have hy := h e List.mem_cons_self hP
      simp only [List.filterMap_cons]
      cases hv : e.val c with
      | none => simp only [Option.map_none]; exact ih
      | some x => simp only [Option.map_some, List.map_cons]; rw [ih, hy]
    · rw [if_neg (by simpa using hP), if_neg (by simpa using hP)]
      exact ih

theorem mean_plus (l : List K) (y : K) : mean (l.map (fun x => x + y)) = (mean l).map (fun x => x + y) := by
  unfold mean
  by_cases h : l = []
  · subst h; rfl
  · rw [if_neg h, if_neg (by simpa using h)]
    have hl : ((l.length : ℕ) : K) ≠ 0 := by
      have := List.length_pos_of_ne_nil h
      exact_mod_cast this.ne'
    have hs : (l.map (fun x => x + y)).sum = l.sum + l.length * y := by
      clear h hl
      induction l with
      | nil => simp
      | cons a l ih => simp only [List.map_cons, List.sum_cons, ih, List.length_cons]; push_cast; ring
    simp only [Option.map_some, List.length_map, hs, Option.some.injEq]
    field_simp

theorem dayWeighted_plus (cal : Cal) (ks : List ℤ) (h : ks ≠ []) (x x' : ℤ → K) (y : K) (hx : ∀ k ∈ ks, x' k = x k + y) :
    dayWeighted cal ks x' = dayWeighted cal ks x + y := by
  have hT := sum_len_pos (K := K) cal ks h
  unfold dayWeighted
  have : (ks.map (fun k => (cal.len k : K) * x' k)).sum = (ks.map (fun k => (cal.len k : K) * x k)).sum + (ks.map (fun k => (cal.len k : K))).sum * y := by
    clear hT h
    induction ks with
    | nil => simp
    | cons k ks ih =>
      simp only [List.map_cons, List.sum_cons]
      rw [ih fun k hk => hx k (List.mem_cons_of_mem _ hk), hx k List.mem_cons_self]
      ring
  rw [this]
  field_simp

theorem monthMean_plus (cal : Cal) (f : ℤ → ℕ → K) (s : Series K) (k : ℤ) (c : ℕ) (y : K)
    (h : ∀ e ∈ s.samples, cal.monthOf e.key = k → f e.key c = y) :
    monthMean cal (plus f s).samples k c = (monthMean cal s.samples k c).map (fun x => x + y) := by
  unfold monthMean
  rw [valuesIn_plus f s _ c y h, mean_plus]

theorem full_plus (cal : Cal) (f : ℤ → ℕ → K) (s : Series K) (k : ℤ) : FullMonth cal (plus f s) k ↔ FullMonth cal s k := by
  unfold FullMonth monthMean
  have hn : (plus f s).ncell = s.ncell := rfl
  rw [hn]
  refine forall_congr' fun c => imp_congr_right fun _ => ?_
  have h : valuesIn (plus f s).samples (fun t => cal.monthOf t = k) c = [] ↔ valuesIn s.samples (fun t => cal.monthOf t = k) c = [] := by
    unfold valuesIn plus
    simp only [List.filter_map, List.filterMap_map, List.filterMap_eq_nil_iff, List.mem_filter, Function.comp_apply]
    refine forall_congr' fun e => imp_congr_right fun _ => ?_
    simp
  unfold mean
  by_cases h0 : valuesIn s.samples (fun t => cal.monthOf t = k) c = []
  · rw [if_pos h0, if_pos (h.mpr h0)]
  · rw [if_neg h0, if_neg (mt h.mp h0)]; simp

/-! ### the average a sample is compared with -/

/-- the average of the group of time `t` in cell `c` is `v` -/
def Ref (cal : Cal) (freq : String) (s : Series K) (t : ℤ) (c : ℕ) (v : K) : Prop :=
  (freq = "day" ∧ mean (valuesIn s.samples (fun t' => (cal.month t', cal.day t', (0 : ℤ)) = (cal.month t, cal.day t, 0)) c) = some v) ∨
  (freq = "month" ∧ mean (valuesIn s.samples (fun t' => (cal.month t', (0 : ℤ), (0 : ℤ)) = (cal.month t, 0, 0)) c) = some v) ∨
  (freq = "season" ∧ ∃ ks : List ℤ, ks ≠ [] ∧ ks.Pairwise (· < ·) ∧ (∀ k, k ∈ ks ↔ FullMonth cal s k ∧ Cal.monthNo k % 12 / 3 = cal.month t % 12 / 3) ∧
    v = dayWeighted cal ks (fun k => (monthMean cal s.samples k c).getD 0)) ∨
  (freq = "year" ∧ ∃ ks, ks = (yearOfMonths (cal.year t)).filter (fun k => decide (FullMonth cal s k)) ∧ ks ≠ [] ∧
    v = dayWeighted cal ks (fun k => (monthMean cal s.samples k c).getD 0))

theorem ref_unique (cal : Cal) (freq : String) (s : Series K) (t : ℤ) (c : ℕ) (v v' : K) (h : Ref cal freq s t c v) (h' : Ref cal freq s t c v') :
    v = v' := by
  rcases h with ⟨rfl, h⟩ | ⟨rfl, h⟩ | ⟨rfl, ks, -, hp, hk, h⟩ | ⟨rfl, ks, hk, -, h⟩
  · rcases h' with ⟨-, h'⟩ | ⟨h0, -⟩ | ⟨h0, -⟩ | ⟨h0, -⟩
    · rw [h] at h'; exact Option.some.inj h'
    all_goals exact absurd h0 (by decide)
  · rcases h' with ⟨h0, -⟩ | ⟨-, h'⟩ | ⟨h0, -⟩ | ⟨h0, -⟩
    · exact absurd h0 (by decide)
    · rw [h] at h'; exact Option.some.inj h'
    all_goals exact absurd h0 (by decide)
  · rcases h' with ⟨h0, -⟩ | ⟨h0, -⟩ | ⟨-, ks', -, hp', hk', h'⟩ | ⟨h0, -⟩
    · exact absurd h0 (by decide)
    · exact absurd h0 (by decide)
    · obtain rfl : ks = ks' := hp.eq_of_mem_iff hp' fun k => (hk k).trans (hk' k).symm
      rw [h, h']
    · exact absurd h0 (by decide)
  · rcases h' with ⟨h0, -⟩ | ⟨h0, -⟩ | ⟨h0, -⟩ | ⟨-, ks', hk', -, h'⟩
    · exact absurd h0 (by decide)
    · exact absurd h0 (by decide)
    · exact absurd h0 (by decide)
    · rw [h, h', hk, hk']

theorem ref_group (cal : Cal) (freq : String) (s : Series K) (t t' : ℤ) (c : ℕ) (v : K) (hg : SameGroup cal freq t t') (h : Ref cal freq s t c v) :
    Ref cal freq s t' c v := by
  rcases hg with ⟨rfl, h1, h2⟩ | ⟨rfl, h1⟩ | ⟨rfl, h1⟩ | ⟨rfl, h1⟩
  · rcases h with ⟨-, h⟩ | ⟨h0, -⟩ | ⟨h0, -⟩ | ⟨h0, -⟩
    · exact Or.inl ⟨rfl, by rw [← h1, ← h2]; exact h⟩
    all_goals exact absurd h0 (by decide)
  · rcases h with ⟨h0, -⟩ | ⟨-, h⟩ | ⟨h0, -⟩ | ⟨h0, -⟩
    · exact absurd h0 (by decide)
    · exact Or.inr (Or.inl ⟨rfl, by rw [← h1]; exact h⟩)
    all_goals exact absurd h0 (by decide)
  · rcases h with ⟨h0, -⟩ | ⟨h0, -⟩ | ⟨-, h⟩ | ⟨h0, -⟩
    · exact absurd h0 (by decide)
    · exact absurd h0 (by decide)
    · exact Or.inr (Or.inr (Or.inl ⟨rfl, by rw [← h1]; exact h⟩))
    · exact absurd h0 (by decide)
  · rcases h with ⟨h0, -⟩ | ⟨h0, -⟩ | ⟨h0, -⟩ | ⟨-, h⟩
    · exact absurd h0 (by decide)
    · exact absurd h0 (by decide)
    · exact absurd h0 (by decide)
    · exact Or.inr (Or.inr (Or.inr ⟨rfl, by rw [← h1]; exact h⟩))

/-- adding the same number to all samples of a group adds it to the group's average -/
theorem ref_plus (cal : Cal) (freq : String) (f : ℤ → ℕ → K) (s : Series K) (t : ℤ) (c : ℕ) (v y : K)
    (hf : ∀ e ∈ s.samples, SameGroup cal freq e.key t → f e.key c = y) (h : Ref cal freq s t c v) (hc : c < s.ncell) :
    Ref cal freq (plus f s) t c (v + y) := by
  rcases h with ⟨rfl, h⟩ | ⟨rfl, h⟩ | ⟨rfl, ks, hne, hp, hk, h⟩ | ⟨rfl, ks, hk, hne, h⟩
  · refine Or.inl ⟨rfl, ?_⟩
    rw [valuesIn_plus f s _ c y fun e he hP => hf e he (Or.inl ⟨rfl, by simpa using hP⟩), mean_plus, h]
    rfl
  · refine Or.inr (Or.inl ⟨rfl, ?_⟩)
    rw [valuesIn_plus f s _ c y fun e he hP => hf e he (Or.inr (Or.inl ⟨rfl, by simpa using hP⟩)), mean_plus, h]
    rfl
  · refine Or.inr (Or.inr (Or.inl ⟨rfl, ks, hne, hp, fun k => by rw [full_plus]; exact hk k, ?_⟩))
    rw [h]
    refine (dayWeighted_plus cal ks hne _ _ y fun k hk' => ?_).symm
    obtain ⟨hfull, hs⟩ := (hk k).mp hk'
    rw [monthMean_plus cal f s k c y fun e he hm => hf e he (Or.inr (Or.inr (Or.inl ⟨rfl, by rw [← hs, ← hm]; rfl⟩)))]
    obtain ⟨x, hx⟩ := Option.isSome_iff_exists.mp (hfull c hc)
    rw [hx]; rfl
  · refine Or.inr (Or.inr (Or.inr ⟨rfl, ks, ?_, hne, ?_⟩))
    · rw [hk]
      exact List.filter_congr fun k _ => by rw [decide_eq_decide]; exact (full_plus cal f s k).symm
    · rw [h]
      refine (dayWeighted_plus cal ks hne _ _ y fun k hk' => ?_).symm
      rw [hk] at hk'
      obtain ⟨hy, hfull⟩ := List.mem_filter.mp hk'
      have hfull := of_decide_eq_true hfull
      rw [monthMean_plus cal f s k c y fun e he hm => hf e he (Or.inr (Or.inr (Or.inr ⟨rfl, by
        unfold yearOfMonths at hy
        obtain ⟨i, hi, rfl⟩ := List.mem_map.mp hy
        have := List.mem_range.mp hi
        have h2 : cal.year e.key = cal.monthOf e.key / 12 := rfl
        omega⟩)))]
      obtain ⟨x, hx⟩ := Option.isSome_iff_exists.mp (hfull c hc)
      rw [hx]; rfl

theorem own_plus (cal : Cal) (freq : String) (f : ℤ → ℕ → K) (s : Series K) (h : OwnGroup cal freq s) : OwnGroup cal freq (plus f s) := by
  have hm : ∀ {P : ℤ → Prop}, (∀ e ∈ s.samples, P e.key) → ∀ e ∈ (plus f s).samples, P e.key := by
    intro P hP e he
    obtain ⟨x, hx, rfl⟩ := List.mem_map.mp he
    exact hP x hx
  rcases h with rfl | ⟨rfl, h⟩ | ⟨rfl, h⟩ | ⟨rfl, h, h'⟩
  · exact Or.inl rfl
  · refine Or.inr (Or.inl ⟨rfl, ?_⟩)
    have : medianYear cal (plus f s).samples = medianYear cal s.samples := by
      unfold medianYear plus
      rw [List.map_map]
      rfl
    rw [this]
    exact hm (P := fun t => cal.day t ≤ cal.len (12 * medianYear cal s.samples + cal.month t - 1)) h
  · refine Or.inr (Or.inr (Or.inl ⟨rfl, ?_⟩))
    simp only [full_plus]
    exact hm (P := fun t => ∃ k, FullMonth cal s k ∧ seasonOf (Cal.monthNo k) = seasonOf (cal.month t)) h
  · refine Or.inr (Or.inr (Or.inr ⟨rfl, ?_, ?_⟩))
    · exact hm (P := fun t => ∀ e' ∈ (plus f s).samples, cal.year t - cal.year e'.key < 100) (fun e he =>
        hm (P := fun t' => cal.year e.key - cal.year t' < 100) (h e he))
    · simp only [full_plus]
      exact hm (P := fun t => ∃ k ∈ yearOfMonths (cal.year t), FullMonth cal s k) h'

/-- the months of a season -/
theorem season_number (m k : ℤ) (hk : 1 ≤ k ∧ k ≤ 12) (hm : 1 ≤ m ∧ m ≤ 12) (name : String) (hname : name ∈ ["DJF", "JJA", "MAM", "SON"]) (months : List ℤ)
    (h : seasonMonths name = some months) (hmem : m ∈ months) : k ∈ months ↔ k % 12 / 3 = m % 12 / 3 := by
  simp only [List.mem_cons, List.not_mem_nil, or_false] at hname
  rcases hname with rfl | rfl | rfl | rfl
  all_goals
    injection h with h
    subst h
    simp only [List.mem_cons, List.not_mem_nil, or_false] at hmem ⊢
    omega

/-- anomalies are differences to the average of the group -/
theorem anomaly_ref (cal : Cal) (infer : InferFreq) (freq : String) (s : Series K) (hn : 0 < s.ncell) (hg : OwnGroup cal freq s) (out : List (Entry K))
    (h : climateAnomaly cal infer freq s = .ok out) :
    out.length = s.samples.length ∧ ∀ (i : ℕ) (e o : Entry K), s.samples[i]? = some e → out[i]? = some o → o.key = e.key ∧
      ∀ c < s.ncell, (e.val c = none → o.val c = none) ∧ ∀ x, e.val c = some x → ∃ v, Ref cal freq s e.key c v ∧ o.val c = some (x - v) := by
  rcases hg with rfl | ⟨rfl, hd⟩ | ⟨rfl, hd⟩ | ⟨rfl, hd, hd'⟩
  · obtain ⟨hl, hv, -⟩ := C41_month cal infer s out h
    refine ⟨hl, fun i e o he ho => ?_⟩
    obtain ⟨hk, hval⟩ := hv i e o he ho
    refine ⟨hk, fun c _ => ⟨(hval c).1, fun x hx => ?_⟩⟩
    obtain ⟨m, hm, a, ha, hxa⟩ := (hval c).2 x hx
    exact ⟨m, Or.inr (Or.inl ⟨rfl, hm⟩), by rw [ha, hxa]; simp⟩
  · obtain ⟨hl, hv, -⟩ := C41_day_partial cal infer s out h hd
    refine ⟨hl, fun i e o he ho => ?_⟩
    obtain ⟨hk, hval⟩ := hv i e o he ho
    refine ⟨hk, fun c _ => ⟨(hval c).1, fun x hx => ?_⟩⟩
    obtain ⟨m, hm, a, ha, hxa⟩ := (hval c).2 x hx
    exact ⟨m, Or.inl ⟨rfl, hm⟩, by rw [ha, hxa]; simp⟩
  · obtain ⟨vals, hclim, hl, hv⟩ := C92_values cal infer s hn out h
    obtain ⟨vals', hvals, hnames, hw⟩ := C91_weighted cal infer [] s hn _ hclim
    injection hvals with hvals
    subst hvals
    refine ⟨hl, fun i e o he ho => ?_⟩
    obtain ⟨o', x, ho', hk, hx, ⟨months, hmo, hme⟩, hval⟩ := hv i e he
    rw [ho] at ho'
    injection ho' with ho'
    subst ho'
    refine ⟨hk, fun c hc => ?_⟩
    obtain ⟨m, hm, hoc⟩ := hval c hc
    refine ⟨fun h0 => by rw [hoc, h0]; rfl, fun y hy => ⟨m, ?_, by rw [hoc, hy]; rfl⟩⟩
    obtain ⟨months', hmo', ks, hp, hks, hwv⟩ := hw x hx
    rw [hmo] at hmo'
    injection hmo' with hmo'
    subst hmo'
    have hname : x.1 ∈ ["DJF", "JJA", "MAM", "SON"] := by
      rw [if_pos rfl] at hnames
      rw [← hnames]
      exact List.mem_map_of_mem hx
    have hr : ∀ k : ℤ, 1 ≤ Cal.monthNo k ∧ Cal.monthNo k ≤ 12 := fun k => by unfold Cal.monthNo; omega
    have hks' : ∀ k, k ∈ ks ↔ FullMonth cal s k ∧ Cal.monthNo k % 12 / 3 = cal.month e.key % 12 / 3 := fun k => by
      rw [hks, season_number (cal.month e.key) (Cal.monthNo k) (hr k) (month_range cal e.key) x.1 hname months hmo hme]
    refine Or.inr (Or.inr (Or.inl ⟨rfl, ks, ?_, hp, hks', ?_⟩))
    · obtain ⟨k, hkf, hks⟩ := hd e (List.mem_of_getElem? he)
      have h1 := hr k
      have h2 := month_range cal e.key
      have : k ∈ ks := (hks' k).mpr ⟨hkf, by
        unfold seasonOf at hks
        split_ifs at hks <;> first | omega | exact absurd hks (by decide)⟩
      intro h0
      rw [h0] at this
      cases this
    · have := hwv c hc
      rw [hm] at this
      exact Option.some.inj this
  · obtain ⟨hl, hv⟩ := C42_year_partial cal infer s hn out h hd
    refine ⟨hl, fun i e o he ho => ?_⟩
    obtain ⟨hk, hval⟩ := hv i e o he ho
    refine ⟨hk, fun c hc => ?_⟩
    have hne : (yearOfMonths (cal.year e.key)).filter (fun k => decide (FullMonth cal s k)) ≠ [] := by
      obtain ⟨k, hk, hkf⟩ := hd' e (List.mem_of_getElem? he)
      exact List.ne_nil_of_mem (List.mem_filter.mpr ⟨hk, decide_eq_true hkf⟩)
    have := hval c hc _ rfl hne
    exact ⟨fun h0 => by rw [this, h0]; rfl, fun x hx => ⟨_, Or.inr (Or.inr (Or.inr ⟨rfl, _, rfl, hne, rfl⟩)), by rw [this, hx]; rfl⟩⟩

/-- C143, part: adding to the data something that is the same for all samples of a group (an annual cycle, say) changes no anomaly: the same error, or
the same time stamps and values. Missing: samples that have no average of their own group (C41, C42, C91). -/
theorem C143_cycle_partial (cal : Cal) (infer : InferFreq) (freq : String) (s : Series K) (hn : 0 < s.ncell) (hg : OwnGroup cal freq s) (f : ℤ → ℕ → K)
    (hf : ∀ t t', SameGroup cal freq t t' → ∀ c, f t c = f t' c) :
    (climateAnomaly cal infer freq (plus f s)).map (rows s.ncell) = (climateAnomaly cal infer freq s).map (rows s.ncell) := by
  rcases plus_outcome cal infer freq f s hn with ⟨e, h1, h2⟩ | ⟨o, o', h1, h2⟩
  · rw [h1, h2]
  · rw [h1, h2]
    show Except.ok _ = Except.ok _
    congr 1
    obtain ⟨l1, v1⟩ := anomaly_ref cal infer freq s hn hg o h1
    obtain ⟨l2, v2⟩ := anomaly_ref cal infer freq (plus f s) hn (own_plus cal freq f s hg) o' h2
    have hlen : o'.length = o.length := by rw [l1, l2]; simp [plus]
    unfold rows
    refine List.ext_getElem? fun i => ?_
    rw [List.getElem?_map, List.getElem?_map]
    cases hi : s.samples[i]? with
    | none =>
      have : s.samples.length ≤ i := List.getElem?_eq_none_iff.mp hi
      rw [List.getElem?_eq_none (by omega), List.getElem?_eq_none (by omega)]
    | some e =>
      have hlt : i < s.samples.length := (List.getElem?_eq_some_iff.mp hi).1
      obtain ⟨a, ha⟩ : ∃ a, o[i]? = some a := ⟨_, List.getElem?_eq_getElem (by omega)⟩
      obtain ⟨b, hb⟩ : ∃ b, o'[i]? = some b := ⟨_, List.getElem?_eq_getElem (by omega)⟩
      have hi' : (plus f s).samples[i]? = some ⟨e.key, fun c => (e.val c).map (fun x => x + f e.key c)⟩ := by
        simp [plus, hi]
      obtain ⟨k1, w1⟩ := v1 i e a hi ha
      obtain ⟨k2, w2⟩ := v2 i _ b hi' hb
      rw [ha, hb]
      simp only [Option.map_some, Option.some.injEq, Prod.mk.injEq]
      refine ⟨by rw [k1, k2], List.map_congr_left fun c hc => ?_⟩
      have hc := List.mem_range.mp hc
      cases hx : e.val c with
      | none => rw [(w1 c hc).1 hx, (w2 c hc).1 (by simp [hx])]
      | some x =>
        obtain ⟨v, hr, hv⟩ := (w1 c hc).2 x hx
        obtain ⟨v', hr', hv'⟩ := (w2 c hc).2 (x + f e.key c) (by simp [hx])
        have := ref_plus cal freq f s e.key c v (f e.key c) (fun e' _ hs => hf _ _ hs c) hr hc
        rw [ref_unique cal freq _ _ _ _ _ hr' this] at hv'
        rw [hv, hv']
        congr 1
        ring

/-- C143: nothing but an annual cycle (or whatever the samples of a group have in common) leaves only zeros. -/
theorem C143_zero_partial (cal : Cal) (infer : InferFreq) (freq : String) (s : Series K) (hn : 0 < s.ncell) (hg : OwnGroup cal freq s) (f : ℤ → ℕ → K)
    (hf : ∀ t t', SameGroup cal freq t t' → ∀ c, f t c = f t' c) (hs : ∀ e ∈ s.samples, ∀ c v, e.val c = some v → v = f e.key c)
    (out : List (Entry K)) (h : climateAnomaly cal infer freq s = .ok out) : ∀ o ∈ out, ∀ c < s.ncell, ∀ v, o.val c = some v → v = 0 := by
  have heq : plus f (inUnits 0 0 s) = s := by
    obtain ⟨n, l, t⟩ := s
    simp only [plus, inUnits, List.map_map, Series.mk.injEq, true_and, and_true]
    conv_rhs => rw [← List.map_id l]
    refine List.map_congr_left fun e he => ?_
    obtain ⟨k, v⟩ := e
    simp only [Function.comp_apply, Entry.inUnits, id, Entry.mk.injEq, true_and]
    funext c
    cases hv : v c with
    | none => rfl
    | some x => simp [hs _ he c x hv]
  have hg0 : OwnGroup cal freq (inUnits 0 0 s) := by
    have : plus (fun t c => - f t c) s = inUnits 0 0 s := by
      simp only [plus, inUnits, Series.mk.injEq, true_and, and_true]
      refine List.map_congr_left fun e he => ?_
      simp only [Entry.inUnits, Entry.mk.injEq, true_and]
      funext c
      cases hv : e.val c with
      | none => rfl
      | some x => simp [hs _ he c x hv]
    rw [← this]
    exact own_plus cal freq _ s hg
  have h1 := C143_cycle_partial cal infer freq (inUnits 0 0 s) hn hg0 f hf
  rw [heq, h] at h1
  obtain ⟨-, h2⟩ := C134_anomaly_partial cal infer freq s hn 0 0 (Or.inr rfl)
  obtain ⟨out', ho', -, hconv⟩ := h2 out h
  rw [ho'] at h1
  have h1 : rows s.ncell out = rows s.ncell out' := by injection h1
  intro o ho c hc v hv
  obtain ⟨i, hi⟩ := List.mem_iff_getElem?.mp ho
  have hrow := congrArg (fun l => l[i]?) h1
  simp only [rows, List.getElem?_map, hi, Option.map_some] at hrow
  cases hi' : out'[i]? with
  | none => rw [hi'] at hrow; cases hrow
  | some o' =>
    rw [hi'] at hrow
    simp only [Option.map_some, Option.some.injEq, Prod.mk.injEq] at hrow
    have hcell := congrArg (fun l => l[c]?) hrow.2
    simp only [List.getElem?_map, List.getElem?_range hc, Option.map_some, Option.some.injEq] at hcell
    have := (hconv i o o' hi hi').2 c hc
    rw [← hcell, hv] at this
    simpa using this

/-- C143, part: anomalies are their own anomalies. -/
theorem C143_twice_partial (cal : Cal) (infer : InferFreq) (freq : String) (s : Series K) (hn : 0 < s.ncell) (hg : OwnGroup cal freq s)
    (out : List (Entry K)) (h : climateAnomaly cal infer freq s = .ok out) :
    (climateAnomaly cal infer freq (again s out)).map (rows s.ncell) = .ok (rows s.ncell out) := by
  classical
  let f : ℤ → ℕ → K := fun t c => if hv : ∃ v, Ref cal freq s t c v then - hv.choose else 0
  have hf : ∀ t t', SameGroup cal freq t t' → ∀ c, f t c = f t' c := by
    intro t t' hs c
    have hs' : SameGroup cal freq t' t := by
      rcases hs with ⟨h0, h1, h2⟩ | ⟨h0, h1⟩ | ⟨h0, h1⟩ | ⟨h0, h1⟩
      · exact Or.inl ⟨h0, h1.symm, h2.symm⟩
      · exact Or.inr (Or.inl ⟨h0, h1.symm⟩)
      · exact Or.inr (Or.inr (Or.inl ⟨h0, h1.symm⟩))
      · exact Or.inr (Or.inr (Or.inr ⟨h0, h1.symm⟩))
    have : Ref cal freq s t c = Ref cal freq s t' c := by
      funext v
      exact propext ⟨ref_group cal freq s t t' c v hs, ref_group cal freq s t' t c v hs'⟩
    show (if hv : ∃ v, Ref cal freq s t c v then - hv.choose else 0) = (if hv : ∃ v, Ref cal freq s t' c v then - hv.choose else 0)
    rw [this]
  obtain ⟨hl, hv⟩ := anomaly_ref cal infer freq s hn hg out h
  -- the anomalies are the data with `f` added, in the cells of the record
  let g : ℕ → ℕ := fun c => if c < s.ncell then c else 0
  have hgc : ∀ c < s.ncell, g c = c := fun c hc => if_pos hc
  have hgl : ∀ c, g c < s.ncell := fun c => by
    show (if c < s.ncell then c else 0) < _
    split <;> omega
  have hsel : selected s.ncell g (again s out) = selected s.ncell g (plus f s) := by
    simp only [selected, again, plus, Series.mk.injEq, true_and, and_true, List.map_map]
    refine List.ext_getElem? fun i => ?_
    rw [List.getElem?_map, List.getElem?_map]
    cases hi : s.samples[i]? with
    | none =>
      have : s.samples.length ≤ i := List.getElem?_eq_none_iff.mp hi
      rw [List.getElem?_eq_none (by omega)]
      rfl
    | some e =>
      have hlt : i < s.samples.length := (List.getElem?_eq_some_iff.mp hi).1
      obtain ⟨a, ha⟩ : ∃ a, out[i]? = some a := ⟨_, List.getElem?_eq_getElem (by omega)⟩
      obtain ⟨hk, hw⟩ := hv i e a hi ha
      rw [ha]
      simp only [Option.map_some, Function.comp_apply, Entry.at, Option.some.injEq, Entry.mk.injEq]
      refine ⟨hk, funext fun c => ?_⟩
      cases hx : e.val (g c) with
      | none => rw [(hw _ (hgl c)).1 hx]; rfl
      | some x =>
        obtain ⟨v, hr, ho⟩ := (hw _ (hgl c)).2 x hx
        have hex : ∃ v, Ref cal freq s e.key (g c) v := ⟨v, hr⟩
        have : f e.key (g c) = - v := by
          show (if hv : ∃ v, Ref cal freq s e.key (g c) v then - hv.choose else 0) = _
          rw [dif_pos hex, ref_unique cal freq s _ _ _ _ hex.choose_spec hr]
        rw [ho, Option.map_some, this, sub_eq_add_neg]
  have key : ∀ s' : Series K, s'.ncell = s.ncell → (climateAnomaly cal infer freq (selected s.ncell g s')).map (rows s.ncell) =
      (climateAnomaly cal infer freq s').map (rows s.ncell) := by
    intro s' hs'
    have h1 := C125_anomaly_partial cal infer freq s' s'.ncell g (by omega) (by omega) (sameGaps_self cal .month g s' (by rwa [hs']))
    rw [hs'] at h1
    rw [h1]
    cases climateAnomaly cal infer freq s' with
    | error e => rfl
    | ok o =>
      show Except.ok _ = Except.ok _
      rw [rows_at s.ncell g hgc]
  rw [← key (again s out) rfl, hsel, key (plus f s) rfl, C143_cycle_partial cal infer freq s hn hg f hf, h]
  rfl

/-- C143 fails for samples without an average of their own group: in a record of more than a century a constant added to the data changes the
anomalies, and the anomalies of the anomalies are not the anomalies. -/
theorem C143_counterexample :
    (climateAnomaly Cal.days360 (fun _ => .ok true) "year" century).toOption.map (rows 1) ≠
      (climateAnomaly Cal.days360 (fun _ => .ok true) "year" (plus (fun _ _ => 1) century)).toOption.map (rows 1) ∧
    ∃ out, climateAnomaly Cal.days360 (fun _ => .ok true) "year" century = .ok out ∧ out.map (fun e => e.val 0) = [some (-3), some 0, some (-1)] ∧
      (climateAnomaly Cal.days360 (fun _ => .ok true) "year" (again century out)).toOption.map (List.map (fun e => e.val 0)) =
        some [some 1, some 0, some 3] := by
  refine ⟨by decide +kernel, ?_⟩
  have h0 : (climateAnomaly Cal.days360 (fun _ => .ok true) "year" century).toOption.isSome := by decide +kernel
  cases h : climateAnomaly Cal.days360 (fun _ => .ok true) "year" century with
  | error e => rw [h] at h0; cases h0
  | ok out =>
    have h1 : (climateAnomaly Cal.days360 (fun _ => .ok true) "year" century).toOption.map (fun out => (out.map (fun e => e.val 0),
        (climateAnomaly Cal.days360 (fun _ => .ok true) "year" (again century out)).toOption.map (List.map (fun e => e.val 0)))) =
        some ([some (-3), some 0, some (-1)], some [some 1, some 0, some 3]) := by decide +kernel
    rw [h] at h1
    have h2 := Option.some.inj h1
    exact ⟨out, rfl, congrArg Prod.fst h2, congrArg Prod.snd h2⟩

/-- two years of months with a trend and a gap -/
def trend : Series ℚ :=
  ⟨2, (List.range 24).map (fun i : ℕ => ⟨Cal.days360.monthStart (24000 + i), fun c => if i = 5 then none else some (i + c)⟩), true⟩

/-- the hypotheses of the theorems hold for it with every frequency, and the anomalies are not trivial -/
example : OwnGroup Cal.days360 "month" trend ∧ OwnGroup Cal.days360 "day" trend ∧ OwnGroup Cal.days360 "season" trend ∧ OwnGroup Cal.days360 "year" trend ∧
    (climateAnomaly Cal.days360 (fun _ => .ok true) "month" trend).toOption.map (fun l => (rows 2 l)[5]?.map (·.2)) = some (some [none, none]) ∧
    (climateAnomaly Cal.days360 (fun _ => .ok true) "month" trend).toOption.map (fun l => (rows 2 l)[6]?.map (fun r => r.2)) = some (some [some (-6 : ℚ), some (-6)]) ∧
    (climateAnomaly Cal.days360 (fun _ => .ok true) "season" trend).toOption.isSome ∧
    (climateAnomaly Cal.days360 (fun _ => .ok true) "year" trend).toOption.isSome := by
  refine ⟨Or.inl rfl, Or.inr (Or.inl ⟨rfl, by decide +kernel⟩), Or.inr (Or.inr (Or.inl ⟨rfl, ?_⟩)), Or.inr (Or.inr (Or.inr ⟨rfl, by decide +kernel, by decide +kernel⟩)),
    by decide +kernel, by decide +kernel, by decide +kernel, by decide +kernel⟩
  intro e he
  have : ∀ e ∈ trend.samples, ∃ k ∈ [(24000 : ℤ), 24003, 24007, 24009], FullMonth Cal.days360 trend k ∧
      seasonOf (Cal.monthNo k) = seasonOf (Cal.days360.month e.key) := by decide +kernel
  obtain ⟨k, -, hk⟩ := this e he
  exact ⟨k, hk⟩

end Verif.Props
