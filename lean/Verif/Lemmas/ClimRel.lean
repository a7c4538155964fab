import Verif.Model.ClimArith
import Verif.Lemmas.Climatology
import Mathlib.Data.List.Forall2
import Mathlib.Data.Option.NAry

/-
Two calls of a climatology function on related data and with related arithmetic give related results. Used for exact against rounded arithmetic and
for smaller against larger data.
-/

set_option linter.unusedSectionVars false

namespace Verif.Spec
variable {K : Type _}

/-- both values missing, or both present and related -/
def OptRel (ρ : K → K → Prop) : Option K → Option K → Prop
  | none, none => True
  | some x, some y => ρ x y
  | _, _ => False

/-- same label, and related values in every cell -/
def EntryRel (ρ : K → K → Prop) (a b : Entry K) : Prop := a.key = b.key ∧ ∀ c, OptRel ρ (a.val c) (b.val c)

/-- data with the same time stamps and the same missing values, and related values -/
structure SeriesRel (ρ : K → K → Prop) (s s' : Series K) : Prop where
  ncell : s.ncell = s'.ncell
  isTime : s.isTime = s'.isTime
  samples : List.Forall₂ (EntryRel ρ) s.samples s'.samples

/-- the same error, or related results -/
def OutRel {α : Type _} (ρ : α → α → Prop) : Except PyErr α → Except PyErr α → Prop
  | .ok a, .ok b => ρ a b
  | .error e, .error e' => e = e'
  | _, _ => False

/-- results of `climatology_average` with the same labels and related values -/
def ClimRel (ρ : K → K → Prop) : Model.ClimOut K → Model.ClimOut K → Prop
  | .times l, .times l' => List.Forall₂ (EntryRel ρ) l l'
  | .seasons l, .seasons l' => List.Forall₂ (fun a b => a.1 = b.1 ∧ ∀ c, OptRel ρ (a.2 c) (b.2 c)) l l'
  | _, _ => False

end Verif.Spec

namespace Verif.Lemmas
open Model Spec
variable {K : Type _} [Field K] [LinearOrder K] [IsStrictOrderedRing K]

theorem OptRel_isSome {ρ : K → K → Prop} {x y : Option K} (h : OptRel ρ x y) : x.isSome = y.isSome := by
  cases x <;> cases y <;> first | rfl | exact h.elim

theorem OptRel_mono {ρ ρ' : K → K → Prop} (hm : ∀ x y, ρ x y → ρ' x y) {x y : Option K} (h : OptRel ρ x y) : OptRel ρ' x y := by
  cases x <;> cases y <;> first | exact trivial | exact h.elim | exact hm _ _ h

theorem EntryRel_mono {ρ ρ' : K → K → Prop} (hm : ∀ x y, ρ x y → ρ' x y) {x y : Entry K} (h : EntryRel ρ x y) : EntryRel ρ' x y :=
  ⟨h.1, fun c => OptRel_mono hm (h.2 c)⟩

theorem rel_keys {ρ : K → K → Prop} {l l' : List (Entry K)} (h : List.Forall₂ (EntryRel ρ) l l') : l.map (·.key) = l'.map (·.key) := by
  induction h with
  | nil => rfl
  | cons h _ ih => rw [List.map_cons, List.map_cons, h.1, ih]

theorem rel_filter {ρ : K → K → Prop} {l l' : List (Entry K)} (h : List.Forall₂ (EntryRel ρ) l l') (P : Entry K → Bool)
    (hP : ∀ a b, EntryRel ρ a b → P a = P b) : List.Forall₂ (EntryRel ρ) (l.filter P) (l'.filter P) := by
  induction h with
  | nil => exact .nil
  | @cons a b l l' h _ ih =>
    rw [List.filter_cons, List.filter_cons, hP a b h]
    split_ifs
    · exact .cons h ih
    · exact ih

theorem rel_vals {ρ : K → K → Prop} {l l' : List (Entry K)} (h : List.Forall₂ (EntryRel ρ) l l') (c : ℕ) :
    List.Forall₂ ρ (l.filterMap (·.val c)) (l'.filterMap (·.val c)) := by
  induction h with
  | nil => exact .nil
  | @cons a b l l' h _ ih =>
    have hc := h.2 c
    rw [List.filterMap_cons, List.filterMap_cons]
    cases ha : a.val c <;> cases hb : b.val c <;> rw [ha, hb] at hc
    · exact ih
    · exact hc.elim
    · exact hc.elim
    · exact .cons hc ih

/-- a group of entries with the same number, at most `N` of them, related -/
def GroupRel (ρ : K → K → Prop) (N : ℕ) (g g' : ℤ × List (Entry K)) : Prop :=
  g.1 = g'.1 ∧ g.2.length ≤ N ∧ List.Forall₂ (EntryRel ρ) g.2 g'.2

theorem rel_map_groups {ρ : K → K → Prop} {N : ℕ} {l l' : List (Entry K)} (h : List.Forall₂ (EntryRel ρ) l l') (f : ℤ → ℤ) (L : List ℤ)
    (hN : ∀ b, (l.filter (fun e => f e.key = b)).length ≤ N) :
    List.Forall₂ (GroupRel ρ N) (L.map (fun b => (b, l.filter (fun e => f e.key = b)))) (L.map (fun b => (b, l'.filter (fun e => f e.key = b)))) := by
  induction L with
  | nil => exact .nil
  | cons b L ih => exact .cons ⟨rfl, hN b, rel_filter h _ (fun a b h => by simp only [h.1])⟩ ih

theorem rel_head_key {ρ : K → K → Prop} {l l' : List (Entry K)} (h : List.Forall₂ (EntryRel ρ) l l') :
    l.head?.map (·.key) = l'.head?.map (·.key) := by
  rw [← List.head?_map, ← List.head?_map, rel_keys h]

theorem rel_last_key {ρ : K → K → Prop} {l l' : List (Entry K)} (h : List.Forall₂ (EntryRel ρ) l l') :
    l.getLast?.map (·.key) = l'.getLast?.map (·.key) := by
  rw [← List.getLast?_map, ← List.getLast?_map, rel_keys h]

theorem rel_bins {ρ : K → K → Prop} {N : ℕ} {l l' : List (Entry K)} (h : List.Forall₂ (EntryRel ρ) l l') (f : ℤ → ℤ)
    (hN : ∀ b, (l.filter (fun e => f e.key = b)).length ≤ N) : List.Forall₂ (GroupRel ρ N) (bins f l) (bins f l') := by
  have h1 := rel_head_key h
  have h2 := rel_last_key h
  unfold bins
  cases ha : l.head? <;> cases ha' : l'.head? <;> rw [ha, ha'] at h1 <;> simp only [Option.map_none, Option.map_some, reduceCtorEq, Option.some.injEq] at h1
  · exact .nil
  cases hz : l.getLast? <;> cases hz' : l'.getLast? <;> rw [hz, hz'] at h2 <;> simp only [Option.map_none, Option.map_some, reduceCtorEq, Option.some.injEq] at h2
  · exact .nil
  simp only [h1, h2]
  exact rel_map_groups h f _ hN

theorem rel_pairwise {ρ : K → K → Prop} {l l' : List (Entry K)} (h : List.Forall₂ (EntryRel ρ) l l') :
    l.Pairwise (fun a b => a.key ≤ b.key) ↔ l'.Pairwise (fun a b => a.key ≤ b.key) := by
  have e : ∀ l : List (Entry K), l.Pairwise (fun a b => a.key ≤ b.key) ↔ (l.map (·.key)).Pairwise (· ≤ ·) := fun l => List.pairwise_map.symm
  rw [e, e, rel_keys h]

theorem rel_nil {α β : Type _} {ρ : α → β → Prop} {l : List α} {l' : List β} (h : List.Forall₂ ρ l l') : l = [] ↔ l' = [] := by
  cases h <;> simp

theorem rel_resample {ρ : K → K → Prop} {N : ℕ} {l l' : List (Entry K)} (h : List.Forall₂ (EntryRel ρ) l l') (f : ℤ → ℤ)
    (hN : ∀ b, (l.filter (fun e => f e.key = b)).length ≤ N) : OutRel (List.Forall₂ (GroupRel ρ N)) (resample f l) (resample f l') := by
  unfold resample
  by_cases hc : l = [] ∨ ¬ l.Pairwise (fun a b => a.key ≤ b.key)
  · rw [if_pos hc, if_pos (by rwa [← rel_nil h, ← rel_pairwise h])]
    rfl
  · rw [if_neg hc, if_neg (by rwa [← rel_nil h, ← rel_pairwise h])]
    exact rel_bins h f hN

theorem resample_bins (f : ℤ → ℤ) (l : List (Entry K)) (g : List (ℤ × List (Entry K))) (h : resample f l = .ok g) : g = bins f l := by
  unfold resample at h
  by_cases hc : l = [] ∨ ¬ l.Pairwise (fun a b => a.key ≤ b.key)
  · rw [if_pos hc] at h; cases h
  · rw [if_neg hc] at h; cases h; rfl

theorem rel_uniform {ρ : K → K → Prop} (cal : Cal) (infer : InferFreq) {s s' : Series K} (h : SeriesRel ρ s s') :
    checkUniform cal infer s = checkUniform cal infer s' := by
  unfold checkUniform
  rw [rel_keys h.samples]
  have hr := rel_resample (N := s.samples.length) h.samples cal.monthOf (fun b => List.length_filter_le _ _)
  cases h1 : resample cal.monthOf s.samples with
  | error e =>
    cases h2 : resample cal.monthOf s'.samples with
    | error e' => rw [h1, h2] at hr; simp only [OutRel] at hr; subst hr; rfl
    | ok g' => rw [h1, h2] at hr; exact hr.elim
  | ok g =>
    cases h2 : resample cal.monthOf s'.samples with
    | error e' => rw [h1, h2] at hr; exact hr.elim
    | ok g' =>
      rw [h1, h2] at hr
      simp only [OutRel] at hr
      have e : g.all (fun g => decide (g.2.length = 1)) = g'.all (fun g => decide (g.2.length = 1)) := by
        clear h1 h2
        induction hr with
        | nil => rfl
        | cons h _ ih => rw [List.all_cons, List.all_cons, ih, h.2.2.length_eq]
      simp only [bind, Except.bind, e]

/-- how two arithmetics on related values are related: means of up to `N` values, weighted sums of up to `M` -/
structure ArithRel (A A' : ClimArith K) (N M : ℕ) (ρ0 ρ1 ρ2 : K → K → Prop) : Prop where
  mean : ∀ l l', l ≠ [] → l.length ≤ N → List.Forall₂ ρ0 l l' → ρ1 (A.mean l) (A'.mean l')
  wsum : ∀ D l l', l.length ≤ M → (∀ x ∈ l, 0 < x.2) → (l.map (·.2)).sum ≤ D → List.Forall₂ (fun x y => ρ1 x.1 y.1 ∧ x.2 = y.2) l l' →
    ρ2 (A.wsum D l) (A'.wsum D l')

variable {A A' : ClimArith K} {N M : ℕ} {ρ0 ρ1 ρ2 : K → K → Prop}

theorem rel_nanMean (H : ArithRel A A' N M ρ0 ρ1 ρ2) {g g' : ℤ × List (Entry K)} (h : GroupRel ρ0 N g g') (c : ℕ) :
    OptRel ρ1 (nanMeanBy A c g.2) (nanMeanBy A' c g'.2) := by
  have hv := rel_vals h.2.2 c
  unfold nanMeanBy
  by_cases hc : g.2.filterMap (·.val c) = []
  · rw [if_pos hc, if_pos ((rel_nil hv).mp hc)]; exact trivial
  · rw [if_neg hc, if_neg (fun h => hc ((rel_nil hv).mpr h))]
    exact H.mean _ _ hc ((List.length_filterMap_le _ _).trans h.2.1) hv

theorem rel_meanEach (H : ArithRel A A' N M ρ0 ρ1 ρ2) {l l' : List (ℤ × List (Entry K))} (h : List.Forall₂ (GroupRel ρ0 N) l l') :
    List.Forall₂ (EntryRel ρ1) (meanEachBy A l) (meanEachBy A' l') := by
  unfold meanEachBy
  rw [List.forall₂_map_left_iff, List.forall₂_map_right_iff]
  exact h.imp (fun g g' hg => ⟨hg.1, fun c => rel_nanMean H hg c⟩)

theorem rel_dropna {ρ : K → K → Prop} (n : ℕ) {l l' : List (Entry K)} (h : List.Forall₂ (EntryRel ρ) l l') :
    List.Forall₂ (EntryRel ρ) (dropna n l) (dropna n l') :=
  rel_filter h _ (fun a b hab => by
    have : (fun c => (a.val c).isSome) = (fun c => (b.val c).isSome) := funext (fun c => OptRel_isSome (hab.2 c))
    simp only [this])

theorem rel_totalDays {ρ : K → K → Prop} (cal : Cal) {l l' : List (Entry K)} (h : List.Forall₂ (EntryRel ρ) l l') :
    totalDays (K := K) cal l = totalDays cal l' := by
  have e : ∀ l : List (Entry K), totalDays (K := K) cal l = ((l.map (·.key)).map (fun k => (cal.len k : K))).sum := fun l => by
    rw [List.map_map]; rfl
  rw [e, e, rel_keys h]

theorem rel_dayValues {ρ : K → K → Prop} (cal : Cal) (c : ℕ) {l l' : List (Entry K)} (h : List.Forall₂ (EntryRel ρ) l l') :
    List.Forall₂ (fun x y => ρ x.1 y.1 ∧ x.2 = y.2) (dayValues cal c l) (dayValues cal c l') := by
  unfold dayValues
  induction h with
  | nil => exact .nil
  | @cons a b l l' h _ ih =>
    have hc := h.2 c
    rw [List.filterMap_cons, List.filterMap_cons]
    cases ha : a.val c <;> cases hb : b.val c <;> rw [ha, hb] at hc
    · exact ih
    · exact hc.elim
    · exact hc.elim
    · exact .cons ⟨hc, by rw [h.1]⟩ ih

theorem dayValues_days (cal : Cal) (c : ℕ) (l : List (Entry K)) :
    (∀ x ∈ dayValues cal c l, 0 < x.2) ∧ ((dayValues cal c l).map (·.2)).sum ≤ totalDays cal l := by
  have hp : ∀ k, (0 : K) < cal.len k := fun k => by exact_mod_cast len_pos cal k
  constructor
  · intro x hx
    obtain ⟨e, -, he⟩ := List.mem_filterMap.mp hx
    rw [Option.map_eq_some_iff] at he
    obtain ⟨v, -, rfl⟩ := he
    exact hp _
  · unfold dayValues totalDays
    induction l with
    | nil => simp
    | cons e l ih =>
      rw [List.filterMap_cons, List.map_cons, List.sum_cons]
      cases e.val c with
      | none => simp only [Option.map_none]; have := hp e.key; linarith
      | some v => simp only [Option.map_some, List.map_cons, List.sum_cons]; linarith

theorem rel_wsum (H : ArithRel A A' N M ρ0 ρ1 ρ2) (cal : Cal) (c : ℕ) {l l' : List (Entry K)} (h : List.Forall₂ (EntryRel ρ1) l l') (hl : l.length ≤ M) :
    ρ2 (A.wsum (totalDays cal l) (dayValues cal c l)) (A'.wsum (totalDays cal l') (dayValues cal c l')) := by
  rw [← rel_totalDays cal h]
  exact H.wsum _ _ _ ((List.length_filterMap_le _ _).trans hl) (dayValues_days cal c l).1 (dayValues_days cal c l).2 (rel_dayValues cal c h)

theorem rel_weightedSums (H : ArithRel A A' N M ρ0 ρ1 ρ2) (cal : Cal) (p : Period) {l l' : List (Entry K)} (h : List.Forall₂ (EntryRel ρ1) l l')
    (hM : ∀ b, (l.filter (fun e => monthPeriod p e.key = b)).length ≤ M) :
    List.Forall₂ (EntryRel ρ2) (weightedSumsBy A cal p l) (weightedSumsBy A' cal p l') := by
  unfold weightedSumsBy
  rw [List.forall₂_map_left_iff, List.forall₂_map_right_iff]
  refine (rel_bins h (monthPeriod p) hM).imp (fun g g' hg => ⟨hg.1, fun c => ?_⟩)
  by_cases hc : g.2 = []
  · simp only [if_pos hc, if_pos ((rel_nil hg.2.2).mp hc)]; exact trivial
  · simp only [if_neg hc, if_neg (fun h => hc ((rel_nil hg.2.2).mpr h))]
    exact rel_wsum H cal c hg.2.2 hg.2.1

theorem rel_centerBounds {ρ : K → K → Prop} (cal : Cal) (p : Period) (a z : ℤ) {l l' : List (Entry K)} (h : List.Forall₂ (EntryRel ρ) l l') :
    OutRel (List.Forall₂ (EntryRel ρ)) (centerBounds cal p a z l) (centerBounds cal p a z l') := by
  unfold centerBounds
  rw [h.length_eq]
  split_ifs
  · change List.Forall₂ _ _ _
    rename_i hlen
    clear hlen
    generalize periodRange a z = L
    induction h generalizing L with
    | nil => simp
    | cons h _ ih =>
      cases L with
      | nil => exact .nil
      | cons b L => exact .cons ⟨rfl, h.2⟩ (ih L)
  · rfl

/-- in a list of monthly values a season has at most 3 entries and a year at most 12 -/
theorem months_of_period (p : Period) (hp : p = .season ∨ p = .year) (l : List (Entry K)) (hl : (l.map (·.key)).Nodup) (b : ℤ) :
    (l.filter (fun e => monthPeriod p e.key = b)).length ≤ 12 := by
  have hn : ((l.filter (fun e => monthPeriod p e.key = b)).map (·.key)).Nodup := hl.sublist (List.Sublist.map _ List.filter_sublist)
  have hs : (l.filter (fun e => monthPeriod p e.key = b)).map (·.key) ⊆ periodMonths p b := by
    intro k hk
    obtain ⟨e, he, rfl⟩ := List.mem_map.mp hk
    rw [mem_periodMonths]
    simpa using (List.mem_filter.mp he).2
  have := (hn.subperm hs).length_le
  rw [List.length_map] at this
  refine this.trans ?_
  rcases hp with rfl | rfl <;> simp [periodMonths, seasonOfMonths, yearOfMonths]

theorem monthly_nodup (A : ClimArith K) (f : ℤ → ℤ) (n : ℕ) (l : List (Entry K)) :
    ((dropna n (meanEachBy A (bins f l))).map (·.key)).Nodup := by
  have h : ((meanEachBy A (bins f l)).map (·.key)).Nodup := by
    unfold bins meanEachBy
    split
    · rw [List.map_map, List.map_map]
      refine List.Nodup.map ?_ ?_
      · intro x y h; exact h
      · exact ((periodRange_sorted _ _).imp (fun h => ne_of_lt h))
    · simp
  exact h.sublist (List.Sublist.map _ List.filter_sublist)

/-- `calendar_average` with two arithmetics on related data -/
theorem rel_calendarP (H : ArithRel A A' N 12 ρ0 ρ1 ρ2) (cal : Cal) (infer : InferFreq) (freq : String) {s s' : Series K} (h : SeriesRel ρ0 s s')
    (hN : ∀ p b, calendarPeriod freq = .ok p → (s.samples.filter (fun e => periodOf cal (if p = .season ∨ p = .year then .month else p) e.key = b)).length ≤ N)
    (ρ : K → K → Prop) (h1 : ∀ p, calendarPeriod freq = .ok p → ¬ (p = .season ∨ p = .year) → ∀ x y, ρ1 x y → ρ x y)
    (h2 : ∀ p, calendarPeriod freq = .ok p → p = .season ∨ p = .year → ∀ x y, ρ2 x y → ρ x y) :
    OutRel (List.Forall₂ (EntryRel ρ)) (calendarAverageBy A cal infer freq s) (calendarAverageBy A' cal infer freq s') := by
  unfold calendarAverageBy
  cases hp : calendarPeriod freq with
  | error e => rfl
  | ok p =>
    simp only [bind, Except.bind]
    rw [rel_uniform cal infer h, h.isTime]
    by_cases hi : s'.isTime = true
    swap
    · simp only [if_pos hi]; rfl
    simp only [hi, not_true_eq_false, if_false]
    cases hu : checkUniform cal infer s' with
    | error e => rfl
    | ok u =>
      simp only
      have hr := rel_resample h.samples (periodOf cal (if p = .season ∨ p = .year then .month else p)) (fun b => hN p b hp)
      cases e1 : resample (periodOf cal (if p = .season ∨ p = .year then .month else p)) s.samples with
      | error e =>
        cases e2 : resample (periodOf cal (if p = .season ∨ p = .year then .month else p)) s'.samples with
        | error e' => rw [e1, e2] at hr; exact hr
        | ok g' => rw [e1, e2] at hr; exact hr.elim
      | ok g =>
        cases e2 : resample (periodOf cal (if p = .season ∨ p = .year then .month else p)) s'.samples with
        | error e' => rw [e1, e2] at hr; exact hr.elim
        | ok g' =>
          rw [e1, e2] at hr
          simp only [OutRel] at hr
          have hm := rel_dropna s.ncell (rel_meanEach H hr)
          rw [← h.ncell]
          dsimp only
          have hout : List.Forall₂ (EntryRel ρ)
              (if p = .season ∨ p = .year then weightedSumsBy A cal p (dropna s.ncell (meanEachBy A g)) else dropna s.ncell (meanEachBy A g))
              (if p = .season ∨ p = .year then weightedSumsBy A' cal p (dropna s.ncell (meanEachBy A' g')) else dropna s.ncell (meanEachBy A' g')) := by
            by_cases hc : p = .season ∨ p = .year
            · rw [if_pos hc, if_pos hc]
              refine (rel_weightedSums H cal p hm (months_of_period p hc _ ?_)).imp (fun _ _ => EntryRel_mono (h2 p hp hc))
              rw [resample_bins _ _ _ e1]
              exact monthly_nodup A _ _ _
            · rw [if_neg hc, if_neg hc]
              exact hm.imp (fun _ _ => EntryRel_mono (h1 p hp hc))
          have a1 := rel_head_key hout
          have a2 := rel_last_key hout
          generalize (if p = .season ∨ p = .year then weightedSumsBy A cal p (dropna s.ncell (meanEachBy A g)) else dropna s.ncell (meanEachBy A g)) = o at *
          generalize (if p = .season ∨ p = .year then weightedSumsBy A' cal p (dropna s.ncell (meanEachBy A' g')) else dropna s.ncell (meanEachBy A' g')) = o' at *
          cases ha : o.head? <;> cases ha' : o'.head? <;> rw [ha, ha'] at a1 <;> simp only [Option.map_none, Option.map_some, reduceCtorEq, Option.some.injEq] at a1
          · rfl
          cases hz : o.getLast? <;> cases hz' : o'.getLast? <;> rw [hz, hz'] at a2 <;> simp only [Option.map_none, Option.map_some, reduceCtorEq, Option.some.injEq] at a2
          · rfl
          simp only [a1, a2]
          exact rel_centerBounds cal p _ _ hout

theorem rel_calendar (H : ArithRel A A' N 12 ρ0 ρ1 ρ2) (cal : Cal) (infer : InferFreq) (freq : String) {s s' : Series K} (h : SeriesRel ρ0 s s')
    (hN : ∀ p b, calendarPeriod freq = .ok p → (s.samples.filter (fun e => periodOf cal (if p = .season ∨ p = .year then .month else p) e.key = b)).length ≤ N)
    (ρ : K → K → Prop) (h1 : ∀ x y, ρ1 x y → ρ x y) (h2 : ∀ x y, ρ2 x y → ρ x y) :
    OutRel (List.Forall₂ (EntryRel ρ)) (calendarAverageBy A cal infer freq s) (calendarAverageBy A' cal infer freq s') :=
  rel_calendarP H cal infer freq h hN ρ (fun _ _ _ => h1) (fun _ _ _ => h2)

theorem rel_seasonClimate (H : ArithRel A A' N M ρ0 ρ1 ρ2) (cal : Cal) {s s' : Series K} (h : SeriesRel ρ0 s s') (months : List ℤ)
    (hN : ∀ b, (s.samples.filter (fun e => cal.monthOf e.key = b)).length ≤ N)
    (hM : (dropna s.ncell (meanEachBy A (bins cal.monthOf (s.samples.filter (fun e => cal.month e.key ∈ months))))).length ≤ M) :
    OutRel (fun v v' : ℕ → Option K => ∀ c, OptRel ρ2 (v c) (v' c)) (seasonClimateBy A cal s months) (seasonClimateBy A' cal s' months) := by
  unfold seasonClimateBy
  simp only [bind, Except.bind, pure, Except.pure]
  have hf := rel_filter h.samples (fun e => decide (cal.month e.key ∈ months)) (fun a b hab => by simp only [hab.1])
  have hr := rel_resample (N := N) hf cal.monthOf (fun b => le_trans (by
    rw [List.filter_filter]
    refine (List.Sublist.length_le (?_ : List.Sublist _ (s.samples.filter (fun e => cal.monthOf e.key = b))))
    rw [← List.filter_filter, List.filter_comm]
    exact List.filter_sublist) (hN b))
  cases e1 : resample cal.monthOf (s.samples.filter (fun e => decide (cal.month e.key ∈ months))) with
  | error e =>
    cases e2 : resample cal.monthOf (s'.samples.filter (fun e => decide (cal.month e.key ∈ months))) with
    | error e' => rw [e1, e2] at hr; exact hr
    | ok g' => rw [e1, e2] at hr; exact hr.elim
  | ok g =>
    cases e2 : resample cal.monthOf (s'.samples.filter (fun e => decide (cal.month e.key ∈ months))) with
    | error e' => rw [e1, e2] at hr; exact hr.elim
    | ok g' =>
      rw [e1, e2] at hr
      have hm := rel_dropna s.ncell (rel_meanEach H hr)
      rw [← h.ncell]
      intro c
      refine rel_wsum H cal c hm ?_
      rw [resample_bins _ _ _ e1]
      exact hM

theorem rel_mapM {α : Type} {β : Type _} {ρ : β → β → Prop} (f f' : α → Except PyErr β) (l : List α) (h : ∀ a ∈ l, OutRel ρ (f a) (f' a)) :
    OutRel (List.Forall₂ ρ) (l.mapM f) (l.mapM f') := by
  induction l with
  | nil => exact .nil
  | cons a l ih =>
    rw [List.mapM_cons, List.mapM_cons]
    have h1 := h a (by simp)
    have h2 := ih (fun b hb => h b (by simp [hb]))
    simp only [bind, Except.bind, pure, Except.pure]
    cases e1 : f a <;> cases e2 : f' a <;> rw [e1, e2] at h1
    · exact h1
    · exact h1.elim
    · exact h1.elim
    · cases e3 : l.mapM f <;> cases e4 : l.mapM f' <;> rw [e3, e4] at h2
      · exact h2
      · exact h2.elim
      · exact h2.elim
      · exact .cons h1 h2

theorem rel_seasonsWrap {ρ : K → K → Prop} (x y : Except PyErr (List (String × (ℕ → Option K))))
    (h : OutRel (List.Forall₂ (fun a b : String × (ℕ → Option K) => a.1 = b.1 ∧ ∀ c, OptRel ρ (a.2 c) (b.2 c))) x y) :
    OutRel (ClimRel ρ) (x >>= fun v => pure (ClimOut.seasons v)) (y >>= fun v => pure (ClimOut.seasons v)) := by
  cases x <;> cases y
  · exact h
  · exact h.elim
  · exact h.elim
  · exact h

theorem rel_seasonClimates (H : ArithRel A A' N M ρ0 ρ1 ρ2) (cal : Cal) {s s' : Series K} (h : SeriesRel ρ0 s s') (custom : List String)
    (hN : ∀ b, (s.samples.filter (fun e => cal.monthOf e.key = b)).length ≤ N)
    (hM : ∀ months : List ℤ, (dropna s.ncell (meanEachBy A (bins cal.monthOf (s.samples.filter (fun e => cal.month e.key ∈ months))))).length ≤ M) :
    OutRel (ClimRel ρ2) (seasonClimatesBy A cal s custom) (seasonClimatesBy A' cal s' custom) := by
  unfold seasonClimatesBy
  dsimp only
  generalize (if custom = [] then ["DJF", "JJA", "MAM", "SON"] else custom) = seasons
  by_cases hc : seasons.any (fun n => (seasonMonths n).isNone) = true
  · simp only [if_pos hc]; rfl
  simp only [if_neg hc]
  refine rel_seasonsWrap _ _ (rel_mapM _ _ _ (fun n _ => ?_))
  have hs := rel_seasonClimate H cal h ((seasonMonths n).getD []) hN (hM _)
  simp only [bind, Except.bind, pure, Except.pure]
  cases e1 : seasonClimateBy A cal s ((seasonMonths n).getD []) <;> cases e2 : seasonClimateBy A' cal s' ((seasonMonths n).getD []) <;>
    rw [e1, e2] at hs
  · exact hs
  · exact hs.elim
  · exact hs.elim
  · exact ⟨rfl, hs⟩

theorem rel_groupKeys {ρ : K → K → Prop} {N : ℕ} {l l' : List (Entry K)} (h : List.Forall₂ (EntryRel ρ) l l') (f : ℤ → ℤ)
    (hN : ∀ b, (l.filter (fun e => f e.key = b)).length ≤ N) : List.Forall₂ (GroupRel ρ N) (groupKeys f l) (groupKeys f l') := by
  unfold groupKeys
  have e : ∀ l : List (Entry K), l.map (fun e => f e.key) = (l.map (·.key)).map f := fun l => by rw [List.map_map]; rfl
  rw [e, e, rel_keys h]
  exact rel_map_groups h f _ hN

theorem rel_medianYear {ρ : K → K → Prop} (cal : Cal) {l l' : List (Entry K)} (h : List.Forall₂ (EntryRel ρ) l l') :
    medianYear cal l = medianYear cal l' := by
  unfold medianYear
  have e : ∀ l : List (Entry K), l.map (fun e => cal.year e.key) = (l.map (·.key)).map cal.year := fun l => by rw [List.map_map]; rfl
  rw [e, e, rel_keys h]

theorem rel_groupClimate (H : ArithRel A A' N M ρ0 ρ1 ρ2) (cal : Cal) (p : Period) {s s' : Series K} (h : SeriesRel ρ0 s s')
    (hN : ∀ b, (s.samples.filter (fun e => stampKey cal p e.key = b)).length ≤ N) :
    OutRel (List.Forall₂ (EntryRel ρ1)) (groupClimateBy A cal p s) (groupClimateBy A' cal p s') := by
  unfold groupClimateBy
  rw [rel_medianYear cal h.samples]
  have hg := rel_groupKeys h.samples (stampKey cal p) hN
  have hm := rel_meanEach H hg
  generalize groupKeys (stampKey cal p) s.samples = g at *
  generalize groupKeys (stampKey cal p) s'.samples = g' at *
  have e1 : g.map (·.1) = g'.map (·.1) := by
    clear hm
    induction hg with
    | nil => rfl
    | cons h _ ih => rw [List.map_cons, List.map_cons, h.1, ih]
  have a1 : g.head?.map (·.1) = g'.head?.map (·.1) := by rw [← List.head?_map, ← List.head?_map, e1]
  have a2 : g.getLast?.map (·.1) = g'.getLast?.map (·.1) := by rw [← List.getLast?_map, ← List.getLast?_map, e1]
  dsimp only
  cases ha : g.head? <;> cases ha' : g'.head? <;> rw [ha, ha'] at a1 <;> simp only [Option.map_none, Option.map_some, reduceCtorEq, Option.some.injEq] at a1
  · dsimp only; rfl
  cases hz : g.getLast? <;> cases hz' : g'.getLast? <;> rw [hz, hz'] at a2 <;> simp only [Option.map_none, Option.map_some, reduceCtorEq, Option.some.injEq] at a2
  · dsimp only; rfl
  simp only [a1, a2, bind, Except.bind]
  by_cases hy : 1000 ≤ medianYear cal s'.samples ∧ medianYear cal s'.samples ≤ 99999
  swap
  · simp only [if_pos hy]; rfl
  simp only [if_neg (not_not.mpr hy)]
  rename_i v v' w w'
  cases keyPeriod cal p (medianYear cal s'.samples) v'.1 with
  | error e => rfl
  | ok first =>
    cases keyPeriod cal p (medianYear cal s'.samples) w'.1 with
    | error e => rfl
    | ok last => exact rel_centerBounds cal p first last hm

/-- `climatology_average` with two arithmetics on related data -/
theorem rel_climatologyP (H : ArithRel A A' N M ρ0 ρ1 ρ2) (cal : Cal) (infer : InferFreq) (freq : String) (custom : List String) {s s' : Series K}
    (h : SeriesRel ρ0 s s')
    (hN : ∀ p b, climatologyPeriod freq = .ok p → p ≠ .season → (s.samples.filter (fun e => stampKey cal p e.key = b)).length ≤ N)
    (hN' : ∀ b, (s.samples.filter (fun e => cal.monthOf e.key = b)).length ≤ N)
    (hM : ∀ months : List ℤ, (dropna s.ncell (meanEachBy A (bins cal.monthOf (s.samples.filter (fun e => cal.month e.key ∈ months))))).length ≤ M)
    (ρ : K → K → Prop) (h1 : ∀ p, climatologyPeriod freq = .ok p → p ≠ .season → ∀ x y, ρ1 x y → ρ x y)
    (h2 : climatologyPeriod freq = .ok .season → ∀ x y, ρ2 x y → ρ x y) :
    OutRel (ClimRel ρ) (climatologyAverageBy A cal infer freq custom s) (climatologyAverageBy A' cal infer freq custom s') := by
  unfold climatologyAverageBy
  cases hp : climatologyPeriod freq with
  | error e => rfl
  | ok p =>
    simp only [bind, Except.bind]
    rw [rel_uniform cal infer h, h.isTime]
    by_cases hi : s'.isTime = true
    swap
    · simp only [if_pos hi]; rfl
    simp only [hi, not_true_eq_false, if_false]
    cases hu : checkUniform cal infer s' with
    | error e => rfl
    | ok u =>
      simp only
      by_cases hc : p = .season
      · simp only [if_pos hc]
        have := rel_seasonClimates H cal h custom hN' hM
        revert this
        generalize seasonClimatesBy A cal s custom = x
        generalize seasonClimatesBy A' cal s' custom = y
        intro hv
        cases x <;> cases y
        · exact hv
        · exact hv.elim
        · exact hv.elim
        · rename_i a b
          cases a <;> cases b
          · exact hv.imp (fun _ _ => EntryRel_mono (h2 (by rw [hp, hc])))
          · exact hv.elim
          · exact hv.elim
          · exact List.Forall₂.imp (fun _ _ hh => ⟨hh.1, fun c => OptRel_mono (h2 (by rw [hp, hc])) (hh.2 c)⟩) hv
      · simp only [if_neg hc]
        have := rel_groupClimate H cal p h (fun b => hN p b hp hc)
        revert this
        generalize groupClimateBy A cal p s = x
        generalize groupClimateBy A' cal p s' = y
        intro hv
        cases x <;> cases y
        · exact hv
        · exact hv.elim
        · exact hv.elim
        · exact List.Forall₂.imp (fun _ _ => EntryRel_mono (h1 p hp hc)) hv

theorem rel_climatology (H : ArithRel A A' N M ρ0 ρ1 ρ2) (cal : Cal) (infer : InferFreq) (freq : String) (custom : List String) {s s' : Series K}
    (h : SeriesRel ρ0 s s')
    (hN : ∀ p b, climatologyPeriod freq = .ok p → p ≠ .season → (s.samples.filter (fun e => stampKey cal p e.key = b)).length ≤ N)
    (hN' : ∀ b, (s.samples.filter (fun e => cal.monthOf e.key = b)).length ≤ N)
    (hM : ∀ months : List ℤ, (dropna s.ncell (meanEachBy A (bins cal.monthOf (s.samples.filter (fun e => cal.month e.key ∈ months))))).length ≤ M)
    (ρ : K → K → Prop) (h1 : ∀ x y, ρ1 x y → ρ x y) (h2 : ∀ x y, ρ2 x y → ρ x y) :
    OutRel (ClimRel ρ) (climatologyAverageBy A cal infer freq custom s) (climatologyAverageBy A' cal infer freq custom s') :=
  rel_climatologyP H cal infer freq custom h hN hN' hM ρ (fun _ _ _ => h1) (fun _ => h2)

theorem rel_dropLast {α β : Type _} {ρ : α → β → Prop} {l : List α} {l' : List β} (h : List.Forall₂ ρ l l') : List.Forall₂ ρ l.dropLast l'.dropLast := by
  rw [List.dropLast_eq_take, List.dropLast_eq_take, h.length_eq]
  exact List.forall₂_take _ h

theorem rel_tail {α β : Type _} {ρ : α → β → Prop} {l : List α} {l' : List β} (h : List.Forall₂ ρ l l') : List.Forall₂ ρ l.tail l'.tail := by
  cases h with
  | nil => exact .nil
  | cons _ h => exact h

/-- `month_to_season` with two arithmetics on related data -/
theorem rel_monthToSeason (H : ArithRel A A' N M ρ0 ρ1 ρ2) (cal : Cal) (season : String) {s s' : Series K} (h : SeriesRel ρ0 s s')
    (hN : ∀ a b, (s.samples.filter (fun e => quarterOf a (cal.monthOf e.key) = b)).length ≤ N) :
    OutRel (List.Forall₂ (EntryRel ρ1)) (monthToSeasonBy A cal season s) (monthToSeasonBy A' cal season s') := by
  unfold monthToSeasonBy
  simp only [bind, Except.bind, pure, Except.pure]
  rw [h.isTime, h.samples.length_eq]
  by_cases hi : s'.isTime = true
  swap
  · simp only [if_pos hi]; rfl
  simp only [hi, not_true_eq_false, if_false]
  by_cases hl : s'.samples.length % 12 ≠ 0
  · simp only [if_pos hl]; rfl
  simp only [if_neg hl]
  cases hq : seasonQuarter season with
  | none => rfl
  | some r =>
    obtain ⟨months, anchor⟩ := r
    simp only
    have hf := rel_filter h.samples (fun e => decide (cal.month e.key ∈ months)) (fun a b hab => by simp only [hab.1])
    have hf' : List.Forall₂ (EntryRel ρ0)
        (if season = "DJF" then (s.samples.filter (fun e => decide (cal.month e.key ∈ months))).dropLast else if season = "NDJ" then (s.samples.filter (fun e => decide (cal.month e.key ∈ months))).tail else s.samples.filter (fun e => decide (cal.month e.key ∈ months)))
        (if season = "DJF" then (s'.samples.filter (fun e => decide (cal.month e.key ∈ months))).dropLast else if season = "NDJ" then (s'.samples.filter (fun e => decide (cal.month e.key ∈ months))).tail else s'.samples.filter (fun e => decide (cal.month e.key ∈ months))) := by
      split_ifs
      · exact rel_dropLast hf
      · exact rel_tail hf
      · exact hf
    have hsub : List.Sublist (if season = "DJF" then (s.samples.filter (fun e => decide (cal.month e.key ∈ months))).dropLast else if season = "NDJ" then (s.samples.filter (fun e => decide (cal.month e.key ∈ months))).tail else s.samples.filter (fun e => decide (cal.month e.key ∈ months))) s.samples := by
      split_ifs
      · exact (List.dropLast_sublist _).trans List.filter_sublist
      · exact (List.tail_sublist _).trans List.filter_sublist
      · exact List.filter_sublist
    generalize (if season = "DJF" then (s.samples.filter (fun e => decide (cal.month e.key ∈ months))).dropLast else if season = "NDJ" then (s.samples.filter (fun e => decide (cal.month e.key ∈ months))).tail else s.samples.filter (fun e => decide (cal.month e.key ∈ months))) = f at *
    generalize (if season = "DJF" then (s'.samples.filter (fun e => decide (cal.month e.key ∈ months))).dropLast else if season = "NDJ" then (s'.samples.filter (fun e => decide (cal.month e.key ∈ months))).tail else s'.samples.filter (fun e => decide (cal.month e.key ∈ months))) = f' at *
    have hr := rel_resample (N := N) hf' (fun t => quarterOf anchor (cal.monthOf t)) (fun b => ((hsub.filter _).length_le).trans (hN anchor b))
    cases e1 : resample (fun t => quarterOf anchor (cal.monthOf t)) f <;> cases e2 : resample (fun t => quarterOf anchor (cal.monthOf t)) f' <;> rw [e1, e2] at hr
    · exact hr
    · exact hr.elim
    · exact hr.elim
    · have hm := rel_meanEach H hr
      change List.Forall₂ _ _ _
      rw [List.forall₂_map_left_iff, List.forall₂_map_right_iff]
      refine (rel_filter (?_ : List.Forall₂ (EntryRel ρ1) _ _) (fun e => decide (Cal.monthNo e.key = months.getD 1 0)) (fun a b hab => by simp only [hab.1])).imp
        (fun a b hab => ⟨by simp only [hab.1], hab.2⟩)
      rw [List.forall₂_map_left_iff, List.forall₂_map_right_iff]
      exact hm.imp (fun a b hab => ⟨by simp only [hab.1], hab.2⟩)

end Verif.Lemmas
