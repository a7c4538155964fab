import Verif.Props.ClimConvex

/-
Property theorems: linear combinations, order and change of units under the averages.
-/

set_option linter.unusedSectionVars false

namespace Verif.Spec
variable {K : Type _} [Field K] [LinearOrder K]

/-- three values, all missing or the third `a` times the first plus `b` times the second -/
def IsComb (a b : K) (u v w : Option K) : Prop :=
  (u = none ∧ v = none ∧ w = none) ∨ ∃ x y, u = some x ∧ v = some y ∧ w = some (a * x + b * y)

/-- two values, both missing or the first at most the second -/
def IsBelow (u v : Option K) : Prop := (u = none ∧ v = none) ∨ ∃ x y, u = some x ∧ v = some y ∧ x ≤ y

/-- the data in other units: every value `x` replaced by `a * x + b`; missing values stay missing -/
def Entry.inUnits (a b : K) (e : Entry K) : Entry K := ⟨e.key, fun c => (e.val c).map (fun x => a * x + b)⟩

def inUnits (a b : K) (s : Series K) : Series K := ⟨s.ncell, s.samples.map (Entry.inUnits a b), s.isTime⟩

/-- a result and the result in other units: the same length and labels, and in each of the `n` cells `x` becomes `a * x + b` -/
def ConvertedBy (a b : K) (n : ℕ) (out out' : List (Entry K)) : Prop :=
  out.length = out'.length ∧ ∀ (i : ℕ) (o o' : Entry K), out[i]? = some o → out'[i]? = some o' →
    o'.key = o.key ∧ ∀ c < n, o'.val c = (o.val c).map (fun x => a * x + b)

end Verif.Spec

namespace Verif.Props
open Model Spec Lemmas
variable {K : Type _} [Field K] [LinearOrder K] [IsStrictOrderedRing K]

/-- frequencies with which `climatology_average` returns -/
theorem climatology_freq (cal : Cal) (infer : InferFreq) (freq : String) (custom : List String) (s : Series K) (out : ClimOut K)
    (h : climatologyAverage cal infer freq custom s = .ok out) : (∃ p, GroupFreq freq p) ∨ freq = "season" := by
  unfold climatologyAverage climatologyPeriod at h
  split at h
  · exact Or.inl ⟨.hour, Or.inl ⟨rfl, rfl⟩⟩
  · exact Or.inl ⟨.day, Or.inr (Or.inl ⟨rfl, rfl⟩)⟩
  · exact Or.inl ⟨.month, Or.inr (Or.inr ⟨rfl, rfl⟩)⟩
  · exact Or.inr rfl
  · cases h

/-! ### linear combinations -/

/-- the relation `z = a x + b y` -/
def combSpace (a b : K) : Submodule K (Fin 3 → K) where
  carrier := {v | v 2 = a * v 0 + b * v 1}
  zero_mem' := by simp
  add_mem' := by
    intro v w hv hw
    simp only [Set.mem_ofPred_eq, Pi.add_apply] at *
    rw [hv, hw]; ring
  smul_mem' := by
    intro r v hv
    simp only [Set.mem_ofPred_eq, Pi.smul_apply, smul_eq_mul] at *
    rw [hv]; ring

theorem together_comb (a b : K) (x y z : ℕ) (v : ℕ → Option K) :
    Together ![x, y, z] (combSpace a b : Set (Fin 3 → K)) v ↔ IsComb a b (v x) (v y) (v z) := by
  constructor
  · rintro (h | ⟨w, hw, h⟩)
    · exact Or.inl ⟨h 0, h 1, h 2⟩
    · refine Or.inr ⟨w 0, w 1, h 0, h 1, ?_⟩
      have h2 := h 2
      have hw' : w 2 = a * w 0 + b * w 1 := hw
      rw [hw'] at h2
      exact h2
  · rintro (⟨h0, h1, h2⟩ | ⟨p, q, h0, h1, h2⟩)
    · exact Or.inl (by intro i; fin_cases i <;> simpa)
    · refine Or.inr ⟨![p, q, a * p + b * q], ?_, by intro i; fin_cases i <;> simpa⟩
      show (![p, q, a * p + b * q] : Fin 3 → K) 2 = _
      simp

/-- C133: if one variable of a Dataset is everywhere a combination `a * x + b * y` of two others (and they are missing at the same places),
then so are its averages, climatologies, seasonal means and anomalies. -/
theorem C133_combination (cal : Cal) (infer : InferFreq) (s : Series K) (x y z : ℕ) (hx : x < s.ncell) (hy : y < s.ncell) (hz : z < s.ncell)
    (a b : K) (h : ∀ e ∈ s.samples, IsComb a b (e.val x) (e.val y) (e.val z)) :
    (∀ freq out, calendarAverage cal infer freq s = .ok out → ∀ o ∈ out, IsComb a b (o.val x) (o.val y) (o.val z)) ∧
    (∀ freq custom out, climatologyAverage cal infer freq custom s = .ok (.times out) → ∀ o ∈ out, IsComb a b (o.val x) (o.val y) (o.val z)) ∧
    (∀ freq custom out, climatologyAverage cal infer freq custom s = .ok (.seasons out) → ∀ o ∈ out, IsComb a b (o.2 x) (o.2 y) (o.2 z)) ∧
    (∀ freq out, climateAnomaly cal infer freq s = .ok out → ∀ o ∈ out, IsComb a b (o.val x) (o.val y) (o.val z)) ∧
    (∀ season out, monthToSeason cal season s = .ok out → ∀ o ∈ out, IsComb a b (o.val x) (o.val y) (o.val z)) := by
  have h' : ∀ e ∈ s.samples, Together ![x, y, z] (combSpace a b : Set (Fin 3 → K)) e.val := fun e he => (together_comb a b x y z e.val).mpr (h e he)
  have hc : ∀ i, (![x, y, z] : Fin 3 → ℕ) i < s.ncell := by intro i; fin_cases i <;> simpa
  have hC : Convex K (combSpace a b : Set (Fin 3 → K)) := (combSpace a b).convex
  refine ⟨fun freq out ho o hm => ?_, fun freq custom out ho o hm => ?_, fun freq custom out ho o hm => ?_, fun freq out ho o hm => ?_,
    fun season out ho o hm => ?_⟩
  · exact (together_comb a b x y z _).mp (C133_calendar cal infer freq s _ hc _ hC h' out ho o hm)
  · rcases climatology_freq cal infer freq custom s _ ho with ⟨p, hp⟩ | rfl
    · obtain ⟨l, hl, hv⟩ := C133_climatology cal infer freq p hp custom s _ _ hC h' _ ho
      injection hl with hl
      subst hl
      exact (together_comb a b x y z _).mp (hv o hm)
    · obtain ⟨l, hl, -⟩ := C133_season cal infer custom s _ hc _ hC h' _ ho
      cases hl
  · rcases climatology_freq cal infer freq custom s _ ho with ⟨p, hp⟩ | rfl
    · obtain ⟨l, hl, -⟩ := C133_climatology cal infer freq p hp custom s _ _ hC h' _ ho
      cases hl
    · obtain ⟨l, hl, hv⟩ := C133_season cal infer custom s _ hc _ hC h' _ ho
      injection hl with hl
      subst hl
      obtain ⟨l', hl', -, hw⟩ := C91_weighted cal infer custom s (lt_of_le_of_lt (Nat.zero_le _) hx) _ ho
      injection hl' with hl'
      subst hl'
      obtain ⟨months, hmo, -⟩ := hw o hm
      obtain ⟨v, hv1, hv2⟩ := hv o hm months hmo (Or.inl (combSpace a b).zero_mem)
      exact (together_comb a b x y z _).mp (Or.inr ⟨v, hv1, hv2⟩)
  · exact (together_comb a b x y z _).mp (C133_anomaly cal infer freq s _ hc _ h' out ho o hm)
  · exact (together_comb a b x y z _).mp (C133_month_to_season cal season s _ _ hC h' out ho o hm)

/-! ### order -/

/-- the relation `x ≤ y` -/
def belowSet : Set (Fin 2 → K) := {v | v 0 ≤ v 1}

theorem belowSet_convex : Convex K (belowSet : Set (Fin 2 → K)) := by
  intro v hv w hw p q hp hq _
  simp only [belowSet, Set.mem_ofPred_eq, Pi.add_apply, Pi.smul_apply, smul_eq_mul] at *
  exact add_le_add (mul_le_mul_of_nonneg_left hv hp) (mul_le_mul_of_nonneg_left hw hq)

theorem together_below (x y : ℕ) (v : ℕ → Option K) : Together ![x, y] (belowSet : Set (Fin 2 → K)) v ↔ IsBelow (v x) (v y) := by
  constructor
  · rintro (h | ⟨w, hw, h⟩)
    · exact Or.inl ⟨h 0, h 1⟩
    · exact Or.inr ⟨w 0, w 1, h 0, h 1, hw⟩
  · rintro (⟨h0, h1⟩ | ⟨p, q, h0, h1, h2⟩)
    · exact Or.inl (by intro i; fin_cases i <;> simpa)
    · refine Or.inr ⟨![p, q], ?_, by intro i; fin_cases i <;> simpa⟩
      simpa [belowSet] using h2

/-- C133: if one variable never exceeds another (and they are missing at the same places), the same holds for their averages, climatologies
and seasonal means. -/
theorem C133_order (cal : Cal) (infer : InferFreq) (s : Series K) (x y : ℕ) (hx : x < s.ncell) (hy : y < s.ncell)
    (h : ∀ e ∈ s.samples, IsBelow (e.val x) (e.val y)) :
    (∀ freq out, calendarAverage cal infer freq s = .ok out → ∀ o ∈ out, IsBelow (o.val x) (o.val y)) ∧
    (∀ freq custom out, climatologyAverage cal infer freq custom s = .ok (.times out) → ∀ o ∈ out, IsBelow (o.val x) (o.val y)) ∧
    (∀ freq custom out, climatologyAverage cal infer freq custom s = .ok (.seasons out) → ∀ o ∈ out, IsBelow (o.2 x) (o.2 y)) ∧
    (∀ season out, monthToSeason cal season s = .ok out → ∀ o ∈ out, IsBelow (o.val x) (o.val y)) := by
  have h' : ∀ e ∈ s.samples, Together ![x, y] (belowSet : Set (Fin 2 → K)) e.val := fun e he => (together_below x y e.val).mpr (h e he)
  have hc : ∀ i, (![x, y] : Fin 2 → ℕ) i < s.ncell := by intro i; fin_cases i <;> simpa
  refine ⟨fun freq out ho o hm => ?_, fun freq custom out ho o hm => ?_, fun freq custom out ho o hm => ?_, fun season out ho o hm => ?_⟩
  · exact (together_below x y _).mp (C133_calendar cal infer freq s _ hc _ belowSet_convex h' out ho o hm)
  · rcases climatology_freq cal infer freq custom s _ ho with ⟨p, hp⟩ | rfl
    · obtain ⟨l, hl, hv⟩ := C133_climatology cal infer freq p hp custom s _ _ belowSet_convex h' _ ho
      injection hl with hl
      subst hl
      exact (together_below x y _).mp (hv o hm)
    · obtain ⟨l, hl, -⟩ := C133_season cal infer custom s _ hc _ belowSet_convex h' _ ho
      cases hl
  · rcases climatology_freq cal infer freq custom s _ ho with ⟨p, hp⟩ | rfl
    · obtain ⟨l, hl, -⟩ := C133_climatology cal infer freq p hp custom s _ _ belowSet_convex h' _ ho
      cases hl
    · obtain ⟨l, hl, hv⟩ := C133_season cal infer custom s _ hc _ belowSet_convex h' _ ho
      injection hl with hl
      subst hl
      obtain ⟨l', hl', -, hw⟩ := C91_weighted cal infer custom s (lt_of_le_of_lt (Nat.zero_le _) hx) _ ho
      injection hl' with hl'
      subst hl'
      obtain ⟨months, hmo, -⟩ := hw o hm
      obtain ⟨v, hv1, hv2⟩ := hv o hm months hmo (Or.inl (by simp [belowSet]))
      exact (together_below x y _).mp (Or.inr ⟨v, hv1, hv2⟩)
  · exact (together_below x y _).mp (C133_month_to_season cal season s _ _ belowSet_convex h' out ho o hm)

/-! ### change of units -/

/-- a record next to the same record in other units -/
def bothUnits (a b : K) (s : Series K) : Series K :=
  ⟨2 * s.ncell, s.samples.map (fun e => ⟨e.key, fun c => if c % 2 = 0 then e.val (c / 2) else (e.val (c / 2)).map (fun x => a * x + b)⟩), s.isTime⟩

theorem select_first (a b : K) (s : Series K) : selected s.ncell (fun c => 2 * c) (bothUnits a b s) = s := by
  obtain ⟨n, l, t⟩ := s
  simp only [selected, bothUnits, List.map_map, Series.mk.injEq, true_and, and_true]
  have : (Entry.at (fun c => 2 * c) ∘ fun e : Entry K => (⟨e.key, fun c => if c % 2 = 0 then e.val (c / 2) else (e.val (c / 2)).map (fun x => a * x + b)⟩ : Entry K)) = id := by
    funext e
    obtain ⟨k, v⟩ := e
    simp only [Function.comp_apply, Entry.at, id, Entry.mk.injEq, true_and]
    funext c
    rw [if_pos (by omega), show 2 * c / 2 = c by omega]
  rw [this, List.map_id]

theorem select_second (a b : K) (s : Series K) : selected s.ncell (fun c => 2 * c + 1) (bothUnits a b s) = inUnits a b s := by
  simp only [selected, bothUnits, inUnits, List.map_map, Series.mk.injEq, true_and, and_true]
  apply List.map_congr_left
  intro e _
  simp only [Function.comp_apply, Entry.at, Entry.inUnits, Entry.mk.injEq, true_and]
  funext c
  rw [if_neg (by omega), show (2 * c + 1) / 2 = c by omega]

theorem bothUnits_values (a b : K) (s : Series K) (P : ℤ → Prop) [DecidablePred P] (c : ℕ) :
    (mean (valuesIn (bothUnits a b s).samples P c)).isSome = (mean (valuesIn s.samples P (c / 2))).isSome := by
  have h : valuesIn (bothUnits a b s).samples P c = [] ↔ valuesIn s.samples P (c / 2) = [] := by
    unfold valuesIn bothUnits
    simp only [List.filter_map, List.filterMap_map, List.filterMap_eq_nil_iff, List.mem_filter, Function.comp_apply]
    refine forall_congr' fun e => imp_congr_right fun _ => ?_
    split <;> simp
  unfold mean
  by_cases h0 : valuesIn s.samples P (c / 2) = []
  · rw [if_pos h0, if_pos (h.mpr h0)]
  · rw [if_neg h0, if_neg (mt h.mp h0)]; rfl

theorem bothUnits_gaps (cal : Cal) (p : Period) (a b : K) (s : Series K) (r : ℕ) (hr : r < 2) :
    SameGaps cal p s.ncell (fun c => 2 * c + r) (bothUnits a b s) := by
  intro e _
  unfold FullPeriod
  have hs : (selected s.ncell (fun c => 2 * c + r) (bothUnits a b s)).samples = (bothUnits a b s).samples.map (Entry.at fun c => 2 * c + r) := rfl
  have hn : (selected s.ncell (fun c => 2 * c + r) (bothUnits a b s)).ncell = s.ncell := rfl
  have hn' : (bothUnits a b s).ncell = 2 * s.ncell := rfl
  rw [hs, hn, hn']
  simp only [valuesIn_at, bothUnits_values]
  constructor
  · intro h c hc
    exact h (2 * c + r) (by omega)
  · intro h c hc
    have := h (c / 2) (by omega)
    rwa [show (2 * (c / 2) + r) / 2 = c / 2 by omega] at this

/-- the relation `y = a x + b` -/
def unitSet (a b : K) : Set (Fin 2 → K) := {v | v 1 = a * v 0 + b}

theorem unitSet_convex (a b : K) : Convex K (unitSet a b) := by
  intro v hv w hw p q _ _ hpq
  simp only [unitSet, Set.mem_ofPred_eq, Pi.add_apply, Pi.smul_apply, smul_eq_mul] at *
  rw [hv, hw]
  linear_combination b * hpq

theorem bothUnits_together (a b : K) (s : Series K) (c : ℕ) : ∀ e ∈ (bothUnits a b s).samples, Together ![2 * c, 2 * c + 1] (unitSet a b) e.val := by
  intro e he
  obtain ⟨e, -, rfl⟩ := List.mem_map.mp he
  have h0 : (2 * c) % 2 = 0 := by omega
  have h1 : (2 * c + 1) % 2 ≠ 0 := by omega
  have d0 : 2 * c / 2 = c := by omega
  have d1 : (2 * c + 1) / 2 = c := by omega
  cases hv : e.val c with
  | none => exact Or.inl (by intro i; fin_cases i <;> simp [h0, d1, hv])
  | some x => exact Or.inr ⟨![x, a * x + b], by simp [unitSet], by intro i; fin_cases i <;> simp [h0, d1, hv]⟩

theorem together_units (a b : K) (x y : ℕ) (v : ℕ → Option K) (h : Together ![x, y] (unitSet a b) v) : v y = (v x).map (fun t => a * t + b) := by
  rcases h with h | ⟨w, hw, h⟩
  · have h0 := h 0
    have h1 := h 1
    simp only [Matrix.cons_val_zero, Matrix.cons_val_one] at h0 h1
    rw [h0, h1]; rfl
  · have h0 := h 0
    have h1 := h 1
    simp only [Matrix.cons_val_zero, Matrix.cons_val_one] at h0 h1
    rw [h0, h1, show w 1 = a * w 0 + b from hw]; rfl

/-- two selections of a result -/
theorem converted_of (a b : K) (n : ℕ) (out : List (Entry K)) (h : ∀ c < n, ∀ o ∈ out, Together ![2 * c, 2 * c + 1] (unitSet a b) o.val) :
    ConvertedBy a b n (out.map (Entry.at fun c => 2 * c)) (out.map (Entry.at fun c => 2 * c + 1)) := by
  refine ⟨by simp, fun i o o' ho ho' => ?_⟩
  rw [List.getElem?_map] at ho ho'
  cases hx : out[i]? with
  | none => rw [hx] at ho; cases ho
  | some x =>
    rw [hx] at ho ho'
    injection ho with ho
    injection ho' with ho'
    subst ho ho'
    exact ⟨rfl, fun c hc => together_units a b _ _ _ (h c hc x (List.mem_of_getElem? hx))⟩

/-- C134, `calendar_average`: converting the units before averaging gives the same as after: the same error, or the same labels and the
converted values. -/
theorem C134_calendar (cal : Cal) (infer : InferFreq) (freq : String) (s : Series K) (hn : 0 < s.ncell) (a b : K) :
    (∀ e, calendarAverage cal infer freq s = .error e → calendarAverage cal infer freq (inUnits a b s) = .error e) ∧
    (∀ out, calendarAverage cal infer freq s = .ok out →
      ∃ out', calendarAverage cal infer freq (inUnits a b s) = .ok out' ∧ ConvertedBy a b s.ncell out out') := by
  have hcase : (∃ p, (freq, p) ∈ [("hour", Period.hour), ("day", .day), ("month", .month), ("season", .month), ("year", .month)]) ∨
      calendarPeriod freq = .error .valueError := by
    unfold calendarPeriod
    split <;> simp
  rcases hcase with ⟨p, hp⟩ | herr
  · have h1 := C125_calendar_partial cal infer freq p hp (bothUnits a b s) s.ncell (fun c => 2 * c) (by show 0 < 2 * s.ncell; omega) hn
      (bothUnits_gaps cal p a b s 0 (by omega))
    have h2 := C125_calendar_partial cal infer freq p hp (bothUnits a b s) s.ncell (fun c => 2 * c + 1) (by show 0 < 2 * s.ncell; omega) hn
      (bothUnits_gaps cal p a b s 1 (by omega))
    rw [select_first] at h1
    rw [select_second] at h2
    rw [h1, h2]
    cases hS : calendarAverage cal infer freq (bothUnits a b s) with
    | error e => exact ⟨fun e' h => h, fun out h => by cases h⟩
    | ok S =>
      refine ⟨fun e' h => (by cases h), fun out h => ?_⟩
      injection h with h
      subst h
      refine ⟨_, rfl, converted_of a b s.ncell S fun c hc o ho => ?_⟩
      exact C133_calendar cal infer freq (bothUnits a b s) ![2 * c, 2 * c + 1]
        (by intro i; have : (bothUnits a b s).ncell = 2 * s.ncell := rfl; fin_cases i <;> simp [this] <;> omega) _ (unitSet_convex a b)
        (bothUnits_together a b s c) S hS o ho
  · unfold calendarAverage
    rw [herr]
    exact ⟨fun e h => h, fun out h => by cases h⟩

/-- C134, `climatology_average` by hour, day or month. -/
theorem C134_climatology (cal : Cal) (infer : InferFreq) (freq : String) (p : Period) (hf : GroupFreq freq p) (custom : List String) (s : Series K)
    (a b : K) :
    (∀ e, climatologyAverage cal infer freq custom s = .error e → climatologyAverage cal infer freq custom (inUnits a b s) = .error e) ∧
    (∀ out, climatologyAverage cal infer freq custom s = .ok out → ∃ l l', out = .times l ∧
      climatologyAverage cal infer freq custom (inUnits a b s) = .ok (.times l') ∧ ConvertedBy a b s.ncell l l') := by
  have hne : freq ≠ "season" := by rcases hf with ⟨rfl, -⟩ | ⟨rfl, -⟩ | ⟨rfl, -⟩ <;> decide
  have h1 := C125_climatology cal infer freq hne custom (bothUnits a b s) s.ncell (fun c => 2 * c)
  have h2 := C125_climatology cal infer freq hne custom (bothUnits a b s) s.ncell (fun c => 2 * c + 1)
  rw [select_first] at h1
  rw [select_second] at h2
  rw [h1, h2]
  cases hS : climatologyAverage cal infer freq custom (bothUnits a b s) with
  | error e => exact ⟨fun e' h => h, fun out h => by cases h⟩
  | ok S =>
    refine ⟨fun e' h => (by cases h), fun out h => ?_⟩
    injection h with h
    subst h
    obtain ⟨l, rfl, -⟩ := C133_climatology cal infer freq p hf custom (bothUnits a b s) ![0, 1] _ (unitSet_convex a b) (bothUnits_together a b s 0) S hS
    refine ⟨_, _, rfl, rfl, converted_of a b s.ncell l fun c hc o ho => ?_⟩
    obtain ⟨l', hl', hv⟩ := C133_climatology cal infer freq p hf custom (bothUnits a b s) ![2 * c, 2 * c + 1] _ (unitSet_convex a b)
      (bothUnits_together a b s c) _ hS
    injection hl' with hl'
    subst hl'
    exact hv o ho

/-- C134, `month_to_season`. -/
theorem C134_month_to_season (cal : Cal) (season : String) (s : Series K) (a b : K) :
    (∀ e, monthToSeason cal season s = .error e → monthToSeason cal season (inUnits a b s) = .error e) ∧
    (∀ out, monthToSeason cal season s = .ok out →
      ∃ out', monthToSeason cal season (inUnits a b s) = .ok out' ∧ ConvertedBy a b s.ncell out out') := by
  have h1 := C125_month_to_season cal season (bothUnits a b s) s.ncell (fun c => 2 * c)
  have h2 := C125_month_to_season cal season (bothUnits a b s) s.ncell (fun c => 2 * c + 1)
  rw [select_first] at h1
  rw [select_second] at h2
  rw [h1, h2]
  cases hS : monthToSeason cal season (bothUnits a b s) with
  | error e => exact ⟨fun e' h => h, fun out h => by cases h⟩
  | ok S =>
    refine ⟨fun e' h => (by cases h), fun out h => ?_⟩
    injection h with h
    subst h
    exact ⟨_, rfl, converted_of a b s.ncell S fun c hc o ho => C133_month_to_season cal season (bothUnits a b s) ![2 * c, 2 * c + 1] _
      (unitSet_convex a b) (bothUnits_together a b s c) S hS o ho⟩

/-- full months of the record next to its converted copy -/
theorem bothUnits_full (cal : Cal) (a b : K) (s : Series K) (k : ℤ) : FullMonth cal (bothUnits a b s) k ↔ FullMonth cal s k := by
  unfold FullMonth monthMean
  have hn : (bothUnits a b s).ncell = 2 * s.ncell := rfl
  simp only [hn, bothUnits_values]
  constructor
  · intro h c hc
    have := h (2 * c) (by omega)
    rwa [show 2 * c / 2 = c by omega] at this
  · intro h c hc
    exact h (c / 2) (by omega)

theorem bothUnits_lt (a b : K) (s : Series K) (c : ℕ) (hc : c < s.ncell) : ∀ i, (![2 * c, 2 * c + 1] : Fin 2 → ℕ) i < (bothUnits a b s).ncell := by
  intro i
  have : (bothUnits a b s).ncell = 2 * s.ncell := rfl
  fin_cases i <;> simp [this] <;> omega

/-- C134, `climatology_average` by season, part: for every season with a full month, or if the conversion is a factor. Missing: offsets
(Celsius to Kelvin) and a season none of whose months is full, where it fails (`C134_counterexample`). -/
theorem C134_season_partial (cal : Cal) (infer : InferFreq) (custom : List String) (s : Series K) (hn : 0 < s.ncell) (a b : K) :
    (∀ e, climatologyAverage cal infer "season" custom s = .error e → climatologyAverage cal infer "season" custom (inUnits a b s) = .error e) ∧
    (∀ out, climatologyAverage cal infer "season" custom s = .ok out → ∃ l l', out = .seasons l ∧
      climatologyAverage cal infer "season" custom (inUnits a b s) = .ok (.seasons l') ∧ l.map (·.1) = l'.map (·.1) ∧
      ∀ (i : ℕ) (x x' : String × (ℕ → Option K)), l[i]? = some x → l'[i]? = some x' → ∀ months, seasonMonths x.1 = some months →
        (b = 0 ∨ ∃ k, FullMonth cal s k ∧ Cal.monthNo k ∈ months) → ∀ c < s.ncell, x'.2 c = (x.2 c).map (fun x => a * x + b)) := by
  have hn2 : 0 < (bothUnits a b s).ncell := by show 0 < 2 * s.ncell; omega
  have h1 := C125_season_partial cal infer custom (bothUnits a b s) s.ncell (fun c => 2 * c) hn2 hn (bothUnits_gaps cal .month a b s 0 (by omega))
  have h2 := C125_season_partial cal infer custom (bothUnits a b s) s.ncell (fun c => 2 * c + 1) hn2 hn (bothUnits_gaps cal .month a b s 1 (by omega))
  rw [select_first] at h1
  rw [select_second] at h2
  rw [h1, h2]
  cases hS : climatologyAverage cal infer "season" custom (bothUnits a b s) with
  | error e => exact ⟨fun e' h => h, fun out h => by cases h⟩
  | ok S =>
    refine ⟨fun e' h => (by cases h), fun out h => ?_⟩
    injection h with h
    subst h
    obtain ⟨l, rfl, -⟩ := C133_season cal infer custom (bothUnits a b s) ![2 * 0, 2 * 0 + 1] (bothUnits_lt a b s 0 hn) _ (unitSet_convex a b)
      (bothUnits_together a b s 0) S hS
    refine ⟨_, _, rfl, rfl, by simp, fun i x x' hx hx' months hm hz c hc => ?_⟩
    rw [List.getElem?_map] at hx hx'
    cases hl : l[i]? with
    | none => rw [hl] at hx; cases hx
    | some y =>
      rw [hl] at hx hx'
      injection hx with hx
      injection hx' with hx'
      subst hx hx'
      obtain ⟨l', hl', hv⟩ := C133_season cal infer custom (bothUnits a b s) ![2 * c, 2 * c + 1] (bothUnits_lt a b s c hc) _ (unitSet_convex a b)
        (bothUnits_together a b s c) _ hS
      injection hl' with hl'
      subst hl'
      obtain ⟨v, hvC, he⟩ := hv y (List.mem_of_getElem? hl) months hm (by
        rcases hz with rfl | ⟨k, hk, hk'⟩
        · exact Or.inl (by simp [unitSet])
        · exact Or.inr ⟨k, (bothUnits_full cal a b s k).mpr hk, hk'⟩)
      exact together_units a b _ _ _ (Or.inr ⟨v, hvC, he⟩)

/-- C134 is false of seasonal climatologies where a season has no full month: temperatures of 5 °C have the winter climatology 0 °C, the
same temperatures in Kelvin 0 K. -/
theorem C134_counterexample :
    (climatologyAverage Cal.days360 (fun _ => .ok true) "season" [] missingWinter).toOption.map (fun o =>
      match o with
      | .seasons l => l.map (fun x => (x.1, x.2 0))
      | .times _ => []) = some [("DJF", some 0), ("JJA", some 5), ("MAM", some 5), ("SON", some 5)] ∧
    (climatologyAverage Cal.days360 (fun _ => .ok true) "season" [] (inUnits 1 273 missingWinter)).toOption.map (fun o =>
      match o with
      | .seasons l => l.map (fun x => (x.1, x.2 0))
      | .times _ => []) = some [("DJF", some 0), ("JJA", some 278), ("MAM", some 278), ("SON", some 278)] := by
  decide +kernel

/-! ### anomalies in other units -/

/-- cases in which the anomalies are taken from an average of the sample's own group -/
def OwnGroup (cal : Cal) (freq : String) (s : Series K) : Prop :=
  freq = "month" ∨
  (freq = "day" ∧ ∀ e ∈ s.samples, cal.day e.key ≤ cal.len (12 * medianYear cal s.samples + cal.month e.key - 1)) ∨
  (freq = "season" ∧ ∀ e ∈ s.samples, ∃ k, FullMonth cal s k ∧ seasonOf (Cal.monthNo k) = seasonOf (cal.month e.key)) ∨
  (freq = "year" ∧ (∀ e ∈ s.samples, ∀ e' ∈ s.samples, cal.year e.key - cal.year e'.key < 100) ∧
    ∀ e ∈ s.samples, ∃ k ∈ yearOfMonths (cal.year e.key), FullMonth cal s k)

theorem bothUnits_median (cal : Cal) (a b : K) (s : Series K) : medianYear cal (bothUnits a b s).samples = medianYear cal s.samples := by
  unfold medianYear bothUnits
  rw [List.map_map]
  rfl

theorem own_group (cal : Cal) (freq : String) (a b : K) (s : Series K) (h : OwnGroup cal freq s) : OwnGroup cal freq (bothUnits a b s) := by
  have hm : ∀ {P : ℤ → Prop}, (∀ e ∈ s.samples, P e.key) → ∀ e ∈ (bothUnits a b s).samples, P e.key := by
    intro P hP e he
    obtain ⟨x, hx, rfl⟩ := List.mem_map.mp he
    exact hP x hx
  rcases h with rfl | ⟨rfl, h⟩ | ⟨rfl, h⟩ | ⟨rfl, h, h'⟩
  · exact Or.inl rfl
  · refine Or.inr (Or.inl ⟨rfl, ?_⟩)
    rw [bothUnits_median]
    exact hm (P := fun t => cal.day t ≤ cal.len (12 * medianYear cal s.samples + cal.month t - 1)) h
  · refine Or.inr (Or.inr (Or.inl ⟨rfl, ?_⟩))
    simp only [bothUnits_full]
    exact hm (P := fun t => ∃ k, FullMonth cal s k ∧ seasonOf (Cal.monthNo k) = seasonOf (cal.month t)) h
  · refine Or.inr (Or.inr (Or.inr ⟨rfl, ?_, ?_⟩))
    · exact hm (P := fun t => ∀ e' ∈ (bothUnits a b s).samples, cal.year t - cal.year e'.key < 100) (fun e he =>
        hm (P := fun t' => cal.year e.key - cal.year t' < 100) (h e he))
    · simp only [bothUnits_full]
      exact hm (P := fun t => ∃ k ∈ yearOfMonths (cal.year t), FullMonth cal s k) h'

/-- `x - m` for values in other units -/
theorem sub_units (a b : K) (x y : ℕ) (v m : ℕ → Option K) (hv : Together ![x, y] (unitSet a b) v) (hm : Together ![x, y] (unitSet a b) m)
    (o : ℕ → Option K) (ho : ∀ c, c = x ∨ c = y → o c = match v c, m c with | some p, some q => some (p - q) | _, _ => none) :
    Together ![x, y] (unitSet a 0) o := by
  have hv0 := together_units a b x y v hv
  have hm0 := together_units a b x y m hm
  have h0 := ho x (Or.inl rfl)
  have h1 := ho y (Or.inr rfl)
  rw [hv0, hm0] at h1
  cases hp : v x with
  | none =>
    rw [hp] at h0 h1
    simp only [Option.map_none] at h0 h1
    exact Or.inl (by intro i; fin_cases i <;> simpa)
  | some p =>
    cases hq : m x with
    | none =>
      rw [hp, hq] at h0 h1
      simp only [Option.map_none, Option.map_some] at h0 h1
      exact Or.inl (by intro i; fin_cases i <;> simpa)
    | some q =>
      rw [hp, hq] at h0 h1
      simp only [Option.map_some] at h0 h1
      refine Or.inr ⟨![p - q, a * p + b - (a * q + b)], ?_, by intro i; fin_cases i; exacts [h0, h1]⟩
      simp only [unitSet, Set.mem_ofPred_eq, Matrix.cons_val_zero, Matrix.cons_val_one]
      ring

/-- anomalies from group means -/
theorem isAnomaly_units (a b : K) (f : ℤ → ℤ × ℤ × ℤ) (s : Series K) (c : ℕ) (out : List (Entry K)) (h : IsAnomaly f (bothUnits a b s).samples out) :
    ∀ o ∈ out, Together ![2 * c, 2 * c + 1] (unitSet a 0) o.val := by
  intro o ho
  obtain ⟨i, hi⟩ := List.mem_iff_getElem?.mp ho
  obtain ⟨hlen, hv, -⟩ := h
  obtain ⟨hlt, -⟩ := List.getElem?_eq_some_iff.mp hi
  have he : (bothUnits a b s).samples[i]? = some ((bothUnits a b s).samples[i]'(hlen ▸ hlt)) := List.getElem?_eq_getElem _
  generalize (bothUnits a b s).samples[i]'(hlen ▸ hlt) = e at he
  have hmem := List.mem_of_getElem? he
  obtain ⟨-, hval⟩ := hv i e o he hi
  refine sub_units a b _ _ e.val _ (bothUnits_together a b s c e hmem)
    (together_valuesIn _ _ (unitSet_convex a b) _ (bothUnits_together a b s c) (fun t => f t = f e.key)) o.val (fun c' _ => ?_)
  cases hx : e.val c' with
  | none => exact (hval c').1 hx
  | some v =>
    obtain ⟨m, hm, w, hw, hvw⟩ := (hval c').2 v hx
    rw [hm, hw]
    simp only [Option.some.injEq]
    linarith

/-- a month is one of the months of its season -/
theorem season_member (k : ℤ) (months : List ℤ) (h : seasonMonths (seasonOf (Cal.monthNo k)) = some months) : Cal.monthNo k ∈ months := by
  have h1 : 1 ≤ Cal.monthNo k ∧ Cal.monthNo k ≤ 12 := by unfold Cal.monthNo; omega
  unfold seasonOf at h
  split at h
  · injection h with h; subst h; simp only [List.mem_cons, List.not_mem_nil, or_false]; omega
  · split at h
    · injection h with h; subst h; simp only [List.mem_cons, List.not_mem_nil, or_false]; omega
    · split at h
      · injection h with h; subst h; simp only [List.mem_cons, List.not_mem_nil, or_false]; omega
      · injection h with h; subst h; simp only [List.mem_cons, List.not_mem_nil, or_false]; omega

/-- C134, `climate_anomaly`, part: converted data have the anomalies of the data times the factor `a`, provided each sample has a climatology of
its own group (always for months) or the conversion has no offset. Missing: groups without climatology, where the data itself is returned. -/
theorem C134_anomaly_partial (cal : Cal) (infer : InferFreq) (freq : String) (s : Series K) (hn : 0 < s.ncell) (a b : K)
    (hg : OwnGroup cal freq s ∨ b = 0) :
    (∀ e, climateAnomaly cal infer freq s = .error e → climateAnomaly cal infer freq (inUnits a b s) = .error e) ∧
    (∀ out, climateAnomaly cal infer freq s = .ok out →
      ∃ out', climateAnomaly cal infer freq (inUnits a b s) = .ok out' ∧ ConvertedBy a 0 s.ncell out out') := by
  have hn2 : 0 < (bothUnits a b s).ncell := by show 0 < 2 * s.ncell; omega
  have h1 := C125_anomaly_partial cal infer freq (bothUnits a b s) s.ncell (fun c => 2 * c) hn2 hn (bothUnits_gaps cal .month a b s 0 (by omega))
  have h2 := C125_anomaly_partial cal infer freq (bothUnits a b s) s.ncell (fun c => 2 * c + 1) hn2 hn (bothUnits_gaps cal .month a b s 1 (by omega))
  rw [select_first] at h1
  rw [select_second] at h2
  rw [h1, h2]
  cases hS : climateAnomaly cal infer freq (bothUnits a b s) with
  | error e => exact ⟨fun e' h => h, fun out h => by cases h⟩
  | ok S =>
    refine ⟨fun e' h => (by cases h), fun out h => ?_⟩
    injection h with h
    subst h
    refine ⟨_, rfl, converted_of a 0 s.ncell S fun c hc o ho => ?_⟩
    rcases hg with hg | rfl
    · have hg := own_group cal freq a b s hg
      rcases hg with rfl | ⟨rfl, hd⟩ | ⟨rfl, hd⟩ | ⟨rfl, hd, hd'⟩
      · exact isAnomaly_units a b _ s c S (C41_month cal infer _ S hS) o ho
      · exact isAnomaly_units a b _ s c S (C41_day_partial cal infer _ S hS hd) o ho
      · unfold climateAnomaly at hS
        by_cases ht : ¬ ((bothUnits a b s).isTime = true)
        · rw [if_pos ht] at hS; cases hS
        rw [if_neg ht] at hS
        simp only [bind, Except.bind] at hS
        cases hq : climatologyAverage cal infer "season" [] (bothUnits a b s) with
        | error e => rw [hq] at hS; cases hS
        | ok q =>
          rw [hq] at hS
          obtain ⟨l, rfl, hl⟩ := C133_season cal infer [] (bothUnits a b s) ![2 * c, 2 * c + 1] (bothUnits_lt a b s c hc) _ (unitSet_convex a b)
            (bothUnits_together a b s c) q hq
          obtain ⟨l', hl', -, hv⟩ := C91_weighted cal infer [] (bothUnits a b s) hn2 _ hq
          injection hl' with hl'
          subst hl'
          injection hS with hS
          subst hS
          obtain ⟨e, he, rfl⟩ := List.mem_map.mp ho
          refine sub_units a b _ _ e.val (fun c => ((l.find? (fun x => decide (x.1 = seasonOf (cal.month e.key)))).map (·.2 c)).join)
            (bothUnits_together a b s c e he) ?_ _ (fun c' _ => rfl)
          cases hx : l.find? (fun x => decide (x.1 = seasonOf (cal.month e.key))) with
          | none => exact Or.inl (fun i => rfl)
          | some x =>
            have hmem := List.mem_of_find?_eq_some hx
            have hname : x.1 = seasonOf (cal.month e.key) := by simpa using List.find?_some hx
            obtain ⟨months, hm, -⟩ := hv x hmem
            obtain ⟨k, hk, hk'⟩ := hd e he
            obtain ⟨v, hvC, hve⟩ := hl x hmem months hm (Or.inr ⟨k, hk, by
              rw [hname, ← hk'] at hm
              exact season_member k months hm⟩)
            exact Or.inr ⟨v, hvC, fun i => by simp [hve i]⟩
      · obtain ⟨hlen, hv⟩ := C42_year_partial cal infer _ hn2 S hS hd
        obtain ⟨i, hi⟩ := List.mem_iff_getElem?.mp ho
        obtain ⟨hlt, -⟩ := List.getElem?_eq_some_iff.mp hi
        have he : (bothUnits a b s).samples[i]? = some ((bothUnits a b s).samples[i]'(hlen ▸ hlt)) := List.getElem?_eq_getElem _
        generalize (bothUnits a b s).samples[i]'(hlen ▸ hlt) = e at he
        have hmem := List.mem_of_getElem? he
        obtain ⟨-, hval⟩ := hv i e o he hi
        obtain ⟨k, hk, hk'⟩ := hd' e hmem
        have hks : (yearOfMonths (cal.year e.key)).filter (fun k => decide (FullMonth cal (bothUnits a b s) k)) ≠ [] := by
          intro h0
          have : k ∈ (yearOfMonths (cal.year e.key)).filter (fun k => decide (FullMonth cal (bothUnits a b s) k)) :=
            List.mem_filter.mpr ⟨hk, decide_eq_true hk'⟩
          rw [h0] at this
          cases this
        obtain ⟨x, hx, hxe⟩ := together_dayWeighted cal ![2 * c, 2 * c + 1] _ (unitSet_convex a b) (bothUnits a b s) (bothUnits_together a b s c)
          (bothUnits_lt a b s c hc) _ (fun k hk => of_decide_eq_true (List.mem_filter.mp hk).2) hks
        refine sub_units a b _ _ e.val (fun c => some (dayWeighted cal ((yearOfMonths (cal.year e.key)).filter
          (fun k => decide (FullMonth cal (bothUnits a b s) k))) (fun k => (monthMean cal (bothUnits a b s).samples k c).getD 0)))
          (bothUnits_together a b s c e hmem) (Or.inr ⟨x, hx, fun i => congrArg some (hxe i)⟩) _ (fun c' hc' => ?_)
        rw [hval c' (by have : (bothUnits a b s).ncell = 2 * s.ncell := rfl
                        omega) _ rfl hks]
        cases e.val c' <;> rfl
    · let C : Submodule K (Fin 2 → K) :=
        { carrier := unitSet a 0
          zero_mem' := by simp [unitSet]
          add_mem' := by
            intro v w hv hw
            simp only [unitSet, Set.mem_ofPred_eq, Pi.add_apply] at *
            rw [hv, hw]; ring
          smul_mem' := by
            intro r v hv
            simp only [unitSet, Set.mem_ofPred_eq, Pi.smul_apply, smul_eq_mul] at *
            rw [hv]; ring }
      exact C133_anomaly cal infer freq _ _ (bothUnits_lt a 0 s c hc) C (bothUnits_together a 0 s c) S hS o ho

/-- two years of monthly data: temperatures in Celsius and Fahrenheit, and their sum -/
def threeVariables : Series ℚ :=
  ⟨3, (List.range 24).map (fun i : ℕ => ⟨Cal.days360.monthStart (24000 + i), fun c => if c = 0 then some (i : ℚ) else if c = 1 then some (9 / 5 * i + 32) else
    some (14 / 5 * i + 32)⟩), true⟩

/-- the hypotheses of `C133_combination` and `C133_order` hold for it, all five calls return, and so does `C134` -/
example : (∀ e ∈ threeVariables.samples, IsComb 1 1 (e.val 0) (e.val 1) (e.val 2)) ∧ (∀ e ∈ threeVariables.samples, IsBelow (e.val 0) (e.val 1)) ∧
    (calendarAverage Cal.days360 (fun _ => .ok true) "season" threeVariables).toOption.isSome ∧
    (climatologyAverage Cal.days360 (fun _ => .ok true) "month" [] threeVariables).toOption.isSome ∧
    (climatologyAverage Cal.days360 (fun _ => .ok true) "season" [] threeVariables).toOption.isSome ∧
    (climateAnomaly Cal.days360 (fun _ => .ok true) "month" threeVariables).toOption.isSome ∧
    (monthToSeason Cal.days360 "JJA" threeVariables).toOption.isSome ∧ OwnGroup Cal.days360 "month" threeVariables := by
  refine ⟨?_, ?_, by decide +kernel, by decide +kernel, by decide +kernel, by decide +kernel, by decide +kernel, Or.inl rfl⟩
  · intro e he
    obtain ⟨i, -, rfl⟩ := List.mem_map.mp he
    exact Or.inr ⟨i, 9 / 5 * i + 32, by simp, by simp, by simp; ring⟩
  · intro e he
    obtain ⟨i, -, rfl⟩ := List.mem_map.mp he
    refine Or.inr ⟨i, 9 / 5 * i + 32, by simp, by simp, ?_⟩
    have : (0 : ℚ) ≤ i := Nat.cast_nonneg i
    linarith

end Verif.Props
