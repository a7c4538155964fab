import Verif.Props.Climatology4

/-
C90: hourly, daily and monthly averages. C43: daily climatologies of whole years.
-/

set_option linter.unusedSectionVars false

namespace Verif.Props
open Model Spec Lemmas
variable {K : Type _} [Field K] [LinearOrder K] [IsStrictOrderedRing K]

/-! ### C90 -/

/-- period `b` has a value in every cell -/
def FullPeriod (cal : Cal) (p : Period) (s : Series K) (b : ℤ) : Prop :=
  ∀ c < s.ncell, (mean (valuesIn s.samples (fun t => periodOf cal p t = b) c)).isSome

instance (cal : Cal) (p : Period) (s : Series K) : DecidablePred (FullPeriod cal p s) := fun b => by unfold FullPeriod; infer_instance

theorem full_sample (cal : Cal) (p : Period) (s : Series K) (hn : 0 < s.ncell) (b : ℤ) (h : FullPeriod cal p s b) :
    ∃ e ∈ s.samples, periodOf cal p e.key = b := by
  have h0 := h 0 hn
  unfold mean at h0
  split_ifs at h0 with hv
  · simp at h0
  · obtain ⟨v, hv'⟩ := List.exists_mem_of_ne_nil _ hv
    simp only [valuesIn, List.mem_filterMap, List.mem_filter, decide_eq_true_eq] at hv'
    obtain ⟨e, he, -⟩ := hv'
    exact ⟨e, he⟩

/-- full periods of the data, in increasing order, are what remains after averaging and dropping -/
theorem full_list (cal : Cal) (p : Period) (s : Series K) (hn : 0 < s.ncell) (hne : s.samples ≠ [])
    (hs : s.samples.Pairwise (fun a b => a.key ≤ b.key)) :
    ∃ ks : List ℤ, ks.Pairwise (· < ·) ∧ (∀ k, k ∈ ks ↔ FullPeriod cal p s k) ∧
      dropna s.ncell (meanEach (bins (periodOf cal p) s.samples)) =
        ks.map (fun k => ⟨k, fun c => mean (valuesIn s.samples (fun t => periodOf cal p t = k) c)⟩) := by
  obtain ⟨a, ha⟩ : ∃ a, s.samples.head? = some a := by
    cases hh : s.samples.head? with
    | none => exact absurd (List.head?_eq_none_iff.mp hh) hne
    | some a => exact ⟨a, rfl⟩
  obtain ⟨z, hz⟩ : ∃ z, s.samples.getLast? = some z := by
    cases hh : s.samples.getLast? with
    | none => exact absurd (List.getLast?_eq_none_iff.mp hh) hne
    | some z => exact ⟨z, rfl⟩
  refine ⟨(periodRange (periodOf cal p a.key) (periodOf cal p z.key)).filter (fun k => decide (FullPeriod cal p s k)),
    (periodRange_sorted _ _).filter _, fun k => ?_, ?_⟩
  · rw [List.mem_filter, decide_eq_true_iff, mem_periodRange]
    refine ⟨fun h => h.2, fun h => ⟨?_, h⟩⟩
    obtain ⟨e, he, rfl⟩ := full_sample cal p s hn k h
    have hb := head_last_bounds (fun e : Entry K => e.key) s.samples hs a z ha hz e he
    exact ⟨periodOf_mono cal p hb.1, periodOf_mono cal p hb.2⟩
  · unfold dropna meanEach bins
    simp only [ha, hz, List.map_map, List.filter_map]
    congr 1
    apply List.filter_congr
    intro k _
    simp only [Function.comp_def]
    rw [Bool.eq_iff_iff, List.all_eq_true, decide_eq_true_iff]
    unfold FullPeriod
    simp only [List.mem_range]
    rfl

/-- C90: if `calendar_average` with 'hour', 'day' or 'month' returns, its entries are consecutive periods: exactly those with a value in
every cell. Each entry is stamped with the centre of its period, and its value is the plain mean of the samples of the period. -/
theorem C90_values (cal : Cal) (infer : InferFreq) (freq : String) (p : Period) (hf : GroupFreq freq p) (s : Series K) (hn : 0 < s.ncell)
    (out : List (Entry K)) (h : calendarAverage cal infer freq s = .ok out) :
    ∃ b0 : ℤ, (∀ b, FullPeriod cal p s b ↔ b0 ≤ b ∧ b < b0 + out.length) ∧
      ∀ (i : ℕ) (e : Entry K), out[i]? = some e →
        e.key = (periodStart cal p (b0 + i) + periodStart cal p (b0 + i + 1)) / 2 ∧
        ∀ c, e.val c = mean (valuesIn s.samples (fun t => periodOf cal p t = b0 + i) c) := by
  have hps : ¬ (p = .season ∨ p = .year) := by rcases hf with ⟨-, rfl⟩ | ⟨-, rfl⟩ | ⟨-, rfl⟩ <;> decide
  have hcal : calendarPeriod freq = .ok p := by rcases hf with ⟨rfl, rfl⟩ | ⟨rfl, rfl⟩ | ⟨rfl, rfl⟩ <;> rfl
  rw [calendar_eq cal infer freq p hcal] at h
  obtain ⟨hi, hu, hne, hs⟩ := calBody_ok cal infer p s out h
  obtain ⟨ks, hsort, hmem, heq⟩ := full_list cal p s hn hne hs
  rw [calBody_eq cal infer p s hi hu hne hs _ rfl, if_neg hps, if_neg hps, heq, List.head?_map, List.getLast?_map] at h
  cases ha : ks.head? with
  | none => rw [ha] at h; cases h
  | some k0 =>
    cases hz : ks.getLast? with
    | none => rw [ha, hz] at h; cases h
    | some k1 =>
      rw [ha, hz] at h
      simp only [Option.map_some] at h
      unfold centerBounds at h
      rw [List.length_map] at h
      split_ifs at h with hlen
      have hr : ks = periodRange k0 k1 := by
        refine range_of_length ks k0 k1 hsort ?_ (le_of_eq hlen)
        intro x hx
        exact head_last_bounds (fun x : ℤ => x) ks (hsort.imp le_of_lt) k0 k1 ha hz x hx
      injection h with h
      have h01 : k0 ≤ k1 := by
        have := (hmem k0)
        have hx : k0 ∈ ks := List.mem_of_mem_head? ha
        rw [hr, mem_periodRange] at hx
        exact hx.2
      have hol : (out.length : ℤ) = k1 - k0 + 1 := by
        rw [← h, List.length_zipWith, List.length_map, hlen, Nat.min_self, hr, periodRange_length]
        omega
      refine ⟨k0, fun b => ?_, fun i e he => ?_⟩
      · rw [← hmem, hr, mem_periodRange]
        omega
      · have hil : i < out.length := by
          by_contra hc
          rw [List.getElem?_eq_none (by omega)] at he
          simp at he
        rw [← h, List.getElem?_zipWith, List.getElem?_map, periodRange_getElem? k0 k1 i (by omega), hr,
          periodRange_getElem? k0 k1 i (by omega)] at he
        simp only [Option.map_some, Option.some.injEq] at he
        subst he
        exact ⟨rfl, fun c => rfl⟩

/-- C90: when the call returns. Data that pass the checks are averaged exactly if there is a period with a value in every cell and no
such gap between two of them; a gap raises ValueError. -/
theorem C90_succeeds (cal : Cal) (infer : InferFreq) (freq : String) (p : Period) (hf : GroupFreq freq p) (s : Series K) (hn : 0 < s.ncell)
    (hi : s.isTime = true) (hr : Regular cal infer s) (hne : s.samples ≠ [])
    (hs : s.samples.Pairwise (fun a b => a.key ≤ b.key)) :
    ((∃ out, calendarAverage cal infer freq s = .ok out) ↔
      (∃ b, FullPeriod cal p s b) ∧ ∀ a b d, FullPeriod cal p s a → FullPeriod cal p s d → a ≤ b → b ≤ d → FullPeriod cal p s b) ∧
    ((∃ b, FullPeriod cal p s b) → (∀ out, calendarAverage cal infer freq s ≠ .ok out) → calendarAverage cal infer freq s = .error .valueError) := by
  have hu := (uniform_iff cal infer s).mpr hr
  have hps : ¬ (p = .season ∨ p = .year) := by rcases hf with ⟨-, rfl⟩ | ⟨-, rfl⟩ | ⟨-, rfl⟩ <;> decide
  have hcal : calendarPeriod freq = .ok p := by rcases hf with ⟨rfl, rfl⟩ | ⟨rfl, rfl⟩ | ⟨rfl, rfl⟩ <;> rfl
  have H : ∀ out, calendarAverage cal infer freq s = .ok out →
      (∃ b, FullPeriod cal p s b) ∧ ∀ a b d, FullPeriod cal p s a → FullPeriod cal p s d → a ≤ b → b ≤ d → FullPeriod cal p s b := by
    intro out h
    obtain ⟨b0, hb, -⟩ := C90_values cal infer freq p hf s hn out h
    refine ⟨?_, fun a b d ha hd h1 h2 => ?_⟩
    · rw [calendar_eq cal infer freq p hcal] at h
      obtain ⟨ks, hsort, hmem, heq⟩ := full_list cal p s hn hne hs
      rw [calBody_eq cal infer p s hi hu hne hs _ rfl, if_neg hps, if_neg hps, heq, List.head?_map, List.getLast?_map] at h
      cases ha : ks.head? with
      | none => rw [ha] at h; cases h
      | some k0 => exact ⟨k0, (hmem k0).mp (List.mem_of_mem_head? ha)⟩
    · rw [hb] at ha hd ⊢
      omega
  refine ⟨⟨fun ⟨out, h⟩ => H out h, ?_⟩, ?_⟩
  · rintro ⟨⟨b, hb⟩, hgap⟩
    rw [calendar_eq cal infer freq p hcal]
    obtain ⟨ks, hsort, hmem, heq⟩ := full_list cal p s hn hne hs
    rw [calBody_eq cal infer p s hi hu hne hs _ rfl, if_neg hps, if_neg hps, heq, List.head?_map, List.getLast?_map]
    cases ha : ks.head? with
    | none =>
      rw [List.head?_eq_none_iff] at ha
      have := (hmem b).mpr hb
      rw [ha] at this
      simp at this
    | some k0 =>
      cases hz : ks.getLast? with
      | none =>
        rw [List.getLast?_eq_none_iff] at hz
        rw [hz] at ha
        simp at ha
      | some k1 =>
        have hr : ks = periodRange k0 k1 := by
          refine sorted_ext hsort (periodRange_sorted _ _) fun x => ?_
          rw [mem_periodRange]
          constructor
          · intro hx
            exact head_last_bounds (fun x : ℤ => x) ks (hsort.imp le_of_lt) k0 k1 ha hz x hx
          · intro hx
            rw [hmem]
            exact hgap k0 x k1 ((hmem k0).mp (List.mem_of_mem_head? ha)) ((hmem k1).mp (List.mem_of_getLast? hz)) hx.1 hx.2
        simp only [Option.map_some]
        unfold centerBounds
        rw [List.length_map, hr, if_pos rfl]
        exact ⟨_, rfl⟩
  · rintro ⟨b, hb⟩ hno
    rw [calendar_eq cal infer freq p hcal] at hno ⊢
    obtain ⟨ks, hsort, hmem, heq⟩ := full_list cal p s hn hne hs
    rw [calBody_eq cal infer p s hi hu hne hs _ rfl, if_neg hps, if_neg hps, heq, List.head?_map, List.getLast?_map] at hno ⊢
    cases ha : ks.head? with
    | none =>
      rw [List.head?_eq_none_iff] at ha
      have := (hmem b).mpr hb
      rw [ha] at this
      simp at this
    | some k0 =>
      cases hz : ks.getLast? with
      | none =>
        rw [List.getLast?_eq_none_iff] at hz
        rw [hz] at ha
        simp at ha
      | some k1 =>
        rw [ha, hz] at hno
        simp only [Option.map_some] at hno ⊢
        unfold centerBounds at hno ⊢
        split_ifs at hno ⊢ with hlen
        · exact absurd rfl (hno _)
        · rfl

/-- months 0, 1, 2 of which the middle one has no values -/
def emptyMonth : Series ℚ := ⟨1, [⟨0, fun _ => some 1⟩, ⟨30 * 86400, fun _ => none⟩, ⟨60 * 86400, fun _ => some 3⟩], true⟩

example : (calendarAverage Cal.days360 (fun _ => .ok true) "month" emptyMonth).toOption.isNone := by decide +kernel
example : (calendarAverage Cal.days360 (fun _ => .ok true) "day" sampleDaily |>.toOption |>.map (fun l => l.map (fun e => (e.key, e.val 0)))) =
    some [(43200, some (1/2)), (129600, some (13/2)), (216000, some (41/2)), (302400, some (85/2))] := by decide +kernel

end Verif.Props
