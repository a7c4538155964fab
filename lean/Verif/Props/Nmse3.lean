import Verif.Props.Nmse2

/-
Property C95: fields with different latitude or longitude labels.
-/

set_option linter.unusedSectionVars false
namespace Verif.Props
open Model Spec Lemmas

theorem npDiff_zero_const {K : Type _} [Field K] [LinearOrder K] (l : List K) (h : (npDiff l).all (fun x => decide (x = 0)) = true) :
    ∀ x ∈ l, ∀ y ∈ l, x = y := by
  induction l with
  | nil => intro x hx; cases hx
  | cons a t ih =>
    cases t with
    | nil =>
      intro x hx y hy
      simp only [List.mem_singleton] at hx hy
      rw [hx, hy]
    | cons b u =>
      have h' : b - a = 0 ∧ (npDiff (b :: u)).all (fun x => decide (x = 0)) = true := by
        simpa [npDiff] using h
      have hba : b = a := sub_eq_zero.mp h'.1
      have hall : ∀ x ∈ a :: b :: u, x = b := by
        intro x hx
        rcases List.mem_cons.mp hx with rfl | hx
        · exact hba.symm
        · exact ih h'.2 x hx b List.mem_cons_self
      intro x hx y hy
      rw [hall x hx, hall y hy]

theorem evenSpacing_vary {K : Type _} [Field K] [LinearOrder K] (l : List K) (h : ∃ x ∈ l, ∃ y ∈ l, x ≠ y) :
    ∃ r, evenSpacing (.d1 l) = .ok r := by
  have h1 : ¬ (npDiff l).all (fun x => decide (x = 0)) = true := by
    intro h1
    obtain ⟨x, hx, y, hy, hxy⟩ := h
    exact hxy (npDiff_zero_const l h1 x hx y hy)
  cases hd : npDiff l with
  | nil => rw [hd] at h1; exact absurd rfl h1
  | cons d0 t =>
    refine ⟨(d0 :: t).all (fun x => isClose x d0), ?_⟩
    simp only [evenSpacing]
    rw [if_neg h1, hd]

theorem evenSpacing_const {K : Type _} [Field K] [LinearOrder K] (l : List K) (h : ¬ ∃ x ∈ l, ∃ y ∈ l, x ≠ y) :
    evenSpacing (.d1 l) = .error .axisError := by
  have h1 : (npDiff l).all (fun x => decide (x = 0)) = true := by
    rw [List.all_eq_true]
    intro d hd
    obtain ⟨k, hk⟩ := List.getElem?_of_mem hd
    simp only [npDiff, List.getElem?_zipWith] at hk
    push Not at h
    cases hb : l.tail[k]? with
    | none => rw [hb] at hk; simp at hk
    | some b =>
      cases ha : l[k]? with
      | none => rw [ha, hb] at hk; simp at hk
      | some a =>
        rw [ha, hb] at hk
        simp only [Option.some.injEq] at hk
        have := h b (List.mem_of_mem_tail (List.mem_of_getElem? hb)) a (List.mem_of_getElem? ha)
        simp [← hk, this]
  simp only [evenSpacing]
  rw [if_pos h1]

/-- `C95`: two fields of the same kind with the same coordinate names on rectangular grids whose latitude or longitude labels differ - in
values, number or order - are rejected. The exception is a ValueError; if all latitudes (or all longitudes) of the first field are equal,
for instance if there is only one, it is the AxisError of numpy, which is a kind of ValueError. -/
theorem C95_labels {K : Type _} [Field K] [LinearOrder K] [IsStrictOrderedRing K] (wt : K → K) (obs mod : GeoInput K) (la lo : List K)
    (hk : obs.kind = mod.kind) (ho : obs.kind ≠ .other) (hc : ∀ c, c ∈ obs.coords ↔ c ∈ mod.coords) (hf : obs.found = true) (hf' : mod.found = true)
    (hs : obs.manyLat = false ∧ obs.manyLon = false)
    (hla : obs.lat = .d1 la) (hlo : obs.lon = .d1 lo) (hdiff : mod.lat ≠ .d1 la ∨ mod.lon ≠ .d1 lo) :
    ((∃ x ∈ la, ∃ y ∈ la, x ≠ y) ∧ (∃ x ∈ lo, ∃ y ∈ lo, x ≠ y) → nmseWith wt obs mod = .error .valueError) ∧
    (¬ ((∃ x ∈ la, ∃ y ∈ la, x ≠ y) ∧ (∃ x ∈ lo, ∃ y ∈ lo, x ≠ y)) → nmseWith wt obs mod = .error .axisError) := by
  have h1 : ¬ (obs.kind = .other ∨ mod.kind = .other) := by rw [← hk]; simp [ho]
  have h2 : ¬ (obs.kind ≠ mod.kind) := not_not.mpr hk
  have h3 : obs.coords ⊆ mod.coords ∧ mod.coords ⊆ obs.coords := ⟨fun c h => (hc c).mp h, fun c h => (hc c).mpr h⟩
  have h4 : obs.found = true ∧ mod.found = true := ⟨hf, hf'⟩
  have h5 : indexLabels obs.lat ≠ indexLabels mod.lat ∨ indexLabels obs.lon ≠ indexLabels mod.lon := by
    rw [hla, hlo]
    rcases hdiff with h | h
    · left
      intro he
      apply h
      cases hm : mod.lat with
      | d1 l => rw [hm] at he; simp only [indexLabels, Option.some.injEq] at he; rw [he]
      | d2 r => rw [hm] at he; simp [indexLabels] at he
    · right
      intro he
      apply h
      cases hm : mod.lon with
      | d1 l => rw [hm] at he; simp only [indexLabels, Option.some.injEq] at he; rw [he]
      | d2 r => rw [hm] at he; simp [indexLabels] at he
  unfold nmseWith
  simp only [if_neg h1, if_neg h2, if_neg (not_not.mpr h3), if_neg (not_not.mpr h4), hs.1, hs.2, pure_bind]
  constructor
  · rintro ⟨a1, a2⟩
    obtain ⟨r, hr⟩ := evenSpacing_vary la a1
    obtain ⟨r', hr'⟩ := evenSpacing_vary lo a2
    rw [hla, hlo] at *
    simp only [hr, hr', bind, Except.bind, pure, Except.pure]
    by_cases h6 : r = true ∧ r' = true
    · rw [if_neg (not_not.mpr h6)]
      simp only [if_pos h5]
      rfl
    · rw [if_pos h6]; rfl
  · intro h6
    by_cases a1 : ∃ x ∈ la, ∃ y ∈ la, x ≠ y
    · have a2 : ¬ ∃ x ∈ lo, ∃ y ∈ lo, x ≠ y := fun a2 => h6 ⟨a1, a2⟩
      obtain ⟨r, hr⟩ := evenSpacing_vary la a1
      rw [hla, hlo, hr, evenSpacing_const lo a2]
      rfl
    · rw [hla, evenSpacing_const la a1]
      rfl

/-- `C95`: several latitudes are a KeyError (of cf_xarray), whatever the rest of the grid; several longitudes too, as soon as the spacing of
the latitudes can be taken. The ValueError that the function has for this case (lines 105-108) is never raised. -/
theorem C95_several {K : Type _} [Field K] [LinearOrder K] [IsStrictOrderedRing K] (wt : K → K) (obs mod : GeoInput K)
    (hk : obs.kind = mod.kind) (ho : obs.kind ≠ .other) (hc : ∀ c, c ∈ obs.coords ↔ c ∈ mod.coords) (hf : obs.found = true) (hf' : mod.found = true) :
    (obs.manyLat = true → nmseWith wt obs mod = .error .keyError) ∧
    (obs.manyLat = false → obs.manyLon = true → ∀ la, obs.lat = .d1 la → (∃ x ∈ la, ∃ y ∈ la, x ≠ y) → nmseWith wt obs mod = .error .keyError) := by
  have h1 : ¬ (obs.kind = .other ∨ mod.kind = .other) := by rw [← hk]; simp [ho]
  have h2 : ¬ (obs.kind ≠ mod.kind) := not_not.mpr hk
  have h3 : obs.coords ⊆ mod.coords ∧ mod.coords ⊆ obs.coords := ⟨fun c h => (hc c).mp h, fun c h => (hc c).mpr h⟩
  have h4 : obs.found = true ∧ mod.found = true := ⟨hf, hf'⟩
  unfold nmseWith
  simp only [if_neg h1, if_neg h2, if_neg (not_not.mpr h3), if_neg (not_not.mpr h4), pure_bind]
  constructor
  · intro hm
    rw [if_pos hm]
    rfl
  · intro hm hm' la hla hv
    obtain ⟨r, hr⟩ := evenSpacing_vary la hv
    rw [hm, hm', hla, hr]
    rfl

example (v : List (Option ℝ)) : nmse { exField v with manyLat := true } (exField v) = .error .keyError :=
  (C95_several cosDeg { exField v with manyLat := true } (exField v) rfl (by simp [exField]) (fun _ => Iff.rfl) rfl rfl).1 rfl

/-- shifted by one row, and the same labels in another order -/
example (v : List (Option ℝ)) : nmse (exField v) { exField v with lat := .d1 [60, 120] } = .error .valueError ∧
    nmse (exField v) { exField v with lon := .d1 [10, 0] } = .error .valueError := by
  constructor
  · exact (C95_labels cosDeg (exField v) { exField v with lat := .d1 [60, 120] } [0, 60] [0, 10] rfl (by simp [exField]) (fun _ => Iff.rfl) rfl rfl
      ⟨rfl, rfl⟩ rfl rfl (Or.inl (by simp))).1 ⟨⟨0, by simp, 60, by simp, by norm_num⟩, ⟨0, by simp, 10, by simp, by norm_num⟩⟩
  · exact (C95_labels cosDeg (exField v) { exField v with lon := .d1 [10, 0] } [0, 60] [0, 10] rfl (by simp [exField]) (fun _ => Iff.rfl) rfl rfl
      ⟨rfl, rfl⟩ rfl rfl (Or.inr (by simp))).1 ⟨⟨0, by simp, 60, by simp, by norm_num⟩, ⟨0, by simp, 10, by simp, by norm_num⟩⟩

end Verif.Props
