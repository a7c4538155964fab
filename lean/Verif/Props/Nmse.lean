import Verif.Lemmas.Nmse

/-
C61, C62, C63, C94, C95: nmse.
-/

set_option linter.unusedSectionVars false

namespace Verif.Props
open Model Spec Lemmas

/-- cell `i` has latitude `φ` and the values `a` (observed) and `b` (modeled) -/
def CellAt (lats : List ℝ) (o m : List (Option ℝ)) (i : ℕ) (φ a b : ℝ) : Prop :=
  lats[i]? = some φ ∧ o[i]? = some (some a) ∧ m[i]? = some (some b)

theorem mem_validCells {K : Type _} [Field K] (ws : List K) (o m : List (Option K)) (x : K × K × K) :
    x ∈ validCells ws o m ↔ ∃ i : ℕ, ws[i]? = some x.1 ∧ o[i]? = some (some x.2.1) ∧ m[i]? = some (some x.2.2) := by
  obtain ⟨w, a, b⟩ := x
  unfold validCells
  rw [List.mem_filterMap]
  constructor
  · rintro ⟨⟨w', o', m'⟩, hmem, hx⟩
    obtain ⟨i, hi⟩ := List.mem_iff_getElem?.mp hmem
    rw [List.getElem?_zip_eq_some, List.getElem?_zip_eq_some] at hi
    cases o' with
    | none => simp at hx
    | some o' =>
      cases m' with
      | none => simp at hx
      | some m' =>
        simp only [Option.some.injEq, Prod.mk.injEq] at hx
        obtain ⟨rfl, rfl, rfl⟩ := hx
        exact ⟨i, hi.1, hi.2.1, hi.2.2⟩
  · rintro ⟨i, h1, h2, h3⟩
    refine ⟨(w, some a, some b), List.mem_iff_getElem?.mpr ⟨i, ?_⟩, rfl⟩
    rw [List.getElem?_zip_eq_some, List.getElem?_zip_eq_some]
    exact ⟨h1, h2, h3⟩

theorem cosDeg_nonneg (φ : ℝ) (h : |φ| ≤ 90) : 0 ≤ cosDeg φ := by
  rw [abs_le] at h
  have := Real.pi_pos
  apply Real.cos_nonneg_of_mem_Icc
  constructor <;> nlinarith [h.1, h.2]

theorem cosDeg_ne (φ : ℝ) (h : |φ| ≤ 90) : cosDeg φ ≠ 0 ↔ |φ| < 90 := by
  have hpi := Real.pi_pos
  constructor
  · intro hne
    rcases lt_or_eq_of_le h with h | h
    · exact h
    · exfalso
      apply hne
      unfold cosDeg
      rcases eq_or_eq_neg_of_abs_eq h with rfl | rfl
      · rw [show (90 : ℝ) * (Real.pi / 180) = Real.pi / 2 by ring, Real.cos_pi_div_two]
      · rw [show (-90 : ℝ) * (Real.pi / 180) = -(Real.pi / 2) by ring, Real.cos_neg, Real.cos_pi_div_two]
  · intro h
    rw [abs_lt] at h
    apply ne_of_gt
    apply Real.cos_pos_of_mem_Ioo
    constructor <;> nlinarith [h.1, h.2]

theorem weights_nonneg (lats : List ℝ) (hlat : ∀ φ ∈ lats, |φ| ≤ 90) (o m : List (Option ℝ)) :
    ∀ x ∈ validCells (lats.map cosDeg) o m, 0 ≤ x.1 := by
  intro x hx
  obtain ⟨i, h1, -, -⟩ := (mem_validCells _ _ _ _).mp hx
  rw [List.getElem?_map] at h1
  obtain ⟨φ, hφ, hw⟩ := Option.map_eq_some_iff.mp h1
  rw [← hw]
  exact cosDeg_nonneg φ (hlat φ (List.mem_of_getElem? hφ))

/-- cells with positive weight -/
theorem cell_of_valid (lats : List ℝ) (hlat : ∀ φ ∈ lats, |φ| ≤ 90) (o m : List (Option ℝ)) (x : ℝ × ℝ × ℝ)
    (hx : x ∈ validCells (lats.map cosDeg) o m) (hw : x.1 ≠ 0) : ∃ i φ, CellAt lats o m i φ x.2.1 x.2.2 ∧ |φ| < 90 := by
  obtain ⟨i, h1, h2, h3⟩ := (mem_validCells _ _ _ _).mp hx
  rw [List.getElem?_map] at h1
  obtain ⟨φ, hφ, hw'⟩ := Option.map_eq_some_iff.mp h1
  refine ⟨i, φ, ⟨hφ, h2, h3⟩, ?_⟩
  rw [← cosDeg_ne φ (hlat φ (List.mem_of_getElem? hφ)), hw']
  exact hw

theorem valid_of_cell (lats : List ℝ) (o m : List (Option ℝ)) (i : ℕ) (φ a b : ℝ) (h : CellAt lats o m i φ a b) :
    (cosDeg φ, a, b) ∈ validCells (lats.map cosDeg) o m := by
  rw [mem_validCells]
  exact ⟨i, by rw [List.getElem?_map, h.1]; rfl, h.2.1, h.2.2⟩

theorem nmse_cases (lats : List ℝ) (o m : List (Option ℝ)) (ho : o.length = lats.length) (hm : m.length = lats.length) (x : ℝ)
    (h : nmseSlice (maskVar (lats.map cosDeg) o m).1 (maskVar (lats.map cosDeg) o m).2.1 (maskVar (lats.map cosDeg) o m).2.2 = .fin x) :
    ((validCells (lats.map cosDeg) o m).map (·.1)).sum ≠ 0 ∧
    wMean (validCells (lats.map cosDeg) o m) (·.1) (fun x => (x.2.1 - wMean (validCells (lats.map cosDeg) o m) (·.1) (·.2.1)) ^ 2) ≠ 0 ∧
    x = nmseOf (validCells (lats.map cosDeg) o m) := by
  rw [nmseSlice_valid _ _ _ (by simpa using ho) (by simpa using hm)] at h
  split_ifs at h with hW
  refine ⟨hW, ?_⟩
  by_cases hd : wMean (validCells (lats.map cosDeg) o m) (·.1)
      (fun x => (x.2.1 - wMean (validCells (lats.map cosDeg) o m) (·.1) (·.2.1)) ^ 2) = 0
  · rw [hd, XF.fin_div_zero] at h
    unfold XF.signInf at h
    split_ifs at h
  · refine ⟨hd, ?_⟩
    rw [XF.fin_div _ _ hd] at h
    injection h with h
    exact h.symm

/-- `C61`, `C63`: a finite result is the normalised mean squared error, with weights cos(latitude), of the cells in which both fields
have a value -/
theorem C61_value (obs mod : GeoInput ℝ) (no nm : String) (o m : List (Option ℝ)) (lats : List ℝ)
    (ho : obs.vars = [(no, o)]) (hm : mod.vars = [(nm, m)]) (hl : cellLats obs.lat obs.lon = some lats) (x : ℝ)
    (h : nmse obs mod = .ok (.one (.fin x))) : x = nmseOf (validCells (lats.map cosDeg) o m) := by
  obtain ⟨lats', no', nm', o', m', hg, -, ho', hm', hr⟩ := (nmse_one_iff cosDeg obs mod _).mp h
  rw [hg.cells] at hl
  rw [ho] at ho'
  rw [hm] at hm'
  simp only [List.cons.injEq, Prod.mk.injEq, and_true, Option.some.injEq] at hl ho' hm'
  obtain ⟨-, rfl⟩ := ho'
  obtain ⟨-, rfl⟩ := hm'
  subst hl
  exact (nmse_cases lats' o m (hg.lengths (no, o) (by rw [ho]; simp)) (hg.lengths (nm, m) (by rw [hm]; simp)) x hr.symm).2.2

/-- `C61`: the result is never negative, and zero exactly if the fields agree in every cell (poles excepted) in which both have a value -/
theorem C61_nonneg (obs mod : GeoInput ℝ) (no nm : String) (o m : List (Option ℝ)) (lats : List ℝ)
    (ho : obs.vars = [(no, o)]) (hm : mod.vars = [(nm, m)]) (hl : cellLats obs.lat obs.lon = some lats) (hlat : ∀ φ ∈ lats, |φ| ≤ 90) (x : ℝ)
    (h : nmse obs mod = .ok (.one (.fin x))) :
    0 ≤ x ∧ (x = 0 ↔ ∀ i φ a b, CellAt lats o m i φ a b → |φ| < 90 → b = a) := by
  have hv := C61_value obs mod no nm o m lats ho hm hl x h
  obtain ⟨lats', no', nm', o', m', hg, -, ho', hm', hr⟩ := (nmse_one_iff cosDeg obs mod _).mp h
  rw [hg.cells] at hl
  rw [ho] at ho'
  rw [hm] at hm'
  simp only [List.cons.injEq, Prod.mk.injEq, and_true, Option.some.injEq] at hl ho' hm'
  obtain ⟨-, rfl⟩ := ho'
  obtain ⟨-, rfl⟩ := hm'
  subst hl
  obtain ⟨hW, hden, -⟩ := nmse_cases lats' o m (hg.lengths (no, o) (by rw [ho]; simp)) (hg.lengths (nm, m) (by rw [hm]; simp)) x hr.symm
  have hw := weights_nonneg lats' hlat o m
  rw [hv]
  unfold nmseOf
  refine ⟨div_nonneg (wMean_sq_nonneg _ _ _ hw) (wMean_sq_nonneg _ _ _ hw), ?_⟩
  rw [div_eq_zero_iff, or_iff_left hden, wMean_sq_zero _ _ _ hw hW]
  constructor
  · intro h i φ a b hc hφ
    have := h _ (valid_of_cell lats' o m i φ a b hc) ((cosDeg_ne φ (hlat φ (List.mem_of_getElem? hc.1))).mpr hφ)
    simpa [sub_eq_zero] using this
  · intro h x hx hne
    obtain ⟨i, φ, hc, hφ⟩ := cell_of_valid lats' hlat o m x hx hne
    rw [h i φ _ _ hc hφ, sub_self]

/-- `C61`: the result is a number exactly if the observations are not constant on the cells (poles excepted) in which both fields have a
value; otherwise it is NaN or infinite -/
theorem C61_finite (obs mod : GeoInput ℝ) (no nm : String) (o m : List (Option ℝ)) (lats : List ℝ)
    (ho : obs.vars = [(no, o)]) (hm : mod.vars = [(nm, m)]) (hl : cellLats obs.lat obs.lon = some lats) (hlat : ∀ φ ∈ lats, |φ| ≤ 90) (r : XF ℝ)
    (h : nmse obs mod = .ok (.one r)) :
    (∃ x, r = .fin x) ↔ ∃ i j φ ψ a b a' b', CellAt lats o m i φ a b ∧ CellAt lats o m j ψ a' b' ∧ |φ| < 90 ∧ |ψ| < 90 ∧ a ≠ a' := by
  obtain ⟨lats', no', nm', o', m', hg, -, ho', hm', hr⟩ := (nmse_one_iff cosDeg obs mod _).mp h
  rw [hg.cells] at hl
  rw [ho] at ho'
  rw [hm] at hm'
  simp only [List.cons.injEq, Prod.mk.injEq, and_true, Option.some.injEq] at hl ho' hm'
  obtain ⟨-, rfl⟩ := ho'
  obtain ⟨-, rfl⟩ := hm'
  subst hl
  have hlo : o.length = lats'.length := hg.lengths (no, o) (by rw [ho]; simp)
  have hlm : m.length = lats'.length := hg.lengths (nm, m) (by rw [hm]; simp)
  have hw := weights_nonneg lats' hlat o m
  set V := validCells (lats'.map cosDeg) o m with hV
  constructor
  · rintro ⟨x, rfl⟩
    obtain ⟨hW, hden, -⟩ := nmse_cases lats' o m hlo hlm x hr.symm
    rw [Ne, ← hV, wMean_sq_zero _ _ _ hw hW] at hden
    push Not at hden
    obtain ⟨x, hx, hx0, hxm⟩ := hden
    obtain ⟨i, φ, hc, hφ⟩ := cell_of_valid lats' hlat o m x hx hx0
    by_contra hcon
    push Not at hcon
    apply hxm
    rw [wMean_congr V (fun y => y.1) (fun y => y.2.1) (fun y => 0 * y.2.1 + x.2.1) (fun y hy hy0 => ?_), wMean_affine _ _ _ hW]
    · ring
    · obtain ⟨j, ψ, hc', hψ⟩ := cell_of_valid lats' hlat o m y hy hy0
      have := hcon i j φ ψ _ _ _ _ hc hc' hφ hψ
      rw [this]
      ring
  · rintro ⟨i, j, φ, ψ, a, b, a', b', hc, hc', hφ, hψ, hne⟩
    have h1 := valid_of_cell lats' o m i φ a b hc
    have h2 := valid_of_cell lats' o m j ψ a' b' hc'
    have h1' := (cosDeg_ne φ (hlat φ (List.mem_of_getElem? hc.1))).mpr hφ
    have h2' := (cosDeg_ne ψ (hlat ψ (List.mem_of_getElem? hc'.1))).mpr hψ
    have hW : (V.map (·.1)).sum ≠ 0 := by
      rw [Ne, sum_zero_iff V _ hw]
      intro h
      exact h1' (h _ h1)
    have hden : wMean V (·.1) (fun x => (x.2.1 - wMean V (·.1) (·.2.1)) ^ 2) ≠ 0 := by
      rw [Ne, wMean_sq_zero _ _ _ hw hW]
      intro h
      have e1 := h _ h1 h1'
      have e2 := h _ h2 h2'
      apply hne
      simp only at e1 e2
      linarith
    rw [hr, nmseSlice_valid _ _ _ (by simpa using hlo) (by simpa using hlm), if_neg hW, XF.fin_div _ _ hden]
    exact ⟨_, rfl⟩

/-- `C61`: predicting the weighted mean of the observations everywhere gives exactly 1 -/
theorem C61_mean_one (obs mod : GeoInput ℝ) (no nm : String) (o m : List (Option ℝ)) (lats : List ℝ)
    (ho : obs.vars = [(no, o)]) (hm : mod.vars = [(nm, m)]) (hl : cellLats obs.lat obs.lon = some lats) (x : ℝ)
    (h : nmse obs mod = .ok (.one (.fin x)))
    (hmean : ∀ y ∈ validCells (lats.map cosDeg) o m, y.2.2 = wMean (validCells (lats.map cosDeg) o m) (·.1) (·.2.1)) : x = 1 := by
  have hv := C61_value obs mod no nm o m lats ho hm hl x h
  obtain ⟨lats', no', nm', o', m', hg, -, ho', hm', hr⟩ := (nmse_one_iff cosDeg obs mod _).mp h
  rw [hg.cells] at hl
  rw [ho] at ho'
  rw [hm] at hm'
  simp only [List.cons.injEq, Prod.mk.injEq, and_true, Option.some.injEq] at hl ho' hm'
  obtain ⟨-, rfl⟩ := ho'
  obtain ⟨-, rfl⟩ := hm'
  subst hl
  obtain ⟨hW, hden, -⟩ := nmse_cases lats' o m (hg.lengths (no, o) (by rw [ho]; simp)) (hg.lengths (nm, m) (by rw [hm]; simp)) x hr.symm
  rw [hv]
  unfold nmseOf
  rw [div_eq_one_iff_eq hden]
  refine wMean_congr _ _ _ _ fun y hy _ => ?_
  rw [hmean y hy]
  ring

/-- apply `f` to all values of a field -/
def mapField (f : ℝ → ℝ) (g : GeoInput ℝ) : GeoInput ℝ := { g with vars := g.vars.map (fun v => (v.1, v.2.map (Option.map f))) }

theorem validCells_map {K : Type _} [Field K] (ws : List K) (o m : List (Option K)) (f : K → K) :
    validCells ws (o.map (Option.map f)) (m.map (Option.map f)) = (validCells ws o m).map (fun x => (x.1, f x.2.1, f x.2.2)) := by
  unfold validCells
  induction ws generalizing o m with
  | nil => rfl
  | cons w ws ih =>
    cases o with
    | nil => rfl
    | cons a o =>
      cases m with
      | nil => rfl
      | cons b m =>
        simp only [List.map_cons, List.zip_cons_cons, List.filterMap_cons, ih]
        cases a <;> cases b <;> rfl

/-- `C61`: a common change of units (multiplication by a non-zero number, shift) does not change the result, whatever it is -/
theorem C61_units (obs mod : GeoInput ℝ) (a b : ℝ) (ha : a ≠ 0) (r : XF ℝ) (h : nmse obs mod = .ok (.one r)) :
    nmse (mapField (fun x => a * x + b) obs) (mapField (fun x => a * x + b) mod) = .ok (.one r) := by
  obtain ⟨lats, no, nm, o, m, hg, hk, ho, hm, hr⟩ := (nmse_one_iff cosDeg obs mod _).mp h
  have hlo : o.length = lats.length := hg.lengths (no, o) (by rw [ho]; simp)
  have hlm : m.length = lats.length := hg.lengths (nm, m) (by rw [hm]; simp)
  refine (nmse_one_iff cosDeg _ _ _).mpr ⟨lats, no, nm, o.map (Option.map (fun x => a * x + b)), m.map (Option.map (fun x => a * x + b)),
    ⟨hg.kind, hg.coords, hg.found, hg.evenLat, hg.evenLon, hg.single, hg.labels, hg.cells, ?_⟩, hk, by simp [mapField, ho], by simp [mapField, hm], ?_⟩
  · intro v hv
    simp only [mapField, ho, hm, List.map_cons, List.map_nil, List.mem_append, List.mem_singleton] at hv
    rcases hv with rfl | rfl
    · simpa using hlo
    · simpa using hlm
  · rw [hr, nmseSlice_valid _ _ _ (by simpa using hlo) (by simpa using hlm), nmseSlice_valid _ _ _ (by simpa using hlo) (by simpa using hlm),
      validCells_map]
    set V := validCells (lats.map cosDeg) o m
    simp only [List.map_map, Function.comp_def]
    by_cases hW : (V.map (fun x => x.1)).sum = 0
    · rw [if_pos hW, if_pos hW]
    · rw [if_neg hW, if_neg hW]
      have hmapw : ∀ f : ℝ × ℝ × ℝ → ℝ, wMean (V.map (fun x => (x.1, a * x.2.1 + b, a * x.2.2 + b))) (·.1) f =
          wMean V (·.1) (fun x => f (x.1, a * x.2.1 + b, a * x.2.2 + b)) := by
        intro f
        unfold wMean
        simp only [List.map_map, Function.comp_def]
      rw [hmapw, hmapw, hmapw, wMean_affine V _ _ hW]
      have e1 : wMean V (·.1) (fun x => (a * x.2.2 + b - (a * x.2.1 + b)) ^ 2) = a ^ 2 * wMean V (·.1) (fun x => (x.2.2 - x.2.1) ^ 2) := by
        rw [← wMean_mul]
        refine wMean_congr _ _ _ _ fun x _ _ => by ring
      have e2 : wMean V (·.1) (fun x => (a * x.2.1 + b - (a * wMean V (·.1) (·.2.1) + b)) ^ 2) =
          a ^ 2 * wMean V (·.1) (fun x => (x.2.1 - wMean V (·.1) (·.2.1)) ^ 2) := by
        rw [← wMean_mul V (·.1) (fun x => (x.2.1 - wMean V (·.1) (·.2.1)) ^ 2) (a ^ 2)]
        refine wMean_congr _ _ _ _ fun x _ _ => by ring
      rw [e1, e2]
      have ha2 : a ^ 2 ≠ 0 := pow_ne_zero 2 ha
      have ha3 : 0 < a ^ 2 := by positivity
      by_cases hd : wMean V (·.1) (fun x => (x.2.1 - wMean V (·.1) (·.2.1)) ^ 2) = 0
      · rw [hd, mul_zero, XF.fin_div_zero, XF.fin_div_zero]
        unfold XF.signInf
        simp only [mul_pos_iff_of_pos_left ha3, mul_neg_iff]
        have : ¬ (a ^ 2 < 0) := not_lt.mpr ha3.le
        simp only [ha3, this, true_and, false_and, or_false]
      · rw [XF.fin_div _ _ hd, XF.fin_div _ _ (mul_ne_zero ha2 hd), mul_div_mul_left _ _ ha2]

/-- `C61`: a common factor in all weights does not matter -/
theorem C61_weights {K : Type _} [Field K] [LinearOrder K] [IsStrictOrderedRing K] (l : List (K × K × K)) (a : K) (ha : a ≠ 0) :
    nmseOf (l.map (fun x => (a * x.1, x.2))) = nmseOf l := by
  have hm : ∀ f : K × K → K, wMean (l.map (fun x => (a * x.1, x.2))) (·.1) (fun x => f x.2) = wMean l (·.1) (fun x => f x.2) := by
    intro f
    rw [← wMean_weights l (·.1) _ a ha]
    unfold wMean
    simp only [List.map_map, Function.comp_def]
  have h1 := hm (fun y => (y.2 - y.1) ^ 2)
  have h2 := hm (fun y => y.1)
  have h3 := hm (fun y => (y.1 - wMean l (·.1) (·.2.1)) ^ 2)
  unfold nmseOf
  rw [h1, h2, h3]

/-- cells where either field is missing can be dropped -/
theorem validCells_ext {K : Type _} [Field K] (ws : List K) (o m o' m' : List (Option K)) (ho : o.length = ws.length) (hm : m.length = ws.length)
    (ho' : o'.length = ws.length) (hm' : m'.length = ws.length)
    (h : ∀ (i : ℕ) (a b : K), (o[i]? = some (some a) ∧ m[i]? = some (some b)) ↔ (o'[i]? = some (some a) ∧ m'[i]? = some (some b))) :
    validCells ws o m = validCells ws o' m' := by
  unfold validCells
  induction ws generalizing o m o' m' with
  | nil => rfl
  | cons w ws ih =>
    cases o with
    | nil => simp at ho
    | cons a o => cases m with
      | nil => simp at hm
      | cons b m => cases o' with
        | nil => simp at ho'
        | cons a' o' => cases m' with
          | nil => simp at hm'
          | cons b' m' =>
            have h0 := h 0
            simp only [List.getElem?_cons_zero, Option.some.injEq] at h0
            have ih' := ih o m o' m' (by simpa using ho) (by simpa using hm) (by simpa using ho') (by simpa using hm')
              (fun i a b => by simpa using h (i + 1) a b)
            simp only [List.zip_cons_cons, List.filterMap_cons, ih']
            cases a with
            | none =>
              cases a' with
              | none => rfl
              | some y => cases b' with
                | none => cases b <;> rfl
                | some z =>
                  have := (h0 y z).mpr ⟨rfl, rfl⟩
                  simp at this
            | some x =>
              cases b with
              | none =>
                cases a' with
                | none => rfl
                | some y => cases b' with
                  | none => rfl
                  | some z =>
                    have := (h0 y z).mpr ⟨rfl, rfl⟩
                    simp at this
              | some y =>
                have := (h0 x y).mp ⟨rfl, rfl⟩
                obtain ⟨rfl, rfl⟩ := this
                rfl

/-- `C63`: changing the fields only in cells where either is missing (before and after) changes nothing -/
theorem C63_missing (obs mod : GeoInput ℝ) (no nm : String) (o m o' m' : List (Option ℝ)) (ho : obs.vars = [(no, o)]) (hm : mod.vars = [(nm, m)])
    (hlo : o'.length = o.length) (hlm : m'.length = m.length)
    (h : ∀ (i : ℕ) (a b : ℝ), (o[i]? = some (some a) ∧ m[i]? = some (some b)) ↔ (o'[i]? = some (some a) ∧ m'[i]? = some (some b))) (r : XF ℝ)
    (hr : nmse obs mod = .ok (.one r)) : nmse { obs with vars := [(no, o')] } { mod with vars := [(nm, m')] } = .ok (.one r) := by
  obtain ⟨lats, no', nm', o1, m1, hg, hk, ho1, hm1, hr1⟩ := (nmse_one_iff cosDeg obs mod _).mp hr
  rw [ho] at ho1
  rw [hm] at hm1
  simp only [List.cons.injEq, Prod.mk.injEq, and_true] at ho1 hm1
  obtain ⟨rfl, rfl⟩ := ho1
  obtain ⟨rfl, rfl⟩ := hm1
  have h1 : o.length = lats.length := hg.lengths (no, o) (by rw [ho]; simp)
  have h2 : m.length = lats.length := hg.lengths (nm, m) (by rw [hm]; simp)
  refine (nmse_one_iff cosDeg _ _ _).mpr ⟨lats, no, nm, o', m', ⟨hg.kind, hg.coords, hg.found, hg.evenLat, hg.evenLon, hg.single, hg.labels, hg.cells, ?_⟩,
    hk, rfl, rfl, ?_⟩
  · intro v hv
    simp only [List.mem_append, List.mem_singleton] at hv
    rcases hv with rfl | rfl
    · simpa [hlo] using h1
    · simpa [hlm] using h2
  · rw [hr1, nmseSlice_valid _ _ _ (by simpa using h1) (by simpa using h2), nmseSlice_valid _ _ _ (by simp; omega) (by simp; omega),
      validCells_ext (lats.map cosDeg) o m o' m' (by simpa using h1) (by simpa using h2) (by simp; omega) (by simp; omega) h]

/-! ### C62: spacing -/

/-- the steps of a 1-D coordinate agree with its first step up to the tolerance 1e-8 + 1e-5 * |first step| -/
def EvenSteps {K : Type _} [Field K] [LinearOrder K] (l : List K) : Prop :=
  ∀ (i : ℕ) (x0 x1 x y : K), l[0]? = some x0 → l[1]? = some x1 → l[i]? = some x → l[i + 1]? = some y →
    |(y - x) - (x1 - x0)| ≤ 1 / 100000000 + 1 / 100000 * |x1 - x0|

theorem npDiff_getElem? {K : Type _} [Field K] [LinearOrder K] (l : List K) (i : ℕ) (x y : K) (hx : l[i]? = some x) (hy : l[i + 1]? = some y) :
    (npDiff l)[i]? = some (y - x) := by
  unfold npDiff
  rw [List.getElem?_zipWith_eq_some]
  exact ⟨y, x, by rw [List.getElem?_tail]; exact hy, hx, rfl⟩

/-- `C62`, for 1-D coordinates: a result is returned only if latitudes and longitudes are evenly spaced -/
theorem C62_rectangular_partial {K : Type _} [Field K] [LinearOrder K] [IsStrictOrderedRing K] (wt : K → K) (obs mod : GeoInput K) (la lo : List K)
    (hla : obs.lat = .d1 la) (hlo : obs.lon = .d1 lo) (out : NmseOut K) (h : nmseWith wt obs mod = .ok out) : EvenSteps la ∧ EvenSteps lo := by
  obtain ⟨lats, hg⟩ := nmse_ok wt obs mod out h
  have key : ∀ l : List K, evenSpacing (.d1 l) = .ok true → EvenSteps l := by
    intro l hl i x0 x1 x y h0 h1 hx hy
    unfold evenSpacing at hl
    simp only at hl
    split at hl
    · cases hl
    cases hd : npDiff l with
    | nil => rw [hd] at hl; cases hl
    | cons d0 ds =>
      rw [hd] at hl
      simp only [Except.ok.injEq, List.all_eq_true] at hl
      have h0' := npDiff_getElem? l 0 x0 x1 h0 h1
      have hi' := npDiff_getElem? l i x y hx hy
      rw [hd] at h0' hi'
      simp only [List.getElem?_cons_zero, Option.some.injEq] at h0'
      have := hl _ (List.mem_of_getElem? hi')
      unfold isClose at this
      rw [decide_eq_true_iff] at this
      rw [← h0']
      exact this
  exact ⟨key la (hla ▸ hg.evenLat), key lo (hlo ▸ hg.evenLon)⟩

/-- a field of ones on a 2-D grid whose longitudes 0, 1, 3 are unevenly spaced -/
def unevenGrid : GeoInput ℚ :=
  { kind := .dataArray, coords := ["lat", "lon"], found := true, manyLat := false, manyLon := false,
    lat := .d2 [[0, 0, 0], [10, 10, 10]], lon := .d2 [[0, 1, 3], [0, 1, 3]],
    vars := [("t", [some 1, some 2, some 3, some 4, some 5, some 6])] }

/-- `C62` fails for 2-D coordinates: each row of steps is only compared with the first row of steps, so that a grid with longitudes
0, 1, 3 in every row is accepted -/
theorem C62_counterexample (wt : ℚ → ℚ) : ∃ out, nmseWith wt unevenGrid unevenGrid = .ok out := by
  refine ⟨_, nmse_run wt unevenGrid unevenGrid [0, 0, 0, 10, 10, 10] ⟨?_, ?_, ?_, ?_, ?_, ?_, ?_, ?_, ?_⟩⟩ <;> decide +kernel

/-- `C62`: a grid of constant latitude (or a single latitude) is rejected too, but with an AxisError from `numpy.diff` -/
theorem C62_single_latitude {K : Type _} [Field K] [LinearOrder K] [IsStrictOrderedRing K] (wt : K → K) (obs mod : GeoInput K) (φ : K)
    (hk : obs.kind = mod.kind ∧ obs.kind ≠ .other) (hc : obs.coords ⊆ mod.coords ∧ mod.coords ⊆ obs.coords)
    (hf : obs.found = true ∧ mod.found = true) (hs : obs.manyLat = false) (hla : obs.lat = .d1 [φ]) : nmseWith wt obs mod = .error .axisError := by
  have h1 : ¬ (obs.kind = .other ∨ mod.kind = .other) := by
    rw [← hk.1]
    simp [hk.2]
  have h2 : ¬ (obs.kind ≠ mod.kind) := by simp [hk.1]
  unfold nmseWith
  simp only [if_neg h1, if_neg h2, if_neg (not_not.mpr hc), if_neg (not_not.mpr hf), hla, hs]
  rfl

/-! ### C94: Datasets -/

/-- `C94`: for Datasets the entry of a variable in the row `variable = same name` is the value which the variables give as DataArrays -/
theorem C94_diagonal_partial {K : Type _} [Field K] [LinearOrder K] [IsStrictOrderedRing K] (wt : K → K) (obs mod : GeoInput K) (hk : obs.kind = .dataset)
    (t : List (String × List (String × XF K))) (h : nmseWith wt obs mod = .ok (.table t)) (i : ℕ) (name : String) (o m : List (Option K))
    (ho : obs.vars[i]? = some (name, o)) (hm : mod.vars[i]? = some (name, m)) :
    ∃ row r, t[i]? = some (name, row) ∧ row[i]? = some (name, r) ∧
      nmseWith wt { obs with kind := .dataArray, vars := [(name, o)] } { mod with kind := .dataArray, vars := [(name, m)] } = .ok (.one r) := by
  obtain ⟨lats, hg⟩ := nmse_ok wt obs mod _ h
  have hrun := nmse_run wt obs mod lats hg
  rw [h, hk] at hrun
  simp only at hrun
  split at hrun
  · cases hrun
  injection hrun with hrun
  injection hrun with hrun
  have hz : (List.zipWith (fun (o m : String × List (Option K)) => (o.1, maskVar (lats.map wt) o.2 m.2)) obs.vars mod.vars)[i]? =
      some (name, maskVar (lats.map wt) o m) := by
    rw [List.getElem?_zipWith_eq_some]
    exact ⟨_, _, ho, hm, rfl⟩
  have ht : t[i]? = some (name, (List.zipWith (fun (o m : String × List (Option K)) => (o.1, maskVar (lats.map wt) o.2 m.2)) obs.vars mod.vars).map
      (fun u => (u.1, nmseSlice u.2.1 (maskVar (lats.map wt) o m).2.1 (maskVar (lats.map wt) o m).2.2))) := by
    rw [hrun, List.getElem?_map, hz]
    rfl
  refine ⟨_, nmseSlice (maskVar (lats.map wt) o m).1 (maskVar (lats.map wt) o m).2.1 (maskVar (lats.map wt) o m).2.2, ht, ?_, ?_⟩
  · rw [List.getElem?_map, hz]
    rfl
  · refine (nmse_one_iff wt _ _ _).mpr ⟨lats, name, name, o, m, ⟨⟨rfl, by simp⟩, hg.coords, hg.found, hg.evenLat, hg.evenLon, hg.single, hg.labels,
      hg.cells, ?_⟩, rfl, rfl, rfl, rfl⟩
    intro v hv
    simp only [List.mem_append, List.mem_singleton] at hv
    rcases hv with rfl | rfl
    · exact hg.lengths _ (List.mem_append_left _ (List.mem_of_getElem? ho))
    · exact hg.lengths _ (List.mem_append_right _ (List.mem_of_getElem? hm))

theorem maskVar_fst_congr {K : Type _} [Field K] [LinearOrder K] (ws : List K) (o m o' m' : List (Option K))
    (h : ∀ i : ℕ, (List.zip o m)[i]?.map (fun x => x.1.isSome && x.2.isSome) = (List.zip o' m')[i]?.map (fun x => x.1.isSome && x.2.isSome)) :
    (maskVar ws o m).1 = (maskVar ws o' m').1 := by
  unfold maskVar
  simp only
  apply List.ext_getElem?
  intro i
  have hi := h i
  rw [List.getElem?_zipWith, List.getElem?_zipWith]
  cases hw : ws[i]? with
  | none => rfl
  | some w =>
    cases hx : (List.zip o m)[i]? with
    | none =>
      rw [hx] at hi
      cases hy : (List.zip o' m')[i]? with
      | none => rfl
      | some y => rw [hy] at hi; simp at hi
    | some x =>
      rw [hx] at hi
      cases hy : (List.zip o' m')[i]? with
      | none => rw [hy] at hi; simp at hi
      | some y =>
        rw [hy] at hi
        simp only [Option.map_some, Option.some.injEq] at hi
        simp only [Option.some.injEq]
        unfold maskWeight
        have : (x.1.isSome = true ∧ x.2.isSome = true) ↔ (y.1.isSome = true ∧ y.2.isSome = true) := by
          rw [← Bool.and_eq_true, ← Bool.and_eq_true, hi]
        simp only [this]

/-- the variables `a` and `b` lack values in the same cells -/
def SamePattern {K : Type _} (oa ma ob mb : List (Option K)) : Prop :=
  ∀ i : ℕ, (List.zip oa ma)[i]?.map (fun x => x.1.isSome && x.2.isSome) = (List.zip ob mb)[i]?.map (fun x => x.1.isSome && x.2.isSome)

/-- `C94`: the entries in the rows of variables with the same missing cells are the same: for data without missing values the extra dimension
only repeats each value -/
theorem C94_same_pattern {K : Type _} [Field K] [LinearOrder K] [IsStrictOrderedRing K] (wt : K → K) (obs mod : GeoInput K) (hk : obs.kind = .dataset)
    (t : List (String × List (String × XF K))) (h : nmseWith wt obs mod = .ok (.table t)) (i j : ℕ) (ni nj : String) (o m o' m' : List (Option K))
    (ho : obs.vars[i]? = some (ni, o)) (hm : mod.vars[i]? = some (ni, m)) (ho' : obs.vars[j]? = some (nj, o')) (hm' : mod.vars[j]? = some (nj, m'))
    (hp : SamePattern o m o' m') :
    ∃ row r, t[i]? = some (ni, row) ∧ row[i]? = some (ni, r) ∧ row[j]? = some (nj, r) := by
  obtain ⟨lats, hg⟩ := nmse_ok wt obs mod _ h
  have hrun := nmse_run wt obs mod lats hg
  rw [h, hk] at hrun
  simp only at hrun
  split at hrun
  · cases hrun
  injection hrun with hrun
  injection hrun with hrun
  have hz : ∀ (i : ℕ) (name : String) (o m : List (Option K)), obs.vars[i]? = some (name, o) → mod.vars[i]? = some (name, m) →
      (List.zipWith (fun (o m : String × List (Option K)) => (o.1, maskVar (lats.map wt) o.2 m.2)) obs.vars mod.vars)[i]? =
      some (name, maskVar (lats.map wt) o m) := by
    intro i name o m ho hm
    rw [List.getElem?_zipWith_eq_some]
    exact ⟨_, _, ho, hm, rfl⟩
  have ht : t[i]? = some (ni, (List.zipWith (fun (o m : String × List (Option K)) => (o.1, maskVar (lats.map wt) o.2 m.2)) obs.vars mod.vars).map
      (fun u => (u.1, nmseSlice u.2.1 (maskVar (lats.map wt) o m).2.1 (maskVar (lats.map wt) o m).2.2))) := by
    rw [hrun, List.getElem?_map, hz i ni o m ho hm]
    rfl
  refine ⟨_, nmseSlice (maskVar (lats.map wt) o m).1 (maskVar (lats.map wt) o m).2.1 (maskVar (lats.map wt) o m).2.2, ht, ?_, ?_⟩
  · rw [List.getElem?_map, hz i ni o m ho hm]
    rfl
  · rw [List.getElem?_map, hz j nj o' m' ho' hm', maskVar_fst_congr _ _ _ _ _ hp]
    rfl

/-- two variables on the equator-to-60° grid, the second without its last value -/
def twoVars : GeoInput ℚ :=
  { kind := .dataset, coords := ["lat", "lon"], found := true, manyLat := false, manyLon := false, lat := .d1 [0, 60], lon := .d1 [0, 10],
    vars := [("t", [some 1, some 2, some 3, some 5]), ("p", [some 1, some 2, some 4, none])] }

def twoVarsModel : GeoInput ℚ :=
  { twoVars with vars := [("t", [some 1, some 2, some 3, some 6]), ("p", [some 1, some 2, some 5, some 0])] }

/-- weights 1 and 1/2, as cos(0°) and cos(60°) -/
def halfAt60 (φ : ℚ) : ℚ := if φ = 60 then 1 / 2 else 1

/-- `C94` fails in general: the value of `t` is 3/34 (as for the DataArray), but the Dataset also has a second value of `t`, computed with the
missing cells of `p`, which is 0 -/
theorem C94_counterexample :
    ∃ tbl, nmseWith halfAt60 twoVars twoVarsModel = .ok (.table tbl) ∧
      tbl[0]? = some ("t", [("t", .fin (3 / 34)), ("p", .fin 0)]) := by
  refine ⟨_, nmse_run halfAt60 twoVars twoVarsModel [0, 0, 60, 60] ⟨?_, ?_, ?_, ?_, ?_, ?_, ?_, ?_, ?_⟩, ?_⟩
  case refine_10 =>
    norm_num [twoVars, twoVarsModel, maskVar, maskWeight, maskValue, nmseSlice, weightedMean, halfAt60]
    refine ⟨?_, ?_⟩ <;> rw [XF.fin_div _ _ (by norm_num)] <;> norm_num
  all_goals decide +kernel

/-! ### C95: inputs that are rejected -/

/-- `C95`: a result is only returned for two DataArrays or two Datasets with the same coordinate names, recognisable latitudes and longitudes,
and identical coordinate labels: cells are never matched by position only, and never silently dropped -/
theorem C95_accepts {K : Type _} [Field K] [LinearOrder K] [IsStrictOrderedRing K] (wt : K → K) (obs mod : GeoInput K) (out : NmseOut K)
    (h : nmseWith wt obs mod = .ok out) :
    obs.kind = mod.kind ∧ obs.kind ≠ .other ∧ (∀ c, c ∈ obs.coords ↔ c ∈ mod.coords) ∧ obs.found = true ∧ mod.found = true ∧
    (∀ la lo, obs.lat = .d1 la → obs.lon = .d1 lo → mod.lat = .d1 la ∧ mod.lon = .d1 lo) := by
  obtain ⟨lats, hg⟩ := nmse_ok wt obs mod out h
  refine ⟨hg.kind.1, hg.kind.2, fun c => ⟨fun h => hg.coords.1 h, fun h => hg.coords.2 h⟩, hg.found.1, hg.found.2, ?_⟩
  intro la lo hla hlo
  have h1 := hg.labels
  rw [hla, hlo] at h1
  cases h2 : mod.lat with
  | d2 r => simp [h2, indexLabels] at h1
  | d1 l =>
    cases h3 : mod.lon with
    | d2 r => simp [h3, indexLabels] at h1
    | d1 l' =>
      simp only [h2, h3, indexLabels, ne_eq, Option.some.injEq, not_or, not_not] at h1
      exact ⟨by rw [h1.1], by rw [h1.2]⟩

/-- `C95`: the exceptions -/
theorem C95_errors {K : Type _} [Field K] [LinearOrder K] [IsStrictOrderedRing K] (wt : K → K) (obs mod : GeoInput K) :
    (obs.kind = .other ∨ mod.kind = .other ∨ obs.kind ≠ mod.kind → nmseWith wt obs mod = .error .typeError) ∧
    (obs.kind = mod.kind → obs.kind ≠ .other → (∃ c, c ∈ obs.coords ∧ c ∉ mod.coords ∨ c ∉ obs.coords ∧ c ∈ mod.coords) →
      nmseWith wt obs mod = .error .keyError) ∧
    (obs.kind = mod.kind → obs.kind ≠ .other → (∀ c, c ∈ obs.coords ↔ c ∈ mod.coords) → (obs.found = false ∨ mod.found = false) →
      nmseWith wt obs mod = .error .valueError) := by
  unfold nmseWith
  refine ⟨?_, ?_, ?_⟩
  · intro h
    by_cases h1 : obs.kind = .other ∨ mod.kind = .other
    · simp only [if_pos h1]; rfl
    · have h2 : obs.kind ≠ mod.kind := by tauto
      simp only [if_neg h1, if_pos h2]; rfl
  · intro hk ho ⟨c, hc⟩
    have h1 : ¬ (obs.kind = .other ∨ mod.kind = .other) := by rw [← hk]; simp [ho]
    have h2 : ¬ (obs.kind ≠ mod.kind) := not_not.mpr hk
    have h3 : ¬ (obs.coords ⊆ mod.coords ∧ mod.coords ⊆ obs.coords) := by
      rintro ⟨ha, hb⟩
      rcases hc with ⟨h, h'⟩ | ⟨h, h'⟩
      · exact h' (ha h)
      · exact h (hb h')
    simp only [if_neg h1, if_neg h2, if_pos h3]; rfl
  · intro hk ho hc hf
    have h1 : ¬ (obs.kind = .other ∨ mod.kind = .other) := by rw [← hk]; simp [ho]
    have h2 : ¬ (obs.kind ≠ mod.kind) := not_not.mpr hk
    have h3 : obs.coords ⊆ mod.coords ∧ mod.coords ⊆ obs.coords := ⟨fun c h => (hc c).mp h, fun c h => (hc c).mpr h⟩
    have h4 : ¬ (obs.found = true ∧ mod.found = true) := by
      rintro ⟨ha, hb⟩
      rcases hf with h | h <;> simp_all
    simp only [if_neg h1, if_neg h2, if_neg (not_not.mpr h3), if_pos h4]; rfl

/-! ### cases which meet the hypotheses -/

/-- a field on the grid of latitudes 0, 60 and longitudes 0, 10 -/
def exField (v : List (Option ℝ)) : GeoInput ℝ :=
  { kind := .dataArray, coords := ["lat", "lon"], found := true, manyLat := false, manyLon := false, lat := .d1 [0, 60], lon := .d1 [0, 10], vars := [("t", v)] }

theorem exField_ok (o m : List (Option ℝ)) (ho : o.length = 4) (hm : m.length = 4) : ∃ r, nmse (exField o) (exField m) = .ok (.one r) := by
  refine ⟨_, (nmse_one_iff cosDeg _ _ _).mpr ⟨[0, 0, 60, 60], "t", "t", o, m, ⟨⟨rfl, by simp [exField]⟩, ⟨fun _ h => h, fun _ h => h⟩, ⟨rfl, rfl⟩, ?_, ?_, ⟨rfl, rfl⟩, ?_,
    rfl, ?_⟩, rfl, rfl, rfl, rfl⟩⟩
  · simp [exField, evenSpacing, npDiff, isClose]
    norm_num
  · simp [exField, evenSpacing, npDiff, isClose]
    norm_num
  · simp [exField]
  · simp [exField, ho, hm]

/-- fields for which `C61` and `C63` speak of a number: 1, 2, missing, 5 observed, 1, 3, 4, 5 modeled -/
example : ∃ x, nmse (exField [some 1, some 2, none, some 5]) (exField [some 1, some 3, some 4, some 5]) = .ok (.one (.fin x)) := by
  obtain ⟨r, hr⟩ := exField_ok [some 1, some 2, none, some 5] [some 1, some 3, some 4, some 5] rfl rfl
  have := (C61_finite _ _ "t" "t" _ _ [0, 0, 60, 60] rfl rfl rfl (by intro φ h; simp at h; rcases h with rfl | rfl <;> norm_num [abs_le]) r hr).mpr
    ⟨0, 1, 0, 0, 1, 1, 2, 3, ⟨rfl, rfl, rfl⟩, ⟨rfl, rfl, rfl⟩, by norm_num, by norm_num, by norm_num⟩
  obtain ⟨x, rfl⟩ := this
  exact ⟨x, hr⟩

example : ∃ t, nmseWith halfAt60 twoVars twoVarsModel = .ok (.table t) := by
  obtain ⟨t, h, -⟩ := C94_counterexample
  exact ⟨t, h⟩

end Verif.Props
