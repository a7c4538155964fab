import Verif.Props.Psi3
import Verif.Props.DeltaPressure
import Verif.Lemmas.HybridInterp

/-
Property C110: exactly which calls of `zonal_meridional_psi` return, and surface pressures just below the first level.
-/

namespace Verif.Props
open Model Spec Lemmas
set_option linter.unusedSectionVars false

/-- the column fails exactly if the thickness of its layers does -/
theorem psiColumn_outcome {K : Type _} [Field K] [LinearOrder K] (c : K) (plev : List K) (hp : 2 ≤ plev.length) (v : List (XF K)) (ps : XF K) :
    (∀ e, deltaPressure plev ps none = .error e → psiColumn c plev v ps = .error e) ∧
    (∀ d, deltaPressure plev ps none = .ok d → ∃ r, psiColumn c plev v ps = .ok r) := by
  have : Inhabited K := ⟨0⟩
  obtain ⟨f, hf⟩ := list_eq_column plev
  generalize hn : plev.length = n at hf hp
  subst hf
  unfold psiColumn
  constructor
  · intro e he
    rw [he]
    rfl
  · intro d hd
    rw [hd]
    exact ⟨_, by simp [index_first n (by omega), index_last n (by omega), bind, Except.bind, pure, Except.pure]; rfl⟩

/-- a zonal-mean surface pressure at or below the level `t`, the smallest pressure of the levels -/
def BelowTop (t : ℝ) (p : XF ℝ) : Prop := p = .pinf ∨ ∃ x : ℝ, p = .fin x ∧ t ≤ x ∧ 0 < x

/-- the surface pressures are usable: no cell has a pressure that is zero or negative, no zonal mean is missing, and no zonal mean
is smaller than the smallest level pressure `t`, which is not negative -/
def UsablePressures (rawPs : List (XF ℝ)) (lats : List ℝ) (cols : List (List (XF ℝ × List (XF ℝ)))) (t : ℝ) : Prop :=
  (∀ p ∈ rawPs, p = .nan ∨ p = .pinf ∨ ∃ x : ℝ, 0 < x ∧ p = .fin x) ∧
  (∀ row ∈ cols, ∀ c ∈ row, c.1 ≠ .nan) ∧
  ∀ row ∈ cols, ∀ e ∈ row.zip lats, 0 ≤ t ∧ BelowTop t e.1.1

theorem belowTop_iff (t : ℝ) (p : XF ℝ) :
    BelowTop t p ↔ ¬ (XF.lt p (.fin t) = true ∨ XF.le p (.fin 0) = true ∨ p = .nan) := by
  cases p <;> simp [BelowTop, XF.lt, XF.le]

/-- **C110, exactly.** For levels in any order, with smallest pressure `t`: the call returns if the surface pressures are usable, and
otherwise raises ValueError. -/
theorem C110_exact (rawPs : List (XF ℝ)) (plev lats : List ℝ) (hp : 2 ≤ plev.length) (t : ℝ) (ht : t ∈ plev ∧ ∀ x ∈ plev, t ≤ x)
    (cols : List (List (XF ℝ × List (XF ℝ)))) :
    (UsablePressures rawPs lats cols t → ∃ r, zonalPsi rawPs plev lats cols = .ok r) ∧
    (¬ UsablePressures rawPs lats cols t → zonalPsi rawPs plev lats cols = .error .valueError) := by
  by_cases h1 : cols.any (fun row => row.any (fun c => c.1.isNaN)) = true
  · have hno : ¬ UsablePressures rawPs lats cols t := by
      rintro ⟨-, h, -⟩
      rw [List.any_eq_true] at h1
      obtain ⟨row, hrow, h1⟩ := h1
      rw [List.any_eq_true] at h1
      obtain ⟨c, hc, h1⟩ := h1
      apply h row hrow c hc
      cases hc1 : c.1 <;> simp [hc1, XF.isNaN] at h1 ⊢
    refine ⟨fun h => absurd h hno, fun _ => ?_⟩
    unfold zonalPsi
    rw [if_pos h1]
  by_cases h2 : rawPs.any (fun p => XF.le p (.fin 0)) = true
  · have hno : ¬ UsablePressures rawPs lats cols t := by
      rintro ⟨h, -, -⟩
      rw [List.any_eq_true] at h2
      obtain ⟨p, hp', hle⟩ := h2
      rcases h p hp' with rfl | rfl | ⟨x, hx, rfl⟩
      · cases hle
      · cases hle
      · simp only [XF.le_fin, decide_eq_true_eq] at hle
        exact absurd hx (not_lt.mpr hle)
    refine ⟨fun h => absurd h hno, fun _ => ?_⟩
    unfold zonalPsi
    rw [if_neg h1, if_pos h2]
  have hcol : ∀ e : (XF ℝ × List (XF ℝ)) × ℝ, ((0 ≤ t ∧ BelowTop t e.1.1) → ∃ r, psiColumn (psiFactor e.2) plev e.1.2 e.1.1 = .ok r) ∧
      (¬ (0 ≤ t ∧ BelowTop t e.1.1) → psiColumn (psiFactor e.2) plev e.1.2 e.1.1 = .error .valueError) := by
    intro e
    obtain ⟨o1, o2⟩ := psiColumn_outcome (psiFactor e.2) plev hp e.1.2 e.1.1
    obtain ⟨c1, c2⟩ := C06_error_contract plev hp e.1.1 none t ht
    constructor
    · rintro ⟨h0, hb⟩
      rw [belowTop_iff] at hb
      obtain ⟨d, hd, -⟩ := c2 (by
        rintro (⟨x, hx, hlt⟩ | hneg | h)
        · exact absurd (ht.2 x hx) (not_le.mpr hlt)
        · exact absurd h0 (not_le.mpr hneg)
        · exact hb h)
      exact o2 d hd
    · intro hno
      refine o1 _ (c1 ?_)
      by_cases h0 : 0 ≤ t
      · have : ¬ BelowTop t e.1.1 := fun hb => hno ⟨h0, hb⟩
        rw [belowTop_iff, not_not] at this
        exact Or.inr (Or.inr this)
      · exact Or.inr (Or.inl (not_le.mp h0))
  have hraw : ∀ p ∈ rawPs, p = .nan ∨ p = .pinf ∨ ∃ x : ℝ, 0 < x ∧ p = .fin x := by
    intro p hp'
    cases p with
    | nan => exact Or.inl rfl
    | pinf => exact Or.inr (Or.inl rfl)
    | ninf => exact absurd (List.any_eq_true.mpr ⟨_, hp', rfl⟩) h2
    | fin x =>
      refine Or.inr (Or.inr ⟨x, ?_, rfl⟩)
      by_contra hx
      exact h2 (List.any_eq_true.mpr ⟨_, hp', by simp [XF.le, not_lt.mp hx]⟩)
  have hnan : ∀ row ∈ cols, ∀ c ∈ row, c.1 ≠ .nan := by
    intro row hrow c hc hn
    exact h1 (List.any_eq_true.mpr ⟨row, hrow, List.any_eq_true.mpr ⟨c, hc, by rw [hn]; rfl⟩⟩)
  have herr : ∀ row ∈ cols, ∀ e, (row.zip lats).mapM (fun e => psiColumn (psiFactor e.2) plev e.1.2 e.1.1) = .error e → e = .valueError := by
    intro row hrow e he
    obtain ⟨a, ha, hae⟩ := mapM_error_mem _ _ _ he
    by_cases hg : 0 ≤ t ∧ BelowTop t a.1.1
    · obtain ⟨r, hr⟩ := (hcol a).1 hg
      rw [hr] at hae
      cases hae
    · rw [(hcol a).2 hg] at hae
      cases hae
      rfl
  unfold zonalPsi
  rw [if_neg h1, if_neg h2]
  constructor
  · rintro ⟨-, -, h⟩
    cases hm : cols.mapM (fun row => (row.zip lats).mapM (fun e => psiColumn (psiFactor e.2) plev e.1.2 e.1.1)) with
    | ok r => exact ⟨r, rfl⟩
    | error e =>
      exfalso
      obtain ⟨row, hrow, he⟩ := mapM_error_mem _ _ _ hm
      obtain ⟨a, ha, hae⟩ := mapM_error_mem _ _ _ he
      obtain ⟨r, hr⟩ := (hcol a).1 (h row hrow a ha)
      rw [hr] at hae
      cases hae
  · intro hno
    have : ∃ row ∈ cols, ∃ a ∈ row.zip lats, ¬ (0 ≤ t ∧ BelowTop t a.1.1) := by
      by_contra hall
      push Not at hall
      exact hno ⟨hraw, hnan, fun row hrow a ha => by
        by_contra hb
        exact hb ⟨(hall row hrow a ha).1, (hall row hrow a ha).2⟩⟩
    obtain ⟨row, hrow, a, ha, hb⟩ := this
    have hrowErr : ∃ e, (row.zip lats).mapM (fun e => psiColumn (psiFactor e.2) plev e.1.2 e.1.1) = .error e :=
      (mapM_error_iff _ _).mpr ⟨a, ha, _, (hcol a).2 hb⟩
    obtain ⟨e, he⟩ := (mapM_error_iff (fun row => (row.zip lats).mapM (fun e => psiColumn (psiFactor e.2) plev e.1.2 e.1.1)) cols).mpr
      ⟨row, hrow, hrowErr⟩
    obtain ⟨row', hrow', he'⟩ := mapM_error_mem _ _ _ he
    rw [he, herr row' hrow' e he']

/-- `C110` is false of a zonal-mean surface pressure between the first level and the interface of the first two levels: the layer between the
first level (100) and the surface (200) is 100 thick, but the call integrates a thickness of -100, so that a northward wind gives a
negative stream function. -/
theorem C110_counterexample :
    zonalPsi [.fin 200] [100, 500] [0] [[(.fin 200, [.fin 1, .fin 1])]] =
        .ok [[[.fin (-(100 * psiFactor 0)), .fin (-(100 * psiFactor 0))]]] ∧
      0 < psiFactor 0 ∧ thickness 2 (fun k => 100 + 400 * (k : ℝ)) 200 100 0 = .fin 100 := by
  have hinc : Increasing 2 (fun k => 100 + 400 * (k : ℝ)) := fun i j hij _ => by
    simp only; have : (i : ℝ) < j := by exact_mod_cast hij
    linarith
  have h := C03_top_layer_wraps 2 (by norm_num) (fun k => 100 + 400 * (k : ℝ)) hinc 200 none (by norm_num) (by simp) (by norm_num) (by norm_num)
    (by norm_num)
  have h' := psiColumn_down (psiFactor 0) 2 (by norm_num) (fun k => 100 + 400 * (k : ℝ)) (by norm_num) [.fin 1, .fin 1] (.fin 200)
  rw [h] at h'
  simp only [column, List.range_succ, List.range_zero, List.map_append, List.map_cons, List.map_nil, List.nil_append,
    List.cons_append] at h'
  norm_num [Except.map, nanCumsum] at h'
  refine ⟨?_, ?_, ?_⟩
  · simp [zonalPsi, List.mapM_cons, h', bind, Except.bind, pure, Except.pure, XF.isNaN]
  · unfold psiFactor
    have := Real.pi_pos
    simp only [Real.cos_zero]
    positivity
  · norm_num [thickness, upperIface, lowerIface]

/-- levels from the bottom, one cell missing: accepted; a surface above the first level: rejected -/
example : (∃ r, zonalPsi [.fin 700, .nan] [500, 100] [30] [[(.fin 700, [.fin 1, .fin 1])]] = .ok r) ∧
    zonalPsi [.fin 50] [500, 100] [30] [[(.fin 50, [.fin 1, .fin 1])]] = .error .valueError := by
  constructor
  · refine (C110_exact _ [500, 100] [30] (by simp) 100 (by norm_num) _).1 ⟨?_, ?_, ?_⟩
    · intro p hp
      simp only [List.mem_cons, List.not_mem_nil, or_false] at hp
      rcases hp with rfl | rfl
      · exact Or.inr (Or.inr ⟨700, by norm_num, rfl⟩)
      · exact Or.inl rfl
    · simp
    · simp only [List.mem_singleton, forall_eq, List.zip_cons_cons, List.zip_nil_right]
      exact ⟨by norm_num, Or.inr ⟨700, rfl, by norm_num, by norm_num⟩⟩
  · refine (C110_exact _ [500, 100] [30] (by simp) 100 (by norm_num) _).2 ?_
    rintro ⟨-, -, h⟩
    have := h _ List.mem_cons_self _ (by simp; rfl)
    norm_num [BelowTop] at this
    cases this

end Verif.Props
