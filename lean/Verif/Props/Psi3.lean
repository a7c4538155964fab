import Verif.Props.Psi2

namespace Verif.Props
open Model Spec Lemmas
set_option linter.unusedSectionVars false

/-! ### C57 and C58 for whole calls of `zonal_meridional_psi` -/

theorem map_mapM {α β γ : Type _} (f : α → Except PyErr β) (g : β → γ) (l : List α) :
    l.mapM (fun x => (f x).map g) = (l.mapM f).map (List.map g) := by
  induction l with
  | nil => rfl
  | cons x xs ih =>
    rw [List.mapM_cons, List.mapM_cons, ih]
    cases hx : f x with
    | error e => rfl
    | ok y =>
      cases hxs : xs.mapM f with
      | error e => rfl
      | ok ys => rfl

theorem mapM_congr' {α β : Type _} (f g : α → Except PyErr β) (l : List α) (h : ∀ x ∈ l, f x = g x) : l.mapM f = l.mapM g := by
  induction l with
  | nil => rfl
  | cons x xs ih =>
    rw [List.mapM_cons, List.mapM_cons, h x (by simp), ih (fun y hy => h y (by simp [hy]))]

/-- reverse the wind columns -/
def flipCol (c : XF ℝ × List (XF ℝ)) : XF ℝ × List (XF ℝ) := (c.1, c.2.reverse)

theorem flip_any (cols : List (List (XF ℝ × List (XF ℝ)))) :
    (cols.map (List.map flipCol)).any (fun row => row.any (fun c => c.1.isNaN)) = cols.any (fun row => row.any (fun c => c.1.isNaN)) := by
  simp [List.any_map, Function.comp_def, flipCol]

/-- C57, order, for calls: with the levels and every wind column listed from the surface upwards, the call returns the same values in that order, or
the same error. -/
theorem C57_call_order_independent (rawPs : List (XF ℝ)) (n : ℕ) (hn : 2 ≤ n) (lev : ℕ → ℝ) (hinc : Increasing n lev) (h0 : 0 ≤ lev 0) (lats : List ℝ)
    (cols : List (List (XF ℝ × List (XF ℝ)))) (hc : ∀ row ∈ cols, ∀ c ∈ row, c.2.length = n) :
    zonalPsi rawPs (column n lev).reverse lats (cols.map (List.map flipCol))
      = (zonalPsi rawPs (column n lev) lats cols).map (List.map (List.map List.reverse)) := by
  unfold zonalPsi
  rw [flip_any]
  by_cases h1 : cols.any (fun row => row.any (fun c => c.1.isNaN)) = true
  · rw [if_pos h1, if_pos h1]; rfl
  rw [if_neg h1, if_neg h1]
  by_cases h2 : rawPs.any (fun p => XF.le p (.fin 0)) = true
  · rw [if_pos h2, if_pos h2]; rfl
  rw [if_neg h2, if_neg h2, ← map_mapM, List.mapM_map]
  apply mapM_congr'
  intro row hrow
  simp only [Function.comp_apply]
  rw [← map_mapM]
  have hz : (row.map flipCol).zip lats = (row.zip lats).map (fun e => (flipCol e.1, e.2)) := by
    rw [List.zip_map_left]; rfl
  rw [hz, List.mapM_map]
  apply mapM_congr'
  intro e he
  have hm : e.1 ∈ row := (List.of_mem_zip he).1
  have hl := hc row hrow e.1 hm
  simp only [Function.comp_apply, flipCol]
  have hv : e.1.2 = column n (fun k => e.1.2.getD k .nan) := by
    apply List.ext_getElem?
    intro k
    by_cases hk : k < n
    · rw [column_getElem? _ _ _ hk, List.getElem?_eq_getElem (by omega)]
      simp [List.getD, List.getElem?_eq_getElem (show k < e.1.2.length by omega)]
    · rw [List.getElem?_eq_none (by omega), List.getElem?_eq_none (by simp [column]; omega)]
  rw [hv]
  exact C57_order_independent (psiFactor e.2) n hn lev hinc h0 _ e.1.1

/-- C57, below the surface, for calls: winds at levels that are at or below the zonal mean surface pressure of their column (no layer thickness) do not
influence the result. -/
theorem C57_call_below_surface (rawPs : List (XF ℝ)) (plev lats : List ℝ) (T L n : ℕ) (ps : ℕ → ℕ → XF ℝ) (v v' : ℕ → ℕ → ℕ → XF ℝ)
    (h : ∀ t < T, ∀ l < L, ∀ d, deltaPressure plev (ps t l) none = .ok d → ∀ k < n, d[k]? ≠ some .nan → v t l k = v' t l k) :
    zonalPsi rawPs plev lats (gridOf T L (fun t l => (ps t l, column n (v t l))))
      = zonalPsi rawPs plev lats (gridOf T L (fun t l => (ps t l, column n (v' t l)))) := by
  have hany : ∀ w : ℕ → ℕ → ℕ → XF ℝ, (gridOf T L (fun t l => (ps t l, column n (w t l)))).any (fun row => row.any (fun c => c.1.isNaN))
      = (List.range T).any (fun t => (List.range L).any (fun l => (ps t l).isNaN)) := by
    intro w
    simp [gridOf, column, List.any_map, Function.comp_def]
  unfold zonalPsi
  rw [hany v, hany v']
  split_ifs
  · rfl
  · rfl
  · unfold gridOf
    rw [column, column, List.mapM_map, List.mapM_map]
    apply mapM_congr'
    intro t ht
    have ht := List.mem_range.mp ht
    simp only [Function.comp_apply]
    rw [column, column, List.zip_map_left, List.zip_map_left, List.mapM_map, List.mapM_map]
    apply mapM_congr'
    intro e he
    have hl := List.mem_range.mp (List.of_mem_zip he).1
    simp only [Function.comp_apply, Prod.map]
    apply C57_below_surface
    · simp [column]
    · intro d hd k hk
      by_cases hkn : k < n
      · rw [column_getElem? _ _ _ hkn, column_getElem? _ _ _ hkn, h t ht e.1 hl d hd k hkn hk]
      · rw [List.getElem?_eq_none (by simp [column]; omega), List.getElem?_eq_none (by simp [column]; omega)]

/-- C57, values, for calls: level `k` of the column at time `t` and latitude `l` holds `2 π a cos(lat) / g` (with the cosine of the number of degrees,
see C58) times the sum over the levels from the top of the atmosphere to `k` of wind times layer thickness. -/
theorem C57_call_values (rawPs : List (XF ℝ)) (T L n : ℕ) (hn : 2 ≤ n) (lev lat : ℕ → ℝ) (hinc : Increasing n lev) (h0 : 0 ≤ lev 0)
    (ps : ℕ → ℕ → ℝ) (v : ℕ → ℕ → ℕ → XF ℝ) (hraw : ∀ p ∈ rawPs, p = .nan ∨ ∃ x : ℝ, 0 < x ∧ p = .fin x)
    (hv : ∀ t l j, NoInf (v t l j)) (hps : ∀ t < T, ∀ l < L, (lev 0 + lev 1) / 2 < ps t l) :
    zonalPsi rawPs (column n lev) (column L lat) (gridOf T L (fun t l => (.fin (ps t l), column n (v t l))))
      = .ok (gridOf T L (fun t l => column n (fun k => .fin (2 * Real.pi * 6378137 * Real.cos (lat l) / 9.80665 *
          ∑ j ∈ Finset.range (k + 1), layerFlux (v t l j) (thickness n lev (ps t l) (lev 0) j))))) :=
  C110_accepts_partial rawPs T L n hn lev lat hinc h0 ps v hraw hv hps

/-- C58, for calls: the whole result is the one with the cosine of the angle exactly when at every latitude either the cosine of the number of degrees
happens to equal the cosine of the angle or the column is zero throughout. -/
theorem C58_call_partial (rawPs : List (XF ℝ)) (T L n : ℕ) (hn : 2 ≤ n) (lev lat : ℕ → ℝ) (hinc : Increasing n lev) (h0 : 0 ≤ lev 0)
    (ps : ℕ → ℕ → ℝ) (v : ℕ → ℕ → ℕ → XF ℝ) (hraw : ∀ p ∈ rawPs, p = .nan ∨ ∃ x : ℝ, 0 < x ∧ p = .fin x)
    (hv : ∀ t l j, NoInf (v t l j)) (hps : ∀ t < T, ∀ l < L, (lev 0 + lev 1) / 2 < ps t l) :
    zonalPsi rawPs (column n lev) (column L lat) (gridOf T L (fun t l => (.fin (ps t l), column n (v t l))))
      = .ok (gridOf T L (fun t l => column n (fun k => .fin (2 * Real.pi * 6378137 * Real.cos (lat l * (Real.pi / 180)) / 9.80665 *
          ∑ j ∈ Finset.range (k + 1), layerFlux (v t l j) (thickness n lev (ps t l) (lev 0) j))))) ↔
    ∀ t < T, ∀ l < L, Real.cos (lat l) = Real.cos (lat l * (Real.pi / 180)) ∨
      ∀ k < n, ∑ j ∈ Finset.range (k + 1), layerFlux (v t l j) (thickness n lev (ps t l) (lev 0) j) = 0 := by
  rw [C57_call_values rawPs T L n hn lev lat hinc h0 ps v hraw hv hps]
  constructor
  · intro h t ht l hl
    by_contra hne
    rw [not_or] at hne
    obtain ⟨h1, h2⟩ := hne
    push Not at h2
    obtain ⟨k, hk, h2⟩ := h2
    injection h with h
    have e := congrArg (fun r => ((r.getD t []).getD l []).getD k XF.nan) h
    simp only [gridOf, column] at e
    simp [ht, hl, hk] at e
    rcases e with e | e
    · apply h1
      have hp := Real.pi_pos
      field_simp at e
      rw [e]
      congr 1
      ring
    · exact h2 e
  · intro h
    congr 1
    unfold gridOf
    apply List.map_congr_left
    intro t ht
    apply List.map_congr_left
    intro l hl
    rcases h t (List.mem_range.mp ht) l (List.mem_range.mp hl) with e | e
    · simp only [e]
    · apply List.map_congr_left
      intro k hk
      rw [e k (List.mem_range.mp hk), mul_zero, mul_zero]

/-- two levels, one time and one latitude, listed in both orders -/
example : zonalPsi [.fin 90000] [50000, 10000] [30] [[(.fin 90000, [.fin 2, .fin 1])]]
    = (zonalPsi [.fin 90000] [10000, 50000] [30] [[(.fin 90000, [.fin 1, .fin 2])]]).map (List.map (List.map List.reverse)) := by
  have h := C57_call_order_independent [.fin 90000] 2 le_rfl (fun k => 10000 + 40000 * (k : ℝ)) (by
    intro i j hij _
    have : (i : ℝ) < j := by exact_mod_cast hij
    simp only
    linarith) (by norm_num) [30] [[(.fin 90000, [.fin 1, .fin 2])]] (by simp)
  norm_num [column, List.range_succ, flipCol] at h
  exact h

end Verif.Props
