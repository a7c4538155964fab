import Verif.Props.Psi

/-
Property C110: validation of the surface pressure in `zonal_meridional_psi` and the shape and values of accepted calls.
-/

set_option linter.unusedSectionVars false
namespace Verif.Props
open Model Spec Lemmas

/-- `f` values over a `T × L` grid as nested lists -/
def gridOf {α : Type _} (T L : ℕ) (f : ℕ → ℕ → α) : List (List α) := column T (fun t => column L (f t))

/-- **C110, rejected.** A zonal mean of the surface pressure that is NaN (a latitude outside the grid, or all-missing data), or a single
cell whose surface pressure is zero or negative, makes the call raise ValueError, whatever the rest of the data. -/
theorem C110_rejects (rawPs : List (XF ℝ)) (plev lats : List ℝ) (cols : List (List (XF ℝ × List (XF ℝ))))
    (h : (∃ row ∈ cols, ∃ c ∈ row, c.1 = .nan) ∨ (∃ p : ℝ, .fin p ∈ rawPs ∧ p ≤ 0) ∨ .ninf ∈ rawPs) :
    zonalPsi rawPs plev lats cols = .error .valueError := by
  unfold zonalPsi
  by_cases h1 : cols.any (fun row => row.any (fun c => c.1.isNaN)) = true
  · rw [if_pos h1]
  · rw [if_neg h1]
    have h2 : rawPs.any (fun p => XF.le p (.fin 0)) = true := by
      rcases h with ⟨row, hr, c, hc, hn⟩ | ⟨p, hp, hle⟩ | hp
      · exfalso
        apply h1
        rw [List.any_eq_true]
        exact ⟨row, hr, List.any_eq_true.mpr ⟨c, hc, by rw [hn]; rfl⟩⟩
      · exact List.any_eq_true.mpr ⟨_, hp, by simpa using hle⟩
      · exact List.any_eq_true.mpr ⟨_, hp, rfl⟩
    rw [if_pos h2]

theorem mapM_column {α β : Type _} (n : ℕ) (f : α → Except PyErr β) (g : ℕ → α) (r : ℕ → β)
    (h : ∀ k < n, f (g k) = .ok (r k)) : (column n g).mapM f = .ok (column n r) := by
  rw [mapM_ok_iff]
  unfold column
  rw [List.forall₂_map_left_iff, List.forall₂_map_right_iff, List.forall₂_same]
  intro k hk
  exact h k (List.mem_range.mp hk)

/-- **C110, accepted.** For `n ≥ 2` non-negative levels listed from the top, `T` times and `L` latitudes, cell pressures that are all
positive (or missing) and zonal means below the first layer interface, the call succeeds; entry `(t, l, k)` is the
latitude factor times the sum of wind times layer thickness from the top of the atmosphere down to level `k`. Missing: a zonal mean between the
first level and the first layer interface (`C110_counterexample`); `C110_exact` says when a call returns at all. -/
theorem C110_accepts_partial (rawPs : List (XF ℝ)) (T L n : ℕ) (hn : 2 ≤ n) (lev lat : ℕ → ℝ) (hinc : Increasing n lev) (h0 : 0 ≤ lev 0)
    (ps : ℕ → ℕ → ℝ) (v : ℕ → ℕ → ℕ → XF ℝ) (hraw : ∀ p ∈ rawPs, p = .nan ∨ ∃ x : ℝ, 0 < x ∧ p = .fin x)
    (hv : ∀ t l j, NoInf (v t l j)) (hps : ∀ t < T, ∀ l < L, (lev 0 + lev 1) / 2 < ps t l) :
    zonalPsi rawPs (column n lev) (column L lat) (gridOf T L (fun t l => (.fin (ps t l), column n (v t l))))
      = .ok (gridOf T L (fun t l => column n (fun k => .fin (psiFactor (lat l) *
          ∑ j ∈ Finset.range (k + 1), layerFlux (v t l j) (thickness n lev (ps t l) (lev 0) j))))) := by
  have h1 : ¬ ((gridOf T L (fun t l => (XF.fin (ps t l), column n (v t l)))).any (fun row => row.any (fun c => c.1.isNaN)) = true) := by
    intro h
    rw [List.any_eq_true] at h
    obtain ⟨row, hrow, h⟩ := h
    rw [List.any_eq_true] at h
    obtain ⟨c, hc, h⟩ := h
    simp only [gridOf, column, List.mem_map] at hrow
    obtain ⟨t, -, rfl⟩ := hrow
    simp only [List.mem_map] at hc
    obtain ⟨l, -, rfl⟩ := hc
    simp [XF.isNaN] at h
  have h2 : ¬ (rawPs.any (fun p => XF.le p (.fin 0)) = true) := by
    rw [List.any_eq_true]
    rintro ⟨p, hp, hle⟩
    rcases hraw p hp with rfl | ⟨x, hx, rfl⟩
    · cases hle
    · simp only [XF.le_fin, decide_eq_true_eq] at hle
      exact absurd hx (not_lt.mpr hle)
  unfold zonalPsi
  rw [if_neg h1, if_neg h2]
  refine mapM_column T _ _ _ (fun t ht => ?_)
  have hz : (column L (fun l => (XF.fin (ps t l), column n (v t l)))).zip (column L lat)
      = column L (fun l => ((XF.fin (ps t l), column n (v t l)), lat l)) := by
    simp [column, List.zip]
  simp only
  rw [hz]
  refine mapM_column L _ _ _ (fun l hl => ?_)
  exact C57_integral_layers _ n hn lev hinc h0 _ (fun j _ => hv t l j) _ (hps t ht l hl)

/-- two times, one latitude, three levels; cells 90000 and one missing -/
example : ∃ r, zonalPsi [.fin 90000, .nan] (column 3 (fun k => 10000 + 40000 * (k : ℝ))) (column 1 (fun _ => 30))
    (gridOf 2 1 (fun t _ => (.fin (90000 - 10000 * (t : ℝ)), column 3 (fun _ => .fin 1)))) = .ok r ∧ r.length = 2 := by
  refine ⟨_, C110_accepts_partial _ 2 1 3 (by norm_num) _ _ ?_ (by norm_num) (fun t _ => 90000 - 10000 * (t : ℝ)) (fun _ _ _ => .fin 1) ?_ ?_ ?_, ?_⟩
  · intro i j hij _
    have : (i : ℝ) < j := by exact_mod_cast hij
    simp only
    linarith
  · intro p hp
    simp only [List.mem_cons, List.not_mem_nil, or_false] at hp
    rcases hp with rfl | rfl
    · exact Or.inr ⟨90000, by norm_num, rfl⟩
    · exact Or.inl rfl
  · intro t l j; simp [NoInf]
  · intro t ht l _
    have : (t : ℝ) ≤ 1 := by exact_mod_cast Nat.lt_succ_iff.mp ht
    simp only [Nat.cast_zero, Nat.cast_one]
    linarith
  · simp [gridOf, column]

/-- one cell with surface pressure zero -/
example : zonalPsi [.fin 90000, .fin 0] [100, 500] [30] [[(.fin 45000, [.fin 1, .fin 1])]] = .error .valueError :=
  C110_rejects _ _ _ _ (Or.inr (Or.inl ⟨0, by simp, le_rfl⟩))

end Verif.Props
