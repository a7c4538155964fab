import Verif.Lemmas.Psi
import Verif.Props.DeltaPressure
import Mathlib.Analysis.SpecialFunctions.Trigonometric.Basic
import Mathlib.Analysis.Real.Pi.Bounds

/-
Properties C57, C58: the integral of `zonal_meridional_psi` and its latitude factor.
-/

set_option linter.unusedSectionVars false
namespace Verif.Props
open Model Spec Lemmas
variable {K : Type _} [Field K] [LinearOrder K] [IsStrictOrderedRing K]

/-- mass-weighted wind of one layer; a missing wind or thickness contributes nothing -/
def layerFlux (v d : XF K) : K :=
  match v, d with
  | .fin x, .fin y => x * y
  | _, _ => 0

/-- neither infinite -/
def NoInf (x : XF K) : Prop := x ≠ .pinf ∧ x ≠ .ninf

theorem finOrZero_mul (v d : XF K) (hv : NoInf v) (hd : NoInf d) :
    finOrZero (v * d) = layerFlux v d ∧ NoInf (v * d) := by
  obtain ⟨h1, h2⟩ := hv
  obtain ⟨h3, h4⟩ := hd
  cases v <;> cases d <;> simp_all [finOrZero, layerFlux, NoInf]

/-- C57, the integral. For a column of `n ≥ 2` levels listed from the top (`lev 0` is less than the last), any winds
(missing values allowed) and the layer thicknesses `d` that `delta_pressure` returns: entry `k` is the factor times the sum
of wind times thickness over level `k` and all levels listed before it. -/
theorem C57_integral (c : K) (n : ℕ) (hn : 2 ≤ n) (lev : ℕ → K) (hlev : lev 0 < lev (n - 1)) (v d : ℕ → XF K)
    (hv : ∀ j < n, NoInf (v j)) (hd : ∀ j < n, NoInf (d j)) (ps : XF K)
    (hdp : deltaPressure (column n lev) ps none = .ok (column n d)) :
    psiColumn c (column n lev) (column n v) ps
      = .ok (column n (fun k => .fin (c * ∑ j ∈ Finset.range (k + 1), layerFlux (v j) (d j)))) := by
  rw [psiColumn_down c n (by omega) lev hlev, hdp]
  simp only [Except.map]
  congr 1
  have hz : List.zipWith (· * ·) (column n v) (column n d) = column n (fun k => v k * d k) := by
    simp [column, List.zipWith_map, List.zipWith_self]
  rw [hz]
  apply List.ext_getElem?
  intro k
  by_cases hk : k < n
  · rw [List.getElem?_map, nanCumsum_getElem? _ _ _ _ (by simpa [column] using hk), column_getElem? _ _ _ hk]
    · simp only [Option.map_some, XF.fin_mul, zero_add]
      congr 2
      rw [mul_comm]
      congr 1
      have : (column n (fun k => v k * d k)).take (k + 1) = column (k + 1) (fun k => v k * d k) := by
        simp only [column, ← List.map_take, List.take_range]
        congr 2
        omega
      rw [this]
      simp only [column, List.map_map]
      rw [sum_range_list]
      refine Finset.sum_congr rfl (fun i hi => ?_)
      have : i < n := by simp at hi; omega
      exact (finOrZero_mul (v i) (d i) (hv i this) (hd i this)).1
    · intro x hx
      simp only [column, List.mem_map, List.mem_range] at hx
      obtain ⟨j, hj, rfl⟩ := hx
      exact (finOrZero_mul _ _ (hv j hj) (hd j hj)).2
  · rw [List.getElem?_eq_none (by simp [nanCumsum_length, column]; omega), List.getElem?_eq_none (by simp [column]; omega)]

/-- C57, with the layers written out: for a surface below the first interface the thicknesses are those of the
specification. -/
theorem C57_integral_layers (c : K) (n : ℕ) (hn : 2 ≤ n) (lev : ℕ → K) (hinc : Increasing n lev) (h0 : 0 ≤ lev 0)
    (v : ℕ → XF K) (hv : ∀ j < n, NoInf (v j)) (ps : K) (hps : (lev 0 + lev 1) / 2 < ps) :
    psiColumn c (column n lev) (column n v) (.fin ps)
      = .ok (column n (fun k => .fin (c * ∑ j ∈ Finset.range (k + 1), layerFlux (v j) (thickness n lev ps (lev 0) j)))) := by
  refine C57_integral c n hn lev (hinc 0 (n - 1) (by omega) (by omega)) v (thickness n lev ps (lev 0)) hv ?_ _ ?_
  · intro j _
    unfold thickness NoInf
    split <;> simp
  · exact deltaPressure_incr n hn lev hinc ps none h0 (le_refl _) hps

/-- C57, order. Listing the levels (and the winds) from the surface upwards gives the same values in that order; errors
are the same too. -/
theorem C57_order_independent (c : K) (n : ℕ) (hn : 2 ≤ n) (lev : ℕ → K) (hinc : Increasing n lev) (h0 : 0 ≤ lev 0)
    (v : ℕ → XF K) (ps : XF K) :
    psiColumn c (column n lev).reverse (column n v).reverse ps
      = (psiColumn c (column n lev) (column n v) ps).map List.reverse := by
  have h := hinc 0 (n - 1) (by omega) (by omega)
  rw [psiColumn_down c n (by omega) lev h, column_reverse n lev, psiColumn_up c n (by omega) _ (by simpa using h.le),
    ← column_reverse n lev, deltaPressure_reverse n hn lev hinc]
  cases hd : deltaPressure (column n lev) ps none with
  | error e => rfl
  | ok d =>
    simp only [Except.map]
    have hlen : d.length = n := by
      unfold deltaPressure at hd
      rw [resolveTop_incr n (by omega) lev hinc none (le_refl _)] at hd
      have := deltaPressure1D_length (column n lev) (by simpa [column] using hn) (fun x hx => by
        simp only [column, List.mem_map, List.mem_range] at hx
        obtain ⟨i, hi, rfl⟩ := hx
        rcases Nat.eq_zero_or_pos i with rfl | hi'
        · exact h0
        · exact h0.trans (hinc 0 i hi' hi).le) ps _ d hd
      simpa [column] using this
    congr 1
    rw [zipWith_reverse' _ _ _ (by simp [column, hlen]), List.reverse_reverse, List.map_reverse]

/-- C57, below the surface. Winds at levels without a thickness (at or below the surface) do not matter. -/
theorem C57_below_surface (c : K) (plev : List K) (v v' : List (XF K)) (ps : XF K) (hlen : v.length = v'.length)
    (h : ∀ d, deltaPressure plev ps none = .ok d → ∀ k : ℕ, d[k]? ≠ some XF.nan → v[k]? = v'[k]?) :
    psiColumn c plev v ps = psiColumn c plev v' ps := by
  unfold psiColumn
  cases hd : deltaPressure plev ps none with
  | error e => rfl
  | ok d =>
    have hz : List.zipWith (· * ·) v d = List.zipWith (· * ·) v' d := by
      apply List.ext_getElem?
      intro k
      simp only [List.getElem?_zipWith]
      by_cases hk : d[k]? = some .nan
      · rw [hk]
        by_cases hl : k < v.length
        · rw [List.getElem?_eq_getElem hl, List.getElem?_eq_getElem (hlen ▸ hl)]
          simp
        · rw [List.getElem?_eq_none (by omega), List.getElem?_eq_none (by omega)]
      · rw [h d hd k hk]
    simp only [bind, Except.bind, hz]

/-- concrete instance: three levels 100, 500, 900 with the surface at 600, winds 1, 2 and missing -/
example : psiColumn (3 : ℚ) (column 3 (fun k => 100 + 400 * (k : ℚ)))
    (column 3 (fun k => if k = 2 then .nan else .fin ((k : ℚ) + 1))) (.fin 650)
    = .ok [.fin 600, .fin 2700, .fin 2700] := by decide +kernel

example : psiColumn (3 : ℚ) (column 3 (fun k => 100 + 400 * (k : ℚ)))
    (column 3 (fun k => if k = 2 then .nan else .fin ((k : ℚ) + 1))) (.fin 650)
    = .ok (column 3 (fun k => .fin (3 * ∑ j ∈ Finset.range (k + 1),
        layerFlux (if j = 2 then .nan else .fin ((j : ℚ) + 1)) (thickness 3 (fun k => 100 + 400 * (k : ℚ)) 650 100 j)))) := by
  have := C57_integral_layers (3 : ℚ) 3 (by norm_num) (fun k => 100 + 400 * (k : ℚ))
    (fun i j hij _ => by simp only; have : (i : ℚ) < j := by exact_mod_cast hij
                         linarith) (by norm_num)
    (fun j => if j = 2 then .nan else .fin ((j : ℚ) + 1)) (fun j _ => by unfold NoInf; split <;> simp) 650 (by norm_num)
  simpa using this

/-! ### C58 the latitude factor -/

/-- the factor 2πa·cos(lat)/g with the latitude in degrees -/
noncomputable def latFactor (latDeg : ℝ) : ℝ := 2 * Real.pi * 6378137 * Real.cos (latDeg * (Real.pi / 180)) / 9.80665

/-- the streamfunction that would carry the right latitude factor -/
noncomputable def psiExpected (plev : List ℝ) (v : List (XF ℝ)) (ps : XF ℝ) (latDeg : ℝ) : Except PyErr (List (XF ℝ)) :=
  psiColumn (latFactor latDeg) plev v ps

theorem cos_ninety_neg : Real.cos 90 < 0 := by
  -- 90 = 29π - x with 0 < x < π/2
  have h1 := Real.pi_gt_d4
  have h2 := Real.pi_lt_d4
  have hx : Real.cos (90 : ℝ) = - Real.cos (90 - 29 * Real.pi) := by
    have : Real.cos ((90 - 29 * Real.pi) + Real.pi + (14 : ℕ) * (2 * Real.pi)) = Real.cos (90 - 29 * Real.pi + Real.pi) :=
      Real.cos_add_nat_mul_two_pi _ 14
    rw [Real.cos_add_pi] at this
    rw [← this]
    congr 1
    push_cast
    ring
  rw [hx]
  have : 0 < Real.cos (90 - 29 * Real.pi) := Real.cos_pos_of_mem_Ioo ⟨by linarith, by linarith⟩
  linarith

/-- one time, one latitude, two levels 100 and 500, surface at 600, winds 1 and 1 -/
theorem zonalPsi_example (lat : ℝ) :
    zonalPsi [.fin 600] [100, 500] [lat] [[(.fin 600, [.fin 1, .fin 1])]]
      = .ok [[[.fin (psiFactor lat * 200), .fin (psiFactor lat * 500)]]] := by
  have := C57_integral_layers (psiFactor lat) 2 (by norm_num) (fun k => 100 + 400 * (k : ℝ))
    (fun i j hij _ => by simp only; have : (i : ℝ) < j := by exact_mod_cast hij
                         linarith) (by norm_num)
    (fun _ => .fin 1) (fun j _ => by simp [NoInf]) 600 (by norm_num)
  simp only [column, List.range_succ, List.range_zero, List.map_append, List.map_cons, List.map_nil, List.nil_append,
    List.cons_append, Finset.sum_range_succ, Finset.sum_range_zero, thickness, upperIface, lowerIface] at this
  norm_num [layerFlux] at this
  simp [zonalPsi, List.mapM_cons, this, bind, Except.bind, pure, Except.pure, XF.isNaN]

/-- C58 is false: the cosine is taken of the latitude in degrees. At the pole the streamfunction does not vanish, it is
even negative for a uniformly northward wind, although it should be zero there. -/
theorem C58_counterexample :
    ∃ r : ℝ, zonalPsi [.fin 600] [100, 500] [90] [[(.fin 600, [.fin 1, .fin 1])]] = .ok [[[.fin (r * 200), .fin (r * 500)]]] ∧
      r < 0 ∧ latFactor 90 = 0 := by
  refine ⟨psiFactor 90, zonalPsi_example 90, ?_, ?_⟩
  · unfold psiFactor
    have := cos_ninety_neg
    have hp := Real.pi_pos
    have : 2 * Real.pi * 6378137 * Real.cos 90 < 0 := mul_neg_of_pos_of_neg (by positivity) this
    exact div_neg_of_neg_of_pos this (by norm_num)
  · unfold latFactor
    have : (90 : ℝ) * (Real.pi / 180) = Real.pi / 2 := by ring
    rw [this, Real.cos_pi_div_two]
    simp

/-- C58 for the latitudes where the claim does hold: the columns computed carry the right factor exactly when the cosine
of the number of degrees equals the cosine of the angle; in particular at the equator. -/
theorem C58_factor_partial (lat : ℝ) : psiFactor lat = latFactor lat ↔ Real.cos lat = Real.cos (lat * (Real.pi / 180)) := by
  unfold psiFactor latFactor
  have hp := Real.pi_pos
  rw [div_left_inj' (by norm_num), mul_right_inj' (by positivity)]

/-- C58 at the equator: each column is the expected one. -/
theorem C58_equator_partial (rawPs : List (XF ℝ)) (plev : List ℝ) (row : List (XF ℝ × List (XF ℝ)))
    (h1 : ∀ c ∈ row, c.1 ≠ .nan) (h2 : ∀ p ∈ rawPs, XF.le p (.fin 0) = false) :
    zonalPsi rawPs plev (List.replicate row.length 0) [row]
      = (row.mapM (fun c => psiExpected plev c.2 c.1 0)).map (fun r => [r]) := by
  have e0 : psiFactor 0 = latFactor 0 := (C58_factor_partial 0).mpr (by simp)
  have hz : row.zip (List.replicate row.length (0:ℝ)) = row.map (fun c => (c, (0:ℝ))) := by
    apply List.ext_getElem?
    intro i
    by_cases hi : i < row.length
    · simp [hi, List.getElem?_zip_eq_some]
    · simp [hi]
  have a1 : ([row].any (fun row => row.any (fun c => c.1.isNaN))) = false := by
    simp only [List.any_cons, List.any_nil, Bool.or_false, List.any_eq_false]
    intro c hc
    rw [Bool.not_eq_true, ← Bool.not_eq_true, XF.isNaN_iff]
    exact h1 c hc
  have a2 : (rawPs.any (fun p => XF.le p (.fin 0))) = false := by
    rw [List.any_eq_false]
    intro p hp
    simp [h2 p hp]
  unfold zonalPsi
  rw [a1, a2]
  simp only [Bool.false_eq_true, if_false, List.mapM_cons, List.mapM_nil, hz]
  have e : (row.map (fun c => (c, (0:ℝ)))).mapM (fun e => psiColumn (psiFactor e.2) plev e.1.2 e.1.1)
      = row.mapM (fun c => psiExpected plev c.2 c.1 0) := by
    rw [List.mapM_map]
    simp only [Function.comp_def, psiExpected, e0]
  rw [e]
  cases row.mapM (fun c => psiExpected plev c.2 c.1 0) <;> rfl

end Verif.Props
