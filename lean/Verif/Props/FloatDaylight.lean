import Verif.Lemmas.FloatDaylight
import Verif.Props.Evap
import Verif.Props.FloatRelhumIce

/-
Property C178: the hours of daylight computed in single or double precision.
-/

set_option linter.unusedSectionVars false
namespace Verif.Props
open Model XF Lemmas Tensor

theorem daylightPointFl_exact : daylightPointFl Rounding.exact Rounding.exact XF.sin XF.tan XF.arccos = daylightPoint := by
  funext d l
  unfold daylightPointFl daylightPoint solarDecFl solarDec
  simp only [roundXF_exact]
  rfl

/-- If nothing is rounded, this is the function of C51. -/
theorem C178_exact (jday lat : Tensor (XF ℝ)) : maxDaylightFl Rounding.exact Rounding.exact XF.sin XF.tan XF.arccos jday lat = maxDaylight jday lat := by
  unfold maxDaylightFl maxDaylight
  rw [daylightPointFl_exact]
  rfl

variable {D R : Rounding ℝ} {u η η' : ℝ} {sn tn ac : XF ℝ → XF ℝ}

theorem maxDaylightFl_layout (D R : Rounding ℝ) (sn tn ac : XF ℝ → XF ℝ) {jday lat : Tensor (XF ℝ)} {n m : ℕ} (hn : jday.shape = [n]) (hm : lat.shape = [m]) :
    ∃ r, maxDaylightFl D R sn tn ac jday lat = .ok (daylightWarning lat.values, r) ∧ r.shape = [n, m] ∧
      ∀ i j, i < n → j < m → r.get [i, j] = daylightPointFl D R sn tn ac (jday.get [i]) (lat.get [j]) := by
  unfold maxDaylightFl
  rw [if_neg (by simp [hn, hm])]
  refine ⟨_, rfl, ?_, ?_⟩
  · simp [values_vec jday n hn, values_vec lat m hm]
  · intro i j hi hj
    simp [values_vec jday n hn, values_vec lat m hm, List.getD_eq_getElem?_getD, hi, hj]

theorem hours_size {x : ℝ} (h : |x| ≤ 0.9902) : 1.02 ≤ 24 / Real.pi * Real.arccos x ∧ 24 / Real.pi * Real.arccos x ≤ 22.98 := by
  have hpi := Real.pi_pos
  have hpi2 := Real.pi_lt_d6
  have key : ∀ y : ℝ, y ≤ 0.9902 → -1 ≤ y → 0.135 ≤ Real.arccos y := by
    intro y hy hy1
    have h1 := Real.one_sub_sq_div_two_le_cos (x := (0.135 : ℝ))
    have h2 : y ≤ Real.cos 0.135 := hy.trans (le_trans (by norm_num) h1)
    have h3 := Real.arccos_le_arccos h2
    rwa [Real.arccos_cos (by norm_num) (by have := Real.pi_gt_three; norm_num; linarith)] at h3
  obtain ⟨h1, h2⟩ := abs_le.mp h
  have a := key x h2 (by norm_num at h1 ⊢; linarith)
  have b := key (-x) (by linarith) (by norm_num at h2 ⊢; linarith)
  rw [Real.arccos_neg] at b
  rw [div_mul_eq_mul_div]
  norm_num at a b hpi2
  constructor
  · rw [le_div_iff₀ hpi]
    norm_num
    linarith
  · rw [div_le_iff₀ hpi]
    norm_num
    linarith

/-- **C178**. For days 0 to 366 and latitudes up to 66° the computed hours of daylight are a number between 1 and 23 within `5100 u` hours of the exact value, and
the warning is the same. -/
theorem C178_accuracy (PD : Precise D u η) (PR : Precise R u η') (A : TrigAccurate D u sn tn ac) (jday lat : Tensor (XF ℝ)) (d l : ℕ → ℝ) {n m : ℕ}
    (hn : jday.shape = [n]) (hm : lat.shape = [m]) (hd : ∀ i < n, jday.get [i] = fin (d i)) (hl : ∀ j < m, lat.get [j] = fin (l j)) :
    ∃ w r r', maxDaylight jday lat = .ok (w, r) ∧ maxDaylightFl D R sn tn ac jday lat = .ok (w, r') ∧ r'.shape = [n, m] ∧
      ∀ i j, i < n → j < m → 0 ≤ d i → d i ≤ 366 → |l j| ≤ 66 →
        ∃ x x', r.get [i, j] = fin x ∧ r'.get [i, j] = fin x' ∧ |x' - x| ≤ 5100 * u ∧ 1 ≤ x' ∧ x' ≤ 23 := by
  obtain ⟨r, a1, -, a3⟩ := maxDaylightFl_layout Rounding.exact Rounding.exact XF.sin XF.tan XF.arccos hn hm
  obtain ⟨r', b1, b2, b3⟩ := maxDaylightFl_layout D R sn tn ac hn hm
  rw [C178_exact] at a1
  refine ⟨_, r, r', a1, b1, b2, fun i j hi hj h0 h1 h2 => ?_⟩
  have hd' : |d i| ≤ 366 := by rw [abs_of_nonneg h0]; exact h1
  obtain ⟨x', k1, k2⟩ := daylight_close PD PR A hd' h2
  refine ⟨24 / Real.pi * Real.arccos (hourArg (d i) (l j)), x', ?_, ?_, k2, ?_, ?_⟩
  · rw [a3 i j hi hj, hd i hi, hl j hj, daylightPointFl_exact, daylightPoint_fin h2]
  · rw [b3 i j hi hj, hd i hi, hl j hj, k1]
  · have := (hours_size (hourArg_size (d := d i) h2)).1
    have hu6 := PD.u_le
    have := (abs_le.mp k2).1
    norm_num at *
    linarith
  · have := (hours_size (hourArg_size (d := d i) h2)).2
    have hu6 := PD.u_le
    have := (abs_le.mp k2).2
    norm_num at *
    linarith

/-- **C178**. On every day, the computed hours at opposite latitudes add up to 24 within `10200 u` hours. -/
theorem C178_hemispheres (PD : Precise D u η) (PR : Precise R u η') (A : TrigAccurate D u sn tn ac) (jday lat lat' : Tensor (XF ℝ)) (d l : ℕ → ℝ) {n m : ℕ}
    (hn : jday.shape = [n]) (hm : lat.shape = [m]) (hm' : lat'.shape = [m]) (hd : ∀ i < n, jday.get [i] = fin (d i)) (hl : ∀ j < m, lat.get [j] = fin (l j))
    (hl' : ∀ j < m, lat'.get [j] = fin (-l j)) :
    ∃ w w' r r', maxDaylightFl D R sn tn ac jday lat = .ok (w, r) ∧ maxDaylightFl D R sn tn ac jday lat' = .ok (w', r') ∧
      ∀ i j, i < n → j < m → 0 ≤ d i → d i ≤ 366 → |l j| ≤ 66 → ∃ x y, r.get [i, j] = fin x ∧ r'.get [i, j] = fin y ∧ |x + y - 24| ≤ 10200 * u := by
  obtain ⟨r, a1, -, a3⟩ := maxDaylightFl_layout D R sn tn ac hn hm
  obtain ⟨r', b1, b2, b3⟩ := maxDaylightFl_layout D R sn tn ac hn hm'
  refine ⟨_, _, r, r', a1, b1, fun i j hi hj h0 h1 h2 => ?_⟩
  have hd' : |d i| ≤ 366 := by rw [abs_of_nonneg h0]; exact h1
  obtain ⟨x, k1, k2⟩ := daylight_close PD PR A hd' h2
  obtain ⟨y, k3, k4⟩ := daylight_close PD PR A hd' (l := -l j) (by rw [abs_neg]; exact h2)
  refine ⟨x, y, ?_, ?_, ?_⟩
  · rw [a3 i j hi hj, hd i hi, hl j hj, k1]
  · rw [b3 i j hi hj, hd i hi, hl' j hj, k3]
  · rw [hourArg_neg, hours_neg] at k4
    have e : x + y - 24 = (x - 24 / Real.pi * Real.arccos (hourArg (d i) (l j))) + (y - (24 - 24 / Real.pi * Real.arccos (hourArg (d i) (l j)))) := by ring
    rw [e]
    refine (abs_add_le _ _).trans ?_
    linarith

/-! ### The hypotheses: the correctly rounded functions -/

noncomputable def roundedFun (D : Rounding ℝ) (f : ℝ → ℝ) : XF ℝ → XF ℝ
  | fin x => fin (D.fl (f x))
  | _ => nan

theorem rounded_trig (P : Precise D u η) : TrigAccurate D u (roundedFun D Real.sin) (roundedFun D Real.tan) (roundedFun D Real.arccos) := by
  have hη := P.eta_le
  have hu := P.acc.u_nonneg
  have hη' : η ≤ u := hη.trans (by norm_num; linarith)
  refine ⟨fun x _ _ => ⟨_, rfl, ?_⟩, fun x _ _ => ⟨_, rfl, ?_⟩, fun x _ _ => ⟨_, rfl, ?_⟩⟩
  · have h1 := P.acc.err (Real.sin x)
    have h2 := mul_le_mul_of_nonneg_left (Real.abs_sin_le_one x) hu
    linarith
  · have h1 := P.acc.err (Real.tan x)
    have h2 := mul_nonneg hu (abs_nonneg (Real.tan x))
    linarith
  · have h1 := P.acc.err (Real.arccos x)
    rw [abs_of_nonneg (Real.arccos_nonneg x)] at h1
    have h2 := mul_nonneg hu (Real.arccos_nonneg x)
    linarith

/-- lists (single precision): the solstice at 52° and on the equator; the error is below 0.0004 hours -/
example : ∃ w r r', maxDaylight ⟨[1], fun _ => fin 172⟩ ⟨[2], fun i => fin (if i = [0] then 52 else 0)⟩ = .ok (w, r) ∧
    maxDaylightFl float32 float64 (roundedFun float32 Real.sin) (roundedFun float32 Real.tan) (roundedFun float32 Real.arccos) ⟨[1], fun _ => fin 172⟩
      ⟨[2], fun i => fin (if i = [0] then 52 else 0)⟩ = .ok (w, r') ∧
    ∃ x x', r.get [0, 0] = fin x ∧ r'.get [0, 0] = fin x' ∧ |x' - x| ≤ 0.0004 := by
  obtain ⟨w, r, r', h1, h2, -, h3⟩ := C178_accuracy precise_float32 (Precise.coarser precise_float64 (two_zpow_mono (by norm_num)) (by norm_num [zpow_neg]))
    (rounded_trig precise_float32) ⟨[1], fun _ => fin 172⟩ ⟨[2], fun i => fin (if i = [0] then 52 else 0)⟩ (fun _ => 172) (fun j => if j = 0 then 52 else 0)
    rfl rfl (fun _ _ => rfl) (fun j _ => by by_cases h : j = 0 <;> simp [h])
  obtain ⟨x, x', k1, k2, k3, -⟩ := h3 0 0 (by norm_num) (by norm_num) (by norm_num) (by norm_num) (by norm_num)
  exact ⟨w, r, r', h1, h2, x, x', k1, k2, k3.trans (by norm_num [zpow_neg])⟩

example : ∃ w w' r r', maxDaylightFl float64 float64 (roundedFun float64 Real.sin) (roundedFun float64 Real.tan) (roundedFun float64 Real.arccos)
      ⟨[1], fun _ => fin 30⟩ ⟨[1], fun _ => fin 60⟩ = .ok (w, r) ∧
    maxDaylightFl float64 float64 (roundedFun float64 Real.sin) (roundedFun float64 Real.tan) (roundedFun float64 Real.arccos)
      ⟨[1], fun _ => fin 30⟩ ⟨[1], fun _ => fin (-60)⟩ = .ok (w', r') ∧ ∃ x y, r.get [0, 0] = fin x ∧ r'.get [0, 0] = fin y ∧ |x + y - 24| ≤ 1e-11 := by
  obtain ⟨w, w', r, r', h1, h2, h3⟩ := C178_hemispheres precise_float64 precise_float64 (rounded_trig precise_float64) ⟨[1], fun _ => fin 30⟩
    ⟨[1], fun _ => fin 60⟩ ⟨[1], fun _ => fin (-60)⟩ (fun _ => 30) (fun _ => 60) rfl rfl rfl (fun _ _ => rfl) (fun _ _ => rfl) (fun _ _ => rfl)
  obtain ⟨x, y, k1, k2, k3⟩ := h3 0 0 (by norm_num) (by norm_num) (by norm_num) (by norm_num) (by norm_num)
  exact ⟨w, w', r, r', h1, h2, x, y, k1, k2, k3.trans (by norm_num [zpow_neg])⟩

end Verif.Props
