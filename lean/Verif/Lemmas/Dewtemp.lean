import Verif.Model.Humidity

set_option linter.unusedSectionVars false
namespace Verif.Lemmas
open Model XF
noncomputable section

/-- the latent heat term over the gas constant, as a real function -/
def lhvR (T : ℝ) : ℝ := (597.3 - 0.57 * (T - 273)) / (461.5 / (1000 * 4.186))

theorem dewLhv_fin (T : ℝ) : dewLhv (fin T) = fin (lhvR T) := by
  unfold dewLhv lhvR
  simp only [fin_mul, fin_sub]
  rw [fin_div _ _ (by norm_num), fin_div _ _ (by norm_num)]

theorem lhvR_pos {T : ℝ} (h : T ≤ 1320) : 0 < lhvR T := by
  unfold lhvR
  apply div_pos <;> norm_num
  linarith

/-- the dew point as a real function -/
def dewR (T rh : ℝ) : ℝ := T * lhvR T / (lhvR T - T * Real.log (rh * 0.01))

theorem dew_denominator {T rh : ℝ} (hT : 0 < T) (hT2 : T ≤ 1320) (h0 : 0 < rh) (h1 : rh ≤ 100) :
    lhvR T ≤ lhvR T - T * Real.log (rh * 0.01) := by
  have : Real.log (rh * 0.01) ≤ 0 := Real.log_nonpos (by positivity) (by linarith)
  nlinarith

theorem dewtempPoint_fin {T rh : ℝ} (hT : 0 < T) (hT2 : T ≤ 1320) (h0 : 0 < rh) (h1 : rh ≤ 100) :
    dewtempPoint (fin T) (fin rh) = fin (dewR T rh) := by
  have hd := dew_denominator hT hT2 h0 h1
  have hl := lhvR_pos hT2
  unfold dewtempPoint dewR
  simp only [dewLhv_fin, fin_mul]
  rw [log_fin (by positivity)]
  simp only [fin_mul, fin_sub]
  rw [fin_div _ _ (by linarith)]

theorem dewR_pos {T rh : ℝ} (hT : 0 < T) (hT2 : T ≤ 1320) (h0 : 0 < rh) (h1 : rh ≤ 100) : 0 < dewR T rh := by
  have hd := dew_denominator hT hT2 h0 h1
  have hl := lhvR_pos hT2
  unfold dewR
  apply div_pos (by positivity) (by linarith)

theorem dewR_mono {T rh rh' : ℝ} (hT : 0 < T) (hT2 : T ≤ 1320) (h0 : 0 < rh) (h : rh < rh') (h1 : rh' ≤ 100) :
    dewR T rh < dewR T rh' := by
  have hd := dew_denominator hT hT2 h0 (by linarith)
  have hd' := dew_denominator hT hT2 (h0.trans h) h1
  have hl := lhvR_pos hT2
  unfold dewR
  apply div_lt_div_of_pos_left (by positivity) (by linarith)
  have : Real.log (rh * 0.01) < Real.log (rh' * 0.01) := Real.log_lt_log (by positivity) (by linarith)
  nlinarith

theorem dewR_hundred {T : ℝ} (hT2 : T ≤ 1320) : dewR T 100 = T := by
  have hl := lhvR_pos hT2
  unfold dewR
  norm_num
  field_simp

/-- reciprocal form: `1/td = 1/T - log(rh/100) / lhv` -/
theorem inv_dewR {T rh : ℝ} (hT : 0 < T) (hT2 : T ≤ 1320) :
    1 / dewR T rh = 1 / T + (-Real.log (rh * 0.01)) / lhvR T := by
  have hl := lhvR_pos hT2
  unfold dewR
  rw [one_div_div]
  field_simp
  ring

theorem dewR_mono_temp {T T' rh : ℝ} (hT : 0 < T) (hTT : T < T') (hT' : T' ≤ 373) (h0 : 0.001 ≤ rh) (h1 : rh ≤ 100) :
    dewR T rh < dewR T' rh := by
  have hrh : 0 < rh := by linarith
  have hp := dewR_pos hT (by linarith) hrh h1
  have hp' := dewR_pos (hT.trans hTT) (by linarith) hrh h1
  apply lt_of_one_div_lt_one_div hp'
  rw [inv_dewR hT (by linarith), inv_dewR (hT.trans hTT) (by linarith)]
  set x := -Real.log (rh * 0.01) with hx
  have hx0 : 0 ≤ x := by
    have : Real.log (rh * 0.01) ≤ 0 := Real.log_nonpos (by positivity) (by linarith)
    linarith
  have hx1 : x ≤ 20 := by
    have h2 : Real.log (rh * 0.01) ≥ Real.log (0.00001) := Real.log_le_log (by norm_num) (by linarith)
    have h3 : Real.log (0.00001 : ℝ) = - (5 * Real.log 10) := by
      rw [show (0.00001 : ℝ) = (10 ^ 5)⁻¹ by norm_num, Real.log_inv, Real.log_pow]; norm_num
    have h4 : Real.log (10:ℝ) ≤ 4 := by
      have := Real.log_le_log (by norm_num : (0:ℝ) < 10) (by norm_num : (10:ℝ) ≤ 2 ^ 4)
      rw [Real.log_pow] at this
      have h5 := Real.log_le_sub_one_of_pos (by norm_num : (0:ℝ) < 2)
      norm_num at this h5 ⊢
      linarith
    linarith
  have hl := lhvR_pos (T := T) (by linarith)
  have hl' := lhvR_pos (T := T') (by linarith)
  have hge : 4000 ≤ lhvR T' := by
    unfold lhvR; norm_num; linarith
  have hle : lhvR T' ≤ lhvR T := by
    unfold lhvR; norm_num; linarith
  have e1 : lhvR T - lhvR T' = (0.57 / (461.5 / (1000 * 4.186))) * (T' - T) := by
    unfold lhvR; norm_num; ring
  have key : x / lhvR T' - x / lhvR T < 1 / T - 1 / T' := by
    have hT0 : 0 < T' := hT.trans hTT
    rw [div_sub_div _ _ hl'.ne' hl.ne', div_sub_div _ _ hT.ne' hT0.ne', div_lt_div_iff₀ (by positivity) (by positivity)]
    have : x * lhvR T - lhvR T' * x = x * (0.57 / (461.5 / (1000 * 4.186))) * (T' - T) := by
      rw [mul_assoc, ← e1]; ring
    rw [this]
    have hd : 0 < T' - T := by linarith
    have a1 : x * (0.57 / (461.5 / (1000 * 4.186))) ≤ 110 := by norm_num; linarith
    have a2 : T * T' < 373 * 373 := by nlinarith
    have a3 : 4000 * 4000 ≤ lhvR T' * lhvR T := by nlinarith
    have a4 : 0 ≤ x * (0.57 / (461.5 / (1000 * 4.186))) := by positivity
    have a5 : x * (0.57 / (461.5 / (1000 * 4.186))) * (T * T') < lhvR T' * lhvR T := by
      have : 0 < T * T' := by positivity
      nlinarith
    nlinarith
  linarith

end
end Verif.Lemmas
