import Verif.Model.Humidity
import Verif.Spec.Humidity

set_option linter.unusedSectionVars false
namespace Verif.Lemmas
open Model XF Spec
noncomputable section

theorem magnusIce_pos (c : ℝ) : 0 < magnusIce c := by unfold magnusIce; positivity
theorem tetensWater_pos (t : ℝ) : 0 < tetensWater t := by unfold tetensWater; positivity

theorem estIce_fin {t : ℝ} (h : 0 ≤ t) : estIce (fin t) = fin (magnusIce (t - 273.15)) := by
  unfold estIce magnusIce
  simp only [fin_sub, fin_mul, fin_add]
  rw [fin_div _ _ (by linarith)]
  rfl

theorem estWater_fin {t : ℝ} (h : 35.86 < t) : estWater (fin t) = fin (tetensWater t) := by
  unfold estWater tetensWater
  simp only [fin_sub, fin_mul]
  rw [fin_div _ _ (by linarith)]
  rfl

/-- closed form of the relative humidity, valid also when the saturation mixing ratio is infinite -/
theorem rh_of_est {e : ℝ} (he : 0 < e) (w p : ℝ) :
    fin 100 * (fin w / qst (fin e) (fin p)) = fin (100 * (w * (p * 0.01 - 0.378 * e) / (0.622 * e))) := by
  unfold qst
  simp only [fin_mul, fin_sub]
  by_cases hd : p * 0.01 - 0.378 * e = 0
  · rw [hd, fin_div_zero]
    have : signInf (0.622 * e) = XF.pinf := by unfold signInf; rw [if_pos (by positivity)]
    rw [this]
    show fin 100 * fin 0 = _
    simp
  · rw [fin_div _ _ hd, fin_div _ _ (by positivity), fin_mul]
    congr 1
    field_simp

theorem magnusIce_strictMono {c c' : ℝ} (h0 : -273.71 < c) (h : c < c') : magnusIce c < magnusIce c' := by
  unfold magnusIce
  apply mul_lt_mul_of_pos_left _ (by norm_num)
  apply Real.exp_lt_exp.mpr
  rw [div_lt_div_iff₀ (by linarith) (by linarith)]
  nlinarith

theorem tetensWater_strictMono {t t' : ℝ} (h0 : 35.86 < t) (h : t < t') : tetensWater t < tetensWater t' := by
  unfold tetensWater
  apply mul_lt_mul_of_pos_left _ (by norm_num)
  apply Real.exp_lt_exp.mpr
  rw [div_lt_div_iff₀ (by linarith) (by linarith)]
  nlinarith

theorem rh_est_anti {e e' w p : ℝ} (he : 0 < e) (h : e < e') (hw : 0 < w) (hp : 0 < p) :
    100 * (w * (p * 0.01 - 0.378 * e') / (0.622 * e')) < 100 * (w * (p * 0.01 - 0.378 * e) / (0.622 * e)) := by
  apply mul_lt_mul_of_pos_left _ (by norm_num)
  have he' := he.trans h
  rw [div_lt_div_iff₀ (by positivity) (by positivity)]
  have : 0 < w * p := by positivity
  nlinarith

theorem ice_le_water {t : ℝ} (h1 : 154.5 ≤ t) (h2 : t ≤ 273.15) : magnusIce (t - 273.15) ≤ tetensWater t := by
  unfold magnusIce tetensWater
  apply mul_le_mul_of_nonneg_left _ (by norm_num)
  apply Real.exp_le_exp.mpr
  rw [div_le_div_iff₀ (by linarith) (by linarith)]
  nlinarith

end
end Verif.Lemmas
