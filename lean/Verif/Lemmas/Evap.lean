import Verif.Model.Evap
import Mathlib.Analysis.SpecialFunctions.Trigonometric.Bounds
import Mathlib.Analysis.Real.Pi.Bounds
import Mathlib.Analysis.SpecialFunctions.ExpDeriv

set_option linter.unusedSectionVars false
namespace Verif.Lemmas
open Model XF
noncomputable section

/-! ### daylight -/

/-- solar declination as a real function -/
def decR (d : ℝ) : ℝ := 0.409 * Real.sin (2 * Real.pi / 365 * d - 1.39)

theorem decR_abs (d : ℝ) : |decR d| ≤ 0.409 := by
  unfold decR
  rw [abs_mul, abs_of_pos (by norm_num : (0:ℝ) < 0.409)]
  have := Real.abs_sin_le_one (2 * Real.pi / 365 * d - 1.39)
  nlinarith

theorem solarDec_fin (d : ℝ) : solarDec (fin d) = fin (decR d) := by
  unfold solarDec decR
  simp only [fin_mul, fin_sub, sin_fin]

theorem decR_bounds (d : ℝ) : -(Real.pi / 2) < decR d ∧ decR d < Real.pi / 2 := by
  have h := abs_le.mp (decR_abs d)
  have := Real.pi_gt_three
  constructor <;> linarith [h.1, h.2]

theorem cos_decR_pos (d : ℝ) : 0 < Real.cos (decR d) :=
  Real.cos_pos_of_mem_Ioo ⟨(decR_bounds d).1, (decR_bounds d).2⟩

/-- the argument of arccos as a real function -/
def hourArg (d l : ℝ) : ℝ := -Real.tan (l * (Real.pi / 180)) * Real.tan (decR d)

theorem daylightPoint_of_cos {d l : ℝ} (hc : Real.cos (l * (Real.pi / 180)) ≠ 0) :
    daylightPoint (fin d) (fin l) =
      if -1 ≤ hourArg d l ∧ hourArg d l ≤ 1 then fin (24 / Real.pi * Real.arccos (hourArg d l)) else nan := by
  unfold daylightPoint
  simp only [fin_mul, solarDec_fin]
  rw [tan_fin hc, tan_fin (cos_decR_pos d).ne']
  simp only [fin_neg, fin_mul]
  show fin (24 / Real.pi) * (if -1 ≤ hourArg d l ∧ hourArg d l ≤ 1 then fin (Real.arccos (hourArg d l)) else nan) = _
  split_ifs
  · rfl
  · rfl

theorem lat_bounds {l : ℝ} (h : |l| ≤ 66) : |l * (Real.pi / 180)| ≤ 66 * (Real.pi / 180) := by
  rw [abs_mul, abs_of_pos (by positivity : (0:ℝ) < Real.pi / 180)]
  exact mul_le_mul_of_nonneg_right h (by positivity)

theorem cos_lat_pos {l : ℝ} (h : |l| ≤ 66) : 0 < Real.cos (l * (Real.pi / 180)) := by
  have h' := abs_le.mp (lat_bounds h)
  have := Real.pi_pos
  exact Real.cos_pos_of_mem_Ioo ⟨by linarith [h'.1], by linarith [h'.2]⟩

theorem hourArg_bounds {d l : ℝ} (h : |l| ≤ 66) : -1 < hourArg d l ∧ hourArg d l < 1 := by
  have ha := abs_le.mp (lat_bounds h)
  have hb := abs_le.mp (decR_abs d)
  have hpi := Real.pi_gt_d2
  set a := l * (Real.pi / 180) with hadef
  set b := decR d with hbdef
  have c1 : 0 < Real.cos (a + b) := Real.cos_pos_of_mem_Ioo ⟨by linarith [ha.1, hb.1], by linarith [ha.2, hb.2]⟩
  have c2 : 0 < Real.cos (a - b) := Real.cos_pos_of_mem_Ioo ⟨by linarith [ha.1, hb.2], by linarith [ha.2, hb.1]⟩
  rw [Real.cos_add] at c1
  rw [Real.cos_sub] at c2
  have ca : 0 < Real.cos a := cos_lat_pos h
  have cb : 0 < Real.cos b := cos_decR_pos d
  have e : hourArg d l = -(Real.sin a * Real.sin b) / (Real.cos a * Real.cos b) := by
    unfold hourArg
    rw [← hadef, ← hbdef, Real.tan_eq_sin_div_cos, Real.tan_eq_sin_div_cos]
    field_simp
  rw [e]
  have cc : 0 < Real.cos a * Real.cos b := by positivity
  constructor
  · rw [lt_div_iff₀ cc]; linarith
  · rw [div_lt_iff₀ cc]; linarith

theorem daylightPoint_fin {d l : ℝ} (h : |l| ≤ 66) :
    daylightPoint (fin d) (fin l) = fin (24 / Real.pi * Real.arccos (hourArg d l)) := by
  have hb := hourArg_bounds (d := d) h
  rw [daylightPoint_of_cos (cos_lat_pos h).ne', if_pos ⟨hb.1.le, hb.2.le⟩]

theorem arccos_hours_bounds (x : ℝ) : 0 ≤ 24 / Real.pi * Real.arccos x ∧ 24 / Real.pi * Real.arccos x ≤ 24 := by
  have hpi := Real.pi_pos
  have h0 := Real.arccos_nonneg x
  have h1 := Real.arccos_le_pi x
  constructor
  · positivity
  · rw [div_mul_eq_mul_div, div_le_iff₀ hpi]; nlinarith

theorem hourArg_neg (d l : ℝ) : hourArg d (-l) = -hourArg d l := by
  unfold hourArg
  rw [neg_mul l, Real.tan_neg]; ring

theorem hours_neg (x : ℝ) : 24 / Real.pi * Real.arccos (-x) = 24 - 24 / Real.pi * Real.arccos x := by
  have hpi := Real.pi_pos
  rw [Real.arccos_neg]
  field_simp

/-! ### saturation vapour pressure -/

/-- the Tetens curve in Celsius -/
def tetensC (c : ℝ) : ℝ := 0.6108 * Real.exp (17.27 * c / (c + 237.3))

theorem toCelsius_fin (t : ℝ) : toCelsius (fin t) = fin ((t - 32) * 5 / 9) := by
  unfold toCelsius
  simp only [fin_sub, fin_mul]
  rw [fin_div _ _ (by norm_num)]

theorem svpPoint_above (tfill : XF ℝ) {t : ℝ} (h : 32 < t) :
    svpPoint tfill (fin t) = fin (tetensC ((t - 32) * 5 / 9)) := by
  have hc : 0 < (t - 32) * 5 / 9 := by linarith
  unfold svpPoint tetensC
  simp only [toCelsius_fin, lt_fin, fin_mul, fin_add]
  rw [fin_div _ _ (by linarith)]
  simp [sel, h]

theorem svpPoint_below (tfill : XF ℝ) {t : ℝ} (h : t ≤ 32) : svpPoint tfill (fin t) = tfill := by
  unfold svpPoint
  simp only [toCelsius_fin, lt_fin]
  have : ¬ 0 < (t - 32) * 5 / 9 := by linarith
  simp [sel, h]

theorem svpSlopePoint_above (tfill : XF ℝ) {t : ℝ} (h : 32 < t) :
    svpSlopePoint tfill (fin t) = fin (4096 * (tetensC ((t - 32) * 5 / 9) / ((t - 32) * 5 / 9 + 237.3) ^ 2)) := by
  have hc : 0 < (t - 32) * 5 / 9 := by linarith
  have hd : 0 < (t - 32) * 5 / 9 + 237.3 := by linarith
  unfold svpSlopePoint tetensC
  simp only [toCelsius_fin, lt_fin, fin_mul, fin_add]
  rw [fin_div _ _ hd.ne', exp_fin, fin_mul, fin_div _ _ (by positivity), fin_mul]
  simp only [sel, hc, decide_true, if_true]
  rw [pow_two]

theorem tetensC_gt {c : ℝ} (h : 0 < c) : 0.6108 < tetensC c := by
  unfold tetensC
  have : 1 < Real.exp (17.27 * c / (c + 237.3)) := by
    rw [Real.one_lt_exp_iff]
    positivity
  linarith

theorem tetensC_strictMono {c c' : ℝ} (h : 0 < c) (hc : c < c') : tetensC c < tetensC c' := by
  unfold tetensC
  apply mul_lt_mul_of_pos_left _ (by norm_num)
  apply Real.exp_lt_exp.mpr
  rw [div_lt_div_iff₀ (by linarith) (by linarith)]
  nlinarith

theorem tetensC_deriv {c : ℝ} (h : 0 < c) :
    HasDerivAt tetensC (17.27 * 237.3 * (tetensC c / (c + 237.3) ^ 2)) c := by
  have hd : c + 237.3 ≠ 0 := by linarith
  have h1 : HasDerivAt (fun x : ℝ => 17.27 * x / (x + 237.3))
      ((17.27 * (c + 237.3) - 17.27 * c * 1) / (c + 237.3) ^ 2) c := by
    have a : HasDerivAt (fun x : ℝ => 17.27 * x) 17.27 c := by
      simpa using (hasDerivAt_id c).const_mul (17.27:ℝ)
    have b : HasDerivAt (fun x : ℝ => x + 237.3) 1 c := (hasDerivAt_id c).add_const _
    exact a.div b hd
  have h2 := (h1.exp).const_mul (0.6108:ℝ)
  refine h2.congr_deriv ?_
  unfold tetensC
  field_simp
  ring

end
end Verif.Lemmas
