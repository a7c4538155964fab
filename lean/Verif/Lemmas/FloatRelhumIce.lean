import Verif.Model.FloatsRelhumIce
import Verif.Lemmas.FloatEvap
import Verif.Lemmas.RelhumIce
import Mathlib.Analysis.Complex.ExponentialBounds

namespace Verif.Lemmas
open Model XF Spec
noncomputable section

variable {D R : Rounding ℝ} {u v η η' : ℝ} {ex : XF ℝ → XF ℝ}

/-- a quotient of numbers known with absolute errors -/
theorem abs_div_close {x x' y y' α β L Q : ℝ} (hx : |x' - x| ≤ α * u) (hy : |y' - y| ≤ β * u) (hL : 0 < L) (hy' : L ≤ |y'|) (hy0 : y ≠ 0)
    (hQ : |x / y| ≤ Q) : |x' / y' - x / y| ≤ (α + Q * β) / L * u := by
  have hp : 0 < |y'| := hL.trans_le hy'
  have hne : y' ≠ 0 := abs_pos.mp hp
  have e : x' / y' - x / y = ((x' - x) - x / y * (y' - y)) / y' := by field_simp; ring
  rw [e, abs_div, div_le_iff₀ hp]
  have h1 := abs_sub (x' - x) (x / y * (y' - y))
  rw [abs_mul] at h1
  have h2 : |x / y| * |y' - y| ≤ Q * (β * u) := mul_le_mul hQ hy (abs_nonneg _) ((abs_nonneg _).trans hQ)
  have h0 : 0 ≤ (α + Q * β) * u := by
    have := (abs_nonneg _).trans hx
    have := (mul_nonneg (abs_nonneg _) (abs_nonneg _)).trans h2
    linarith
  have h3 : (α + Q * β) / L * u * |y'| = (α + Q * β) * u * (|y'| / L) := by ring
  have h4 : 1 ≤ |y'| / L := by rw [le_div_iff₀ hL]; linarith
  rw [h3]
  have := mul_le_mul_of_nonneg_left h4 h0
  linarith

/-- a constant stored in two steps, as an absolute error -/
theorem twice_abs (PD : Precise D u η) (PR : Precise R u η') {c : ℝ} (hc : 1e-20 ≤ c) : |D.fl (R.fl c) - c| ≤ 2.02 * c * u := by
  have hc0 : 0 < c := lt_of_lt_of_le (by norm_num) hc
  have := twice PD PR (P := c) (by rw [abs_of_pos hc0]; exact hc)
  unfold Rel at this
  rw [abs_of_pos hc0] at this
  linarith

/-- rounded temperature above freezing -/
def dF (D R : Rounding ℝ) (t : ℝ) : ℝ := D.fl (t - D.fl (R.fl 273.15))
/-- rounded argument of the exponential, ice -/
def iceF (D R : Rounding ℝ) (t : ℝ) : ℝ := D.fl (D.fl (D.fl (R.fl 22.571) * dF D R t) / D.fl (dF D R t + D.fl (R.fl 273.71)))
/-- rounded argument of the exponential, water -/
def waterF (D R : Rounding ℝ) (t : ℝ) : ℝ := D.fl (D.fl (D.fl (R.fl 17.269) * dF D R t) / D.fl (t - D.fl (R.fl 35.86)))

theorem dF_close (PD : Precise D u η) (PR : Precise R u η') {t : ℝ} (h0 : 180 ≤ t) (h1 : t ≤ 330) : |dF D R t - (t - 273.15)| ≤ 647 * u := by
  have hu := PD.acc.u_nonneg
  have c0 := twice_abs PD PR (c := 273.15) (by norm_num)
  have h2 : |(t - D.fl (R.fl 273.15)) - (t - 273.15)| ≤ 551.8 * u := by
    rw [show (t - D.fl (R.fl 273.15)) - (t - 273.15) = -(D.fl (R.fl 273.15) - 273.15) by ring, abs_neg]
    refine c0.trans (mul_le_mul_of_nonneg_right (by norm_num) hu)
  have h3 : |t - 273.15| ≤ 94 := by rw [abs_le]; constructor <;> norm_num <;> linarith
  refine (abs_fl PD (by norm_num) (by norm_num) h2 h3).trans (mul_le_mul_of_nonneg_right (by norm_num) hu)

/-- the product `a * d` -/
theorem num_close (PD : Precise D u η) (PR : Precise R u η') {t a : ℝ} (h0 : 180 ≤ t) (h1 : t ≤ 330) (ha : 1 ≤ a) (ha2 : a ≤ 23) :
    |D.fl (D.fl (R.fl a) * dF D R t) - a * (t - 273.15)| ≤ (647 * 1.01 * a + 2.02 * 94 * a + 94 * a + 0.2) * u := by
  have hu := PD.acc.u_nonneg
  have hu6 := PD.u_le
  have c0 := twice_abs PD PR (c := a) (by norm_num; linarith)
  have hd := dF_close PD PR h0 h1
  have h3 : |t - 273.15| ≤ 94 := by rw [abs_le]; constructor <;> norm_num <;> linarith
  have hM : |D.fl (R.fl a)| ≤ 1.01 * a := by
    have := abs_le.mp c0
    have h5 : 2.02 * a * u ≤ 0.01 * a := by
      have := mul_le_mul_of_nonneg_left hu6 (by linarith : 0 ≤ 2.02 * a)
      norm_num at this ⊢
      linarith
    rw [abs_le]
    norm_num at h5 this ⊢
    constructor <;> linarith
  have h4 := abs_mul_close c0 hd hM h3 hu (by linarith)
  have h6 : |a * (t - 273.15)| ≤ 94 * a := by
    rw [abs_mul, abs_of_pos (by linarith)]
    have := mul_le_mul_of_nonneg_left h3 (by linarith : 0 ≤ a)
    linarith
  refine (abs_fl PD (by linarith) (by norm_num; linarith) h4 h6).trans (mul_le_mul_of_nonneg_right (by norm_num; linarith) hu)

theorem iceF_close (PD : Precise D u η) (PR : Precise R u η') {t : ℝ} (h0 : 180 ≤ t) (h1 : t ≤ 330) :
    |iceF D R t - 22.571 * (t - 273.15) / (t - 273.15 + 273.71)| ≤ 228 * u ∧ |22.571 * (t - 273.15) / (t - 273.15 + 273.71)| ≤ 11.65 := by
  have hu := PD.acc.u_nonneg
  have hu6 := PD.u_le
  have hn := num_close PD PR (a := 22.571) h0 h1 (by norm_num) (by norm_num)
  have hd := dF_close PD PR h0 h1
  have c0 := twice_abs PD PR (c := 273.71) (by norm_num)
  have h2 : |(dF D R t + D.fl (R.fl 273.71)) - (t - 273.15 + 273.71)| ≤ 1200 * u := by
    have e : (dF D R t + D.fl (R.fl 273.71)) - (t - 273.15 + 273.71) = (dF D R t - (t - 273.15)) + (D.fl (R.fl 273.71) - 273.71) := by ring
    rw [e]
    refine (abs_add_le _ _).trans ?_
    norm_num at c0 ⊢
    linarith
  have h3 : |t - 273.15 + 273.71| ≤ 331 := by rw [abs_le]; constructor <;> norm_num <;> linarith
  have h4 := abs_fl PD (by norm_num) (by norm_num) h2 h3
  have hy : (180.5 : ℝ) ≤ |D.fl (dF D R t + D.fl (R.fl 273.71))| := by
    have := (abs_le.mp h4).1
    refine le_trans ?_ (le_abs_self _)
    norm_num at hu6 this ⊢
    linarith
  have hQ : |22.571 * (t - 273.15) / (t - 273.15 + 273.71)| ≤ 11.65 := by
    rw [abs_div, abs_of_pos (by linarith : 0 < t - 273.15 + 273.71), div_le_iff₀ (by linarith), abs_le]
    constructor <;> norm_num <;> linarith
  have h5 := abs_div_close hn h4 (by norm_num) hy (by linarith) hQ
  refine ⟨(abs_fl PD (by norm_num) (by norm_num) h5 hQ).trans (mul_le_mul_of_nonneg_right (by norm_num) hu), hQ⟩

theorem waterF_close (PD : Precise D u η) (PR : Precise R u η') {t : ℝ} (h0 : 180 ≤ t) (h1 : t ≤ 330) :
    |waterF D R t - 17.269 * (t - 273.15) / (t - 35.86)| ≤ 228 * u ∧ |17.269 * (t - 273.15) / (t - 35.86)| ≤ 11.65 := by
  have hu := PD.acc.u_nonneg
  have hu6 := PD.u_le
  have hn := num_close PD PR (a := 17.269) h0 h1 (by norm_num) (by norm_num)
  have c0 := twice_abs PD PR (c := 35.86) (by norm_num)
  have h2 : |(t - D.fl (R.fl 35.86)) - (t - 35.86)| ≤ 73 * u := by
    rw [show (t - D.fl (R.fl 35.86)) - (t - 35.86) = -(D.fl (R.fl 35.86) - 35.86) by ring, abs_neg]
    refine c0.trans (mul_le_mul_of_nonneg_right (by norm_num) hu)
  have h3 : |t - 35.86| ≤ 295 := by rw [abs_le]; constructor <;> norm_num <;> linarith
  have h4 := abs_fl PD (by norm_num) (by norm_num) h2 h3
  have hy : (144.1 : ℝ) ≤ |D.fl (t - D.fl (R.fl 35.86))| := by
    have := (abs_le.mp h4).1
    refine le_trans ?_ (le_abs_self _)
    norm_num at hu6 this ⊢
    linarith
  have hQ : |17.269 * (t - 273.15) / (t - 35.86)| ≤ 11.65 := by
    rw [abs_div, abs_of_pos (by linarith : 0 < t - 35.86), div_le_iff₀ (by linarith), abs_le]
    constructor <;> norm_num <;> linarith
  have h5 := abs_div_close hn h4 (by norm_num) hy (by linarith) hQ
  refine ⟨(abs_fl PD (by norm_num) (by norm_num) h5 hQ).trans (mul_le_mul_of_nonneg_right (by norm_num) hu), hQ⟩

theorem exp_neg12 {x : ℝ} (h : -12 ≤ x) : 1e-6 ≤ Real.exp x := by
  refine le_trans ?_ (Real.exp_le_exp.mpr h)
  rw [Real.exp_neg, show (12 : ℝ) = (12 : ℕ) * 1 by norm_num, Real.exp_nat_mul]
  have := Real.exp_one_lt_d9
  have h3 : Real.exp 1 ^ 12 ≤ 3 ^ 12 := pow_le_pow_left₀ (Real.exp_pos 1).le (by linarith) 12
  rw [le_inv_comm₀ (by norm_num) (by positivity)]
  norm_num at h3 ⊢
  linarith

/-- the saturation pressure from an accurate argument, in units of four roundings -/
theorem est_close (PD : Precise D v η) (PR : Precise R v η') (E : ExpAccurate D v ex) {x x' : ℝ} (hr : D.rep x') (h : |x' - x| ≤ 57 * v) (hx : |x| ≤ 11.65) :
    ∃ y, ex (fin x') = fin y ∧ Rel v 62.3 (D.fl (D.fl (R.fl 6.1128) * y)) (6.1128 * Real.exp x) := by
  have hv := PD.acc.u_nonneg
  have hv6 := PD.u_le
  have h40 : |x'| ≤ 40 := by
    have h1 := abs_le.mp h
    have h2 := abs_le.mp hx
    rw [abs_le]
    norm_num at h1 h2 hv6 ⊢
    constructor <;> linarith
  obtain ⟨y, hy1, -, hy2⟩ := E.fin x' hr h40
  have h5 := exp_close hv hv6 (by norm_num) (by norm_num) h hy2
  have h6 := twice PD PR (P := 6.1128) (by rw [abs_of_pos] <;> norm_num)
  have h7 := Rel.mul hv hv6 (by norm_num) (by norm_num) (by norm_num) (by norm_num) h6 h5
  have h1e := exp_neg12 (x := x) (by have := (abs_le.mp hx).1; norm_num at this; linarith)
  have h8 := Rel.fl PD (by norm_num) (by norm_num) h7 (by
    rw [abs_of_pos (by positivity)]
    norm_num at h1e ⊢
    linarith)
  exact ⟨y, hy1, Rel.mono hv h8 (by norm_num)⟩

/-- rounded saturation mixing ratio -/
def qF (D R : Rounding ℝ) (e p : ℝ) : ℝ := D.fl (D.fl (D.fl (R.fl 0.622) * e) / D.fl (D.fl (p * D.fl (R.fl 0.01)) - D.fl (D.fl (R.fl 0.378) * e)))

/-- the humidity from an accurate saturation pressure that is at most half the pressure -/
theorem qF_close (PD : Precise D v η) (PR : Precise R v η') {e e' p : ℝ} (h : Rel v 62.3 e' e) (he : 1e-6 ≤ e) (hp : 2 * e ≤ p * 0.01) (hp2 : p ≤ 1e7) :
    D.fl (D.fl (p * D.fl (R.fl 0.01)) - D.fl (D.fl (R.fl 0.378) * e')) ≠ 0 ∧ Rel v 86.7 (qF D R e' p) (satMixingRatio e (p * 0.01)) ∧
      1e-12 ≤ satMixingRatio e (p * 0.01) ∧ satMixingRatio e (p * 0.01) ≤ 1 := by
  have hv := PD.acc.u_nonneg
  have hv6 := PD.u_le
  have he0 : 0 < e := lt_of_lt_of_le (by norm_num) he
  have hp0 : 0 < p := by linarith
  have a1 := twice PD PR (P := 0.622) (by rw [abs_of_pos] <;> norm_num)
  have a2 := Rel.mul hv hv6 (by norm_num) (by norm_num) (by norm_num) (by norm_num) a1 h
  have a3 := Rel.fl PD (by norm_num) (by norm_num) a2 (by rw [abs_of_pos (by positivity)]; norm_num at he ⊢; linarith)
  have b1 := twice PD PR (P := 0.01) (by rw [abs_of_pos] <;> norm_num)
  have b2 := Rel.mul hv hv6 (le_refl 0) (by norm_num) (by norm_num) (by norm_num) (Rel.refl v p) b1
  have b3 := Rel.fl PD (by norm_num) (by norm_num) b2 (by rw [abs_of_pos (by positivity)]; norm_num at he hp ⊢; linarith)
  have c1 := twice PD PR (P := 0.378) (by rw [abs_of_pos] <;> norm_num)
  have c2 := Rel.mul hv hv6 (by norm_num) (by norm_num) (by norm_num) (by norm_num) c1 h
  have c3 := Rel.fl PD (by norm_num) (by norm_num) c2 (by rw [abs_of_pos (by positivity)]; norm_num at he ⊢; linarith)
  set P := p * 0.01 with hPdef
  have hP0 : 0 < P := by linarith
  have hden : 0.811 * P ≤ P - 0.378 * e := by linarith
  have hden0 : 0 < P - 0.378 * e := lt_of_lt_of_le (mul_pos (by norm_num) hP0) hden
  have d1 : Rel v 19.2 (D.fl (p * D.fl (R.fl 0.01)) - D.fl (D.fl (R.fl 0.378) * e')) (P - 0.378 * e) := by
    unfold Rel at b3 c3 ⊢
    rw [abs_of_pos hden0]
    rw [abs_of_pos hP0] at b3
    rw [abs_of_pos (mul_pos (by norm_num) he0 : (0 : ℝ) < 0.378 * e)] at c3
    set p' := D.fl (p * D.fl (R.fl 0.01))
    set q' := D.fl (D.fl (R.fl 0.378) * e')
    have e1 : p' - q' - (P - 0.378 * e) = (p' - P) - (q' - 0.378 * e) := by ring
    rw [e1]
    have e2 := abs_sub (p' - P) (q' - 0.378 * e)
    have e3 : 0.378 * e * v ≤ 0.189 * P * v := mul_le_mul_of_nonneg_right (by linarith) hv
    have e4 := mul_le_mul_of_nonneg_right hden hv
    have e5 := mul_nonneg hP0.le hv
    norm_num at b3 c3 e3 e4 ⊢
    linarith
  have d2 := Rel.fl PD (by norm_num) (by norm_num) d1 (by rw [abs_of_pos hden0]; norm_num at he hp hden ⊢; linarith)
  have e1 := Rel.div hv hv6 (by norm_num) (by norm_num) (by norm_num) (by norm_num) a3 d2 hden0.ne'
  have hlo : (1e-12 : ℝ) ≤ 0.622 * e / (P - 0.378 * e) := by
    rw [le_div_iff₀ hden0]
    have : P ≤ 1e5 := by rw [hPdef]; norm_num at hp2 ⊢; linarith
    norm_num at he this ⊢
    linarith
  have hup : 0.622 * e / (P - 0.378 * e) ≤ 1 := by
    rw [div_le_iff₀ hden0]
    linarith
  have e2 := Rel.fl PD (by norm_num) (by norm_num) e1 (by rw [abs_of_pos (by positivity)]; norm_num at hlo ⊢; linarith)
  exact ⟨Rel.ne_zero hv6 hv (by norm_num) d2 hden0.ne', Rel.mono hv e2 (by norm_num), hlo, hup⟩

/-- rounded relative humidity -/
def humF (D R : Rounding ℝ) (e w p : ℝ) : ℝ := D.fl (D.fl 100 * D.fl (w / qF D R e p))

theorem humF_form (PD : Precise D v η) (PR : Precise R v η') {e e' p : ℝ} (h : Rel v 62.3 e' e) (he : 1e-6 ≤ e) (hp : 2 * e ≤ p * 0.01) (hp2 : p ≤ 1e7) :
    0 < qF D R e' p ∧ ∀ w, relhumOfEstFl D R (fin e') (fin w) (fin p) = fin (humF D R e' w p) := by
  obtain ⟨k1, k2, k3, k4⟩ := qF_close PD PR h he hp hp2
  have hq := Rel.pos PD.acc.u_nonneg PD.u_le (by norm_num) k2 (lt_of_lt_of_le (by norm_num) k3)
  refine ⟨hq, fun w => ?_⟩
  unfold relhumOfEstFl qstFl
  simp only [fin_mul, rxf_fin, fin_sub]
  rw [fin_div _ _ k1, rxf_fin]
  change roundXF D (fin (D.fl 100) * roundXF D (fin w / fin (qF D R e' p))) = _
  rw [fin_div _ _ hq.ne']
  rfl

theorem humF_close (PD : Precise D v η) (PR : Precise R v η') {e e' w p : ℝ} (h : Rel v 62.3 e' e) (he : 1e-6 ≤ e) (hp : 2 * e ≤ p * 0.01) (hp2 : p ≤ 1e7)
    (hw : w = 0 ∨ 1e-20 ≤ w) : Rel v 91 (humF D R e' w p) (100 * (w / satMixingRatio e (p * 0.01))) := by
  have hv := PD.acc.u_nonneg
  have hv6 := PD.u_le
  obtain ⟨k1, k2, k3, k4⟩ := qF_close PD PR h he hp hp2
  have hs0 : 0 < satMixingRatio e (p * 0.01) := lt_of_lt_of_le (by norm_num) k3
  rcases hw with rfl | hw
  · unfold humF
    rw [zero_div, D.fl_zero, mul_zero, D.fl_zero, zero_div, mul_zero]
    exact Rel.mono hv (Rel.refl v 0) (by norm_num)
  have hw0 : 0 < w := lt_of_lt_of_le (by norm_num) hw
  have f1 := Rel.div hv hv6 (le_refl 0) (by norm_num) (by norm_num) (by norm_num) (Rel.refl v w) k2 hs0.ne'
  have hx : w ≤ w / satMixingRatio e (p * 0.01) := by
    rw [le_div_iff₀ hs0]
    have := mul_le_mul_of_nonneg_left k4 hw0.le
    linarith
  have f2 := Rel.fl PD (by norm_num) (by norm_num) f1 (by rw [abs_of_pos (by positivity)]; linarith)
  have f3 := Rel.mul hv hv6 (by norm_num) (by norm_num) (by norm_num) (by norm_num) (Rel.const PD (x := 100) (by rw [abs_of_pos] <;> norm_num)) f2
  have f4 := Rel.fl PD (by norm_num) (by norm_num) f3 (by rw [abs_of_pos (by positivity)]; norm_num at hw ⊢; linarith)
  exact Rel.mono hv f4 (by norm_num)

end
end Verif.Lemmas
