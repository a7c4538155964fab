import Verif.Lemmas.FloatRelhum

namespace Verif.Lemmas
open Verif Model XF Lemmas.Gradient
noncomputable section

/-- relative humidity from the vapour pressure -/
def rhFl (R : Rounding ℝ) (e w p : ℝ) : ℝ :=
  max (R.fl (R.fl (R.fl (w * R.fl (p - R.fl (R.fl 0.378 * e))) / R.fl (R.fl 0.622 * e)) * R.fl 100)) (R.fl 0.0001)

theorem relhumOfEsFl_fin (R : Rounding ℝ) {e : ℝ} (h : R.fl (R.fl 0.622 * e) ≠ 0) (w p : ℝ) : relhumOfEsFl R (fin e) (fin w) (fin p) = fin (rhFl R e w p) := by
  unfold relhumOfEsFl rhFl
  simp only [fin_mul, fin_sub, roundXF]
  rw [fin_div _ _ h]
  rfl

/-- a constant times the vapour pressure -/
theorem const_mul_close {R : Rounding ℝ} {v ζ : ℝ} (F : FineRounding R v ζ) {c e e' ρ : ℝ} (hc : 0.1 ≤ c) (hc1 : c ≤ 1) (he : 0.001 ≤ e) (h0 : 0 ≤ ρ) (hρ : ρ ≤ 1 / 100)
    (h : |e' - e| ≤ ρ * e) : |R.fl (R.fl c * e') - c * e| ≤ (1.01 * ρ + 3e-15) * (c * e) := by
  have hc0 : 0 < c := by linarith
  have he0 : 0 < e := by linarith
  have h1 := scaled_fl F (x := c) (x' := c) (α := 0) (M := 1) (a := c) (by linarith) (by simp) (by rw [one_mul, abs_of_pos hc0]) (by norm_num) (by norm_num)
  have h1' : |R.fl c - c| ≤ 1.3e-15 * c := h1.trans (le_of_eq (by ring))
  have h2 : |R.fl c| ≤ (1 + 1.3e-15) * c := by
    have := abs_sub_abs_le_abs_sub (R.fl c) c
    rw [abs_of_pos hc0] at this
    linarith
  have m := mul_close h1' h h2 (le_of_eq (abs_of_pos he0))
  have hce : 0 < c * e := mul_pos hc0 he0
  have m' : |R.fl c * e' - c * e| ≤ (1.001 * ρ + 1.4e-15) * (c * e) := by
    refine m.trans (le_of_eq_of_le (by ring : _ = ((1 + 1.3e-15) * ρ + 1.3e-15) * (c * e)) (mul_le_mul_of_nonneg_right ?_ hce.le))
    linarith
  have hce2 : (1e-10 : ℝ) ≤ c * e := by
    have := mul_le_mul hc he (by norm_num) hc0.le
    linarith
  have s := scaled_fl F hce2 m' (M := 1) (by rw [one_mul, abs_of_pos hce]) (by norm_num) (by norm_num)
  refine s.trans (mul_le_mul_of_nonneg_right ?_ hce.le)
  linarith

/-- rounding of a number that may be small -/
theorem small_fl {R : Rounding ℝ} {v ζ : ℝ} (F : FineRounding R v ζ) {x x' α M X ε : ℝ} (hX : 0 ≤ X) (hε : 0 ≤ ε) (hα : 0 ≤ α) (h : |x' - x| ≤ α * X + ε) (hM : |x| ≤ M * X) (hM0 : 0 ≤ M) (hM1 : M ≤ 2) :
    |R.fl x' - x| ≤ (1.001 * α + 2.5e-16) * X + (1.001 * ε + 1e-210) := by
  have h1 := fine_fl F h hM (by positivity)
  refine h1.trans ?_
  have h2 : 0 ≤ α * X := by positivity
  have h3 : M * X ≤ 2 * X := mul_le_mul_of_nonneg_right hM1 hX
  linarith

theorem rh_close {R : Rounding ℝ} {v ζ : ℝ} (F : FineRounding R v ζ) {e e' w p ρ : ℝ} (he : 0.001 ≤ e) (h0 : 0 ≤ ρ) (hρ : ρ ≤ 1 / 100)
    (h : |e' - e| ≤ ρ * e) (hw : 0 ≤ w) (hp : 0 ≤ p) :
    R.fl (R.fl 0.622 * e') ≠ 0 ∧ |rhFl R e' w p - rhR e w p| ≤ (2.2 * ρ + 2e-14) * (w * (p + 0.378 * e) / (0.622 * e) * 100) + 1e-19 := by
  have he0 : 0 < e := by linarith
  unfold rhFl rhR
  have a1 := const_mul_close F (c := 0.378) (by norm_num) (by norm_num) he h0 hρ h
  have d1 := const_mul_close F (c := 0.622) (by norm_num) (by norm_num) he h0 hρ h
  set A := 0.378 * e with hA
  set Dn := 0.622 * e with hD
  have hA0 : 0 < A := by rw [hA]; positivity
  have hD0 : 0 < Dn := by rw [hD]; positivity
  have hDs : (0.0006 : ℝ) ≤ Dn := by rw [hD]; linarith
  -- the denominator
  have d2 : 0.98 * Dn ≤ R.fl (R.fl 0.622 * e') := by
    have := (abs_le.mp d1).1
    have h2 : (1.01 * ρ + 3e-15) * Dn ≤ 0.02 * Dn := mul_le_mul_of_nonneg_right (by linarith) hD0.le
    linarith
  have d3 : 0 < R.fl (R.fl 0.622 * e') := lt_of_lt_of_le (by norm_num; exact hD0) d2
  refine ⟨d3.ne', ?_⟩
  generalize hd : R.fl (R.fl 0.622 * e') = d at *
  generalize R.fl (R.fl 0.378 * e') = a at *
  -- the difference
  have hP0 : 0 < p + A := by linarith
  have b1 : |p - a - (p - A)| ≤ (1.01 * ρ + 3e-15) * (p + A) := by
    rw [show p - a - (p - A) = -(a - A) by ring, abs_neg]
    exact a1.trans (mul_le_mul_of_nonneg_left (by linarith) (by positivity))
  have hBP : |p - A| ≤ p + A := by rw [abs_le]; constructor <;> linarith
  have b2 := small_fl F hP0.le le_rfl (by positivity) (by linarith : |p - a - (p - A)| ≤ (1.01 * ρ + 3e-15) * (p + A) + 0) (M := 1) (by rw [one_mul]; exact hBP) (by norm_num) (by norm_num)
  have hPs : (1e-4 : ℝ) ≤ p + A := by rw [hA]; linarith
  have b3 : |R.fl (p - a) - (p - A)| ≤ (1.02 * ρ + 4e-15) * (p + A) := by
    refine b2.trans ?_
    have : 0 ≤ ρ * (p + A) := by positivity
    linarith
  generalize R.fl (p - a) = b at *
  -- the product
  have c1 : |w * b - w * (p - A)| ≤ (1.02 * ρ + 4e-15) * (w * (p + A)) := by
    rw [← mul_sub, abs_mul, abs_of_nonneg hw]
    calc w * |b - (p - A)| ≤ w * ((1.02 * ρ + 4e-15) * (p + A)) := mul_le_mul_of_nonneg_left b3 hw
      _ = _ := by ring
  have hW0 : 0 ≤ w * (p + A) := by positivity
  have hWB : |w * (p - A)| ≤ w * (p + A) := by rw [abs_mul, abs_of_nonneg hw]; exact mul_le_mul_of_nonneg_left hBP hw
  have c2 := small_fl F hW0 le_rfl (by positivity) (by linarith : |w * b - w * (p - A)| ≤ (1.02 * ρ + 4e-15) * (w * (p + A)) + 0) (M := 1) (by rw [one_mul]; exact hWB) (by norm_num) (by norm_num)
  have c3 : |R.fl (w * b) - w * (p - A)| ≤ (1.03 * ρ + 5e-15) * (w * (p + A)) + 1e-210 := by
    refine c2.trans ?_
    have : 0 ≤ ρ * (w * (p + A)) := by positivity
    linarith
  generalize R.fl (w * b) = c at *
  -- the quotient
  obtain ⟨N, hN⟩ : ∃ N, N = w * (p - A) := ⟨_, rfl⟩
  obtain ⟨W, hW⟩ : ∃ W, W = w * (p + A) := ⟨_, rfl⟩
  rw [← hN, ← hW] at c3
  rw [← hN, ← hW] at hWB
  rw [← hW] at hW0
  have q1 : |c / d - N / Dn| ≤ (2.1 * ρ + 1e-14) * (W / Dn) + 1e-205 := by
    have e1 : c / d - N / Dn = ((c - N) + N / Dn * (Dn - d)) / d := by field_simp; ring
    rw [e1, abs_div, abs_of_pos d3, div_le_iff₀ d3]
    have e2 : |N / Dn * (Dn - d)| ≤ W / Dn * ((1.01 * ρ + 3e-15) * Dn) := by
      rw [abs_mul, abs_sub_comm, abs_div, abs_of_pos hD0]
      exact mul_le_mul (div_le_div_of_nonneg_right hWB hD0.le) d1 (abs_nonneg _) (by positivity)
    rw [show W / Dn * ((1.01 * ρ + 3e-15) * Dn) = (1.01 * ρ + 3e-15) * W by field_simp] at e2
    refine (abs_add_le _ _).trans ?_
    have e3 : ((2.1 * ρ + 1e-14) * (W / Dn) + 1e-205) * (0.98 * Dn) ≤ ((2.1 * ρ + 1e-14) * (W / Dn) + 1e-205) * d :=
      mul_le_mul_of_nonneg_left d2 (by positivity)
    have e4 : ((2.1 * ρ + 1e-14) * (W / Dn) + 1e-205) * (0.98 * Dn) = 0.98 * (2.1 * ρ + 1e-14) * W + 0.98 * 1e-205 * Dn := by field_simp
    rw [e4] at e3
    have e5 : 0 ≤ ρ * W := by positivity
    linarith
  have hQ0 : 0 ≤ W / Dn := by positivity
  have hNQ : |N / Dn| ≤ W / Dn := by rw [abs_div, abs_of_pos hD0]; exact div_le_div_of_nonneg_right hWB hD0.le
  have q2 := small_fl F hQ0 (by norm_num) (by positivity) q1 (M := 1) (by rw [one_mul]; exact hNQ) (by norm_num) (by norm_num)
  have q3 : |R.fl (c / d) - N / Dn| ≤ (2.11 * ρ + 1.1e-14) * (W / Dn) + 1.1e-205 := by
    refine q2.trans ?_
    have : 0 ≤ ρ * (W / Dn) := by positivity
    linarith
  generalize R.fl (c / d) = q at *
  -- times 100
  have t1 : |R.fl 100 - 100| ≤ 1.4e-14 := by
    have := fine_fl F (x := 100) (x' := 100) (α := 0) (M := 100) (by simp) (by rw [abs_of_pos (by norm_num)]) (by norm_num)
    refine this.trans (by norm_num)
  have hq : |q| ≤ 1.1 * (W / Dn) + 1.1e-205 := by
    have := abs_sub_abs_le_abs_sub q (N / Dn)
    have h2 : (2.11 * ρ + 1.1e-14) * (W / Dn) ≤ 0.1 * (W / Dn) := mul_le_mul_of_nonneg_right (by linarith) hQ0
    linarith
  have r1 := mul_close q3 t1 hq (le_of_eq (abs_of_pos (by norm_num)) : |(100 : ℝ)| ≤ 100)
  have r2 : |q * R.fl 100 - N / Dn * 100| ≤ (2.11 * ρ + 1.12e-14) * (W / Dn * 100) + 1e-200 := by
    refine r1.trans ?_
    have : 0 ≤ ρ * (W / Dn) := by positivity
    linarith
  have hQ100 : |N / Dn * 100| ≤ 1 * (W / Dn * 100) := by
    rw [abs_mul, abs_of_pos (by norm_num : (0 : ℝ) < 100)]; linarith
  have r3 := small_fl F (by positivity) (by norm_num) (by positivity) r2 hQ100 (by norm_num) (by norm_num)
  have r4 : |R.fl (q * R.fl 100) - N / Dn * 100| ≤ (2.2 * ρ + 2e-14) * (W / Dn * 100) + 1e-199 := by
    refine r3.trans ?_
    have : 0 ≤ ρ * (W / Dn) := by positivity
    linarith
  have k1 : |R.fl 0.0001 - 0.0001| ≤ 1e-19 := by
    have := fine_fl F (x := 0.0001) (x' := 0.0001) (α := 0) (M := 0.0001) (by simp) (by rw [abs_of_pos (by norm_num)]) (by norm_num)
    refine this.trans (by norm_num)
  rw [← hN, ← hW]
  refine (abs_max_sub_max_le_max _ _ _ _).trans (max_le (r4.trans ?_) (k1.trans ?_))
  · exact add_le_add le_rfl (by norm_num)
  · have : 0 ≤ (2.2 * ρ + 2e-14) * (W / Dn * 100) := by positivity
    linarith

end
end Verif.Lemmas
