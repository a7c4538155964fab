import Verif.Lemmas.FloatExtrapZ
import Verif.Props.FloatDewtemp

/-
Property C181: temperature and height below ground computed in single or double precision.
-/

set_option linter.unusedSectionVars false
namespace Verif.Props
open Model XF Spec Lemmas
noncomputable section

/-- the third power of a number, without rounding -/
def exactCube (x : XF ℝ) : XF ℝ := x * x * x

/-- If nothing is rounded, these are the functions of C18 and C19. -/
theorem C181_exact (t p pl ps phi : XF ℝ) :
    tempExtrapolateFl Rounding.exact Rounding.exact XF.log exactCube t p pl ps phi = tempExtrapolate t p pl ps phi ∧
    geoHeightExtrapolateFl Rounding.exact Rounding.exact XF.log t p pl ps phi = geoHeightExtrapolate t p pl ps phi := by
  have h1 : alphaFl Rounding.exact Rounding.exact = alphaLapse := rfl
  have h2 : rdFl Rounding.exact Rounding.exact = Rd := rfl
  have h3 : gInvFl Rounding.exact Rounding.exact = gInv := rfl
  constructor
  · unfold tempExtrapolateFl tempExtrapolate tStarFl tStar exactCube
    simp only [roundXF_exact, h1, h2, h3]
    rfl
  · unfold geoHeightExtrapolateFl geoHeightExtrapolate tStarFl tStar
    simp only [roundXF_exact, h1, h2, h3]
    rfl

variable {D R : Rounding ℝ} {u η η' : ℝ} {ln cube : XF ℝ → XF ℝ}

/-- At the surface pressure the logarithm vanishes whatever the rounding: the computed temperature is the computed surface temperature and the computed height is
the computed height of the ground, exactly. -/
theorem C181_anchor (L : LogAccurate D u ln) (C : CubeAccurate D u cube) (t pl ps phi : ℝ) (hl : 0 < pl) (hs : 0 < ps) :
    tempExtrapolateFl D R ln cube (fin t) (fin ps) (fin pl) (fin ps) (fin phi) = tStarFl D R (fin t) (fin pl) (fin ps) ∧
    geoHeightExtrapolateFl D R ln (fin t) (fin ps) (fin pl) (fin ps) (fin phi) = roundXF D (fin phi * fin (gInvFl D R)) := by
  have hln : ln (fin (D.fl (ps / ps))) = fin 0 := by
    rw [div_self hs.ne', D.fl_of_rep _ D.rep_one]
    obtain ⟨y, h1, -, h2⟩ := L.fin 1 D.rep_one one_pos
    rw [Real.log_one, abs_zero, mul_zero, sub_zero] at h2
    rw [h1, abs_nonpos_iff.mp h2]
  constructor
  · have hc : cube (fin (D.fl (slopeR D R t pl ps phi * 0))) = fin 0 := by rw [mul_zero, D.fl_zero, C.zero]
    rw [tempExtrapolateFl_fin hl hs hln hc, tStarFl_fin t ps hl]
    unfold polyR tsR
    simp only [mul_zero, D.fl_zero, add_zero, D.fl_of_rep _ D.rep_one, mul_one, D.fl_of_rep _ (D.rep_fl _)]
  · have hphi : phi ≠ 0 ∨ t0R D R t pl ps phi = tsR D R t pl ps := by
      by_cases h : phi = 0
      · right
        subst h
        unfold t0R hR tsR
        simp only [zero_mul, D.fl_zero, mul_zero, add_zero, D.fl_of_rep _ (D.rep_fl _)]
      · exact Or.inl h
    rw [geoHeightExtrapolateFl_fin hl hs hln hphi, fin_mul, rxf_fin]
    unfold heightR hR
    simp only [mul_zero, zero_mul, D.fl_zero, sub_zero, D.fl_of_rep _ (D.rep_fl _)]

theorem ratio_pos {p ps : ℝ} (hs : 0 < ps) (h : 0.5 ≤ p / ps) : 0 < p := by
  by_contra hcon
  have := div_nonpos_of_nonpos_of_nonneg (not_lt.mp hcon) hs.le
  norm_num at h
  linarith

/-- Below ground the computed temperature is finite and within 210000 unit roundoffs (in kelvin) of the exact formula, whichever branches the rounding errors lead
to. Below 1999 m it is within 3500 unit roundoffs. -/
theorem C181_temperature (PD : Precise D u η) (PR : Precise R u η') (L : LogAccurate D u ln) (C : CubeAccurate D u cube) (t p pl ps phi : ℝ)
    (ht : 0 < t) (ht2 : t ≤ 340) (hl : 0 < pl) (hs : 0 < ps) (h1 : 0.9 ≤ ps / pl) (h2 : ps / pl ≤ 1.2) (h3 : 0.5 ≤ p / ps) (h4 : p / ps ≤ 2) (h5 : |phi| ≤ 60000) :
    ∃ v v', tempExtrapolate (fin t) (fin p) (fin pl) (fin ps) (fin phi) = fin v ∧ tempExtrapolateFl D R ln cube (fin t) (fin p) (fin pl) (fin ps) (fin phi) = fin v' ∧
      |v' - v| ≤ 210000 * u ∧ (phi / Ecmwf.g ≤ 1999 → |v' - v| ≤ 3500 * u) := by
  obtain ⟨a1, a2⟩ := ts_near PD PR ht ht2 h1 h2
  have k := slope_near PD PR ht ht2 h1 h2 h5
  obtain ⟨l, e1, e2, e3⟩ := ln_near PD L h3 h4
  have s : |Ecmwf.alphaT (Ecmwf.surfaceT t pl ps) phi| ≤ 0.19027 := by
    rw [abs_of_nonneg (alphaT_nonneg _ _)]
    refine alphaT_le.trans ?_
    rw [← alpha_eq]
    exact (le_abs_self _).trans alpha_size
  obtain ⟨c3, f1, f2⟩ := poly_near PD PR C a1 a2 k s e2 e3
  refine ⟨_, _, C18_formula t p pl ps phi ht (ratio_pos hs h3) hl hs, tempExtrapolateFl_fin hl hs e1 f1, f2, fun hlow => ?_⟩
  obtain ⟨c3', g1, g2⟩ := poly_near_low PD PR C a1 a2 (slope_near_low PD PR h5 hlow) s e2 e3
  rw [f1] at g1
  cases g1
  exact g2

theorem alphaZ_size {ts phi : ℝ} (h : 0 < phi) : |Ecmwf.alphaZ ts phi| ≤ 0.19027 := by
  rw [alphaZ_eq h]
  obtain ⟨a, b⟩ := clampZ Ecmwf.α (Ecmwf.R / phi * (290.5 - ts)) alpha_bounds.1.le
  rw [abs_of_nonneg a]
  refine b.trans ?_
  rw [← alpha_eq]
  exact (le_abs_self _).trans alpha_size

theorem surfaceT_size (PD : Precise D u η) (PR : Precise R u η') {t pl ps : ℝ} (ht : 0 < t) (ht2 : t ≤ 340) (hl : 0 < pl) (hs : 0 < ps) (h1 : 0.9 ≤ ps / pl) (h2 : ps / pl ≤ 1.2) :
    0 < Ecmwf.surfaceT t pl ps ∧ Ecmwf.surfaceT t pl ps ≤ 353 :=
  ⟨surfaceT_pos t pl ps ht hl hs, (le_abs_self _).trans (ts_near PD PR ht ht2 h1 h2).2⟩

/-- Where the ground is at least 10 m above sea level, the computed height below ground is finite and within `221000 + 2.04e9 / phi` unit roundoffs (in metres) of the
exact formula, whichever branches the rounding errors lead to. -/
theorem C181_height (PD : Precise D u η) (PR : Precise R u η') (L : LogAccurate D u ln) (t p pl ps phi : ℝ)
    (ht : 0 < t) (ht2 : t ≤ 340) (hl : 0 < pl) (hs : 0 < ps) (h1 : 0.9 ≤ ps / pl) (h2 : ps / pl ≤ 1.2) (h3 : 0.5 ≤ p / ps) (h4 : p / ps ≤ 2) (h5 : 98 ≤ phi) (h6 : phi ≤ 60000) :
    ∃ z z', geoHeightExtrapolate (fin t) (fin p) (fin pl) (fin ps) (fin phi) = fin z ∧ geoHeightExtrapolateFl D R ln (fin t) (fin p) (fin pl) (fin ps) (fin phi) = fin z' ∧
      |z' - z| ≤ (221000 + 2.04e9 / phi) * u := by
  have hu := PD.acc.u_nonneg
  have hp : 0 < phi := by linarith
  have h56 : |phi| ≤ 60000 := by rwa [abs_of_pos hp]
  obtain ⟨a1, a2⟩ := ts_near PD PR ht ht2 h1 h2
  obtain ⟨b1, b2⟩ := h_near PD PR h56
  obtain ⟨c1, c2⟩ := t0_near PD PR ht ht2 h1 h2 h56
  obtain ⟨l, e1, e2, e3⟩ := ln_near PD L h3 h4
  obtain ⟨q1, q2⟩ := surfaceT_size PD PR ht ht2 hl hs h1 h2
  have kA := alphaZ_near PD PR h5 h6 a1 c1
  have hord : Ecmwf.surfaceT t pl ps ≤ Ecmwf.surfaceT t pl ps + Ecmwf.lapse * (phi / Ecmwf.g) := by
    have : 0 ≤ Ecmwf.lapse * (phi / Ecmwf.g) := mul_nonneg (by unfold Ecmwf.lapse; norm_num) (div_nonneg hp.le g_pos.le)
    linarith
  obtain ⟨d1, d2⟩ := damped_size (t0 := Ecmwf.surfaceT t pl ps + Ecmwf.lapse * (phi / Ecmwf.g)) q1 q2
  have kD := damped2_near PD (damped1_near PD a1 c1 a2 (Or.inl hord)) d1
  rw [← dampedT_eq] at kD d2
  have hE : 735200 / phi + 2 ≤ 7600 := by
    have : 735200 / phi ≤ 7503 := by rw [div_le_iff₀ hp]; linarith
    linarith
  have n := height_near PD PR b1 b2 kA (alphaZ_size hp) (by positivity) hE kD d2 e2 e3
  refine ⟨_, _, C19_formula t p pl ps phi (ratio_pos hs h3) hl hs, geoHeightExtrapolateFl_fin hl hs e1 (Or.inl hp.ne'), ?_⟩
  rw [height_eq]
  refine le_trans n ?_
  refine mul_le_mul_of_nonneg_right ?_ hu
  have : 2768 * (735200 / phi) ≤ 2.04e9 / phi := by
    rw [← mul_div_assoc]
    exact div_le_div_of_nonneg_right (by norm_num) hp.le
  linarith

/-- At or below sea level the exact formula jumps where the temperature reduced to sea level is 290.5 K (C85). Away from the jump the computed height is within
219000 unit roundoffs (in metres) of it. -/
theorem C181_height_low (PD : Precise D u η) (PR : Precise R u η') (L : LogAccurate D u ln) (t p pl ps phi : ℝ)
    (ht : 0 < t) (ht2 : t ≤ 340) (hl : 0 < pl) (hs : 0 < ps) (h1 : 0.9 ≤ ps / pl) (h2 : ps / pl ≤ 1.2) (h3 : 0.5 ≤ p / ps) (h4 : p / ps ≤ 2) (h5 : -60000 ≤ phi) (h6 : phi ≤ 0)
    (h7 : 1600 * u < |Ecmwf.surfaceT t pl ps + Ecmwf.lapse * (phi / Ecmwf.g) - 290.5|) :
    ∃ z z', geoHeightExtrapolate (fin t) (fin p) (fin pl) (fin ps) (fin phi) = fin z ∧ geoHeightExtrapolateFl D R ln (fin t) (fin p) (fin pl) (fin ps) (fin phi) = fin z' ∧
      |z' - z| ≤ 219000 * u := by
  have hu := PD.acc.u_nonneg
  have h56 : |phi| ≤ 60000 := by rw [abs_of_nonpos h6]; linarith
  obtain ⟨a1, a2⟩ := ts_near PD PR ht ht2 h1 h2
  obtain ⟨b1, b2⟩ := h_near PD PR h56
  obtain ⟨c1, c2⟩ := t0_near PD PR ht ht2 h1 h2 h56
  obtain ⟨l, e1, e2, e3⟩ := ln_near PD L h3 h4
  obtain ⟨q1, q2⟩ := surfaceT_size PD PR ht ht2 hl hs h1 h2
  have hord : Ecmwf.surfaceT t pl ps + Ecmwf.lapse * (phi / Ecmwf.g) ≤ Ecmwf.surfaceT t pl ps := by
    have : Ecmwf.lapse * (phi / Ecmwf.g) ≤ 0 :=
      mul_nonpos_of_nonneg_of_nonpos (by unfold Ecmwf.lapse; norm_num) (div_nonpos_of_nonpos_of_nonneg h6 g_pos.le)
    linarith
  obtain ⟨d1, d2⟩ := damped_size (t0 := Ecmwf.surfaceT t pl ps + Ecmwf.lapse * (phi / Ecmwf.g)) q1 q2
  have kD := damped2_near PD (damped1_near PD a1 c1 a2 (Or.inr ⟨hord, h7⟩)) d1
  rw [← dampedT_eq] at kD d2
  have hα := alpha_near PD PR
  have α0 := alpha_bounds.1
  have αs := alpha_size
  rw [alpha_eq] at hα αs
  have kA : Near u 1.4 (alphaZR D R (tsR D R t pl ps) (t0R D R t pl ps phi) phi) (Ecmwf.alphaZ (Ecmwf.surfaceT t pl ps) phi) ∧
      |Ecmwf.alphaZ (Ecmwf.surfaceT t pl ps) phi| ≤ 0.19027 := by
    have z := c1
    have zt := a1
    unfold Near at z zt
    obtain ⟨z1, z2⟩ := abs_le.mp z
    obtain ⟨y1, y2⟩ := abs_le.mp zt
    unfold alphaZR Ecmwf.alphaZ
    simp only
    by_cases hc : Ecmwf.surfaceT t pl ps + Ecmwf.lapse * (phi / Ecmwf.g) ≤ 290.5
    · rw [abs_of_nonpos (by linarith)] at h7
      rw [if_pos hc, if_neg (by linarith)]
      exact ⟨hα, αs⟩
    · have hc' := not_le.mp hc
      rw [abs_of_pos (by linarith)] at h7
      rw [if_neg hc, if_neg (show ¬ Ecmwf.surfaceT t pl ps ≤ 290.5 by linarith), if_pos (show 290.5 < t0R D R t pl ps phi by linarith),
        if_pos (show 290.5 < tsR D R t pl ps by linarith)]
      exact ⟨Near.mono hu (Near.refl hu 0) (by norm_num), by norm_num⟩
  have n := height_near PD PR b1 b2 kA.1 kA.2 (by norm_num) (by norm_num) kD d2 e2 e3
  have hphi : phi ≠ 0 ∨ t0R D R t pl ps phi = tsR D R t pl ps := by
    by_cases h : phi = 0
    · right
      subst h
      unfold t0R hR tsR
      simp only [zero_mul, D.fl_zero, mul_zero, add_zero, D.fl_of_rep _ (D.rep_fl _)]
    · exact Or.inl h
  refine ⟨_, _, C19_formula t p pl ps phi (ratio_pos hs h3) hl hs, geoHeightExtrapolateFl_fin hl hs e1 hphi, ?_⟩
  rw [height_eq]
  exact le_trans n (mul_le_mul_of_nonneg_right (by norm_num) hu)

/-! ### the hypotheses can be met -/

/-- correctly rounded third power -/
def roundedCube (D : Rounding ℝ) : XF ℝ → XF ℝ
  | fin x => fin (D.fl (x ^ 3))
  | x => x

theorem roundedCube_accurate (PD : Precise D u η) : CubeAccurate D u (roundedCube D) := by
  refine ⟨fun x _ h1 => ⟨_, rfl, ?_⟩, by simp [roundedCube, D.fl_zero]⟩
  have e := PD.acc.err (x ^ 3)
  have hu := PD.acc.u_nonneg
  have h3 : |x ^ 3| ≤ 1 := by
    rw [abs_pow]
    exact pow_le_one₀ (abs_nonneg _) h1
  have h4 := mul_le_mul_of_nonneg_left h3 hu
  have h5 := PD.eta_le
  norm_num at h5
  linarith

/-- double precision, under a mountain of 3059 m: within 2.4e-11 K -/
example : ∃ v v', tempExtrapolate (fin 280) (fin 80000) (fin 69000) (fin 70000) (fin 30000) = fin v ∧
    tempExtrapolateFl float64 float64 (roundedLog float64) (roundedCube float64) (fin 280) (fin 80000) (fin 69000) (fin 70000) (fin 30000) = fin v' ∧ |v' - v| ≤ 2.4e-11 := by
  obtain ⟨v, v', e1, e2, e3, -⟩ := C181_temperature precise_float64 precise_float64 roundedLog_float64 (roundedCube_accurate precise_float64) 280 80000 69000 70000 30000
    (by norm_num) (by norm_num) (by norm_num) (by norm_num) (by norm_num) (by norm_num) (by norm_num) (by norm_num) (by rw [abs_of_pos] <;> norm_num)
  exact ⟨v, v', e1, e2, e3.trans (by norm_num [zpow_neg])⟩

/-- single precision, near the coast: within 0.00021 K -/
example : ∃ v v', tempExtrapolate (fin 290) (fin 102000) (fin 100000) (fin 100500) (fin 200) = fin v ∧
    tempExtrapolateFl float32 float64 (roundedLog float32) (roundedCube float32) (fin 290) (fin 102000) (fin 100000) (fin 100500) (fin 200) = fin v' ∧ |v' - v| ≤ 0.00021 := by
  obtain ⟨v, v', e1, e2, -, e3⟩ := C181_temperature precise_float32 (Precise.coarser precise_float64 (two_zpow_mono (by norm_num)) (by norm_num [zpow_neg]))
    roundedLog_float32 (roundedCube_accurate precise_float32) 290 102000 100000 100500 200
    (by norm_num) (by norm_num) (by norm_num) (by norm_num) (by norm_num) (by norm_num) (by norm_num) (by norm_num) (by rw [abs_of_pos] <;> norm_num)
  exact ⟨v, v', e1, e2, (e3 (by unfold Ecmwf.g; norm_num)).trans (by norm_num [zpow_neg])⟩

/-- double precision, ground at 102 m: within 2.6e-10 m -/
example : ∃ z z', geoHeightExtrapolate (fin 290) (fin 102000) (fin 100000) (fin 100500) (fin 1000) = fin z ∧
    geoHeightExtrapolateFl float64 float64 (roundedLog float64) (fin 290) (fin 102000) (fin 100000) (fin 100500) (fin 1000) = fin z' ∧ |z' - z| ≤ 2.6e-10 := by
  obtain ⟨z, z', e1, e2, e3⟩ := C181_height precise_float64 precise_float64 roundedLog_float64 290 102000 100000 100500 1000
    (by norm_num) (by norm_num) (by norm_num) (by norm_num) (by norm_num) (by norm_num) (by norm_num) (by norm_num) (by norm_num) (by norm_num)
  exact ⟨z, z', e1, e2, e3.trans (by norm_num [zpow_neg])⟩

/-- single precision over the sea: within 0.0131 m -/
example : ∃ z z', geoHeightExtrapolate (fin 300) (fin 102000) (fin 100000) (fin 100000) (fin 0) = fin z ∧
    geoHeightExtrapolateFl float32 float64 (roundedLog float32) (fin 300) (fin 102000) (fin 100000) (fin 100000) (fin 0) = fin z' ∧ |z' - z| ≤ 0.0131 := by
  obtain ⟨z, z', e1, e2, e3⟩ := C181_height_low precise_float32 (Precise.coarser precise_float64 (two_zpow_mono (by norm_num)) (by norm_num [zpow_neg]))
    roundedLog_float32 300 102000 100000 100000 0
    (by norm_num) (by norm_num) (by norm_num) (by norm_num) (by norm_num) (by norm_num) (by norm_num) (by norm_num) (by norm_num) (by norm_num)
    (by rw [abs_of_pos] <;> norm_num [Ecmwf.surfaceT, zpow_neg])
  exact ⟨z, z', e1, e2, e3.trans (by norm_num [zpow_neg])⟩

/-- the anchor in double precision -/
example (t pl ps phi : ℝ) := C181_anchor (R := float64) roundedLog_float64 (roundedCube_accurate precise_float64) t pl ps phi

end
end Verif.Props
