import Verif.Lemmas.FloatEvap
import Verif.Lemmas.FloatCast
import Verif.Props.FloatDewtemp
import Mathlib.Analysis.Complex.ExponentialBounds

/-
C175: the evapotranspiration formulas `psychrometric_constant`, `saturation_vapor_pressure` (also under the name `actual_saturation_vapor_pressure`) and
`saturation_vapor_pressure_slope` in floating-point arithmetic.
-/

namespace Verif.Props
open Verif Model XF Lemmas Spec Tensor

/-- If nothing is rounded, these are the functions of C52-C54. -/
theorem C175_exact (t : Arg (XF ℝ)) (tfill : XF ℝ) :
    psychrometricConstantFl Rounding.exact Rounding.exact t = psychrometricConstant t ∧
    saturationVaporPressureFl Rounding.exact Rounding.exact XF.exp t tfill = saturationVaporPressure t tfill ∧
    saturationVaporPressureSlopeFl Rounding.exact Rounding.exact XF.exp t tfill = saturationVaporPressureSlope t tfill := by
  have e1 : psychPointFl Rounding.exact Rounding.exact = psychPoint := by
    funext x
    unfold psychPointFl psychPoint
    rw [roundXF_exact]
    rfl
  have e2 : svpPointFl Rounding.exact Rounding.exact XF.exp tfill = svpPoint tfill := by
    funext x
    unfold svpPointFl svpPoint toCelsiusFl toCelsius tetensFl svpDenFl
    simp only [roundXF_exact]
    rfl
  have e3 : svpSlopePointFl Rounding.exact Rounding.exact XF.exp tfill = svpSlopePoint tfill := by
    funext x
    unfold svpSlopePointFl svpSlopePoint toCelsiusFl toCelsius tetensFl svpDenFl
    simp only [roundXF_exact]
    rfl
  refine ⟨?_, ?_, ?_⟩
  · unfold psychrometricConstantFl psychrometricConstant; rw [e1]
  · unfold saturationVaporPressureFl saturationVaporPressure; rw [e2]
  · unfold saturationVaporPressureSlopeFl saturationVaporPressureSlope; rw [e3]

variable {D R : Rounding ℝ} {u η η' : ℝ} {ex : XF ℝ → XF ℝ}

/-- **C175**. The psychrometric constant has three rounding errors. -/
theorem C175_psychrometric (PD : Precise D u η) (PR : Precise R u η') (p : Arg (XF ℝ)) (P : List ℕ → ℝ) (hp : HasReals p.val P) :
    ∃ r r' : List ℕ → ℝ, HasReals (psychrometricConstant p).val r ∧ HasReals (psychrometricConstantFl D R p).val r' ∧
      ∀ i, InBounds p.val.shape i → |r' i - r i| ≤ 3.1 * u * |r i| + η := by
  have hu := PD.acc.u_nonneg
  have hu6 := PD.u_le
  refine ⟨fun i => 0.00066474 * P i, fun i => D.fl (D.fl (R.fl 0.00066474) * P i), ?_, ?_, ?_⟩
  · intro i hi
    change psychPoint (p.val.get i) = _
    rw [hp i hi]
    rfl
  · intro i hi
    change psychPointFl D R (p.val.get i) = _
    rw [hp i hi]
    rfl
  · intro i hi
    have h1 := twice PD PR (P := 0.00066474) (by rw [abs_of_pos] <;> norm_num)
    have h2 := Rel.mul hu hu6 (by norm_num) (by norm_num) (le_refl 0) (by norm_num) h1 (Rel.refl u (P i))
    unfold Lemmas.Rel at h2
    have h3 := PD.acc.err (D.fl (R.fl 0.00066474) * P i)
    set x := 0.00066474 * P i
    set x' := D.fl (R.fl 0.00066474) * P i
    have h4 := abs_sub_abs_le_abs_sub x' x
    have h5 : |D.fl x' - x| ≤ |D.fl x' - x'| + |x' - x| := by
      have := abs_add_le (D.fl x' - x') (x' - x)
      rwa [sub_add_sub_cancel] at this
    have h6 : |x'| ≤ (1 + 0.01) * |x| := by
      have h7 : (2.02 + 0 + 0.01) * u ≤ 0.01 := by norm_num at hu6 ⊢; linarith
      have := mul_le_mul_of_nonneg_right h7 (abs_nonneg x)
      linarith
    have h8 := mul_le_mul_of_nonneg_left h6 hu
    have h9 := mul_nonneg hu (abs_nonneg x)
    change |D.fl x' - x| ≤ 3.1 * u * |x| + η
    norm_num at h2 h8
    linarith

/-- **C175**. At and below freezing (32 degrees Fahrenheit) the computed pressure and slope are the fill value, exactly where they are in exact
arithmetic; above freezing they are positive numbers that agree with those of exact arithmetic up to 63 and 75 units of rounding. `u` is the unit
roundoff of the array; the library's exponential is accurate to one unit in the last place. -/
theorem C175_accuracy (PD : Precise D u η) (PR : Precise R u η') (H : FahrenheitFormat D) (E : ExpAccurate D u ex) (t : Arg (XF ℝ)) (tfill : XF ℝ)
    (T : List ℕ → ℝ) (ht : HasReals t.val T) (i : List ℕ) (hi : InBounds t.val.shape i) (hrep : D.rep (T i)) :
    (T i ≤ 32 → (saturationVaporPressureFl D R ex t tfill).val.get i = tfill ∧ (saturationVaporPressure t tfill).val.get i = tfill ∧
      (saturationVaporPressureSlopeFl D R ex t tfill).val.get i = tfill ∧ (saturationVaporPressureSlope t tfill).val.get i = tfill) ∧
    (32 < T i → T i ≤ 212 → ∃ es es' sl sl' : ℝ,
      (saturationVaporPressure t tfill).val.get i = fin es ∧ (saturationVaporPressureFl D R ex t tfill).val.get i = fin es' ∧
      (saturationVaporPressureSlope t tfill).val.get i = fin sl ∧ (saturationVaporPressureSlopeFl D R ex t tfill).val.get i = fin sl' ∧
      0 < es' ∧ 0 < sl' ∧ |es' - es| ≤ 63 * u * es ∧ |sl' - sl| ≤ 75 * u * sl) := by
  have hu := PD.acc.u_nonneg
  have hu6 := PD.u_le
  have g1 : (saturationVaporPressureFl D R ex t tfill).val.get i = svpPointFl D R ex tfill (fin (T i)) := by rw [← ht i hi]; rfl
  have g2 : (saturationVaporPressure t tfill).val.get i = svpPoint tfill (fin (T i)) := by rw [← ht i hi]; rfl
  have g3 : (saturationVaporPressureSlopeFl D R ex t tfill).val.get i = svpSlopePointFl D R ex tfill (fin (T i)) := by rw [← ht i hi]; rfl
  have g4 : (saturationVaporPressureSlope t tfill).val.get i = svpSlopePoint tfill (fin (T i)) := by rw [← ht i hi]; rfl
  rw [g1, g2, g3, g4]
  constructor
  · intro h
    have := svpPointFl_below (R := R) H ex tfill h
    refine ⟨this.1, svpPoint_below tfill h, this.2, ?_⟩
    unfold svpSlopePoint
    simp only [toCelsius_fin, lt_fin]
    simp [sel, h]
  · intro h h2
    obtain ⟨⟨v, hv1, hv2⟩, w, hw1, hw2⟩ := svpPointFl_above PD PR H E tfill hrep h h2
    have hc : 0 < (T i - 32) * 5 / 9 := by linarith
    have hT : 0 < tetensC ((T i - 32) * 5 / 9) := by unfold tetensC; positivity
    have hS : 0 < 4096 * (tetensC ((T i - 32) * 5 / 9) / ((T i - 32) * 5 / 9 + 237.3) ^ 2) := by positivity
    refine ⟨_, v, _, w, svpPoint_above tfill h, hv1, svpSlopePoint_above tfill h, hw1, Rel.pos hu hu6 (by norm_num) hv2 hT,
      Rel.pos hu hu6 (by norm_num) hw2 hS, ?_, ?_⟩
    · unfold Lemmas.Rel at hv2
      rwa [abs_of_pos hT] at hv2
    · unfold Lemmas.Rel at hw2
      rwa [abs_of_pos hS] at hw2

/-- the Tetens curve grows by at least two percent per degree Fahrenheit -/
theorem tetensC_growth {t t' : ℝ} (h : 32 < t) (h' : t ≤ t') (h2 : t' ≤ 212) :
    tetensC ((t - 32) * 5 / 9) * (1 + 0.02 * (t' - t)) ≤ tetensC ((t' - 32) * 5 / 9) := by
  set c := (t - 32) * 5 / 9 with hc
  set c' := (t' - 32) * 5 / 9 with hc'
  have e0 : 0 < c := by rw [hc]; linarith
  have e1 : c ≤ c' := by rw [hc, hc']; linarith
  have e2 : c' ≤ 100 := by rw [hc']; linarith
  have e0' : 0 < c' := e0.trans_le e1
  have ed : t' - t = (c' - c) * 9 / 5 := by rw [hc, hc']; ring
  have key : 17.27 * c / (c + 237.3) + 0.02 * (t' - t) ≤ 17.27 * c' / (c' + 237.3) := by
    have hp : (c + 237.3) * (c' + 237.3) ≤ 337.3 * 337.3 := mul_le_mul (by linarith) (by linarith) (by linarith) (by norm_num)
    have hp0 : 0 < (c + 237.3) * (c' + 237.3) := by positivity
    have : 17.27 * c' / (c' + 237.3) - 17.27 * c / (c + 237.3) = 17.27 * 237.3 * (c' - c) / ((c + 237.3) * (c' + 237.3)) := by
      field_simp
      ring
    have h3 : 0.02 * (t' - t) ≤ 17.27 * 237.3 * (c' - c) / ((c + 237.3) * (c' + 237.3)) := by
      rw [le_div_iff₀ hp0, ed]
      have := mul_le_mul_of_nonneg_left hp (by linarith : 0 ≤ 0.02 * ((c' - c) * 9 / 5))
      norm_num at this ⊢
      linarith
    linarith
  unfold tetensC
  have h4 : Real.exp (17.27 * c / (c + 237.3)) * (1 + 0.02 * (t' - t)) ≤ Real.exp (17.27 * c' / (c' + 237.3)) := by
    refine le_trans ?_ (Real.exp_le_exp.mpr key)
    rw [Real.exp_add]
    refine mul_le_mul_of_nonneg_left ?_ (Real.exp_pos _).le
    have := Real.add_one_le_exp (0.02 * (t' - t))
    linarith
  rw [mul_assoc]
  exact mul_le_mul_of_nonneg_left h4 (by norm_num)

/-- **C175**, what is left of monotonicity: of two calls with temperatures above freezing that differ by at least 6400 units of rounding (7e-13 degrees
in double precision), the one with the higher temperatures returns the higher pressures. -/
theorem C175_monotone_partial (PD : Precise D u η) (PR : Precise R u η') (H : FahrenheitFormat D) (E : ExpAccurate D u ex) (t t' : Arg (XF ℝ)) (tfill : XF ℝ)
    (hs : t'.val.shape = t.val.shape) (T T' : List ℕ → ℝ) (ht : HasReals t.val T) (ht' : HasReals t'.val T') (i : List ℕ) (hi : InBounds t.val.shape i)
    (hrep : D.rep (T i)) (hrep' : D.rep (T' i)) (h : 32 < T i) (hlt : T i + 6400 * u ≤ T' i) (h2 : T' i ≤ 212) :
    ∃ es es' : ℝ, (saturationVaporPressureFl D R ex t tfill).val.get i = fin es ∧ (saturationVaporPressureFl D R ex t' tfill).val.get i = fin es' ∧
      es ≤ es' := by
  have hu := PD.acc.u_nonneg
  have hu6 := PD.u_le
  have hle : T i ≤ T' i := by nlinarith
  obtain ⟨⟨v, hv1, hv2⟩, -⟩ := svpPointFl_above PD PR H E tfill hrep h (hle.trans h2)
  obtain ⟨⟨w, hw1, hw2⟩, -⟩ := svpPointFl_above PD PR H E tfill hrep' (h.trans_le hle) h2
  refine ⟨v, w, ?_, ?_, ?_⟩
  · rw [← hv1, ← ht i hi]; rfl
  · rw [← hw1, ← ht' i (hs ▸ hi)]; rfl
  · have g := tetensC_growth h hle h2
    have hT : 0 < tetensC ((T i - 32) * 5 / 9) := by unfold tetensC; positivity
    have hT' : 0 < tetensC ((T' i - 32) * 5 / 9) := by unfold tetensC; positivity
    unfold Lemmas.Rel at hv2 hw2
    rw [abs_of_pos hT] at hv2
    rw [abs_of_pos hT'] at hw2
    set a := tetensC ((T i - 32) * 5 / 9)
    set b := tetensC ((T' i - 32) * 5 / 9)
    have h3 := (abs_le.mp hv2).2
    have h4 := (abs_le.mp hw2).1
    have h5 : a * (1 + 128 * u) ≤ b := le_trans (mul_le_mul_of_nonneg_left (by linarith) hT.le) g
    have h6 : 63 * u ≤ 63e-6 := by norm_num at hu6 ⊢; linarith
    have h7 : a * (1 + 128 * u) * (1 - 63 * u) ≤ b * (1 - 63 * u) := mul_le_mul_of_nonneg_right h5 (by norm_num at h6; linarith)
    have h8 : a * (1 + 63 * u) ≤ a * ((1 + 128 * u) * (1 - 63 * u)) := by
      refine mul_le_mul_of_nonneg_left ?_ hT.le
      norm_num at h6
      nlinarith
    nlinarith

theorem svpk_0 : (float64 : Rounding ℝ).fl (17.27) = (4861072847793029 / 281474976710656) :=
  float64_eq (17.27) (4861072847793029 / 281474976710656) (by norm_num) (by norm_num) (by decide +kernel)
theorem svpk_1 : (float64 : Rounding ℝ).fl ((4861072847793029 / 281474976710656)) = (4861072847793029 / 281474976710656) :=
  float64_eq ((4861072847793029 / 281474976710656)) (4861072847793029 / 281474976710656) (by norm_num) (by norm_num) (by decide +kernel)
theorem svpk_2 : (float64 : Rounding ℝ).fl (237.3) = (4174625748339917 / 17592186044416) :=
  float64_eq (237.3) (4174625748339917 / 17592186044416) (by norm_num) (by norm_num) (by decide +kernel)
theorem svpk_3 : (float64 : Rounding ℝ).fl ((4174625748339917 / 17592186044416)) = (4174625748339917 / 17592186044416) :=
  float64_eq ((4174625748339917 / 17592186044416)) (4174625748339917 / 17592186044416) (by norm_num) (by norm_num) (by decide +kernel)
theorem svplo_0 : (float64 : Rounding ℝ).fl ((813 / 4) - 32) = (685 / 4) :=
  float64_eq ((813 / 4) - 32) (685 / 4) (by norm_num) (by norm_num) (by decide +kernel)
theorem svplo_1 : (float64 : Rounding ℝ).fl ((685 / 4) * 5) = (3425 / 4) :=
  float64_eq ((685 / 4) * 5) (3425 / 4) (by norm_num) (by norm_num) (by decide +kernel)
theorem svplo_2 : (float64 : Rounding ℝ).fl ((3425 / 4) / 9) = (3347402066784711 / 35184372088832) :=
  float64_eq ((3425 / 4) / 9) (3347402066784711 / 35184372088832) (by norm_num) (by norm_num) (by decide +kernel)
theorem svplo_3 : (float64 : Rounding ℝ).fl ((4861072847793029 / 281474976710656) * (3347402066784711 / 35184372088832)) = (7226204211671495 / 4398046511104) :=
  float64_eq ((4861072847793029 / 281474976710656) * (3347402066784711 / 35184372088832)) (7226204211671495 / 4398046511104) (by norm_num) (by norm_num) (by decide +kernel)
theorem svplo_4 : (float64 : Rounding ℝ).fl ((3347402066784711 / 35184372088832) + (4174625748339917 / 17592186044416)) = (365520423858267 / 1099511627776) :=
  float64_eq ((3347402066784711 / 35184372088832) + (4174625748339917 / 17592186044416)) (365520423858267 / 1099511627776) (by norm_num) (by norm_num) (by decide +kernel)
theorem svplo_5 : (float64 : Rounding ℝ).fl ((7226204211671495 / 4398046511104) / (365520423858267 / 1099511627776)) = (5564656663276835 / 1125899906842624) :=
  float64_eq ((7226204211671495 / 4398046511104) / (365520423858267 / 1099511627776)) (5564656663276835 / 1125899906842624) (by norm_num) (by norm_num) (by decide +kernel)
theorem svphi_0 : (float64 : Rounding ℝ).fl ((7151223627055105 / 35184372088832) - 32) = (6025323720212481 / 35184372088832) :=
  float64_eq ((7151223627055105 / 35184372088832) - 32) (6025323720212481 / 35184372088832) (by norm_num) (by norm_num) (by decide +kernel)
theorem svphi_1 : (float64 : Rounding ℝ).fl ((6025323720212481 / 35184372088832) * 5) = (7531654650265601 / 8796093022208) :=
  float64_eq ((6025323720212481 / 35184372088832) * 5) (7531654650265601 / 8796093022208) (by norm_num) (by norm_num) (by decide +kernel)
theorem svphi_2 : (float64 : Rounding ℝ).fl ((7531654650265601 / 8796093022208) / 9) = (6694804133569423 / 70368744177664) :=
  float64_eq ((7531654650265601 / 8796093022208) / 9) (6694804133569423 / 70368744177664) (by norm_num) (by norm_num) (by decide +kernel)
theorem svphi_3 : (float64 : Rounding ℝ).fl ((4861072847793029 / 281474976710656) * (6694804133569423 / 70368744177664)) = (903275526458937 / 549755813888) :=
  float64_eq ((4861072847793029 / 281474976710656) * (6694804133569423 / 70368744177664)) (903275526458937 / 549755813888) (by norm_num) (by norm_num) (by decide +kernel)
theorem svphi_4 : (float64 : Rounding ℝ).fl ((6694804133569423 / 70368744177664) + (4174625748339917 / 17592186044416)) = (5848326781732273 / 17592186044416) :=
  float64_eq ((6694804133569423 / 70368744177664) + (4174625748339917 / 17592186044416)) (5848326781732273 / 17592186044416) (by norm_num) (by norm_num) (by decide +kernel)
theorem svphi_5 : (float64 : Rounding ℝ).fl ((903275526458937 / 549755813888) / (5848326781732273 / 17592186044416)) = (2782328331638417 / 562949953421312) :=
  float64_eq ((903275526458937 / 549755813888) / (5848326781732273 / 17592186044416)) (2782328331638417 / 562949953421312) (by norm_num) (by norm_num) (by decide +kernel)

/-! ### The hypotheses can be met: IEEE formats and a correctly rounded exponential -/

theorem repBin_gap {p : ℕ} {emin : ℤ} {x : ℝ} (h : RepBin p emin x) (hx : 32 < x) (hp : p ≤ 53) : 1e-15 ≤ x - 32 := by
  obtain ⟨m, e, -, hm, rfl⟩ := h
  have hpe : -48 ≤ e := by
    by_contra hc
    push Not at hc
    have hm' : (m : ℝ) ≤ 2 ^ 53 := by
      have : (m : ℝ) ≤ 2 ^ p := by exact_mod_cast (le_abs_self m).trans hm
      exact this.trans (pow_le_pow_right₀ (by norm_num) hp)
    have h1 := mul_le_mul_of_nonneg_right hm' (two_zpow_pos (K := ℝ) e).le
    have h2 : (2 : ℝ) ^ e ≤ 2 ^ (-49 : ℤ) := two_zpow_mono (by omega)
    have h3 := mul_le_mul_of_nonneg_left h2 (by norm_num : (0 : ℝ) ≤ 2 ^ 53)
    norm_num [zpow_neg] at h1 h3
    linarith
  have hk : (m : ℝ) * 2 ^ e = ((m * 2 ^ (e + 48).toNat : ℤ) : ℝ) * 2 ^ (-48 : ℤ) := by
    push_cast
    rw [← zpow_natCast, Int.toNat_of_nonneg (by omega), mul_assoc, ← zpow_add₀ (by norm_num)]
    congr 2
    ring
  rw [hk] at hx ⊢
  set k : ℤ := m * 2 ^ (e + 48).toNat
  have h48 : (0 : ℝ) < 2 ^ (-48 : ℤ) := by positivity
  have hgt : (32 * 2 ^ 48 : ℤ) < k := by
    have : (32 * 2 ^ 48 : ℝ) < k := by
      have h1 : (32 : ℝ) = 32 * 2 ^ 48 * 2 ^ (-48 : ℤ) := by norm_num [zpow_neg]
      rw [h1] at hx
      exact lt_of_mul_lt_mul_right hx h48.le
    exact_mod_cast this
  have h5 : (32 * 2 ^ 48 + 1 : ℝ) ≤ k := by exact_mod_cast hgt
  have h6 := mul_le_mul_of_nonneg_right h5 h48.le
  norm_num [zpow_neg] at h6 ⊢
  linarith

theorem fahrenheit_float64 : FahrenheitFormat float64 :=
  ⟨⟨5, 0, by norm_num, by norm_num, by norm_num⟩, ⟨9, 0, by norm_num, by norm_num, by norm_num⟩, fun _ h h' => repBin_gap h h' (by norm_num)⟩

theorem fahrenheit_float32 : FahrenheitFormat float32 :=
  ⟨⟨5, 0, by norm_num, by norm_num, by norm_num⟩, ⟨9, 0, by norm_num, by norm_num, by norm_num⟩, fun _ h h' => repBin_gap h h' (by norm_num)⟩

/-- correctly rounded exponential -/
noncomputable def roundedExp (D : Rounding ℝ) : XF ℝ → XF ℝ
  | fin x => fin (D.fl (Real.exp x))
  | x => x

theorem exp_neg40 {x : ℝ} (h : |x| ≤ 40) : 1e-20 ≤ Real.exp x := by
  have h1 : Real.exp (-40) ≤ Real.exp x := Real.exp_le_exp.mpr (abs_le.mp h).1
  refine le_trans ?_ h1
  have h2 : Real.exp (-40) = (Real.exp 1 ^ 40)⁻¹ := by
    rw [Real.exp_neg, ← Real.exp_nat_mul]
    norm_num
  rw [h2]
  have h3 : Real.exp 1 ^ 40 ≤ 3 ^ 40 := pow_le_pow_left₀ (Real.exp_pos 1).le (by have := Real.exp_one_lt_d9; norm_num at this ⊢; linarith) 40
  have h4 : (3 ^ 40 : ℝ)⁻¹ ≤ (Real.exp 1 ^ 40)⁻¹ := inv_anti₀ (by positivity) h3
  refine le_trans ?_ h4
  norm_num

theorem roundedExp_accurate (P : Precise D u η) : ExpAccurate D u (roundedExp D) := by
  refine ⟨fun x hx h => ⟨_, rfl, D.rep_fl _, ?_⟩⟩
  have h1 := P.acc.err (Real.exp x)
  have h2 := mul_le_mul_of_nonneg_left (exp_neg40 h) P.acc.u_nonneg
  have h3 := P.eta_le
  have hu := P.acc.u_nonneg
  rw [abs_of_pos (Real.exp_pos x)] at h1
  norm_num at h2 h3
  linarith

theorem rounded_gap {u η k a b y z Y Z : ℝ} (hu : 0 < u) (hu6 : u ≤ 1e-6) (hη : η ≤ u * 1e-30) (hk : 0.6 ≤ k) (hb : 1 ≤ b) (hab : b * (1 + 8 * u) ≤ a)
    (hy : |y - a| ≤ 2 * u * a) (hz : |z - b| ≤ 2 * u * b) (hY : |Y - k * y| ≤ u * |k * y| + η) (hZ : |Z - k * z| ≤ u * |k * z| + η) : Z < Y := by
  have hk0 : 0 < k := lt_of_lt_of_le (by norm_num) hk
  have hu6' : u ≤ 1 / 1000000 := by norm_num at hu6 ⊢; exact hu6
  have hb0 : 0 < b := by linarith
  have h0 : 0 < 1 + 8 * u := by linarith
  have ha0 : 0 < a := lt_of_lt_of_le (mul_pos hb0 h0) hab
  have y1 : a * (1 - 2 * u) ≤ y := by linarith [(abs_le.mp hy).1]
  have y2 : b * (1 + 5.9 * u) ≤ y := by
    refine le_trans ?_ y1
    refine le_trans ?_ (mul_le_mul_of_nonneg_right hab (by linarith))
    rw [mul_assoc]
    refine mul_le_mul_of_nonneg_left ?_ hb0.le
    norm_num
    nlinarith
  have z1 : b * (1 - 2 * u) ≤ z := by linarith [(abs_le.mp hz).1]
  have z2 : z ≤ b * (1 + 2 * u) := by linarith [(abs_le.mp hz).2]
  have z0 : 0 < z := lt_of_lt_of_le (mul_pos hb0 (by linarith)) z1
  have y0 : 0 < y := lt_of_lt_of_le (mul_pos hb0 (by norm_num; linarith)) y2
  rw [abs_of_pos (mul_pos hk0 y0)] at hY
  rw [abs_of_pos (mul_pos hk0 z0)] at hZ
  have Y1 : k * y * (1 - u) - η ≤ Y := by linarith [(abs_le.mp hY).1]
  have Z1 : Z ≤ k * z * (1 + u) + η := by linarith [(abs_le.mp hZ).2]
  have w0 : 0.6 ≤ k * b := by nlinarith
  have Y2 : k * b * (1 + 4.8 * u) ≤ k * y * (1 - u) := by
    have := mul_le_mul_of_nonneg_right (mul_le_mul_of_nonneg_left y2 hk0.le) (by linarith : 0 ≤ 1 - u)
    refine le_trans ?_ this
    have e : k * (b * (1 + 5.9 * u)) * (1 - u) = k * b * ((1 + 5.9 * u) * (1 - u)) := by ring
    rw [e]
    refine mul_le_mul_of_nonneg_left ?_ (mul_pos hk0 hb0).le
    norm_num
    nlinarith
  have Z2 : k * z * (1 + u) ≤ k * b * (1 + 3.1 * u) := by
    have := mul_le_mul_of_nonneg_right (mul_le_mul_of_nonneg_left z2 hk0.le) (by linarith : 0 ≤ 1 + u)
    refine le_trans this ?_
    have e : k * (b * (1 + 2 * u)) * (1 + u) = k * b * ((1 + 2 * u) * (1 + u)) := by ring
    rw [e]
    refine mul_le_mul_of_nonneg_left ?_ (mul_pos hk0 hb0).le
    norm_num
    nlinarith
  have hw := mul_le_mul_of_nonneg_right w0 hu.le
  norm_num at hη hw Y2 Z2
  linarith

/-- **C175**. The pressures do not always increase with temperature: 203.25 degrees Fahrenheit and the next double-precision number, with any exponential
accurate to one unit in the last place. -/
theorem C175_counterexample (E : ExpAccurate float64 (2 ^ (-53 : ℤ)) ex) (tfill : XF ℝ) :
    ∃ es es' : ℝ, (saturationVaporPressureFl float64 float64 ex (constArg .ndarray [1] (813 / 4)) tfill).val.get [0] = fin es ∧
      (saturationVaporPressureFl float64 float64 ex (constArg .ndarray [1] (7151223627055105 / 35184372088832)) tfill).val.get [0] = fin es' ∧
      (813 / 4 : ℝ) < 7151223627055105 / 35184372088832 ∧ es' < es := by
  have c1 : cF float64 (813 / 4) = 3347402066784711 / 35184372088832 := by
    unfold cF; rw [svplo_0, svplo_1, svplo_2]
  have c2 : cF float64 (7151223627055105 / 35184372088832) = 6694804133569423 / 70368744177664 := by
    unfold cF; rw [svphi_0, svphi_1, svphi_2]
  have d1 : denF float64 float64 (3347402066784711 / 35184372088832) = 365520423858267 / 1099511627776 := by
    unfold denF; rw [svpk_2, svpk_3, svplo_4]
  have d2 : denF float64 float64 (6694804133569423 / 70368744177664) = 5848326781732273 / 17592186044416 := by
    unfold denF; rw [svpk_2, svpk_3, svphi_4]
  have a1 : argF float64 float64 (3347402066784711 / 35184372088832) = 5564656663276835 / 1125899906842624 := by
    unfold argF; rw [d1, svpk_0, svpk_1, svplo_3, svplo_5]
  have a2 : argF float64 float64 (6694804133569423 / 70368744177664) = 2782328331638417 / 562949953421312 := by
    unfold argF; rw [d2, svpk_0, svpk_1, svphi_3, svphi_5]
  obtain ⟨y, hy1, -, hy2⟩ := E.fin (argF float64 float64 (3347402066784711 / 35184372088832)) (float64.rep_fl _) (by rw [a1, abs_of_pos] <;> norm_num)
  obtain ⟨z, hz1, -, hz2⟩ := E.fin (argF float64 float64 (6694804133569423 / 70368744177664)) (float64.rep_fl _) (by rw [a2, abs_of_pos] <;> norm_num)
  have t1 := tetensFl_fin (by rw [d1]; norm_num) hy1
  have t2 := tetensFl_fin (by rw [d2]; norm_num) hz1
  refine ⟨_, _, (?_ : _ = fin (float64.fl (float64.fl (float64.fl 0.6108) * y))), (?_ : _ = fin (float64.fl (float64.fl (float64.fl 0.6108) * z))),
    by norm_num, ?_⟩
  · change svpPointFl float64 float64 ex tfill (fin (813 / 4)) = _
    unfold svpPointFl
    simp only [toCelsiusFl_fin fahrenheit_float64, c1, lt_fin, t1]
    norm_num [sel]
  · change svpPointFl float64 float64 ex tfill (fin (7151223627055105 / 35184372088832)) = _
    unfold svpPointFl
    simp only [toCelsiusFl_fin fahrenheit_float64, c2, lt_fin, t2]
    norm_num [sel]
  · rw [a1] at hy2
    rw [a2] at hz2
    have hu : (0 : ℝ) < 2 ^ (-53 : ℤ) := two_zpow_pos _
    have hE : Real.exp (2782328331638417 / 562949953421312) * (1 + 8 * 2 ^ (-53 : ℤ)) ≤ Real.exp (5564656663276835 / 1125899906842624) := by
      have e : (5564656663276835 / 1125899906842624 : ℝ) = 2782328331638417 / 562949953421312 + 8 * 2 ^ (-53 : ℤ) := by norm_num [zpow_neg]
      rw [e, Real.exp_add]
      refine mul_le_mul_of_nonneg_left ?_ (Real.exp_pos _).le
      have := Real.add_one_le_exp (8 * 2 ^ (-53 : ℤ) : ℝ)
      linarith
    have hk := twice precise_float64 precise_float64 (P := 0.6108) (by rw [abs_of_pos] <;> norm_num)
    unfold Lemmas.Rel at hk
    rw [abs_of_pos (by norm_num : (0 : ℝ) < 0.6108)] at hk
    have hk6 : 0.6 ≤ (float64 : Rounding ℝ).fl (float64.fl 0.6108) := by
      have := (abs_le.mp hk).1
      have h6 := (precise_float64).u_le
      norm_num at this h6 ⊢
      linarith
    exact rounded_gap hu precise_float64.u_le precise_float64.eta_le hk6 (Real.one_le_exp (by norm_num)) hE hy2 hz2
      (float64_accurate.err _) (float64_accurate.err _)

/-- a double-precision array across freezing -/
example : (saturationVaporPressureFl float64 float64 (roundedExp float64) (constArg .ndarray [2] 32) nan).val.get [1] = nan :=
  ((C175_accuracy precise_float64 precise_float64 fahrenheit_float64 (roundedExp_accurate precise_float64) (constArg .ndarray [2] 32) nan (fun _ => 32)
    (fun _ _ => rfl) [1] (by simp [constArg, InBounds]) (rep_32 _)).1 (le_refl _)).1

example : ∃ es es' sl sl' : ℝ, (saturationVaporPressure (constArg .ndarray [2] 64) nan).val.get [1] = fin es ∧
    (saturationVaporPressureFl float32 float64 (roundedExp float32) (constArg .ndarray [2] 64) nan).val.get [1] = fin es' ∧
    (saturationVaporPressureSlope (constArg .ndarray [2] 64) nan).val.get [1] = fin sl ∧
    (saturationVaporPressureSlopeFl float32 float64 (roundedExp float32) (constArg .ndarray [2] 64) nan).val.get [1] = fin sl' ∧
    0 < es' ∧ 0 < sl' ∧ |es' - es| ≤ 63 * 2 ^ (-24 : ℤ) * es ∧ |sl' - sl| ≤ 75 * 2 ^ (-24 : ℤ) * sl :=
  (C175_accuracy precise_float32 (Precise.coarser precise_float64 (two_zpow_mono (by norm_num)) (by norm_num [zpow_neg])) fahrenheit_float32
    (roundedExp_accurate precise_float32) (constArg .ndarray [2] 64) nan (fun _ => 64) (fun _ _ => rfl) [1] (by simp [constArg, InBounds])
    ⟨64, 0, by norm_num, by norm_num, by norm_num⟩).2 (by norm_num) (by norm_num)

/-- two temperatures one degree apart -/
example : ∃ es es' : ℝ, (saturationVaporPressureFl float64 float64 (roundedExp float64) (constArg .ndarray [1] 64) nan).val.get [0] = fin es ∧
    (saturationVaporPressureFl float64 float64 (roundedExp float64) (constArg .ndarray [1] 65) nan).val.get [0] = fin es' ∧ es ≤ es' :=
  C175_monotone_partial precise_float64 precise_float64 fahrenheit_float64 (roundedExp_accurate precise_float64) (constArg .ndarray [1] 64)
    (constArg .ndarray [1] 65) nan rfl (fun _ => 64) (fun _ => 65) (fun _ _ => rfl) (fun _ _ => rfl) [0] (by simp [constArg, InBounds])
    ⟨64, 0, by norm_num, by norm_num, by norm_num⟩ ⟨65, 0, by norm_num, by norm_num, by norm_num⟩ (by norm_num) (by norm_num [zpow_neg]) (by norm_num)

example := C175_counterexample (roundedExp_accurate precise_float64) nan

end Verif.Props
