import Verif.Model.FloatsDewtemp
import Verif.Lemmas.FloatRel
import Verif.Lemmas.Dewtemp
import Mathlib.Analysis.SpecialFunctions.Log.Basic

namespace Verif.Lemmas
open Model XF
noncomputable section

/-- a logarithm of stored numbers with an error of at most one unit in the last place, and with stored numbers as results -/
structure LogAccurate (D : Rounding ℝ) (u : ℝ) (ln : XF ℝ → XF ℝ) : Prop where
  fin : ∀ x, D.rep x → 0 < x → ∃ y, ln (XF.fin x) = XF.fin y ∧ D.rep y ∧ |y - Real.log x| ≤ 2 * u * |Real.log x|

/-- rounded latent heat over gas constant -/
def lhvF (D R : Rounding ℝ) (T : ℝ) : ℝ :=
  D.fl (D.fl (D.fl (R.fl 597.3) - D.fl (D.fl (R.fl 0.57) * D.fl (T - D.fl 273))) / dewGcxFl D R)

variable {D R : Rounding ℝ} {u η : ℝ}

theorem twice {P : ℝ} (PD : Precise D u η) {η' : ℝ} (PR : Precise R u η') (h : 1e-20 ≤ |P|) : Rel u 2.02 (D.fl (R.fl P)) P := by
  have := Rel.fl PD (by norm_num) (by norm_num) (Rel.const PR h) h
  exact Rel.mono PD.acc.u_nonneg this (by norm_num)

theorem gcx_close {η' : ℝ} (PD : Precise D u η) (PR : Precise R u η') : Rel u 4.11 (dewGcxFl D R) (461.5 / (1000 * 4.186)) := by
  have hu := PD.acc.u_nonneg
  have hu6 := PD.u_le
  have h1 : Rel u 1.01 (R.fl 4.186) 4.186 := Rel.const PR (by rw [abs_of_pos] <;> norm_num)
  have h2 := Rel.mul hu hu6 (le_refl 0) (by norm_num) (by norm_num) (by norm_num) (Rel.refl u 1000) h1
  have h3 := Rel.fl PR (by norm_num) (by norm_num) h2 (by rw [abs_of_pos] <;> norm_num)
  have h4 := Rel.div hu hu6 (le_refl 0) (by norm_num) (by norm_num) (by norm_num) (Rel.refl u 461.5) h3 (by norm_num)
  have h5 := Rel.fl PR (by norm_num) (by norm_num) h4 (by rw [abs_of_pos] <;> norm_num)
  have h6 := Rel.fl PD (by norm_num) (by norm_num) h5 (by rw [abs_of_pos] <;> norm_num)
  exact Rel.mono hu h6 (by norm_num)

theorem lhvF_close {η' : ℝ} (PD : Precise D u η) (PR : Precise R u η') {T : ℝ} (h0 : 100 ≤ T) (h1 : T ≤ 400) : Rel u 10 (lhvF D R T) (lhvR T) := by
  have hu := PD.acc.u_nonneg
  have hu6 := PD.u_le
  have c273 : |D.fl 273 - 273| ≤ 276 * u := by
    have := Rel.const PD (x := 273) (by rw [abs_of_pos] <;> norm_num)
    unfold Rel at this
    rw [abs_of_pos (by norm_num : (0 : ℝ) < 273)] at this
    norm_num at this ⊢
    linarith
  have hd : |(T - D.fl 273) - (T - 273)| ≤ 276 * u := by
    have : (T - D.fl 273) - (T - 273) = -(D.fl 273 - 273) := by ring
    rw [this, abs_neg]
    exact c273
  have hdb : |T - 273| ≤ 173 := by rw [abs_le]; constructor <;> linarith
  have hd' := abs_fl PD (by norm_num) (by norm_num) hd hdb
  have c57 : |D.fl (R.fl 0.57) - 0.57| ≤ 1.16 * u := by
    have := twice PD PR (P := 0.57) (by rw [abs_of_pos] <;> norm_num)
    unfold Rel at this
    rw [abs_of_pos (by norm_num : (0 : ℝ) < 0.57)] at this
    norm_num at this ⊢
    linarith
  have c57b : |D.fl (R.fl 0.57)| ≤ 0.571 := by
    have := abs_sub_abs_le_abs_sub (D.fl (R.fl 0.57)) 0.57
    rw [abs_of_pos (by norm_num : (0 : ℝ) < 0.57)] at this
    norm_num at this c57 hu6 ⊢
    linarith
  have hp := abs_mul_close c57 hd' c57b hdb hu (by norm_num)
  have hpb : |0.57 * (T - 273)| ≤ 99 := by
    rw [abs_mul, abs_of_pos (by norm_num : (0 : ℝ) < 0.57)]
    have := mul_le_mul_of_nonneg_left hdb (by norm_num : (0 : ℝ) ≤ 0.57)
    norm_num at this ⊢
    linarith
  have hp' := abs_fl PD (by norm_num) (by norm_num) hp hpb
  have c597 : |D.fl (R.fl 597.3) - 597.3| ≤ 1210 * u := by
    have := twice PD PR (P := 597.3) (by rw [abs_of_pos] <;> norm_num)
    unfold Rel at this
    rw [abs_of_pos (by norm_num : (0 : ℝ) < 597.3)] at this
    norm_num at this ⊢
    linarith
  have hs : |(D.fl (R.fl 597.3) - D.fl (D.fl (R.fl 0.57) * D.fl (T - D.fl 273))) - (597.3 - 0.57 * (T - 273))| ≤ 1770 * u := by
    have e : (D.fl (R.fl 597.3) - D.fl (D.fl (R.fl 0.57) * D.fl (T - D.fl 273))) - (597.3 - 0.57 * (T - 273)) =
        (D.fl (R.fl 597.3) - 597.3) - (D.fl (D.fl (R.fl 0.57) * D.fl (T - D.fl 273)) - 0.57 * (T - 273)) := by ring
    rw [e]
    have := abs_sub (D.fl (R.fl 597.3) - 597.3) (D.fl (D.fl (R.fl 0.57) * D.fl (T - D.fl 273)) - 0.57 * (T - 273))
    norm_num at this hp' c597 ⊢
    linarith
  have hnpos : 524.9 ≤ 597.3 - 0.57 * (T - 273) := by norm_num; linarith
  have hnle : |597.3 - 0.57 * (T - 273)| ≤ 696.1 := by rw [abs_le]; constructor <;> norm_num <;> linarith
  have hs' := abs_fl PD (by norm_num) (by norm_num) hs hnle
  have hrel := Rel.of_abs (n := 4.8) (L := 524.9) (by norm_num) hs' (by rw [abs_of_pos] <;> linarith) (by norm_num) hu (by norm_num)
  have hg := gcx_close PD PR
  have hq := Rel.div hu hu6 (by norm_num) (by norm_num) (by norm_num) (by norm_num) hrel hg (by norm_num)
  have hpos : (1e-20 : ℝ) ≤ |(597.3 - 0.57 * (T - 273)) / (461.5 / (1000 * 4.186))| := by
    rw [abs_of_pos (div_pos (by linarith) (by norm_num)), le_div_iff₀ (by norm_num)]
    norm_num at hnpos ⊢
    linarith
  have hq' := Rel.fl PD (by norm_num) (by norm_num) hq hpos
  exact Rel.mono hu hq' (by norm_num)

theorem lhvR_bounds {T : ℝ} (h0 : 100 ≤ T) (h1 : T ≤ 400) : 4761 ≤ lhvR T ∧ lhvR T ≤ 6314 := by
  unfold lhvR
  constructor
  · rw [le_div_iff₀ (by norm_num)]; norm_num; linarith
  · rw [div_le_iff₀ (by norm_num)]; norm_num; linarith

theorem lhvF_pos {η' : ℝ} (PD : Precise D u η) (PR : Precise R u η') {T : ℝ} (h0 : 100 ≤ T) (h1 : T ≤ 400) : 0 < lhvF D R T := by
  have h := lhvF_close PD PR h0 h1
  have hb := lhvR_bounds h0 h1
  unfold Rel at h
  rw [abs_of_pos (by linarith : 0 < lhvR T), abs_le] at h
  have hu6 := PD.u_le
  have hu := PD.acc.u_nonneg
  have : 10 * u * lhvR T ≤ 10 * 1e-6 * lhvR T := mul_le_mul_of_nonneg_right (by linarith) (by linarith)
  norm_num at this
  linarith [h.1]

/-- rounded dew point when the logarithm is `y` -/
def dewF (D R : Rounding ℝ) (T y : ℝ) : ℝ := D.fl (D.fl (T * lhvF D R T) / D.fl (lhvF D R T - D.fl (T * y)))

theorem den_ge {T y : ℝ} (hT : 0 ≤ T) (hy : y ≤ 0) : lhvF D R T ≤ D.fl (lhvF D R T - D.fl (T * y)) := by
  have h1 : D.fl (T * y) ≤ 0 := D.fl_nonpos (mul_nonpos_of_nonneg_of_nonpos hT hy)
  exact D.le_fl (D.rep_fl _) (by linarith)

theorem dewF_mono {T y y' : ℝ} (hT : 0 ≤ T) (hl : 0 < lhvF D R T) (h : y ≤ y') (hy' : y' ≤ 0) : dewF D R T y ≤ dewF D R T y' := by
  have h1 := den_ge (D := D) (R := R) hT hy'
  have h2 : D.fl (lhvF D R T - D.fl (T * y')) ≤ D.fl (lhvF D R T - D.fl (T * y)) := by
    apply D.mono
    have := D.mono _ _ (mul_le_mul_of_nonneg_left h hT)
    linarith
  unfold dewF
  apply D.mono
  exact div_le_div_of_nonneg_left (D.fl_nonneg (mul_nonneg hT hl.le)) (by linarith) h2

theorem dewtempPointFl_fin {T rh y : ℝ} {ln : XF ℝ → XF ℝ} (hg : dewGcxFl D R ≠ 0) (hT : 0 ≤ T) (hl : 0 < lhvF D R T)
    (hln : ln (fin (D.fl (rh * D.fl (R.fl 0.01)))) = fin y) (hy : y ≤ 0) : dewtempPointFl D R ln (fin T) (fin rh) = fin (dewF D R T y) := by
  have hlhv : dewLhvFl D R (fin T) = fin (lhvF D R T) := by
    unfold dewLhvFl lhvF
    simp only [fin_sub, roundXF, fin_mul]
    rw [fin_div _ _ hg]
  have hden := den_ge (D := D) (R := R) hT hy
  unfold dewtempPointFl dewF
  simp only [hlhv, fin_mul, roundXF, hln, fin_sub]
  rw [fin_div _ _ (by linarith)]

theorem gcx_ne {η' : ℝ} (PD : Precise D u η) (PR : Precise R u η') : dewGcxFl D R ≠ 0 :=
  Rel.ne_zero PD.u_le PD.acc.u_nonneg (by norm_num) (gcx_close PD PR) (by norm_num)

/-- the rounded argument of the logarithm -/
theorem fraction_close {η' : ℝ} (PD : Precise D u η) (PR : Precise R u η') {rh : ℝ} (h : 1e-3 ≤ rh) :
    Rel u 3.04 (D.fl (rh * D.fl (R.fl 0.01))) (rh * 0.01) := by
  have hu := PD.acc.u_nonneg
  have hu6 := PD.u_le
  have h1 := twice PD PR (P := 0.01) (by rw [abs_of_pos] <;> norm_num)
  have h2 := Rel.mul hu hu6 (le_refl 0) (by norm_num) (by norm_num) (by norm_num) (Rel.refl u rh) h1
  have h3 := Rel.fl PD (by norm_num) (by norm_num) h2 (by
    rw [abs_of_pos (by norm_num at h ⊢; linarith)]
    norm_num at h ⊢
    linarith)
  exact Rel.mono hu h3 (by norm_num)

/-- logarithms of close numbers -/
theorem log_close {x x' n : ℝ} (hx : 0 < x) (hu : 0 ≤ u) (hu6 : u ≤ 1e-6) (hn : 0 ≤ n) (hn2 : n ≤ 100) (h : Rel u n x' x) :
    0 < x' ∧ |Real.log x' - Real.log x| ≤ (n + 0.02) * u := by
  unfold Rel at h
  rw [abs_of_pos hx, abs_le] at h
  have hnu : n * u ≤ 1e-4 := by
    have : n * u ≤ 100 * 1e-6 := mul_le_mul hn2 hu6 hu (by norm_num)
    norm_num at this ⊢
    linarith
  have hnu0 : 0 ≤ n * u := mul_nonneg hn hu
  have hx' : (1 - n * u) * x ≤ x' := by linarith [h.1]
  have hx'2 : x' ≤ (1 + n * u) * x := by linarith [h.2]
  have h1 : 0 < 1 - n * u := by norm_num at hnu; linarith
  have hpos : 0 < x' := lt_of_lt_of_le (mul_pos h1 hx) hx'
  refine ⟨hpos, ?_⟩
  rw [← Real.log_div hpos.ne' hx.ne', abs_le]
  have hq1 : 1 - n * u ≤ x' / x := by rw [le_div_iff₀ hx]; exact hx'
  have hq2 : x' / x ≤ 1 + n * u := by rw [div_le_iff₀ hx]; exact hx'2
  have hq0 : 0 < x' / x := div_pos hpos hx
  constructor
  · have := Real.one_sub_inv_le_log_of_pos hq0
    have h2 : (x' / x)⁻¹ ≤ (1 - n * u)⁻¹ := inv_anti₀ h1 hq1
    have h3 : (1 - n * u)⁻¹ ≤ 1 + (n + 0.02) * u := by
      rw [inv_le_iff_one_le_mul₀ h1]
      have k : n * (n * u) ≤ 100 * 1e-4 := mul_le_mul hn2 hnu hnu0 (by norm_num)
      have k2 : n * u * (n * u) ≤ 0.01 * u := by
        have := mul_le_mul_of_nonneg_right k hu
        norm_num at this ⊢
        linarith
      have k3 : n * u * (0.02 * u) ≤ 1e-4 * (0.02 * u) := mul_le_mul_of_nonneg_right hnu (by positivity)
      norm_num at k2 k3 ⊢
      nlinarith
    linarith
  · have := Real.log_le_sub_one_of_pos hq0
    have : 0 ≤ 0.02 * u := by positivity
    linarith

/-- the dew point is accurate to 25 units in the last place -/
theorem dewF_close {η' : ℝ} (PD : Precise D u η) (PR : Precise R u η') {T rh y : ℝ} (h0 : 100 ≤ T) (h1 : T ≤ 400) (hr : 1e-3 ≤ rh) (hr1 : rh ≤ 100)
    (hy : |y - Real.log (D.fl (rh * D.fl (R.fl 0.01)))| ≤ 2 * u * |Real.log (D.fl (rh * D.fl (R.fl 0.01)))|) :
    |dewF D R T y - dewR T rh| ≤ 25 * u * dewR T rh := by
  have hu := PD.acc.u_nonneg
  have hu6 := PD.u_le
  have hrpos : 0 < rh * 0.01 := by norm_num at hr ⊢; linarith
  obtain ⟨hxp, hlog⟩ := log_close hrpos hu hu6 (by norm_num) (by norm_num) (fraction_close PD PR hr)
  set x' := D.fl (rh * D.fl (R.fl 0.01)) with hx'
  set L := Real.log (rh * 0.01) with hL
  have hL0 : L ≤ 0 := Real.log_nonpos hrpos.le (by norm_num; linarith)
  have hTpos : 0 < T := by linarith
  obtain ⟨hl1, hl2⟩ := lhvR_bounds h0 h1
  have hlc := lhvF_close PD PR h0 h1
  set lam := lhvR T with hlam
  set lam' := lhvF D R T with hlam'
  -- the logarithm
  have hyL : |y - L| ≤ 3.1 * u + 2 * u * |L| := by
    have e := abs_sub_le y (Real.log x') L
    have e2 : |Real.log x'| ≤ |L| + (3.04 + 0.02) * u := by
      have := abs_sub_abs_le_abs_sub (Real.log x') L
      linarith
    have e3 : 2 * u * |Real.log x'| ≤ 2 * u * (|L| + (3.04 + 0.02) * u) := mul_le_mul_of_nonneg_left e2 (by linarith)
    have e4 : u * u ≤ 1e-6 * u := mul_le_mul_of_nonneg_right hu6 hu
    norm_num at e3 e4 hlog ⊢
    nlinarith
  set A := -L with hA
  have hA0 : 0 ≤ A := by linarith
  have hAL : |L| = A := by rw [abs_of_nonpos hL0]
  rw [hAL] at hyL
  have hTA : 0 ≤ T * A := mul_nonneg hTpos.le hA0
  -- T * log
  have hty : |T * y - T * L| ≤ T * (3.1 * u + 2 * u * A) := by
    have : T * y - T * L = T * (y - L) := by ring
    rw [this, abs_mul, abs_of_pos hTpos]
    exact mul_le_mul_of_nonneg_left hyL hTpos.le
  have hfl := PD.acc.err (T * y)
  have htyb : |T * y| ≤ T * A + T * (3.1 * u + 2 * u * A) := by
    have := abs_sub_abs_le_abs_sub (T * y) (T * L)
    rw [abs_mul T L, abs_of_pos hTpos, hAL] at this
    linarith
  have hP : |D.fl (T * y) - T * L| ≤ 1280 * u + 3.01 * u * (T * A) := by
    have e := abs_sub_le (D.fl (T * y)) (T * y) (T * L)
    have e2 := mul_le_mul_of_nonneg_left htyb hu
    have e3 : u * u ≤ 1e-6 * u := mul_le_mul_of_nonneg_right hu6 hu
    have e4 : u * u * (T * A) ≤ 1e-6 * u * (T * A) := mul_le_mul_of_nonneg_right e3 hTA
    have e5 : T * u ≤ 400 * u := mul_le_mul_of_nonneg_right h1 hu
    have e6 : T * (u * u) ≤ 400 * (1e-6 * u) := mul_le_mul h1 e3 (mul_nonneg hu hu) (by norm_num)
    have e7 := PD.eta_le
    norm_num at e3 e4 e6 e7 ⊢
    nlinarith
  -- the denominator
  have hden : 0 < lam + T * A := by linarith
  have hlrel : |lam' - lam| ≤ 10 * u * lam := by
    unfold Rel at hlc
    rwa [abs_of_pos (by linarith : 0 < lam)] at hlc
  have hD1 : Rel u 10.3 (lam' - D.fl (T * y)) (lam - T * L) := by
    unfold Rel
    have e0 : lam - T * L = lam + T * A := by rw [hA]; ring
    rw [e0, abs_of_pos hden]
    have e1 : lam' - D.fl (T * y) - (lam + T * A) = (lam' - lam) - (D.fl (T * y) - T * L) := by rw [hA]; ring
    rw [e1]
    have e2 := abs_sub (lam' - lam) (D.fl (T * y) - T * L)
    have e3 : 0 ≤ u * (T * A) := mul_nonneg hu hTA
    have e4 : 4761 * u ≤ lam * u := mul_le_mul_of_nonneg_right hl1 hu
    norm_num at hP ⊢
    nlinarith
  have hD2 := Rel.fl PD (by norm_num) (by norm_num) hD1 (by
    have e0 : lam - T * L = lam + T * A := by rw [hA]; ring
    rw [e0, abs_of_pos hden]; norm_num; linarith)
  -- the numerator
  have hN := Rel.mul hu hu6 (le_refl 0) (by norm_num) (by norm_num) (by norm_num) (Rel.refl u T) hlc
  have hN2 := Rel.fl PD (by norm_num) (by norm_num) hN (by
    rw [abs_of_pos (mul_pos hTpos (by linarith))]
    norm_num
    nlinarith)
  have hne : lam - T * L ≠ 0 := by
    have e0 : lam - T * L = lam + T * A := by rw [hA]; ring
    rw [e0]; linarith
  have hQ := Rel.div hu hu6 (by norm_num) (by norm_num) (by norm_num) (by norm_num) hN2 hD2 hne
  have hdew : T * lam / (lam - T * L) = dewR T rh := rfl
  have hdpos : 0 < dewR T rh := dewR_pos hTpos (by linarith) (by linarith) hr1
  rw [hdew] at hQ
  -- a lower bound of the dew point: far from underflow
  have hlow : 1e-20 ≤ dewR T rh := by
    rw [← hdew]
    have e0 : lam - T * L = lam + T * A := by rw [hA]; ring
    rw [e0, le_div_iff₀ hden]
    have hA2 : A ≤ 1e5 := by
      have this : 1 - (rh * 0.01)⁻¹ ≤ L := Real.one_sub_inv_le_log_of_pos hrpos
      have k : (rh * 0.01)⁻¹ ≤ 1e5 := by
        rw [inv_le_comm₀ hrpos (by norm_num)]
        norm_num at hr ⊢
        linarith
      linarith
    have e1 : T * A ≤ T * 1e5 := mul_le_mul_of_nonneg_left hA2 hTpos.le
    have e2 : T * 4761 ≤ T * lam := mul_le_mul_of_nonneg_left hl1 hTpos.le
    norm_num at e1 ⊢
    linarith
  have hF := Rel.fl PD (by norm_num) (by norm_num) hQ (by rw [abs_of_pos hdpos]; exact hlow)
  have hF' := Rel.mono (m := 25) hu hF (by norm_num)
  unfold Rel at hF'
  rwa [abs_of_pos hdpos] at hF'

end
end Verif.Lemmas
