import Verif.Lemmas.FloatDewtemp
import Verif.Lemmas.FloatCast
import Verif.Props.FloatRelhum

/-
C174: `dewtemp` in floating-point arithmetic.
-/

namespace Verif.Props
open Verif Model XF Lemmas Spec Tensor

theorem precise_float64 : Precise (float64 : Rounding ℝ) (2 ^ (-53 : ℤ)) (2 ^ (-1075 : ℤ)) :=
  ⟨float64_accurate, by norm_num [zpow_neg], (two_zpow_mono (by norm_num : (-1075 : ℤ) ≤ -153)).trans (by norm_num [zpow_neg])⟩

theorem precise_float32 : Precise (float32 : Rounding ℝ) (2 ^ (-24 : ℤ)) (2 ^ (-150 : ℤ)) :=
  ⟨binary_accurate 24 (-149) _ _, by norm_num [zpow_neg], by norm_num [zpow_neg]⟩

/-- in a coarser unit a rounding is still precise -/
theorem Precise.coarser {R : Rounding ℝ} {u v η : ℝ} (P : Precise R u η) (h : u ≤ v) (hv : v ≤ 1e-6) : Precise R v η :=
  ⟨⟨P.acc.u_nonneg.trans h, P.acc.eta_nonneg, fun x => (P.acc.err x).trans (by have := mul_le_mul_of_nonneg_right h (abs_nonneg x); linarith),
    fun x y hx hy => (P.acc.add x y hx hy).trans (mul_le_mul_of_nonneg_right h (abs_nonneg _))⟩, hv,
    P.eta_le.trans (mul_le_mul_of_nonneg_right h (by norm_num))⟩

/-- If nothing is rounded, this is the function of C45. -/
theorem C174_exact (t rh : Arg (XF ℝ)) : dewtempFl Rounding.exact Rounding.exact XF.log t rh = dewtemp t rh := by
  have e : dewtempPointFl Rounding.exact Rounding.exact XF.log = dewtempPoint := by
    funext x y
    have e1 : dewLhvFl Rounding.exact Rounding.exact x = dewLhv x := by
      unfold dewLhvFl dewLhv
      rw [roundXF_exact]
      simp only [fin_mul]
      rw [fin_div 461.5 (1000 * 4.186) (by norm_num)]
      rfl
    unfold dewtempPointFl dewtempPoint
    rw [e1, roundXF_exact]
    rfl
  unfold dewtempFl
  rw [e]
  rfl

theorem dewtempFl_call (D R : Rounding ℝ) (ln : XF ℝ → XF ℝ) (t rh : Arg (XF ℝ)) (hty : t.ty = .dataArray ↔ rh.ty = .dataArray) (hs : t.val.shape = rh.val.shape) :
    ∃ r, dewtempFl D R ln t rh = .ok r ∧ r.val.shape = t.val.shape ∧ ∀ i, InBounds t.val.shape i →
      r.val.get i = dewtempPointFl D R ln (t.val.get i) (rh.val.get i) := by
  obtain ⟨r, h1, h2, h3⟩ := zip_same (dewtempPointFl D R ln) t.val rh.val hs
  unfold dewtempFl dewtempBy
  by_cases hx : t.ty = .dataArray
  · have hx' := hty.mp hx
    simp only [hx, hx', if_true, ne_eq, not_true_eq_false, or_self, if_false, h1]
    exact ⟨_, rfl, h2, h3⟩
  · have hx' : ¬ rh.ty = .dataArray := fun h => hx (hty.mpr h)
    simp only [hx, hx', or_self, if_false, h1]
    exact ⟨_, rfl, h2, h3⟩

variable {D R : Rounding ℝ} {u η η' : ℝ} {ln : XF ℝ → XF ℝ}

/-- the computed fraction is at most one -/
theorem fraction_le_one (h1 : D.fl (100 * D.fl (R.fl 0.01)) ≤ 1) {rh : ℝ} (hr : rh ≤ 100) (hc : 0 ≤ D.fl (R.fl 0.01)) : D.fl (rh * D.fl (R.fl 0.01)) ≤ 1 :=
  (D.mono _ _ (mul_le_mul_of_nonneg_right hr hc)).trans h1

/-- the value of the logarithm for a humidity of at most 100 percent -/
theorem dew_log (PD : Precise D u η) (PR : Precise R u η') (L : LogAccurate D u ln) (h1 : D.fl (100 * D.fl (R.fl 0.01)) ≤ 1) {rh : ℝ} (h0 : 1e-3 ≤ rh)
    (hr : rh ≤ 100) : ∃ y, ln (fin (D.fl (rh * D.fl (R.fl 0.01)))) = fin y ∧ y ≤ 0 ∧
      |y - Real.log (D.fl (rh * D.fl (R.fl 0.01)))| ≤ 2 * u * |Real.log (D.fl (rh * D.fl (R.fl 0.01)))| := by
  have hu := PD.acc.u_nonneg
  have hu6 := PD.u_le
  have hpos : 0 < rh * 0.01 := by norm_num at h0 ⊢; linarith
  obtain ⟨hx, -⟩ := log_close hpos hu hu6 (by norm_num) (by norm_num) (fraction_close PD PR h0)
  obtain ⟨y, hy1, -, hy2⟩ := L.fin _ (D.rep_fl _) hx
  refine ⟨y, hy1, ?_, hy2⟩
  have hc : 0 ≤ D.fl (R.fl 0.01) := D.fl_nonneg (R.fl_nonneg (by norm_num))
  have hl : Real.log (D.fl (rh * D.fl (R.fl 0.01))) ≤ 0 := Real.log_nonpos hx.le (fraction_le_one h1 hr hc)
  rw [abs_of_nonpos hl] at hy2
  have h2 := (abs_le.mp hy2).2
  have h3 : 2 * u ≤ 1 := by norm_num at hu6; linarith
  nlinarith

/-- **C174**. The dew points computed in floating-point arithmetic are those of exact arithmetic up to 25 units in the last place, and they exceed the
temperature by at most 2.1 units in the last place. `u` is the unit roundoff of the arrays (the double-precision constants are no coarser); the
library's logarithm is accurate to one unit in the last place. -/
theorem C174_accuracy (PD : Precise D u η) (PR : Precise R u η') (L : LogAccurate D u ln) (h1 : D.fl (100 * D.fl (R.fl 0.01)) ≤ 1) (t rh : Arg (XF ℝ))
    (hty : t.ty = .dataArray ↔ rh.ty = .dataArray) (hs : t.val.shape = rh.val.shape) (T H : List ℕ → ℝ) (ht : HasReals t.val T) (hr : HasReals rh.val H)
    (hT : ∀ i, InBounds t.val.shape i → 100 ≤ T i ∧ T i ≤ 400) (hH : ∀ i, InBounds t.val.shape i → 1e-3 ≤ H i ∧ H i ≤ 100) :
    ∃ r r' td td', dewtemp t rh = .ok r ∧ dewtempFl D R ln t rh = .ok r' ∧ r'.val.shape = t.val.shape ∧ HasReals r.val td ∧ HasReals r'.val td' ∧
      ∀ i, InBounds t.val.shape i → |td' i - td i| ≤ 25 * u * td i ∧ td' i ≤ T i + 2.1 * u * T i := by
  obtain ⟨r, e1, e2, e3⟩ := dewtemp_call t rh hty hs
  obtain ⟨r', f1, f2, f3⟩ := dewtempFl_call D R ln t rh hty hs
  have hu := PD.acc.u_nonneg
  have hu6 := PD.u_le
  have key : ∀ i, InBounds t.val.shape i → ∃ y, dewtempPointFl D R ln (t.val.get i) (rh.val.get i) = fin (dewF D R (T i) y) ∧ y ≤ 0 ∧
      |dewF D R (T i) y - dewR (T i) (H i)| ≤ 25 * u * dewR (T i) (H i) := by
    intro i hi
    obtain ⟨y, hy1, hy0, hy2⟩ := dew_log PD PR L h1 (hH i hi).1 (hH i hi).2
    refine ⟨y, ?_, hy0, dewF_close PD PR (hT i hi).1 (hT i hi).2 (hH i hi).1 (hH i hi).2 hy2⟩
    rw [ht i hi, hr i (hs ▸ hi)]
    exact dewtempPointFl_fin (gcx_ne PD PR) (by linarith [(hT i hi).1]) (lhvF_pos PD PR (hT i hi).1 (hT i hi).2) hy1 hy0
  classical
  let y : List ℕ → ℝ := fun i => if h : InBounds t.val.shape i then Classical.choose (key i h) else 0
  have hy : ∀ i (hi : InBounds t.val.shape i), dewtempPointFl D R ln (t.val.get i) (rh.val.get i) = fin (dewF D R (T i) (y i)) ∧ y i ≤ 0 ∧
      |dewF D R (T i) (y i) - dewR (T i) (H i)| ≤ 25 * u * dewR (T i) (H i) := by
    intro i hi
    have := Classical.choose_spec (key i hi)
    simp only [y, dif_pos hi]
    exact this
  refine ⟨r, r', fun i => dewR (T i) (H i), fun i => dewF D R (T i) (y i), e1, f1, f2, ?_, ?_, ?_⟩
  · intro i hi
    rw [e2] at hi
    rw [e3 i hi, ht i hi, hr i (hs ▸ hi), dewtempPoint_fin (by linarith [(hT i hi).1]) (by linarith [(hT i hi).2]) (by linarith [(hH i hi).1]) (hH i hi).2]
  · intro i hi
    rw [f2] at hi
    rw [f3 i hi, (hy i hi).1]
  · intro i hi
    refine ⟨(hy i hi).2.2, ?_⟩
    have hT0 : 0 < T i := by linarith [(hT i hi).1]
    have hl := lhvF_pos PD PR (hT i hi).1 (hT i hi).2
    have hm := dewF_mono (D := D) (R := R) hT0.le hl (hy i hi).2.1 (le_refl 0)
    have e0 : dewF D R (T i) 0 = D.fl (D.fl (T i * lhvF D R (T i)) / lhvF D R (T i)) := by
      unfold dewF
      rw [mul_zero, D.fl_zero, sub_zero, D.fl_of_rep (lhvF D R (T i)) (D.rep_fl _)]
    have hlb : 1e-10 ≤ lhvF D R (T i) := by
      have hc := lhvF_close PD PR (hT i hi).1 (hT i hi).2
      have hb := lhvR_bounds (hT i hi).1 (hT i hi).2
      unfold Lemmas.Rel at hc
      rw [abs_of_pos (by linarith : 0 < lhvR (T i)), abs_le] at hc
      have : 10 * u * lhvR (T i) ≤ 10 * 1e-6 * lhvR (T i) := mul_le_mul_of_nonneg_right (by linarith) (by linarith)
      norm_num at this ⊢
      linarith [hc.1]
    have hTl : (1e-20 : ℝ) ≤ |T i * lhvF D R (T i)| := by
      rw [abs_of_pos (mul_pos hT0 hl)]
      have := mul_le_mul (hT i hi).1 hlb (by norm_num) hT0.le
      norm_num at this ⊢
      linarith
    have h2 := Rel.const PD hTl
    have h3 := Rel.div hu hu6 (by norm_num) (by norm_num) (le_refl 0) (by norm_num) h2 (Rel.refl u (lhvF D R (T i))) hl.ne'
    rw [mul_div_cancel_right₀ _ hl.ne'] at h3
    have h4 := Rel.fl PD (by norm_num) (by norm_num) h3 (by rw [abs_of_pos hT0]; have := (hT i hi).1; norm_num at this ⊢; linarith)
    have h5 := Rel.mono (m := 2.1) hu h4 (by norm_num)
    unfold Lemmas.Rel at h5
    rw [abs_of_pos hT0] at h5
    have h6 := (abs_le.mp h5).2
    rw [e0] at hm
    linarith

/-- one cell of `C174_monotone` -/
theorem dewtempPointFl_mono (PD : Precise D u η) (PR : Precise R u η') (L : LogAccurate D u ln) (h1 : D.fl (100 * D.fl (R.fl 0.01)) ≤ 1)
    (hmono : ∀ x x' y y', 0 < x → x ≤ x' → ln (fin x) = fin y → ln (fin x') = fin y' → y ≤ y') (T rh rh' : ℝ) (hT : 100 ≤ T) (hT2 : T ≤ 400) (h0 : 1e-3 ≤ rh)
    (h : rh ≤ rh') (hr : rh' ≤ 100) :
    ∃ a b, dewtempPointFl D R ln (fin T) (fin rh) = fin a ∧ dewtempPointFl D R ln (fin T) (fin rh') = fin b ∧ a ≤ b := by
  obtain ⟨y, hy1, hy0, -⟩ := dew_log PD PR L h1 h0 (h.trans hr)
  obtain ⟨y', hy1', hy0', -⟩ := dew_log PD PR L h1 (h0.trans h) hr
  have hl := lhvF_pos PD PR hT hT2
  have hT0 : 0 ≤ T := by linarith
  refine ⟨_, _, dewtempPointFl_fin (gcx_ne PD PR) hT0 hl hy1 hy0, dewtempPointFl_fin (gcx_ne PD PR) hT0 hl hy1' hy0', dewF_mono hT0 hl ?_ hy0'⟩
  have hc : 0 ≤ D.fl (R.fl 0.01) := D.fl_nonneg (R.fl_nonneg (by norm_num))
  refine hmono _ _ y y' ?_ (D.mono _ _ (mul_le_mul_of_nonneg_right h hc)) hy1 hy1'
  exact (log_close (by norm_num at h0 ⊢; linarith) PD.acc.u_nonneg PD.u_le (by norm_num) (by norm_num) (fraction_close PD PR h0)).1

/-- **C174**. With a logarithm that never decreases (as the usual libraries have it) the computed dew points never decrease with humidity: of two calls
with the same temperatures, the one with the larger humidities returns dew points that are at least as large. -/
theorem C174_monotone (PD : Precise D u η) (PR : Precise R u η') (L : LogAccurate D u ln) (h1 : D.fl (100 * D.fl (R.fl 0.01)) ≤ 1)
    (hmono : ∀ x x' y y', 0 < x → x ≤ x' → ln (fin x) = fin y → ln (fin x') = fin y' → y ≤ y') (t rh rh' : Arg (XF ℝ))
    (hty : t.ty = .dataArray ↔ rh.ty = .dataArray) (hty' : rh'.ty = rh.ty) (hs : t.val.shape = rh.val.shape) (hs' : t.val.shape = rh'.val.shape)
    (T H H' : List ℕ → ℝ) (ht : HasReals t.val T) (hr : HasReals rh.val H) (hr' : HasReals rh'.val H')
    (hT : ∀ i, InBounds t.val.shape i → 100 ≤ T i ∧ T i ≤ 400) (hH : ∀ i, InBounds t.val.shape i → 1e-3 ≤ H i ∧ H i ≤ H' i ∧ H' i ≤ 100) :
    ∃ r r', dewtempFl D R ln t rh = .ok r ∧ dewtempFl D R ln t rh' = .ok r' ∧
      ∀ i, InBounds t.val.shape i → ∃ a b, r.val.get i = fin a ∧ r'.val.get i = fin b ∧ a ≤ b := by
  obtain ⟨r, e1, -, e3⟩ := dewtempFl_call D R ln t rh hty hs
  obtain ⟨r', f1, -, f3⟩ := dewtempFl_call D R ln t rh' (hty' ▸ hty) hs'
  refine ⟨r, r', e1, f1, fun i hi => ?_⟩
  rw [e3 i hi, f3 i hi, ht i hi, hr i (hs ▸ hi), hr' i (hs' ▸ hi)]
  exact dewtempPointFl_mono PD PR L h1 hmono _ _ _ (hT i hi).1 (hT i hi).2 (hH i hi).1 (hH i hi).2.1 (hH i hi).2.2

theorem dew251_0 : (float64 : Rounding ℝ).fl (4.186) = (589127126255403 / 140737488355328) :=
  float64_eq (4.186) (589127126255403 / 140737488355328) (by norm_num) (by norm_num) (by decide +kernel)
theorem dew251_1 : (float64 : Rounding ℝ).fl (1000 * (589127126255403 / 140737488355328)) = 4186 :=
  float64_eq (1000 * (589127126255403 / 140737488355328)) 4186 (by norm_num) (by norm_num) (by decide +kernel)
theorem dew251_2 : (float64 : Rounding ℝ).fl (461.5 / 4186) = (7944237852007583 / 72057594037927936) :=
  float64_eq (461.5 / 4186) (7944237852007583 / 72057594037927936) (by norm_num) (by norm_num) (by decide +kernel)
theorem dew251_3 : (float64 : Rounding ℝ).fl ((7944237852007583 / 72057594037927936)) = (7944237852007583 / 72057594037927936) :=
  float64_eq ((7944237852007583 / 72057594037927936)) (7944237852007583 / 72057594037927936) (by norm_num) (by norm_num) (by decide +kernel)
theorem dew251_4 : (float64 : Rounding ℝ).fl (597.3) = (2626953181082419 / 4398046511104) :=
  float64_eq (597.3) (2626953181082419 / 4398046511104) (by norm_num) (by norm_num) (by decide +kernel)
theorem dew251_5 : (float64 : Rounding ℝ).fl ((2626953181082419 / 4398046511104)) = (2626953181082419 / 4398046511104) :=
  float64_eq ((2626953181082419 / 4398046511104)) (2626953181082419 / 4398046511104) (by norm_num) (by norm_num) (by decide +kernel)
theorem dew251_6 : (float64 : Rounding ℝ).fl (0.57) = (5134103575202365 / 9007199254740992) :=
  float64_eq (0.57) (5134103575202365 / 9007199254740992) (by norm_num) (by norm_num) (by decide +kernel)
theorem dew251_7 : (float64 : Rounding ℝ).fl ((5134103575202365 / 9007199254740992)) = (5134103575202365 / 9007199254740992) :=
  float64_eq ((5134103575202365 / 9007199254740992)) (5134103575202365 / 9007199254740992) (by norm_num) (by norm_num) (by decide +kernel)
theorem dew251_8 : (float64 : Rounding ℝ).fl (273) = 273 :=
  float64_eq (273) 273 (by norm_num) (by norm_num) (by decide +kernel)
theorem dew251_9 : (float64 : Rounding ℝ).fl (251 - 273) = (-22) :=
  float64_eq (251 - 273) (-22) (by norm_num) (by norm_num) (by decide +kernel)
theorem dew251_10 : (float64 : Rounding ℝ).fl ((5134103575202365 / 9007199254740992) * (-22)) = (-1764848103975813 / 140737488355328) :=
  float64_eq ((5134103575202365 / 9007199254740992) * (-22)) (-1764848103975813 / 140737488355328) (by norm_num) (by norm_num) (by decide +kernel)
theorem dew251_11 : (float64 : Rounding ℝ).fl ((2626953181082419 / 4398046511104) - (-1764848103975813 / 140737488355328)) = (2682104684331663 / 4398046511104) :=
  float64_eq ((2626953181082419 / 4398046511104) - (-1764848103975813 / 140737488355328)) (2682104684331663 / 4398046511104) (by norm_num) (by norm_num) (by decide +kernel)
theorem dew251_12 : (float64 : Rounding ℝ).fl ((2682104684331663 / 4398046511104) / (7944237852007583 / 72057594037927936)) = (6081955692639405 / 1099511627776) :=
  float64_eq ((2682104684331663 / 4398046511104) / (7944237852007583 / 72057594037927936)) (6081955692639405 / 1099511627776) (by norm_num) (by norm_num) (by decide +kernel)
theorem dew251_13 : (float64 : Rounding ℝ).fl (0.01) = (5764607523034235 / 576460752303423488) :=
  float64_eq (0.01) (5764607523034235 / 576460752303423488) (by norm_num) (by norm_num) (by decide +kernel)
theorem dew251_14 : (float64 : Rounding ℝ).fl ((5764607523034235 / 576460752303423488)) = (5764607523034235 / 576460752303423488) :=
  float64_eq ((5764607523034235 / 576460752303423488)) (5764607523034235 / 576460752303423488) (by norm_num) (by norm_num) (by decide +kernel)
theorem dew251_15 : (float64 : Rounding ℝ).fl (100 * (5764607523034235 / 576460752303423488)) = 1 :=
  float64_eq (100 * (5764607523034235 / 576460752303423488)) 1 (by norm_num) (by norm_num) (by decide +kernel)
theorem dew251_16 : (float64 : Rounding ℝ).fl (251 * (6081955692639405 / 1099511627776)) = (2981583747758771 / 2147483648) :=
  float64_eq (251 * (6081955692639405 / 1099511627776)) (2981583747758771 / 2147483648) (by norm_num) (by norm_num) (by decide +kernel)
theorem dew251_17 : (float64 : Rounding ℝ).fl (251 * 0) = 0 :=
  float64_eq (251 * 0) 0 (by norm_num) (by norm_num) (by decide +kernel)
theorem dew251_18 : (float64 : Rounding ℝ).fl ((6081955692639405 / 1099511627776) - 0) = (6081955692639405 / 1099511627776) :=
  float64_eq ((6081955692639405 / 1099511627776) - 0) (6081955692639405 / 1099511627776) (by norm_num) (by norm_num) (by decide +kernel)
theorem dew251_19 : (float64 : Rounding ℝ).fl ((2981583747758771 / 2147483648) / (6081955692639405 / 1099511627776)) = (8831277394296833 / 35184372088832) :=
  float64_eq ((2981583747758771 / 2147483648) / (6081955692639405 / 1099511627776)) (8831277394296833 / 35184372088832) (by norm_num) (by norm_num) (by decide +kernel)

/-- "At most the temperature" (C45) is false of the computed dew point: saturated air at 251 K in double precision, whatever the logarithm, as long as
the logarithm of 1 is 0. -/
theorem C174_counterexample (h : ln (fin 1) = fin 0) : ∃ r, dewtempFl float64 float64 ln (constArg .ndarray [1] 251) (constArg .ndarray [1] 100) = .ok r ∧
    r.val.get [0] = fin (251 + 2 ^ (-45 : ℤ)) := by
  obtain ⟨r, e1, -, e3⟩ := dewtempFl_call float64 float64 ln (constArg .ndarray [1] 251) (constArg .ndarray [1] 100) Iff.rfl rfl
  refine ⟨r, e1, ?_⟩
  rw [e3 [0] (by simp [constArg, InBounds])]
  change dewtempPointFl float64 float64 ln (fin 251) (fin 100) = _
  suffices hh : ∃ td : ℝ, dewtempPointFl float64 float64 ln (fin 251) (fin 100) = fin td ∧ td = 251 + 2 ^ (-45 : ℤ) by
    obtain ⟨td, h1, h2⟩ := hh
    rw [h1, h2]
  refine ⟨_, dewtempPointFl_fin (gcx_ne precise_float64 precise_float64) (by norm_num) (lhvF_pos precise_float64 precise_float64 (by norm_num) (by norm_num))
    (y := 0) ?_ (le_refl 0), ?_⟩
  · rw [dew251_13, dew251_14, dew251_15]
    exact h
  · unfold dewF lhvF dewGcxFl
    rw [dew251_0, dew251_1, dew251_2, dew251_3, dew251_4, dew251_5, dew251_6, dew251_7, dew251_8, dew251_9, dew251_10, dew251_11, dew251_12, dew251_16, dew251_17,
      dew251_18, dew251_19]
    norm_num [zpow_neg]

/-! ### The hypotheses can be met: a correctly rounded logarithm -/

/-- correctly rounded logarithm -/
noncomputable def roundedLog (D : Rounding ℝ) : XF ℝ → XF ℝ
  | fin x => fin (D.fl (Real.log x))
  | x => x

/-- the logarithm of a stored number other than 1 is not tiny -/
theorem log_ge_of_rep {p : ℕ} {emin : ℤ} {x : ℝ} (h : RepBin p emin x) (h0 : 0 < x) (h1 : x ≠ 1) : (2 : ℝ) ^ (-(p : ℤ) - 1) ≤ |Real.log x| := by
  have hp2 : (2 : ℝ) ^ (-(p : ℤ) - 1) ≤ 1 / 2 := by
    have := two_zpow_mono (K := ℝ) (by omega : -(p : ℤ) - 1 ≤ -1)
    norm_num at this ⊢
    exact this
  have h2 : 1 - x⁻¹ ≤ Real.log x := Real.one_sub_inv_le_log_of_pos h0
  have h3 : Real.log x ≤ x - 1 := Real.log_le_sub_one_of_pos h0
  by_cases ha : 2 ≤ x
  · have : x⁻¹ ≤ 1 / 2 := by rw [inv_le_comm₀ h0 (by norm_num)]; norm_num; exact ha
    exact hp2.trans ((by linarith : (1 : ℝ) / 2 ≤ Real.log x).trans (le_abs_self _))
  by_cases hb : x ≤ 1 / 2
  · exact hp2.trans ((by linarith : (1 : ℝ) / 2 ≤ -Real.log x).trans (neg_le_abs _))
  push Not at ha hb
  obtain ⟨m, e, -, hm, rfl⟩ := h
  have hpe : -1 < (p : ℤ) + e := by
    have : ((2 : ℝ) ^ (-1 : ℤ)) < 2 ^ ((p : ℤ) + e) := by
      rw [zpow_add₀ (by norm_num), zpow_natCast]
      have hm' : (m : ℝ) ≤ 2 ^ p := by exact_mod_cast (le_abs_self m).trans hm
      have := mul_le_mul_of_nonneg_right hm' (two_zpow_pos (K := ℝ) e).le
      norm_num at hb ⊢
      linarith
    exact (zpow_lt_zpow_iff_right₀ (by norm_num)).mp this
  have hk : (m : ℝ) * 2 ^ e = ((m * 2 ^ ((p : ℤ) + e).toNat : ℤ) : ℝ) * 2 ^ (-(p : ℤ)) := by
    push_cast
    rw [← zpow_natCast, Int.toNat_of_nonneg (by omega), mul_assoc, ← zpow_add₀ (by norm_num)]
    congr 2
    ring
  set k : ℤ := m * 2 ^ ((p : ℤ) + e).toNat
  rw [hk] at h0 h1 h2 h3 ha hb ⊢
  have hone : (1 : ℝ) = ((2 ^ p : ℤ) : ℝ) * 2 ^ (-(p : ℤ)) := by
    push_cast
    rw [zpow_neg, zpow_natCast, mul_inv_cancel₀ (by positivity)]
  have hkne : k ≠ 2 ^ p := by
    intro hc
    rw [hc] at h1
    exact h1 hone.symm
  have hpp := two_zpow_pos (K := ℝ) (-(p : ℤ))
  have hhalf : (2 : ℝ) ^ (-(p : ℤ) - 1) = 2 ^ (-(p : ℤ)) / 2 := by
    rw [zpow_sub₀ (by norm_num), zpow_one]
  rw [hhalf]
  rcases lt_or_gt_of_ne hkne with hlt | hgt
  · have : (k : ℝ) + 1 ≤ ((2 ^ p : ℤ) : ℝ) := by exact_mod_cast hlt
    have := mul_le_mul_of_nonneg_right this hpp.le
    exact (by linarith : (2 : ℝ) ^ (-(p : ℤ)) / 2 ≤ -Real.log (k * 2 ^ (-(p : ℤ)))).trans (neg_le_abs _)
  · have : ((2 ^ p : ℤ) : ℝ) + 1 ≤ k := by exact_mod_cast hgt
    have h5 := mul_le_mul_of_nonneg_right this hpp.le
    refine le_trans ?_ (le_abs_self _)
    refine le_trans ?_ h2
    set x := (k : ℝ) * 2 ^ (-(p : ℤ))
    have h6 : 1 + 2 ^ (-(p : ℤ)) ≤ x := by linarith
    rw [le_sub_iff_add_le, inv_eq_one_div, ← le_sub_iff_add_le', div_le_iff₀ h0]
    nlinarith

theorem roundedLog_float64 : LogAccurate float64 (2 ^ (-53 : ℤ)) (roundedLog float64) := by
  refine ⟨fun x hx h0 => ⟨_, rfl, float64.rep_fl _, ?_⟩⟩
  by_cases h1 : x = 1
  · simp [h1, Rounding.fl_zero]
  have h := float64_accurate.err (Real.log x)
  have h2 := mul_le_mul_of_nonneg_left (log_ge_of_rep hx h0 h1) (two_zpow_pos (K := ℝ) (-53)).le
  have h3 : (2 : ℝ) ^ (-1075 : ℤ) ≤ 2 ^ (-53 : ℤ) * 2 ^ (-((53 : ℕ) : ℤ) - 1) := by
    rw [← zpow_add₀ (by norm_num)]
    exact two_zpow_mono (by norm_num)
  linarith

theorem roundedLog_float32 : LogAccurate float32 (2 ^ (-24 : ℤ)) (roundedLog float32) := by
  refine ⟨fun x hx h0 => ⟨_, rfl, float32.rep_fl _, ?_⟩⟩
  by_cases h1 : x = 1
  · simp [h1, Rounding.fl_zero]
  have h := precise_float32.acc.err (Real.log x)
  have h2 := mul_le_mul_of_nonneg_left (log_ge_of_rep hx h0 h1) (two_zpow_pos (K := ℝ) (-24)).le
  have h3 : (2 : ℝ) ^ (-150 : ℤ) ≤ 2 ^ (-24 : ℤ) * 2 ^ (-((24 : ℕ) : ℤ) - 1) := by
    rw [← zpow_add₀ (by norm_num)]
    exact two_zpow_mono (by norm_num)
  linarith

theorem float32_eq {x y : ℝ} (q r : ℚ) (hx : x = q) (hy : y = r) (h : (float32 : Rounding ℚ).fl q = r) : (float32 : Rounding ℝ).fl x = y := by
  rw [hx, hy, ← h]
  exact roundBin_ratCast _ _ _

/-- one hundred percent is a fraction of at most one, in double precision -/
theorem hundred_float64 : (float64 : Rounding ℝ).fl (100 * float64.fl (float64.fl 0.01)) ≤ 1 := by
  rw [dew251_13, dew251_14, dew251_15]

/-- ... and in single precision -/
theorem hundred_float32 : (float32 : Rounding ℝ).fl (100 * float32.fl (float64.fl 0.01)) ≤ 1 := by
  have e : (float32 : Rounding ℝ).fl (5764607523034235 / 576460752303423488) = 5368709 / 536870912 :=
    float32_eq (5764607523034235 / 576460752303423488) (5368709 / 536870912) (by norm_num) (by norm_num) (by decide +kernel)
  rw [dew251_13, e]
  exact float32.fl_le float32.rep_one (by norm_num)

/-- a double-precision pair of arrays that meets the hypotheses of `C174_accuracy` -/
example : ∃ r r' td td', dewtemp (constArg .ndarray [2, 3] 300) (constArg .ndarray [2, 3] 50) = .ok r ∧
    dewtempFl float64 float64 (roundedLog float64) (constArg .ndarray [2, 3] 300) (constArg .ndarray [2, 3] 50) = .ok r' ∧
    r'.val.shape = [2, 3] ∧ HasReals r.val td ∧ HasReals r'.val td' ∧
    ∀ i, InBounds [2, 3] i → |td' i - td i| ≤ 25 * 2 ^ (-53 : ℤ) * td i ∧ td' i ≤ 300 + 2.1 * 2 ^ (-53 : ℤ) * 300 :=
  C174_accuracy precise_float64 precise_float64 roundedLog_float64 hundred_float64 (constArg .ndarray [2, 3] 300) (constArg .ndarray [2, 3] 50) Iff.rfl rfl
    (fun _ => 300) (fun _ => 50) (fun _ _ => rfl) (fun _ _ => rfl) (fun _ _ => by norm_num) (fun _ _ => by norm_num)

/-- single-precision arrays; the constants are double-precision numbers -/
example (t rh : Arg (XF ℝ)) := C174_accuracy (precise_float32) (Precise.coarser precise_float64 (two_zpow_mono (by norm_num)) (by norm_num [zpow_neg]))
  roundedLog_float32 hundred_float32 t rh

/-- a monotone logarithm -/
example : ∃ r r', dewtempFl float64 float64 (roundedLog float64) (constArg .ndarray [2] 290) (constArg .ndarray [2] 40) = .ok r ∧
    dewtempFl float64 float64 (roundedLog float64) (constArg .ndarray [2] 290) (constArg .ndarray [2] 41) = .ok r' ∧
    ∀ i, InBounds [2] i → ∃ a b, r.val.get i = fin a ∧ r'.val.get i = fin b ∧ a ≤ b :=
  C174_monotone precise_float64 precise_float64 roundedLog_float64 hundred_float64
    (fun x x' y y' h0 h hy hy' => by
      cases hy
      cases hy'
      exact float64.mono _ _ (Real.log_le_log h0 h))
    (constArg .ndarray [2] 290) (constArg .ndarray [2] 40) (constArg .ndarray [2] 41) Iff.rfl rfl rfl rfl (fun _ => 290) (fun _ => 40) (fun _ => 41)
    (fun _ _ => rfl) (fun _ _ => rfl) (fun _ _ => rfl) (fun _ _ => by norm_num) (fun _ _ => by norm_num)

/-- the logarithm of the counterexample -/
example : roundedLog float64 (fin 1) = fin 0 := by simp [roundedLog, Rounding.fl_zero]

end Verif.Props
