import Verif.Lemmas.FloatRelhumIce
import Verif.Props.FloatEvap

/-
C177: `relhum_ice` and `relhum_water` in floating-point arithmetic.
-/

namespace Verif.Props
open Verif Model XF Lemmas Spec Tensor

theorem icePointFl_exact : relhumIcePointFl Rounding.exact Rounding.exact XF.exp = relhumIcePoint := by
  funext x y z
  unfold relhumIcePointFl relhumIcePoint relhumOfEstFl qstFl qst estIceFl estIce aboveFreezingFl
  simp only [roundXF_exact]
  rfl

theorem waterPointFl_exact : relhumWaterPointFl Rounding.exact Rounding.exact XF.exp = relhumWaterPoint := by
  funext x y z
  unfold relhumWaterPointFl relhumWaterPoint relhumOfEstFl qstFl qst estWaterFl estWater aboveFreezingFl
  simp only [roundXF_exact]
  rfl

/-- If nothing is rounded, these are the functions of C48. -/
theorem C177_exact (t w p : Arg (XF ℝ)) :
    relhumIceFl Rounding.exact Rounding.exact XF.exp t w p = relhumIce t w p ∧
    relhumWaterFl Rounding.exact Rounding.exact XF.exp t w p = relhumWater t w p := by
  constructor
  · unfold relhumIceFl relhumIce; rw [icePointFl_exact]
  · unfold relhumWaterFl relhumWater; rw [waterPointFl_exact]

variable {D R : Rounding ℝ} {u η η' : ℝ} {ex : XF ℝ → XF ℝ}

/-- three arrays of one kind and shape with numbers in them -/
structure HumidityArgs (t w p : Arg (XF ℝ)) (T W P : List ℕ → ℝ) : Prop where
  ty : t.ty = w.ty ∧ w.ty = p.ty
  shape : t.val.shape = w.val.shape ∧ t.val.shape = p.val.shape
  temperature : HasReals t.val T
  mixing : HasReals w.val W
  pressure : HasReals p.val P

/-- the values of the rounded functions at a point -/
theorem relhumFl_call (D R : Rounding ℝ) (ex : XF ℝ → XF ℝ) {t w p : Arg (XF ℝ)} {T W P : List ℕ → ℝ} (h : HumidityArgs t w p T W P) :
    (∃ r, relhumIceFl D R ex t w p = .ok r ∧ r.val.shape = t.val.shape ∧ ∀ i, InBounds t.val.shape i →
      r.val.get i = relhumIcePointFl D R ex (fin (T i)) (fin (W i)) (fin (P i))) ∧
    ∃ r, relhumWaterFl D R ex t w p = .ok r ∧ r.val.shape = t.val.shape ∧ ∀ i, InBounds t.val.shape i →
      r.val.get i = relhumWaterPointFl D R ex (fin (T i)) (fin (W i)) (fin (P i)) := by
  have hs : ¬ (t.val.shape ≠ w.val.shape ∨ t.val.shape ≠ p.val.shape) := by
    rw [not_or, not_not, not_not]; exact h.shape
  constructor
  · obtain ⟨r, h1, h2, h3⟩ := zip3_same (relhumIcePointFl D R ex) t.val w.val p.val h.shape.1 h.shape.2
    unfold relhumIceFl
    rw [if_neg (not_not.mpr h.ty), if_neg hs, h1]
    refine ⟨_, rfl, ?_, ?_⟩
    · dsimp only; split_ifs <;> exact h2
    · intro i hi
      have := h3 i hi
      rw [h.temperature i hi, h.mixing i (h.shape.1 ▸ hi), h.pressure i (h.shape.2 ▸ hi)] at this
      rw [← this]
      dsimp only
      split_ifs <;> rfl
  · obtain ⟨r, h1, h2, h3⟩ := zip3_same (relhumWaterPointFl D R ex) t.val w.val p.val h.shape.1 h.shape.2
    unfold relhumWaterFl
    rw [if_neg (not_not.mpr h.ty), if_neg hs, h1]
    refine ⟨_, rfl, ?_, ?_⟩
    · dsimp only; split_ifs <;> exact h2
    · intro i hi
      have := h3 i hi
      rw [h.temperature i hi, h.mixing i (h.shape.1 ▸ hi), h.pressure i (h.shape.2 ▸ hi)] at this
      rw [← this]
      dsimp only
      split_ifs <;> rfl

theorem ExpAccurate.coarser {v : ℝ} (E : ExpAccurate D u ex) (h : u ≤ v) : ExpAccurate D v ex :=
  ⟨fun x hx h40 => by
    obtain ⟨y, h1, h2, h3⟩ := E.fin x hx h40
    exact ⟨y, h1, h2, h3.trans (mul_le_mul_of_nonneg_right (by linarith) (Real.exp_pos x).le)⟩⟩

theorem ice_est (PD : Precise D u η) (PR : Precise R u η') (h4 : 4 * u ≤ 1e-6) (E : ExpAccurate D u ex) {t : ℝ} (h0 : 180 ≤ t) (h1 : t ≤ 330) :
    ∃ e, estIceFl D R ex (fin t) = fin e ∧ Lemmas.Rel (4 * u) 62.3 e (magnusIce (t - 273.15)) ∧ 1e-6 ≤ magnusIce (t - 273.15) := by
  have hu := PD.acc.u_nonneg
  have PD4 := Precise.coarser PD (v := 4 * u) (by linarith) h4
  have PR4 := Precise.coarser PR (v := 4 * u) (by linarith) h4
  obtain ⟨ha, hx⟩ := iceF_close PD PR h0 h1
  obtain ⟨y, hy1, hy2⟩ := est_close PD4 PR4 (ExpAccurate.coarser E (by linarith)) (D.rep_fl _) (ha.trans (by linarith)) hx
  change Lemmas.Rel (4 * u) 62.3 _ (magnusIce (t - 273.15)) at hy2
  have hm : 1e-6 ≤ magnusIce (t - 273.15) := by
    have := exp_neg12 (x := 22.571 * (t - 273.15) / (t - 273.15 + 273.71)) (by have := (abs_le.mp hx).1; norm_num at this ⊢; linarith)
    unfold magnusIce
    refine le_trans (by norm_num) (mul_le_mul_of_nonneg_left this (by norm_num))
  refine ⟨_, ?_, hy2, hm⟩
  have hden : D.fl (dF D R t + D.fl (R.fl 273.71)) ≠ 0 := by
    intro h0
    have hd := dF_close PD PR ‹180 ≤ t› h1
    have c0 := twice_abs PD PR (c := 273.71) (by norm_num)
    have h1 := abs_le.mp hd
    have h2 := abs_le.mp c0
    have hpos : 1 ≤ dF D R t + D.fl (R.fl 273.71) := by
      have hu6 := PD.u_le
      norm_num at h1 h2 hu6 ⊢
      linarith [h1.1, h2.1]
    have := D.le_fl D.rep_one hpos
    rw [h0] at this
    linarith
  unfold estIceFl aboveFreezingFl
  simp only [fin_sub, rxf_fin, fin_mul, fin_add]
  change roundXF D (_ * ex (roundXF D (fin _ / fin (D.fl (dF D R t + D.fl (R.fl 273.71)))))) = _
  rw [fin_div _ _ hden, rxf_fin]
  rw [show dF D R t = D.fl (t - D.fl (R.fl 273.15)) from rfl] at hy1 ⊢
  rw [hy1]
  rfl

theorem water_est (PD : Precise D u η) (PR : Precise R u η') (h4 : 4 * u ≤ 1e-6) (E : ExpAccurate D u ex) {t : ℝ} (h0 : 180 ≤ t) (h1 : t ≤ 330) :
    ∃ e, estWaterFl D R ex (fin t) = fin e ∧ Lemmas.Rel (4 * u) 62.3 e (tetensWater t) ∧ 1e-6 ≤ tetensWater t := by
  have hu := PD.acc.u_nonneg
  have PD4 := Precise.coarser PD (v := 4 * u) (by linarith) h4
  have PR4 := Precise.coarser PR (v := 4 * u) (by linarith) h4
  obtain ⟨ha, hx⟩ := waterF_close PD PR h0 h1
  obtain ⟨y, hy1, hy2⟩ := est_close PD4 PR4 (ExpAccurate.coarser E (by linarith)) (D.rep_fl _) (ha.trans (by linarith)) hx
  change Lemmas.Rel (4 * u) 62.3 _ (tetensWater t) at hy2
  have hm : 1e-6 ≤ tetensWater t := by
    have := exp_neg12 (x := 17.269 * (t - 273.15) / (t - 35.86)) (by have := (abs_le.mp hx).1; norm_num at this ⊢; linarith)
    unfold tetensWater
    refine le_trans (by norm_num) (mul_le_mul_of_nonneg_left this (by norm_num))
  refine ⟨_, ?_, hy2, hm⟩
  have hden : D.fl (t - D.fl (R.fl 35.86)) ≠ 0 := by
    intro hz
    have c0 := twice_abs PD PR (c := 35.86) (by norm_num)
    have h2 := abs_le.mp c0
    have hpos : 1 ≤ t - D.fl (R.fl 35.86) := by
      have hu6 := PD.u_le
      norm_num at h2 hu6 ⊢
      linarith [h2.2]
    have := D.le_fl D.rep_one hpos
    rw [hz] at this
    linarith
  unfold estWaterFl aboveFreezingFl
  simp only [fin_sub, rxf_fin, fin_mul]
  rw [fin_div _ _ hden, rxf_fin]
  rw [show dF D R t = D.fl (t - D.fl (R.fl 273.15)) from rfl] at hy1
  rw [hy1]
  rfl

theorem icePoint_form (PD : Precise D u η) (PR : Precise R u η') (h4 : 4 * u ≤ 1e-6) (E : ExpAccurate D u ex) {t p : ℝ} (h0 : 180 ≤ t) (h1 : t ≤ 330)
    (hp : 2 * magnusIce (t - 273.15) ≤ p * 0.01) (hp2 : p ≤ 1e7) :
    ∃ q, 0 < q ∧ ∀ w, relhumIcePointFl D R ex (fin t) (fin w) (fin p) = fin (D.fl (D.fl 100 * D.fl (w / q))) ∧ ((w = 0 ∨ 1e-20 ≤ w) →
      Lemmas.Rel (4 * u) 91 (D.fl (D.fl 100 * D.fl (w / q))) (100 * (w / satMixingRatio (magnusIce (t - 273.15)) (p * 0.01)))) := by
  have hu := PD.acc.u_nonneg
  have PD4 := Precise.coarser PD (v := 4 * u) (by linarith) h4
  have PR4 := Precise.coarser PR (v := 4 * u) (by linarith) h4
  obtain ⟨e, h1, h2, h3⟩ := ice_est PD PR h4 E h0 h1
  obtain ⟨k1, k2⟩ := humF_form PD4 PR4 h2 h3 hp hp2
  refine ⟨_, k1, fun w => ⟨?_, humF_close PD4 PR4 h2 h3 hp hp2⟩⟩
  unfold relhumIcePointFl
  rw [h1]
  exact k2 w

theorem waterPoint_form (PD : Precise D u η) (PR : Precise R u η') (h4 : 4 * u ≤ 1e-6) (E : ExpAccurate D u ex) {t p : ℝ} (h0 : 180 ≤ t) (h1 : t ≤ 330)
    (hp : 2 * tetensWater t ≤ p * 0.01) (hp2 : p ≤ 1e7) :
    ∃ q, 0 < q ∧ ∀ w, relhumWaterPointFl D R ex (fin t) (fin w) (fin p) = fin (D.fl (D.fl 100 * D.fl (w / q))) ∧ ((w = 0 ∨ 1e-20 ≤ w) →
      Lemmas.Rel (4 * u) 91 (D.fl (D.fl 100 * D.fl (w / q))) (100 * (w / satMixingRatio (tetensWater t) (p * 0.01)))) := by
  have hu := PD.acc.u_nonneg
  have PD4 := Precise.coarser PD (v := 4 * u) (by linarith) h4
  have PR4 := Precise.coarser PR (v := 4 * u) (by linarith) h4
  obtain ⟨e, h1, h2, h3⟩ := water_est PD PR h4 E h0 h1
  obtain ⟨k1, k2⟩ := humF_form PD4 PR4 h2 h3 hp hp2
  refine ⟨_, k1, fun w => ⟨?_, humF_close PD4 PR4 h2 h3 hp hp2⟩⟩
  unfold relhumWaterPointFl
  rw [h1]
  exact k2 w

/-- **C177**. For temperatures from 180 K to 330 K and pressures of at least twice the saturation vapour pressure the computed relative humidities agree with
those of exact arithmetic (C48) up to 364 units of rounding: 5e-14 of the value in double, 3e-5 in single precision. `u` is the unit roundoff of the arrays;
the library's exponential is accurate to one unit in the last place; mixing ratios are 0 or not absurdly small. -/
theorem C177_accuracy (PD : Precise D u η) (PR : Precise R u η') (h4 : 4 * u ≤ 1e-6) (E : ExpAccurate D u ex) (t w p : Arg (XF ℝ)) (T W P : List ℕ → ℝ)
    (h : HumidityArgs t w p T W P) :
    ∃ ri ri' rw rw', relhumIce t w p = .ok ri ∧ relhumIceFl D R ex t w p = .ok ri' ∧ relhumWater t w p = .ok rw ∧ relhumWaterFl D R ex t w p = .ok rw' ∧
      ri'.val.shape = t.val.shape ∧ rw'.val.shape = t.val.shape ∧
      ∀ i, InBounds t.val.shape i → 180 ≤ T i → T i ≤ 330 → P i ≤ 1e7 → (W i = 0 ∨ 1e-20 ≤ W i) →
        (2 * magnusIce (T i - 273.15) ≤ P i * 0.01 →
          ∃ x x', ri.val.get i = fin x ∧ ri'.val.get i = fin x' ∧ |x' - x| ≤ 364 * u * |x|) ∧
        (2 * tetensWater (T i) ≤ P i * 0.01 →
          ∃ x x', rw.val.get i = fin x ∧ rw'.val.get i = fin x' ∧ |x' - x| ≤ 364 * u * |x|) := by
  obtain ⟨⟨ri', a1, a2, a3⟩, rw', b1, b2, b3⟩ := relhumFl_call D R ex h
  obtain ⟨⟨ri, c1, -, c3⟩, rw, d1, -, d3⟩ := relhumFl_call Rounding.exact Rounding.exact XF.exp h
  rw [(C177_exact t w p).1] at c1
  rw [(C177_exact t w p).2] at d1
  refine ⟨ri, ri', rw, rw', c1, a1, d1, b1, a2, b2, fun i hi h0 h1 hp2 hw => ⟨fun hp => ?_, fun hp => ?_⟩⟩
  · obtain ⟨q, -, k⟩ := icePoint_form PD PR h4 E h0 h1 hp hp2
    have k2 := (k (W i)).2 hw
    refine ⟨100 * (W i / satMixingRatio (magnusIce (T i - 273.15)) (P i * 0.01)), _, ?_, (a3 i hi).trans (k (W i)).1, ?_⟩
    · rw [c3 i hi]
      rw [icePointFl_exact]
      exact C48_ice_ratio _ _ _ (by linarith) (by have := magnusIce_pos (T i - 273.15); linarith)
    · unfold Lemmas.Rel at k2
      linarith
  · obtain ⟨q, -, k⟩ := waterPoint_form PD PR h4 E h0 h1 hp hp2
    have k2 := (k (W i)).2 hw
    refine ⟨100 * (W i / satMixingRatio (tetensWater (T i)) (P i * 0.01)), _, ?_, (b3 i hi).trans (k (W i)).1, ?_⟩
    · rw [d3 i hi]
      rw [waterPointFl_exact]
      exact C48_water_ratio _ _ _ (by norm_num; linarith) (by have := tetensWater_pos (T i); linarith)
    · unfold Lemmas.Rel at k2
      linarith

/-- **C177**. The computed relative humidity never decreases when only the mixing ratio grows. -/
theorem C177_monotone (PD : Precise D u η) (PR : Precise R u η') (h4 : 4 * u ≤ 1e-6) (E : ExpAccurate D u ex) (t w w' p : Arg (XF ℝ))
    (T W W' P : List ℕ → ℝ) (h : HumidityArgs t w p T W P) (h' : HumidityArgs t w' p T W' P) :
    ∃ ri ri' rw rw', relhumIceFl D R ex t w p = .ok ri ∧ relhumIceFl D R ex t w' p = .ok ri' ∧ relhumWaterFl D R ex t w p = .ok rw ∧
      relhumWaterFl D R ex t w' p = .ok rw' ∧
      ∀ i, InBounds t.val.shape i → 180 ≤ T i → T i ≤ 330 → P i ≤ 1e7 → W i ≤ W' i →
        (2 * magnusIce (T i - 273.15) ≤ P i * 0.01 → ∃ x x', ri.val.get i = fin x ∧ ri'.val.get i = fin x' ∧ x ≤ x') ∧
        (2 * tetensWater (T i) ≤ P i * 0.01 → ∃ x x', rw.val.get i = fin x ∧ rw'.val.get i = fin x' ∧ x ≤ x') := by
  obtain ⟨⟨ri, a1, -, a3⟩, rw, b1, -, b3⟩ := relhumFl_call D R ex h
  obtain ⟨⟨ri', c1, -, c3⟩, rw', d1, -, d3⟩ := relhumFl_call D R ex h'
  have h100 : 0 ≤ D.fl 100 := D.fl_nonneg (by norm_num)
  refine ⟨ri, ri', rw, rw', a1, c1, b1, d1, fun i hi h0 h1 hp2 hw => ⟨fun hp => ?_, fun hp => ?_⟩⟩
  · obtain ⟨q, hq, k⟩ := icePoint_form PD PR h4 E h0 h1 hp hp2
    refine ⟨_, _, (a3 i hi).trans (k _).1, (c3 i hi).trans (k _).1, ?_⟩
    exact D.mono _ _ (mul_le_mul_of_nonneg_left (D.mono _ _ (div_le_div_of_nonneg_right hw hq.le)) h100)
  · obtain ⟨q, hq, k⟩ := waterPoint_form PD PR h4 E h0 h1 hp hp2
    refine ⟨_, _, (b3 i hi).trans (k _).1, (d3 i hi).trans (k _).1, ?_⟩
    exact D.mono _ _ (mul_le_mul_of_nonneg_left (D.mono _ _ (div_le_div_of_nonneg_right hw hq.le)) h100)

theorem exp_gap {a b : ℝ} (h : a + 0.001 ≤ b) : 6.1128 * Real.exp a * 1.001 ≤ 6.1128 * Real.exp b := by
  have h1 : Real.exp a * Real.exp 0.001 ≤ Real.exp b := by rw [← Real.exp_add]; exact Real.exp_le_exp.mpr h
  have h2 : (1.001 : ℝ) ≤ Real.exp 0.001 := by
    have := Real.add_one_le_exp (0.001 : ℝ)
    norm_num at this ⊢
    linarith
  have h3 := mul_le_mul_of_nonneg_left h2 (Real.exp_pos a).le
  rw [mul_assoc]
  exact mul_le_mul_of_nonneg_left (h3.trans h1) (by norm_num)

/-- a saturation pressure larger by one part in a thousand makes the computed humidity smaller -/
theorem hum_order {v e f P w x y : ℝ} (hv : 0 ≤ v) (hv6 : v ≤ 1e-6) (he : 0 < e) (hef : e * 1.001 ≤ f) (hf : 2 * f ≤ P) (hw : 0 ≤ w)
    (hx : Lemmas.Rel v 91 x (100 * (w / satMixingRatio e P))) (hy : Lemmas.Rel v 91 y (100 * (w / satMixingRatio f P))) : y ≤ x := by
  have hf0 : 0 < f := lt_of_lt_of_le (by positivity) hef
  have hP : 0 < P := by linarith
  have hse : 0 < satMixingRatio e P := sat_pos he (by norm_num at hef ⊢; linarith)
  have hsf : 0 < satMixingRatio f P := sat_pos hf0 (by linarith)
  have hle : 1.001 * satMixingRatio e P ≤ satMixingRatio f P := by
    unfold satMixingRatio
    have h1 : 0 < P - 0.378 * e := by norm_num at hef ⊢; linarith
    have h2 : 0 < P - 0.378 * f := by linarith
    rw [← mul_div_assoc, div_le_div_iff₀ h1 h2]
    have h3 : P - 0.378 * f ≤ P - 0.378 * e := by norm_num at hef ⊢; linarith
    have h4 : 1.001 * (0.622 * e) ≤ 0.622 * f := by norm_num at hef ⊢; linarith
    exact mul_le_mul h4 h3 h2.le (by positivity)
  have ha : 0 ≤ w / satMixingRatio e P := div_nonneg hw hse.le
  have hb : 0 ≤ w / satMixingRatio f P := div_nonneg hw hsf.le
  have hab : 1.001 * (w / satMixingRatio f P) ≤ w / satMixingRatio e P := by
    rw [← mul_div_assoc, div_le_div_iff₀ hsf hse]
    have := mul_le_mul_of_nonneg_left hle hw
    linarith
  set a := w / satMixingRatio e P
  set b := w / satMixingRatio f P
  unfold Lemmas.Rel at hx hy
  rw [abs_of_nonneg (mul_nonneg (by norm_num) ha : (0 : ℝ) ≤ 100 * a)] at hx
  rw [abs_of_nonneg (mul_nonneg (by norm_num) hb : (0 : ℝ) ≤ 100 * b)] at hy
  have hx1 := (abs_le.mp hx).1
  have hy1 := (abs_le.mp hy).2
  have e1 : v * a ≤ 1e-6 * a := mul_le_mul_of_nonneg_right hv6 ha
  have e2 : v * b ≤ 1e-6 * b := mul_le_mul_of_nonneg_right hv6 hb
  norm_num at e1 e2 hab hx1 hy1
  linarith

/-- **C177**. Rounding does not disturb the order of the two humidities: up to 273 K the humidity over ice is the larger one, from 273.3 K the one over
water (C48 has the order change at 273.15 K). -/
theorem C177_order (PD : Precise D u η) (PR : Precise R u η') (h4 : 4 * u ≤ 1e-6) (E : ExpAccurate D u ex) (t w p : Arg (XF ℝ)) (T W P : List ℕ → ℝ)
    (h : HumidityArgs t w p T W P) :
    ∃ ri rw, relhumIceFl D R ex t w p = .ok ri ∧ relhumWaterFl D R ex t w p = .ok rw ∧
      ∀ i, InBounds t.val.shape i → 180 ≤ T i → T i ≤ 330 → P i ≤ 1e7 → (W i = 0 ∨ 1e-20 ≤ W i) →
        2 * magnusIce (T i - 273.15) ≤ P i * 0.01 → 2 * tetensWater (T i) ≤ P i * 0.01 →
        ∃ x y, ri.val.get i = fin x ∧ rw.val.get i = fin y ∧ (T i ≤ 273 → y ≤ x) ∧ (273.3 ≤ T i → x ≤ y) := by
  have hu := PD.acc.u_nonneg
  obtain ⟨⟨ri, a1, -, a3⟩, rw, b1, -, b3⟩ := relhumFl_call D R ex h
  refine ⟨ri, rw, a1, b1, fun i hi h0 h1 hp2 hw hpi hpw => ?_⟩
  obtain ⟨q, -, k⟩ := icePoint_form PD PR h4 E h0 h1 hpi hp2
  obtain ⟨q', -, k'⟩ := waterPoint_form PD PR h4 E h0 h1 hpw hp2
  refine ⟨_, _, (a3 i hi).trans (k _).1, (b3 i hi).trans (k' _).1, fun hc => ?_, fun hc => ?_⟩
  · refine hum_order (v := 4 * u) (by linarith) h4 (magnusIce_pos _) ?_ hpw (by rcases hw with h | h <;> [rw [h]; exact le_trans (by norm_num) h]) ((k _).2 hw) ((k' _).2 hw)
    unfold magnusIce tetensWater
    set c := T i - 273.15 with hcdef
    have e1 : T i - 35.86 = c + 237.29 := by rw [hcdef]; ring
    rw [e1]
    have hc1 : -93.15 ≤ c := by rw [hcdef]; norm_num; linarith
    have hc2 : c ≤ -0.15 := by rw [hcdef]; norm_num; linarith
    have key : 22.571 * c / (c + 273.71) + 0.001 ≤ 17.269 * c / (c + 237.29) := by
      have h2 : 0 < c + 273.71 := by norm_num at hc1 ⊢; linarith
      have h3 : 0 < c + 237.29 := by norm_num at hc1 ⊢; linarith
      rw [div_add' _ _ _ h2.ne', div_le_div_iff₀ h2 h3]
      have := mul_nonneg (sub_nonneg.mpr hc1) (sub_nonneg.mpr hc2)
      norm_num at hc1 hc2 this ⊢
      nlinarith
    exact exp_gap key
  · refine hum_order (v := 4 * u) (by linarith) h4 (tetensWater_pos _) ?_ hpi (by rcases hw with h | h <;> [rw [h]; exact le_trans (by norm_num) h]) ((k' _).2 hw) ((k _).2 hw)
    unfold magnusIce tetensWater
    set c := T i - 273.15 with hcdef
    have e1 : T i - 35.86 = c + 237.29 := by rw [hcdef]; ring
    rw [e1]
    have hc1 : 0.15 ≤ c := by rw [hcdef]; norm_num at hc ⊢; linarith
    have hc2 : c ≤ 57 := by rw [hcdef]; norm_num; linarith
    have key : 17.269 * c / (c + 237.29) + 0.001 ≤ 22.571 * c / (c + 273.71) := by
      have h2 : 0 < c + 273.71 := by norm_num at hc1 ⊢; linarith
      have h3 : 0 < c + 237.29 := by norm_num at hc1 ⊢; linarith
      rw [div_add' _ _ _ h3.ne', div_le_div_iff₀ h3 h2]
      norm_num at hc1 hc2 ⊢
      nlinarith
    exact exp_gap key

/-- hypotheses: single precision, a cold cloud (250 K, 500 hPa) -/
theorem single_four : 4 * (2 : ℝ) ^ (-24 : ℤ) ≤ 1e-6 := by norm_num [zpow_neg]

theorem sample_saturation : 2 * magnusIce (250 - 273.15) ≤ 50000 * 0.01 ∧ 2 * tetensWater 250 ≤ 50000 * 0.01 := by
  have h1 : magnusIce (250 - 273.15) ≤ 7 := by
    unfold magnusIce
    have : Real.exp (22.571 * (250 - 273.15) / (250 - 273.15 + 273.71)) ≤ 1 := Real.exp_le_one_iff.mpr (by norm_num)
    exact (mul_le_mul_of_nonneg_left this (by norm_num)).trans (by norm_num)
  have h2 : tetensWater 250 ≤ 7 := by
    unfold tetensWater
    have : Real.exp (17.269 * (250 - 273.15) / (250 - 35.86)) ≤ 1 := Real.exp_le_one_iff.mpr (by norm_num)
    exact (mul_le_mul_of_nonneg_left this (by norm_num)).trans (by norm_num)
  norm_num at h1 h2 ⊢
  constructor <;> linarith

example : ∃ x y, (∃ r, relhumIceFl float32 float64 (roundedExp float32) (constArg .ndarray [2] 250) (constArg .ndarray [2] 0.001) (constArg .ndarray [2] 50000) = .ok r ∧
      r.val.get [1] = fin x) ∧
    (∃ r, relhumWaterFl float32 float64 (roundedExp float32) (constArg .ndarray [2] 250) (constArg .ndarray [2] 0.001) (constArg .ndarray [2] 50000) = .ok r ∧
      r.val.get [1] = fin y) ∧ y ≤ x := by
  obtain ⟨ri, rw, a1, b1, k⟩ := C177_order precise_float32 (Precise.coarser precise_float64 (two_zpow_mono (by norm_num)) (by norm_num [zpow_neg])) single_four
    (roundedExp_accurate precise_float32) (constArg .ndarray [2] 250) (constArg .ndarray [2] 0.001) (constArg .ndarray [2] 50000) (fun _ => 250) (fun _ => 0.001)
    (fun _ => 50000) ⟨⟨rfl, rfl⟩, ⟨rfl, rfl⟩, fun _ _ => rfl, fun _ _ => rfl, fun _ _ => rfl⟩
  obtain ⟨x, y, h1, h2, h3, -⟩ := k [1] (by simp [constArg, InBounds]) (by norm_num) (by norm_num) (by norm_num) (Or.inr (by norm_num)) sample_saturation.1
    sample_saturation.2
  exact ⟨x, y, ⟨ri, a1, h1⟩, ⟨rw, b1, h2⟩, h3 (by norm_num)⟩

end Verif.Props
