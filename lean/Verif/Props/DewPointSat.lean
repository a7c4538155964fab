import Verif.Props.PointApi

/-
C148: the two temperature functions of the library agree with each other. dewtemp uses the Clausius-Clapeyron law, saturation_vapor_pressure the FAO 56 fit; at the
dew point the fit gives the vapour pressure of the air up to 5.5 per cent, never more than it.
-/

set_option linter.unusedSectionVars false
namespace Verif.Props
open Model XF Spec Lemmas Tensor

/-- kelvin to degrees Fahrenheit -/
noncomputable def kelvinToF (k : ℝ) : ℝ := (k - 273.15) * 9 / 5 + 32

theorem fao56_kelvinToF (k : ℝ) : fao56 (kelvinToF k) = 0.6108 * Real.exp (17.27 * (k - 273.15) / (k - 273.15 + 237.3)) := by
  unfold fao56 kelvinToF
  have : ((k - 273.15) * 9 / 5 + 32 - 32) * 5 / 9 = k - 273.15 := by ring
  rw [this]

/-- the comparison polynomial: positive where the fit is steeper than the Clausius-Clapeyron law -/
noncomputable def steeper (c d : ℝ) : ℝ :=
  4098.171 * (c + 273.15) * (d + 273.15) - latentOverGas (c + 273.15) * (c + 237.3) * (d + 237.3)

theorem steeper_slope {c : ℝ} (h0 : 0 ≤ c) (h1 : c ≤ 40) :
    4098.171 * (c + 273.15) - latentOverGas (c + 273.15) * (c + 237.3) ≤ 0 := by
  have h2 : 0 ≤ c * (40 - c) := mul_nonneg h0 (sub_nonneg.mpr h1)
  unfold latentOverGas
  ring_nf at h2 ⊢
  linarith

theorem steeper_affine (c d e : ℝ) :
    steeper c d = steeper c e + (d - e) * (4098.171 * (c + 273.15) - latentOverGas (c + 273.15) * (c + 237.3)) := by
  unfold steeper
  ring

theorem steeper_diag {c : ℝ} (h0 : 0 ≤ c) (h1 : c ≤ 40) : 0 ≤ steeper c c := by
  unfold steeper latentOverGas
  have h2 : 0 ≤ c * (40 - c) := mul_nonneg h0 (sub_nonneg.mpr h1)
  have h3 : 0 ≤ c ^ 3 := by positivity
  have h4 : 0 ≤ (c - 16) ^ 2 := sq_nonneg _
  have h5 : 0 ≤ c * (c - 16) ^ 2 := mul_nonneg h0 h4
  ring_nf at h2 h3 h4 h5 ⊢
  linarith

theorem steeper_bound {c : ℝ} (h0 : 0 ≤ c) (h1 : c ≤ 40) :
    c * steeper c 0 ≤ 0.055 * ((c + 273.15) * 273.15 * ((c + 237.3) * 237.3)) := by
  unfold steeper latentOverGas
  have h2 : 0 ≤ c * (40 - c) := mul_nonneg h0 (sub_nonneg.mpr h1)
  have h3 : 0 ≤ c * (c * (40 - c)) := mul_nonneg h0 h2
  have h4 : 0 ≤ c * (40 - c) * (40 - c) := mul_nonneg h2 (sub_nonneg.mpr h1)
  ring_nf at h2 h3 h4 ⊢
  linarith

/-- the logarithm of the ratio of the fitted pressure at `d` to the air's pressure, over the comparison polynomial -/
theorem steeper_log {c d : ℝ} (hc : 0 < c) (hd : 0 < d) :
    17.27 * d / (d + 237.3) - (latentOverGas (c + 273.15) * (1 / (c + 273.15) - 1 / (d + 273.15)) + 17.27 * c / (c + 237.3)) =
      -((c - d) * steeper c d / ((c + 273.15) * (d + 273.15) * ((c + 237.3) * (d + 237.3)))) := by
  unfold steeper
  generalize latentOverGas (c + 273.15) = L
  have h1 : c + 273.15 ≠ 0 := by positivity
  have h2 : d + 273.15 ≠ 0 := by positivity
  have h3 : c + 237.3 ≠ 0 := by positivity
  have h4 : d + 237.3 ≠ 0 := by positivity
  field_simp
  ring

theorem dew_fit {c d : ℝ} (hd : 0 < d) (hdc : d ≤ c) (hc : c ≤ 40) :
    0 ≤ (c - d) * steeper c d / ((c + 273.15) * (d + 273.15) * ((c + 237.3) * (d + 237.3))) ∧
    (c - d) * steeper c d / ((c + 273.15) * (d + 273.15) * ((c + 237.3) * (d + 237.3))) ≤ 0.055 := by
  have h0 : 0 ≤ c := hd.le.trans hdc
  have hs := steeper_slope h0 hc
  have hp : 0 ≤ steeper c d := by
    rw [steeper_affine c d c]
    have := steeper_diag h0 hc
    nlinarith
  have hz : steeper c d ≤ steeper c 0 := by
    rw [steeper_affine c d 0]
    nlinarith
  have hD : 0 < (c + 273.15) * (d + 273.15) * ((c + 237.3) * (d + 237.3)) := by positivity
  refine ⟨div_nonneg (mul_nonneg (by linarith) hp) hD.le, ?_⟩
  rw [div_le_iff₀ hD]
  calc (c - d) * steeper c d ≤ c * steeper c 0 :=
        mul_le_mul (by linarith) hz hp h0
    _ ≤ 0.055 * ((c + 273.15) * 273.15 * ((c + 237.3) * 237.3)) := steeper_bound h0 hc
    _ ≤ _ := by
      refine mul_le_mul_of_nonneg_left ?_ (by norm_num)
      refine mul_le_mul ?_ ?_ (by positivity) (by positivity)
      · exact mul_le_mul_of_nonneg_left (by linarith) (by positivity)
      · exact mul_le_mul_of_nonneg_left (by linarith) (by positivity)

/-- C148. Take air temperatures up to 313.15 K and relative humidities in (0, 100], call dewtemp, and call saturation_vapor_pressure with the dew points and with
the air temperatures, both turned into degrees Fahrenheit. Wherever the dew point is above freezing, the pressure at the dew point is at most the vapour pressure of
the air, the humidity times the saturation pressure of the air, and at least 94.5 per cent of it. -/
theorem C148_vapor_pressure (t rh : Arg (XF ℝ)) (hty : t.ty = .dataArray ↔ rh.ty = .dataArray)
    (hs : t.val.shape = rh.val.shape) (T R : List ℕ → ℝ) (ht : HasReals t.val T) (hr : HasReals rh.val R)
    (hT : ∀ i, InBounds t.val.shape i → 273.15 < T i ∧ T i ≤ 313.15) (hR : ∀ i, InBounds t.val.shape i → 0 < R i ∧ R i ≤ 100) :
    ∃ r td, dewtemp t rh = .ok r ∧ r.val.shape = t.val.shape ∧ HasReals r.val td ∧
      ∀ (f g : Arg (XF ℝ)) (tfill : XF ℝ), f.val.shape = t.val.shape → g.val.shape = t.val.shape →
        HasReals f.val (fun i => kelvinToF (td i)) → HasReals g.val (fun i => kelvinToF (T i)) →
        ∀ i, InBounds t.val.shape i → 273.15 < td i → ∃ e es : ℝ,
          (actualSaturationVaporPressure f tfill).val.get i = fin e ∧ (saturationVaporPressure g tfill).val.get i = fin es ∧
          0.945 * (R i / 100 * es) ≤ e ∧ e ≤ R i / 100 * es := by
  obtain ⟨r, td, h1, h2, h3, h4⟩ := C45_clausius_clapeyron t rh hty hs T R ht hr
    (fun i hi => ⟨by linarith [(hT i hi).1], by linarith [(hT i hi).2]⟩) hR
  refine ⟨r, td, h1, h2, h3, fun f g tfill hf hg hfv hgv i hi hd => ?_⟩
  have hfi := (((C52_call_values f tfill _ (List.mem_cons_of_mem _ (List.mem_cons_self ..))).2.2 i (hf ▸ hi)).2 _ (hfv i (hf ▸ hi))).2
    (by unfold kelvinToF; linarith)
  have hgi := (((C52_call_values g tfill _ (List.mem_cons_self ..)).2.2 i (hg ▸ hi)).2 _ (hgv i (hg ▸ hi))).2
    (by unfold kelvinToF; linarith [(hT i hi).1])
  refine ⟨_, _, hfi.1, hgi.1, ?_⟩
  obtain ⟨a1, a2⟩ := hT i hi
  obtain ⟨b1, b2⟩ := h4 i hi
  obtain ⟨r1, r2⟩ := hR i hi
  have hle : td i ≤ T i := by
    by_contra hlt
    push Not at hlt
    have hpos : 0 < latentOverGas (T i) := by unfold latentOverGas; apply div_pos _ (by norm_num); nlinarith
    have : 1 / td i < 1 / T i := one_div_lt_one_div_of_lt (by linarith) hlt
    have : 1 < R i / 100 := by
      rw [b2]
      exact Real.one_lt_exp_iff.mpr (mul_pos hpos (by linarith))
    linarith
  obtain ⟨c, hc⟩ : ∃ c, T i = c + 273.15 := ⟨T i - 273.15, by ring⟩
  obtain ⟨d, hd'⟩ : ∃ d, td i = d + 273.15 := ⟨td i - 273.15, by ring⟩
  rw [hc] at a1 a2
  have hd0 : 0 < d := by rw [hd'] at hd; linarith
  have hdc : d ≤ c := by rw [hc, hd'] at hle; linarith
  have hfit := dew_fit hd0 hdc (by linarith)
  have hlog := steeper_log (lt_of_lt_of_le hd0 hdc) hd0
  set q := (c - d) * steeper c d / ((c + 273.15) * (d + 273.15) * ((c + 237.3) * (d + 237.3))) with hq
  have hes : R i / 100 * fao56 (kelvinToF (T i)) = 0.6108 *
      Real.exp (latentOverGas (c + 273.15) * (1 / (c + 273.15) - 1 / (d + 273.15)) + 17.27 * c / (c + 237.3)) := by
    rw [b2, fao56_kelvinToF, hc, hd', Real.exp_add]
    have : c + 273.15 - 273.15 = c := by ring
    rw [this]
    ring
  have he : fao56 (kelvinToF (td i)) = R i / 100 * fao56 (kelvinToF (T i)) * Real.exp (-q) := by
    rw [hes, fao56_kelvinToF, hd', mul_assoc, ← Real.exp_add, ← hlog]
    have : d + 273.15 - 273.15 = d := by ring
    rw [this]
    congr 2
    ring
  have hE : 0 < R i / 100 * fao56 (kelvinToF (T i)) := by rw [hes]; positivity
  rw [he]
  have hup : Real.exp (-q) ≤ 1 := Real.exp_le_one_iff.mpr (by linarith [hfit.1])
  have hlo : 0.945 ≤ Real.exp (-q) := by linarith [Real.add_one_le_exp (-q), hfit.2]
  constructor
  · nlinarith
  · nlinarith

/-- air of 303.15 K and 50 per cent -/
example : ∃ r td, dewtemp (constArg .ndarray [2] 303.15) (constArg .ndarray [2] 50) = .ok r ∧ r.val.shape = [2] ∧ HasReals r.val td ∧
    ∀ (f g : Arg (XF ℝ)) (tfill : XF ℝ), f.val.shape = [2] → g.val.shape = [2] →
      HasReals f.val (fun i => kelvinToF (td i)) → HasReals g.val (fun _ => kelvinToF 303.15) →
      ∀ i, InBounds [2] i → 273.15 < td i → ∃ e es : ℝ,
        (actualSaturationVaporPressure f tfill).val.get i = fin e ∧ (saturationVaporPressure g tfill).val.get i = fin es ∧
        0.945 * ((50 : ℝ) / 100 * es) ≤ e ∧ e ≤ (50 : ℝ) / 100 * es :=
  C148_vapor_pressure (constArg .ndarray [2] 303.15) (constArg .ndarray [2] 50) (by simp [constArg]) rfl (fun _ => 303.15) (fun _ => 50)
    (fun _ _ => rfl) (fun _ _ => rfl) (fun _ _ => by norm_num) (fun _ _ => by norm_num)

/-- there the dew point is above freezing -/
example (td : ℝ) (h0 : 0 < td) (h : (50 : ℝ) / 100 = Real.exp (latentOverGas 303.15 * (1 / 303.15 - 1 / td))) : 273.15 < td := by
  by_contra hle
  push Not at hle
  have h1 : (1 : ℝ) / 273.15 ≤ 1 / td := one_div_le_one_div_of_le h0 hle
  have h2 : (5000 : ℝ) ≤ latentOverGas 303.15 := by unfold latentOverGas; norm_num
  have h3 : latentOverGas 303.15 * (1 / 303.15 - 1 / td) ≤ -1.5 := by
    have : (1 : ℝ) / 303.15 - 1 / 273.15 ≤ -0.0003 := by norm_num
    nlinarith
  have h4 : Real.exp (latentOverGas 303.15 * (1 / 303.15 - 1 / td)) ≤ Real.exp (-1.5) := Real.exp_le_exp.mpr h3
  have h5 : (1.5 : ℝ) + 1 ≤ Real.exp 1.5 := Real.add_one_le_exp _
  have h6 : Real.exp (-1.5) * Real.exp 1.5 = 1 := by rw [← Real.exp_add]; norm_num
  have h7 : 0 < Real.exp (-1.5) := Real.exp_pos _
  have h8 : (50 : ℝ) / 100 ≤ Real.exp (-1.5) := h ▸ h4
  norm_num at h5 h6 h7 h8
  nlinarith

end Verif.Props
