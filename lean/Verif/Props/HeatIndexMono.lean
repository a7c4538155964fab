import Verif.Props.PointApi

/-
C141: warmer or more humid air never gets a lower heat index.
-/

set_option linter.unusedSectionVars false
namespace Verif.Lemmas
open Model XF Spec Props Tensor

/-- the temperature at which the simple formula reaches 79 F -/
noncomputable def hiSwitch (r : ℝ) : ℝ := (178.6 - 0.094 * r) / 2.2

theorem simple_lt_iff (t r : ℝ) : hiSimple t r < 79 ↔ t < hiSwitch r := by
  unfold hiSimple hiSwitch
  rw [lt_div_iff₀ (by norm_num)]
  constructor <;> intro h <;> linarith

/-- the regression rises with temperature, from the switch on -/
theorem rothfusz_mono_temp {t t' r : ℝ} (h1 : 30 ≤ r) (h2 : r ≤ 85) (ht : hiSwitch r ≤ t) (hlt : t < t') :
    hiRothfusz t r < hiRothfusz t' r := by
  have hs : (77:ℝ) ≤ hiSwitch r := by unfold hiSwitch; rw [le_div_iff₀ (by norm_num)]; linarith
  have hB : 0 ≤ -0.00683783 + 0.00122874 * r - 0.00000199 * r ^ 2 := by nlinarith
  have hA : 0 < 2.04901523 - 0.22475541 * r + 0.00085282 * r ^ 2 + 154 * (-0.00683783 + 0.00122874 * r - 0.00000199 * r ^ 2) := by
    nlinarith [sq_nonneg (r - 33)]
  have hd : hiRothfusz t' r - hiRothfusz t r = (t' - t) * (2.04901523 - 0.22475541 * r + 0.00085282 * r ^ 2
      + (t + t') * (-0.00683783 + 0.00122874 * r - 0.00000199 * r ^ 2)) := by unfold hiRothfusz; ring
  have h3 : 154 * (-0.00683783 + 0.00122874 * r - 0.00000199 * r ^ 2) ≤ (t + t') * (-0.00683783 + 0.00122874 * r - 0.00000199 * r ^ 2) :=
    mul_le_mul_of_nonneg_right (by linarith) hB
  have := mul_pos (sub_pos.mpr hlt) (show 0 < 2.04901523 - 0.22475541 * r + 0.00085282 * r ^ 2
      + (t + t') * (-0.00683783 + 0.00122874 * r - 0.00000199 * r ^ 2) by linarith)
  linarith

/-- at the switch the regression is not below the simple formula -/
theorem rothfusz_at_switch {r : ℝ} (h1 : 30 ≤ r) (h2 : r ≤ 85) : 79 ≤ hiRothfusz (hiSwitch r) r := by
  have e : 4.84 * (hiRothfusz (hiSwitch r) r - 79) = (r - 30) * (85 - r) * (0.00007701436328 + 0.00010071031596 * r + 0.00000001758364 * r ^ 2)
      + (0.0309377747008 * r - 0.291737028836) := by
    unfold hiRothfusz hiSwitch; ring
  have a : 0 ≤ (r - 30) * (85 - r) := mul_nonneg (by linarith) (by linarith)
  have b : 0 ≤ 0.00007701436328 + 0.00010071031596 * r + 0.00000001758364 * r ^ 2 := by
    have : 0 ≤ r := by linarith
    positivity
  have := mul_nonneg a b
  linarith

/-- the regression rises with humidity, where it is used -/
theorem rothfusz_mono_hum {t r r' : ℝ} (h1 : 30 ≤ r) (h2 : r' ≤ 80) (ht : hiSwitch r ≤ t) (hlt : r < r') :
    hiRothfusz t r < hiRothfusz t r' := by
  have hs : (77.76:ℝ) ≤ t := by
    have : (77.76:ℝ) ≤ hiSwitch r := by unfold hiSwitch; rw [le_div_iff₀ (by norm_num)]; linarith
    linarith
  have hd : hiRothfusz t r' - hiRothfusz t r = (r' - r) * (10.14333127 - 0.22475541 * t + 0.00122874 * t ^ 2
      + (r + r') * (-0.05481717 + 0.00085282 * t - 0.00000199 * t ^ 2)) := by unfold hiRothfusz; ring
  have lo : 0 < 10.14333127 - 0.22475541 * t + 0.00122874 * t ^ 2 + 60 * (-0.05481717 + 0.00085282 * t - 0.00000199 * t ^ 2) := by
    nlinarith [sq_nonneg (t - 78.24)]
  have hi : 0 < 10.14333127 - 0.22475541 * t + 0.00122874 * t ^ 2 + 160 * (-0.05481717 + 0.00085282 * t - 0.00000199 * t ^ 2) := by
    nlinarith [sq_nonneg (t - 77.76)]
  have hpos : 0 < 10.14333127 - 0.22475541 * t + 0.00122874 * t ^ 2
      + (r + r') * (-0.05481717 + 0.00085282 * t - 0.00000199 * t ^ 2) := by
    rcases le_total 0 (-0.05481717 + 0.00085282 * t - 0.00000199 * t ^ 2) with hD | hD
    · have := mul_le_mul_of_nonneg_right (show (60:ℝ) ≤ r + r' by linarith) hD
      linarith
    · have := mul_le_mul_of_nonpos_right (show r + r' ≤ (160:ℝ) by linarith) hD
      linarith
  have := mul_pos (sub_pos.mpr hlt) hpos
  linarith

theorem hiCode_mid {t r : ℝ} (h1 : 30 ≤ r) (h2 : r ≤ 85) (ht : 40 ≤ t) :
    hiCode false t r = if t < hiSwitch r then hiSimple t r else hiRothfusz t r := by
  have a : hiAdjLow t r = 0 := by unfold hiAdjLow; rw [if_neg]; rintro ⟨h, -⟩; linarith
  have b : hiAdjHigh t r = 0 := by unfold hiAdjHigh; rw [if_neg]; rintro ⟨h, -⟩; linarith
  unfold hiCode
  rw [a, b, if_neg (not_lt.mpr ht), sub_zero, add_zero]
  simp only [hiThreshold, hiRegression, Bool.false_eq_true, if_false, simple_lt_iff]

theorem hiCode_mono_temp {t t' r : ℝ} (h1 : 30 ≤ r) (h2 : r ≤ 85) (ht : 40 ≤ t) (hlt : t < t') : hiCode false t r < hiCode false t' r := by
  rw [hiCode_mid h1 h2 ht, hiCode_mid h1 h2 (by linarith)]
  by_cases hc : t < hiSwitch r
  · rw [if_pos hc]
    by_cases hc' : t' < hiSwitch r
    · rw [if_pos hc']; unfold hiSimple; linarith
    · rw [if_neg hc']
      have a := (simple_lt_iff t r).mpr hc
      have b := rothfusz_at_switch h1 h2
      rcases (not_lt.mp hc').eq_or_lt with e | e
      · rw [← e]; linarith
      · have := rothfusz_mono_temp h1 h2 le_rfl e
        linarith
  · rw [if_neg hc, if_neg (by linarith)]
    exact rothfusz_mono_temp h1 h2 (not_lt.mp hc) hlt

theorem hiCode_mono_hum {t r r' : ℝ} (h1 : 30 ≤ r) (h2 : r' ≤ 80) (ht : 40 ≤ t) (hlt : r < r') : hiCode false t r < hiCode false t r' := by
  rw [hiCode_mid h1 (by linarith) ht, hiCode_mid (by linarith) (by linarith) ht]
  have hsw : hiSwitch r' < hiSwitch r := by unfold hiSwitch; apply div_lt_div_of_pos_right _ (by norm_num); linarith
  by_cases hc' : t < hiSwitch r'
  · rw [if_pos hc', if_pos (hc'.trans hsw)]
    unfold hiSimple
    linarith
  · rw [if_neg hc']
    by_cases hc : t < hiSwitch r
    · rw [if_pos hc]
      have a := (simple_lt_iff t r).mpr hc
      have b := rothfusz_at_switch (r := r') (by linarith) (by linarith)
      rcases (not_lt.mp hc').eq_or_lt with e | e
      · rw [← e] at a ⊢; linarith
      · have := rothfusz_mono_temp (r := r') (by linarith) (by linarith) le_rfl e
        linarith
    · rw [if_neg hc]
      exact rothfusz_mono_hum h1 h2 (not_lt.mp hc) hlt

/-- the same with the alternate coefficients and threshold -/
noncomputable def hiSwitchAlt (r : ℝ) : ℝ := (160.6 - 0.094 * r) / 2.2

theorem simple_lt_iff_alt (t r : ℝ) : hiSimple t r < 70 ↔ t < hiSwitchAlt r := by
  unfold hiSimple hiSwitchAlt
  rw [lt_div_iff₀ (by norm_num)]
  constructor <;> intro h <;> linarith

theorem alternate_mono_temp {t t' r : ℝ} (h1 : 30 ≤ r) (h2 : r ≤ 50) (ht : hiSwitchAlt r ≤ t) (hlt : t < t') :
    hiAlternate t r < hiAlternate t' r := by
  have hs : (70:ℝ) ≤ hiSwitchAlt r := by unfold hiSwitchAlt; rw [le_div_iff₀ (by norm_num)]; linarith
  have hB : 0 ≤ -0.000850208 + 0.000687678 * r := by linarith
  have hA : 0 < 0.988622465 - 0.114037667 * r + 0.000274954 * r ^ 2 + 140 * (-0.000850208 + 0.000687678 * r) := by
    nlinarith [sq_nonneg (r - 32)]
  have hd : hiAlternate t' r - hiAlternate t r = (t' - t) * (0.988622465 - 0.114037667 * r + 0.000274954 * r ^ 2
      + (t + t') * (-0.000850208 + 0.000687678 * r)) := by unfold hiAlternate; ring
  have h3 : 140 * (-0.000850208 + 0.000687678 * r) ≤ (t + t') * (-0.000850208 + 0.000687678 * r) :=
    mul_le_mul_of_nonneg_right (by linarith) hB
  have := mul_pos (sub_pos.mpr hlt) (show 0 < 0.988622465 - 0.114037667 * r + 0.000274954 * r ^ 2
      + (t + t') * (-0.000850208 + 0.000687678 * r) by linarith)
  linarith

theorem alternate_at_switch {r : ℝ} (h1 : 30 ≤ r) (h2 : r ≤ 50) : 70 ≤ hiAlternate (hiSwitchAlt r) r := by
  have e : 4.84 * (hiAlternate (hiSwitchAlt r) r - 70) = (r - 30) * (50 - r) * (0.004369831412048 + 0.000050784164392 * r)
      + (0.11409473300456 * r - 3.114959707168) := by
    unfold hiAlternate hiSwitchAlt; ring
  have a : 0 ≤ (r - 30) * (50 - r) := mul_nonneg (by linarith) (by linarith)
  have b : 0 ≤ 0.004369831412048 + 0.000050784164392 * r := by linarith
  have := mul_nonneg a b
  linarith

theorem alternate_mono_hum {t r r' : ℝ} (h1 : 30 ≤ r) (h2 : r' ≤ 50) (ht : hiSwitchAlt r ≤ t) (hlt : r < r') :
    hiAlternate t r < hiAlternate t r' := by
  have hs : (70:ℝ) ≤ t := by
    have : (70:ℝ) ≤ hiSwitchAlt r := by unfold hiSwitchAlt; rw [le_div_iff₀ (by norm_num)]; linarith
    linarith
  have hd : hiAlternate t r' - hiAlternate t r = (r' - r) * (4.777114035 - 0.114037667 * t + 0.000687678 * t ^ 2
      + (r + r') * (-0.020716198 + 0.000274954 * t)) := by unfold hiAlternate; ring
  have lo : 0 < 4.777114035 - 0.114037667 * t + 0.000687678 * t ^ 2 + 60 * (-0.020716198 + 0.000274954 * t) := by
    nlinarith [sq_nonneg (t - 70.92)]
  have hi : 0 < 4.777114035 - 0.114037667 * t + 0.000687678 * t ^ 2 + 100 * (-0.020716198 + 0.000274954 * t) := by
    nlinarith [sq_nonneg (t - 70)]
  have hpos : 0 < 4.777114035 - 0.114037667 * t + 0.000687678 * t ^ 2 + (r + r') * (-0.020716198 + 0.000274954 * t) := by
    rcases le_total 0 (-0.020716198 + 0.000274954 * t) with hD | hD
    · have := mul_le_mul_of_nonneg_right (show (60:ℝ) ≤ r + r' by linarith) hD
      linarith
    · have := mul_le_mul_of_nonpos_right (show r + r' ≤ (100:ℝ) by linarith) hD
      linarith
  have := mul_pos (sub_pos.mpr hlt) hpos
  linarith

theorem hiCode_mid_alt {t r : ℝ} (h1 : 30 ≤ r) (h2 : r ≤ 50) (ht : 40 ≤ t) :
    hiCode true t r = if t < hiSwitchAlt r then hiSimple t r else hiAlternate t r := by
  have a : hiAdjLow t r = 0 := by unfold hiAdjLow; rw [if_neg]; rintro ⟨h, -⟩; linarith
  have b : hiAdjHigh t r = 0 := by unfold hiAdjHigh; rw [if_neg]; rintro ⟨h, -⟩; linarith
  unfold hiCode
  rw [a, b, if_neg (not_lt.mpr ht), sub_zero, add_zero]
  simp only [hiThreshold, hiRegression, if_true, simple_lt_iff_alt]

theorem hiCode_mono_temp_alt {t t' r : ℝ} (h1 : 30 ≤ r) (h2 : r ≤ 50) (ht : 40 ≤ t) (hlt : t < t') : hiCode true t r < hiCode true t' r := by
  rw [hiCode_mid_alt h1 h2 ht, hiCode_mid_alt h1 h2 (by linarith)]
  by_cases hc : t < hiSwitchAlt r
  · rw [if_pos hc]
    by_cases hc' : t' < hiSwitchAlt r
    · rw [if_pos hc']; unfold hiSimple; linarith
    · rw [if_neg hc']
      have a := (simple_lt_iff_alt t r).mpr hc
      have b := alternate_at_switch h1 h2
      rcases (not_lt.mp hc').eq_or_lt with e | e
      · rw [← e]; linarith
      · have := alternate_mono_temp h1 h2 le_rfl e
        linarith
  · rw [if_neg hc, if_neg (by linarith)]
    exact alternate_mono_temp h1 h2 (not_lt.mp hc) hlt

theorem hiCode_mono_hum_alt {t r r' : ℝ} (h1 : 30 ≤ r) (h2 : r' ≤ 50) (ht : 40 ≤ t) (hlt : r < r') : hiCode true t r < hiCode true t r' := by
  rw [hiCode_mid_alt h1 (by linarith) ht, hiCode_mid_alt (by linarith) (by linarith) ht]
  have hsw : hiSwitchAlt r' < hiSwitchAlt r := by unfold hiSwitchAlt; apply div_lt_div_of_pos_right _ (by norm_num); linarith
  by_cases hc' : t < hiSwitchAlt r'
  · rw [if_pos hc', if_pos (hc'.trans hsw)]
    unfold hiSimple
    linarith
  · rw [if_neg hc']
    by_cases hc : t < hiSwitchAlt r
    · rw [if_pos hc]
      have a := (simple_lt_iff_alt t r).mpr hc
      have b := alternate_at_switch (r := r') (by linarith) (by linarith)
      rcases (not_lt.mp hc').eq_or_lt with e | e
      · rw [← e] at a ⊢; linarith
      · have := alternate_mono_temp (r := r') (by linarith) (by linarith) le_rfl e
        linarith
    · rw [if_neg hc]
      exact alternate_mono_hum h1 h2 (not_lt.mp hc) hlt

/-- the values of a call -/
theorem heatIndex_call (alt : Bool) (t rh : Arg (XF ℝ)) (hty : t.ty = rh.ty) (hs : t.val.shape = rh.val.shape)
    (hne : ∃ i, InBounds t.val.shape i) (T R : List ℕ → ℝ) (ht : HasReals t.val T) (hr : HasReals rh.val R)
    (hR : ∀ i, InBounds t.val.shape i → 0 ≤ R i ∧ R i ≤ 100) :
    ∃ wn r, heatIndex alt t rh = .ok (wn, r) ∧ HasReals r.val (fun i => hiCode alt (T i) (R i)) := by
  have hrange : HumidityInRange rh.val := by
    intro i hi
    have := hR i (hs.symm ▸ hi)
    rw [hr i hi]
    simp only [lt_fin, decide_eq_false_iff_not, not_lt]
    exact this
  have hnan : rh.ty = .dataArray ∨ ∀ i, InBounds rh.val.shape i → (rh.val.get i).isNaN = false :=
    Or.inr (fun i hi => by rw [hr i hi]; rfl)
  obtain ⟨wn, r, h1, h2, h3⟩ := (C49_range_check_partial alt t rh hty hs (hs ▸ hne) hnan).2 hrange
  refine ⟨wn, r, h1, ?_⟩
  intro i hi
  rw [h2] at hi
  rw [h3 i hi, ht i hi, hr i (hs ▸ hi), heatIndexPoint_fin]

end Verif.Lemmas

namespace Verif.Props
open Model XF Spec Lemmas Tensor

/-- C141, where it holds for temperature: of two calls of heat_index with the same humidities, between 30 and 85 % (30 and 50 % with the alternate coefficients), the warmer
one returns the larger heat index at every point, as long as the two temperatures are both below 40 F or both at least 40 F. Missing: pairs of
temperatures on the two sides of 40 F (false, `C141_counterexample`), drier and more humid air. -/
theorem C141_temperature_partial (alt : Bool) (t t' rh : Arg (XF ℝ)) (hty : t.ty = rh.ty) (hty' : t'.ty = rh.ty) (hs : t.val.shape = rh.val.shape)
    (hs' : t'.val.shape = rh.val.shape) (hne : ∃ i, InBounds rh.val.shape i)
    (T T' R : List ℕ → ℝ) (ht : HasReals t.val T) (ht' : HasReals t'.val T') (hr : HasReals rh.val R)
    (hR : ∀ i, InBounds rh.val.shape i → 30 ≤ R i ∧ R i ≤ if alt then 50 else 85)
    (hT : ∀ i, InBounds rh.val.shape i → T i < T' i ∧ (T' i < 40 ∨ 40 ≤ T i)) :
    ∃ wn wn' r r' a b, heatIndex alt t rh = .ok (wn, r) ∧ heatIndex alt t' rh = .ok (wn', r') ∧ HasReals r.val a ∧ HasReals r'.val b ∧
      ∀ i, InBounds rh.val.shape i → a i < b i := by
  have htop : (if alt then (50:ℝ) else 85) ≤ 100 := by split_ifs <;> norm_num
  have hR1 : ∀ i, InBounds rh.val.shape i → 0 ≤ R i ∧ R i ≤ 100 := fun i hi => ⟨by linarith [(hR i hi).1], by linarith [(hR i hi).2]⟩
  obtain ⟨wn, r, h1, h2⟩ := heatIndex_call alt t rh hty hs (hs ▸ hne) T R ht hr (hs ▸ hR1)
  obtain ⟨wn', r', h1', h2'⟩ := heatIndex_call alt t' rh hty' hs' (hs' ▸ hne) T' R ht' hr (hs' ▸ hR1)
  refine ⟨wn, wn', r, r', _, _, h1, h1', h2, h2', ?_⟩
  intro i hi
  obtain ⟨a, b⟩ := hT i hi
  rcases b with b | b
  · simpa [hiCode, b, a.trans b] using a
  · cases alt with
    | false => exact hiCode_mono_temp (hR i hi).1 (by simpa using (hR i hi).2) b a
    | true => exact hiCode_mono_temp_alt (hR i hi).1 (by simpa using (hR i hi).2) b a

example : ∃ wn wn' r r' a b, heatIndex false (constArg .ndarray [2] 78) (constArg .ndarray [2] 50) = .ok (wn, r) ∧
    heatIndex false (constArg .ndarray [2] 81) (constArg .ndarray [2] 50) = .ok (wn', r') ∧ HasReals r.val a ∧ HasReals r'.val b ∧
      ∀ i, InBounds [2] i → a i < b i :=
  C141_temperature_partial false (constArg .ndarray [2] 78) (constArg .ndarray [2] 81) (constArg .ndarray [2] 50) rfl rfl rfl rfl
    ⟨[0], by simp [InBounds, constArg]⟩ (fun _ => 78) (fun _ => 81) (fun _ => 50) (fun _ _ => rfl) (fun _ _ => rfl) (fun _ _ => rfl)
    (fun _ _ => by norm_num) (fun _ _ => by norm_num)

/-- C141, where it holds for humidity: of two calls of heat_index with the same temperatures, the one with the larger humidities
(both between 30 and 80 %; 30 and 50 % with the alternate coefficients) never returns a smaller heat index, and returns a larger one from 40 F up. Missing: drier and more humid air (false,
`C141_counterexample`). -/
theorem C141_humidity_partial (alt : Bool) (t rh rh' : Arg (XF ℝ)) (hty : t.ty = rh.ty) (hty' : rh'.ty = rh.ty) (hs : t.val.shape = rh.val.shape)
    (hs' : rh'.val.shape = rh.val.shape) (hne : ∃ i, InBounds rh.val.shape i)
    (T R R' : List ℕ → ℝ) (ht : HasReals t.val T) (hr : HasReals rh.val R) (hr' : HasReals rh'.val R')
    (hR : ∀ i, InBounds rh.val.shape i → 30 ≤ R i ∧ R i < R' i ∧ R' i ≤ if alt then 50 else 80) :
    ∃ wn wn' r r' a b, heatIndex alt t rh = .ok (wn, r) ∧ heatIndex alt t rh' = .ok (wn', r') ∧ HasReals r.val a ∧ HasReals r'.val b ∧
      ∀ i, InBounds rh.val.shape i → a i ≤ b i ∧ (40 ≤ T i → a i < b i) := by
  have htop : (if alt then (50:ℝ) else 80) ≤ 100 := by split_ifs <;> norm_num
  have hR1 : ∀ i, InBounds rh.val.shape i → 0 ≤ R i ∧ R i ≤ 100 := fun i hi => ⟨by linarith [(hR i hi).1], by linarith [(hR i hi).2]⟩
  have hR2 : ∀ i, InBounds rh.val.shape i → 0 ≤ R' i ∧ R' i ≤ 100 := fun i hi =>
    ⟨by linarith [(hR i hi).1, (hR i hi).2], by linarith [(hR i hi).2]⟩
  obtain ⟨wn, r, h1, h2⟩ := heatIndex_call alt t rh hty hs (hs ▸ hne) T R ht hr (hs ▸ hR1)
  obtain ⟨wn', r', h1', h2'⟩ := heatIndex_call alt t rh' (hty.trans hty'.symm) (hs.trans hs'.symm) (hs ▸ hne) T R' ht hr' (hs ▸ hR2)
  refine ⟨wn, wn', r, r', _, _, h1, h1', h2, h2', ?_⟩
  intro i hi
  obtain ⟨a, b, c⟩ := hR i hi
  rcases lt_or_ge (T i) 40 with h | h
  · exact ⟨by simp [hiCode, h], fun h' => absurd h (not_lt.mpr h')⟩
  · have : hiCode alt (T i) (R i) < hiCode alt (T i) (R' i) := by
      cases alt with
      | false => exact hiCode_mono_hum a (by simpa using c) h b
      | true => exact hiCode_mono_hum_alt a (by simpa using c) h b
    exact ⟨this.le, fun _ => this⟩

example : ∃ wn wn' r r' a b, heatIndex false (constArg .ndarray [2] 78) (constArg .ndarray [2] 50) = .ok (wn, r) ∧
    heatIndex false (constArg .ndarray [2] 78) (constArg .ndarray [2] 80) = .ok (wn', r') ∧ HasReals r.val a ∧ HasReals r'.val b ∧
      ∀ i, InBounds [2] i → a i ≤ b i ∧ (40 ≤ (78:ℝ) → a i < b i) :=
  C141_humidity_partial false (constArg .ndarray [2] 78) (constArg .ndarray [2] 50) (constArg .ndarray [2] 80) rfl rfl rfl rfl
    ⟨[0], by simp [InBounds, constArg]⟩ (fun _ => 78) (fun _ => 50) (fun _ => 80) (fun _ _ => rfl) (fun _ _ => rfl) (fun _ _ => rfl)
    (fun _ _ => by norm_num)

/-- C141 is false at 40 F for every humidity and either set of coefficients: warming from 39 to 40 F lowers the heat index, by at least 0.6 F. And it is false
for humidity in dry air: at 80.4 F raising the humidity from 18 to 19 % lowers the heat index. -/
theorem C141_counterexample :
    (∀ (alt : Bool) (R : ℝ), 0 ≤ R → R ≤ 100 → ∃ wn wn' r r' a b, heatIndex alt (constArg .ndarray [1] 39) (constArg .ndarray [1] R) = .ok (wn, r) ∧
      heatIndex alt (constArg .ndarray [1] 40) (constArg .ndarray [1] R) = .ok (wn', r') ∧ r.val.get [0] = fin a ∧ r'.val.get [0] = fin b ∧
      b ≤ a - 0.6) ∧
    (∃ wn wn' r r' a b, heatIndex false (constArg .ndarray [1] 80.4) (constArg .ndarray [1] 18) = .ok (wn, r) ∧
      heatIndex false (constArg .ndarray [1] 80.4) (constArg .ndarray [1] 19) = .ok (wn', r') ∧ r.val.get [0] = fin a ∧ r'.val.get [0] = fin b ∧
      b < a) := by
  have h0 : InBounds [1] [0] := by simp [InBounds]
  have call : ∀ (alt : Bool) (T R : ℝ), 0 ≤ R → R ≤ 100 →
      ∃ wn r, heatIndex alt (constArg .ndarray [1] T) (constArg .ndarray [1] R) = .ok (wn, r) ∧ r.val.get [0] = fin (hiCode alt T R) := by
    intro alt T R a b
    have hrange : HumidityInRange (constArg .ndarray [1] R).val := by
      intro i _
      simp only [constArg, lt_fin, decide_eq_false_iff_not, not_lt]
      exact ⟨a, b⟩
    obtain ⟨wn, r, h1, h2, h3⟩ := (C49_range_check_partial alt (constArg .ndarray [1] T) (constArg .ndarray [1] R) rfl rfl ⟨[0], h0⟩
      (Or.inr (fun _ _ => rfl))).2 hrange
    refine ⟨wn, r, h1, ?_⟩
    rw [h3 [0] h0]
    exact heatIndexPoint_fin alt T R
  constructor
  · intro alt R a b
    obtain ⟨wn, r, h1, h2⟩ := call alt 39 R a b
    obtain ⟨wn', r', h1', h2'⟩ := call alt 40 R a b
    refine ⟨wn, wn', r, r', _, _, h1, h1', h2, h2', ?_⟩
    have e1 : hiCode alt 39 R = 39 := by unfold hiCode; rw [if_pos (by norm_num)]
    have e2 : hiCode alt 40 R = hiSimple 40 R := by
      have hl : hiAdjLow 40 R = 0 := by unfold hiAdjLow; rw [if_neg]; rintro ⟨-, h, -⟩; norm_num at h
      have hh : hiAdjHigh 40 R = 0 := by unfold hiAdjHigh; rw [if_neg]; rintro ⟨-, h, -⟩; norm_num at h
      have hlt : hiSimple 40 R < hiThreshold alt := by unfold hiSimple hiThreshold; split_ifs <;> linarith
      unfold hiCode
      rw [hl, hh, if_neg (by norm_num), if_pos hlt]
      ring
    rw [e1, e2]
    unfold hiSimple
    linarith
  · obtain ⟨wn, r, h1, h2⟩ := call false 80.4 18 (by norm_num) (by norm_num)
    obtain ⟨wn', r', h1', h2'⟩ := call false 80.4 19 (by norm_num) (by norm_num)
    refine ⟨wn, wn', r, r', _, _, h1, h1', h2, h2', ?_⟩
    unfold hiCode hiAdjLow hiAdjHigh
    norm_num [hiSimple, hiThreshold, hiRegression, hiRothfusz]

end Verif.Props
