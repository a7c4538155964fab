import Verif.Lemmas.Evap
import Verif.Props.Humidity

/-
Properties C51-C54 and C79 (max_daylight, psychrometric_constant, saturation vapour pressure).
-/

set_option linter.unusedSectionVars false
namespace Verif.Props
open Model XF Lemmas Tensor

/-! ### C51 max_daylight -/

/-- the values of a 0-d or 1-d array, by position -/
theorem values_vec (a : Tensor (XF ℝ)) (n : ℕ) (h : a.shape = [n]) : a.values = (List.range n).map (fun k => a.get [k]) := by
  simp [Tensor.values, h, Tensor.indices, List.flatMap]
  induction List.range n with
  | nil => rfl
  | cons x l ih => simp_all

/-- C51. For 1-D days and latitudes the result is a table of `len(jday)` rows and `len(lat)` columns, and its entry
`[i,j]` is determined by day `i` and latitude `j` alone; more than one dimension raises ValueError. -/
theorem C51_table_layout (jday lat : Tensor (XF ℝ)) :
    ((∃ n m, jday.shape = [n] ∧ lat.shape = [m]) →
      ∃ wn r, maxDaylight jday lat = .ok (wn, r) ∧ r.shape = jday.shape ++ lat.shape ∧
        ∀ i j, InBounds r.shape [i, j] → r.get [i, j] = daylightPoint (jday.get [i]) (lat.get [j])) ∧
    (1 < jday.shape.length ∨ 1 < lat.shape.length → maxDaylight jday lat = .error .valueError) := by
  constructor
  · rintro ⟨n, m, hn, hm⟩
    unfold maxDaylight
    rw [if_neg (by simp [hn, hm])]
    refine ⟨_, _, rfl, ?_, ?_⟩
    · simp [values_vec jday n hn, values_vec lat m hm, hn, hm]
    · intro i j hij
      simp only [values_vec jday n hn, values_vec lat m hm, InBounds, List.length_map, List.length_range,
        List.forall₂_cons, List.forall₂_nil_right_iff, and_true] at hij ⊢
      simp [List.getD_eq_getElem?_getD, hij.1, hij.2]
  · intro h
    unfold maxDaylight
    rw [if_pos (by omega)]

example : ∃ wn r, maxDaylight ⟨[2], fun _ => fin 100⟩ ⟨[3], fun _ => fin 10⟩ = .ok (wn, r) ∧ r.shape = [2, 3] :=
  let ⟨wn, r, h, hs, _⟩ := (C51_table_layout ⟨[2], fun _ => fin 100⟩ ⟨[3], fun _ => fin 10⟩).1 ⟨2, 3, rfl, rfl⟩
  ⟨wn, r, h, hs⟩

/-- C51. For every day and every latitude up to 66 degrees the result is a number strictly between 0 and 24. -/
theorem C51_defined_up_to_66 (d l : ℝ) (h : |l| ≤ 66) :
    ∃ x, daylightPoint (fin d) (fin l) = fin x ∧ 0 < x ∧ x < 24 := by
  refine ⟨_, daylightPoint_fin h, ?_, ?_⟩
  · have hb := hourArg_bounds (d := d) h
    have := Real.arccos_pos.mpr hb.2
    have hpi := Real.pi_pos
    positivity
  · have hb := hourArg_bounds (d := d) h
    have hlt : Real.arccos (hourArg d l) < Real.pi := by
      rcases (Real.arccos_le_pi (hourArg d l)).eq_or_lt with he | he
      · exact absurd (Real.arccos_eq_pi.mp he) (by linarith [hb.1])
      · exact he
    rw [div_mul_eq_mul_div, div_lt_iff₀ Real.pi_pos]
    linarith

example : ∃ x, daylightPoint (fin 172) (fin (-65.9)) = fin x ∧ 0 < x ∧ x < 24 :=
  C51_defined_up_to_66 _ _ (by rw [abs_le]; constructor <;> norm_num)

/-- C51. Whatever the inputs (finite or not), the result is NaN or a number of hours between 0 and 24. -/
theorem C51_bounded (d l : XF ℝ) :
    daylightPoint d l = nan ∨ ∃ x, daylightPoint d l = fin x ∧ 0 ≤ x ∧ x ≤ 24 := by
  unfold daylightPoint
  dsimp only
  generalize -(tan (l * fin (Real.pi / 180))) * tan (solarDec d) = y
  cases y with
  | fin y =>
    by_cases h : -1 ≤ y ∧ y ≤ 1
    · right
      refine ⟨24 / Real.pi * Real.arccos y, ?_, arccos_hours_bounds y⟩
      simp [XF.arccos, h]
    · left
      simp only [XF.arccos, h, if_false]
      rfl
  | pinf => left; rfl
  | ninf => left; rfl
  | nan => left; rfl

/-- C51. Twelve hours at the equator on every day. -/
theorem C51_equator (d : ℝ) : daylightPoint (fin d) (fin 0) = fin 12 := by
  rw [daylightPoint_fin (by simp)]
  have hpi := Real.pi_ne_zero
  congr 1
  simp [hourArg, Real.arccos_zero]
  field_simp
  norm_num

/-- C51. Hours at a latitude and at its mirror latitude add up to 24, wherever the result is defined. -/
theorem C51_hemispheres_add_to_24 (d l x : ℝ) (hl : Real.cos (l * (Real.pi / 180)) ≠ 0)
    (h : daylightPoint (fin d) (fin l) = fin x) : daylightPoint (fin d) (fin (-l)) = fin (24 - x) := by
  rw [daylightPoint_of_cos hl] at h
  split_ifs at h with hb
  injection h with h
  have hl' : Real.cos (-l * (Real.pi / 180)) ≠ 0 := by rw [neg_mul, Real.cos_neg]; exact hl
  rw [daylightPoint_of_cos hl', hourArg_neg, if_pos ⟨by linarith [hb.2], by linarith [hb.1]⟩, hours_neg, h]

example : ∃ x, daylightPoint (fin 100) (fin 40) = fin x ∧ daylightPoint (fin 100) (fin (-40)) = fin (24 - x) := by
  have h40 : |(40:ℝ)| ≤ 66 := by norm_num
  obtain ⟨x, h, -⟩ := C51_defined_up_to_66 100 40 h40
  exact ⟨x, h, C51_hemispheres_add_to_24 100 40 x (cos_lat_pos h40).ne' h⟩

/-- C51. While the sun is north of the equator the days get strictly longer toward the north. -/
theorem C51_longer_toward_summer_pole (d l l' : ℝ) (hl : -66 ≤ l) (h : l < l') (hl' : l' ≤ 66)
    (hd : 0 < Real.sin (2 * Real.pi / 365 * d - 1.39)) :
    ∃ x y, daylightPoint (fin d) (fin l) = fin x ∧ daylightPoint (fin d) (fin l') = fin y ∧ x < y := by
  have h1 : |l| ≤ 66 := abs_le.mpr ⟨hl, by linarith⟩
  have h2 : |l'| ≤ 66 := abs_le.mpr ⟨by linarith, hl'⟩
  refine ⟨_, _, daylightPoint_fin h1, daylightPoint_fin h2, ?_⟩
  have hpi := Real.pi_pos
  apply mul_lt_mul_of_pos_left _ (by positivity)
  have b1 := hourArg_bounds (d := d) h1
  have b2 := hourArg_bounds (d := d) h2
  apply Real.strictAntiOn_arccos ⟨b2.1.le, b2.2.le⟩ ⟨b1.1.le, b1.2.le⟩
  have hdec : 0 < decR d := by unfold decR; positivity
  have htd : 0 < Real.tan (decR d) := Real.tan_pos_of_pos_of_lt_pi_div_two hdec (decR_bounds d).2
  have ht : Real.tan (l * (Real.pi / 180)) < Real.tan (l' * (Real.pi / 180)) := by
    apply Real.tan_lt_tan_of_lt_of_lt_pi_div_two
    · nlinarith
    · nlinarith
    · exact mul_lt_mul_of_pos_right h (by positivity)
  unfold hourArg
  nlinarith

example : ∃ d : ℝ, 0 < Real.sin (2 * Real.pi / 365 * d - 1.39) := by
  refine ⟨(Real.pi / 2 + 1.39) * 365 / (2 * Real.pi), ?_⟩
  have hpi := Real.pi_ne_zero
  rw [show 2 * Real.pi / 365 * ((Real.pi / 2 + 1.39) * 365 / (2 * Real.pi)) - 1.39 = Real.pi / 2 by
    field_simp; ring]
  simp

/-! ### C79 warnings of max_daylight -/

/-- C79 is false: latitudes 60 and 70 together give no warning, nor do 70 and 10. -/
theorem C79_counterexample :
    daylightWarning [fin 60, fin 70] = none ∧ daylightWarning [fin 70, fin 10] = none := by
  constructor <;> norm_num [daylightWarning]

/-- C79 for latitudes that all lie in the same band (in particular a single latitude): the right warning is given. -/
theorem C79_uniform_band_partial (lats : List ℝ) (hne : lats ≠ []) :
    ((∀ l ∈ lats, 66 < |l|) → daylightWarning (lats.map fin) = some .notPossible) ∧
    ((∀ l ∈ lats, 55 < |l| ∧ |l| ≤ 66) → daylightWarning (lats.map fin) = some .limitedValidity) ∧
    ((∀ l ∈ lats, |l| ≤ 55) → daylightWarning (lats.map fin) = none) := by
  obtain ⟨x, hx⟩ := List.exists_mem_of_ne_nil _ hne
  unfold daylightWarning
  simp only [List.all_map, Function.comp_def, abs_fin, lt_fin, le_fin]
  refine ⟨fun h => ?_, fun h => ?_, fun h => ?_⟩
  · have h1 : lats.all (fun l => decide (|l| ≤ 66)) = false := by
      rw [List.all_eq_false]
      exact ⟨x, hx, by simpa using h x hx⟩
    have h2 : lats.all (fun l => decide (66 < |l|)) = true := by
      rw [List.all_eq_true]
      exact fun y hy => by simpa using h y hy
    rw [h1, h2]
    simp
  · have h1 : lats.all (fun l => decide (|l| ≤ 66)) = true := by
      rw [List.all_eq_true]
      exact fun y hy => by simpa using (h y hy).2
    have h2 : lats.all (fun l => decide (55 < |l|)) = true := by
      rw [List.all_eq_true]
      exact fun y hy => by simpa using (h y hy).1
    rw [h1, h2]
    simp
  · have h1 : lats.all (fun l => decide (55 < |l|)) = false := by
      rw [List.all_eq_false]
      exact ⟨x, hx, by simpa using h x hx⟩
    have h2 : lats.all (fun l => decide (66 < |l|)) = false := by
      rw [List.all_eq_false]
      refine ⟨x, hx, ?_⟩
      have := h x hx
      simp only [decide_eq_true_eq, not_lt]
      linarith
    rw [h1, h2]
    simp

example : daylightWarning ([60, -64].map fin) = some .limitedValidity :=
  (C79_uniform_band_partial [60, -64] (by simp)).2.1 (by intro l hl; simp at hl; rcases hl with rfl | rfl <;> norm_num)

/-! ### C52 saturation vapour pressure -/

/-- C52. At or below freezing, or for a NaN temperature, the fill value is returned; above freezing a number above
0.6108 kPa. -/
theorem C52_fill_and_bound (tfill : XF ℝ) (t : ℝ) :
    (t ≤ 32 → svpPoint tfill (fin t) = tfill) ∧ svpPoint tfill nan = tfill ∧
    (32 < t → ∃ v, svpPoint tfill (fin t) = fin v ∧ 0.6108 < v) := by
  refine ⟨svpPoint_below tfill, ?_, fun h => ⟨_, svpPoint_above tfill h, tetensC_gt (by linarith)⟩⟩
  simp [svpPoint, toCelsius, sel]

/-- C52. With the default fill value the result is NaN exactly at or below freezing. -/
theorem C52_nan_iff_freezing (t : ℝ) : svpPoint nan (fin t) = nan ↔ t ≤ 32 := by
  constructor
  · intro h
    by_contra hc
    rw [svpPoint_above nan (by linarith)] at h
    cases h
  · exact svpPoint_below nan

/-- C52. Strictly increasing above freezing. -/
theorem C52_strictly_increasing (tfill : XF ℝ) (t t' : ℝ) (h : 32 < t) (h' : t < t') :
    ∃ a b, svpPoint tfill (fin t) = fin a ∧ svpPoint tfill (fin t') = fin b ∧ a < b :=
  ⟨_, _, svpPoint_above tfill h, svpPoint_above tfill (h.trans h'), tetensC_strictMono (by linarith) (by linarith)⟩

/-- C52. The array functions apply this at every index, keep the shape, and the dew-point version returns the same
numbers. -/
theorem C52_elementwise (t : Arg (XF ℝ)) (tfill : XF ℝ) :
    (saturationVaporPressure t tfill).val.shape = t.val.shape ∧
    (∀ i, (saturationVaporPressure t tfill).val.get i = svpPoint tfill (t.val.get i)) ∧
    Same (actualSaturationVaporPressure t tfill).val (saturationVaporPressure t tfill).val ∧
    ((saturationVaporPressure t tfill).ty = .dataArray ↔ t.ty = .dataArray) :=
  ⟨rfl, fun _ => rfl, ⟨rfl, fun _ _ => rfl⟩, by unfold saturationVaporPressure; simp⟩

example : ∃ a b, svpPoint nan (fin 50) = fin a ∧ svpPoint nan (fin 90) = fin b ∧ a < b :=
  C52_strictly_increasing nan 50 90 (by norm_num) (by norm_num)

/-! ### C53 slope -/

/-- the value in kPa that saturation_vapor_pressure returns at Celsius temperature `c` (0 if it is not a number) -/
noncomputable def svpCelsius (c : ℝ) : ℝ := ((svpPoint nan (fin (c * 9 / 5 + 32))).toFin?).getD 0

theorem svpCelsius_eq {c : ℝ} (h : 0 < c) : svpCelsius c = tetensC c := by
  unfold svpCelsius
  rw [svpPoint_above nan (by linarith), toFin?_fin, Option.getD_some]
  congr 1
  ring

theorem svpCelsius_deriv {c : ℝ} (h : 0 < c) :
    HasDerivAt svpCelsius (17.27 * 237.3 * (tetensC c / (c + 237.3) ^ 2)) c := by
  refine (tetensC_deriv h).congr_of_eventuallyEq ?_
  filter_upwards [lt_mem_nhds h] with x hx using svpCelsius_eq hx

theorem svpSlope_at {c : ℝ} (h : 0 < c) :
    svpSlopePoint nan (fin (c * 9 / 5 + 32)) = fin (4096 * (tetensC c / (c + 237.3) ^ 2)) := by
  rw [svpSlopePoint_above nan (by linarith)]
  rw [show (c * 9 / 5 + 32 - 32) * 5 / 9 = c by ring]

/-- C53, with its true constant: at every Celsius temperature above freezing the curve computed by
saturation_vapor_pressure has a derivative `m`, and the returned slope is `4096/4098.171 · m`, i.e. low by 0.053 %.
Missing from the full property: equality. -/
theorem C53_slope_within_0053_percent_partial (c : ℝ) (h : 0 < c) :
    ∃ m s, HasDerivAt svpCelsius m c ∧ svpSlopePoint nan (fin (c * 9 / 5 + 32)) = fin s ∧ 0 < m ∧
      s = 4096 / 4098.171 * m ∧ |s - m| ≤ 0.00053 * m := by
  have hpos : 0 < tetensC c / (c + 237.3) ^ 2 := by
    have := tetensC_gt h
    have h2 : 0 < c + 237.3 := by linarith
    apply div_pos (by linarith) (by positivity)
  refine ⟨_, _, svpCelsius_deriv h, svpSlope_at h, by positivity, ?_, ?_⟩
  · norm_num; ring
  · set q := tetensC c / (c + 237.3) ^ 2
    rw [abs_le]
    constructor <;> norm_num <;> linarith

/-- C53 is false at every temperature above freezing: the returned slope is not the derivative (4096 is used where the
curve's own constants give 17.27·237.3 = 4098.171). -/
theorem C53_counterexample (c : ℝ) (h : 0 < c) :
    ¬ ∃ s, svpSlopePoint nan (fin (c * 9 / 5 + 32)) = fin s ∧ HasDerivAt svpCelsius s c := by
  rintro ⟨s, hs, hd⟩
  obtain ⟨m, s', hm, hs', hpos, he, -⟩ := C53_slope_within_0053_percent_partial c h
  rw [hs] at hs'
  injection hs' with hs'
  have := hm.unique hd
  rw [← hs', ← this] at he
  norm_num at he
  linarith

/-- C53. At or below freezing the slope function returns the fill value too. -/
theorem C53_fill (tfill : XF ℝ) (t : ℝ) (h : t ≤ 32) : svpSlopePoint tfill (fin t) = tfill := by
  unfold svpSlopePoint
  simp only [toCelsius_fin, lt_fin]
  simp [sel, h]

/-! ### C54 psychrometric constant -/

/-- C54. Linear, zero at zero, elementwise. -/
theorem C54_linear (a b p q : ℝ) :
    psychPoint (fin (a * p + b * q)) = fin a * psychPoint (fin p) + fin b * psychPoint (fin q) ∧
    psychPoint (fin 0) = fin 0 := by
  unfold psychPoint
  simp only [fin_mul, fin_add, mul_zero, and_true, XF.fin.injEq]
  ring

/-- C54. The array function keeps the shape and applies the constant 0.66474e-3 at every index. -/
theorem C54_elementwise (p : Arg (XF ℝ)) :
    (psychrometricConstant p).val.shape = p.val.shape ∧
    ∀ i, (psychrometricConstant p).val.get i = fin (0.66474e-3) * p.val.get i := by
  refine ⟨rfl, fun i => ?_⟩
  show fin 0.00066474 * _ = _
  norm_num

end Verif.Props
