import Verif.Lemmas.Dewtemp
import Verif.Lemmas.Relhum
import Verif.Lemmas.RelhumIce

/-
Properties C45-C48, C79 (dewtemp, relhum, relhum_ice, relhum_water).
-/

set_option linter.unusedSectionVars false
namespace Verif.Props
open Model XF Spec Lemmas Tensor

/-- a constant array of the given type and shape, for examples -/
def constArg (ty : PyType) (shape : List ℕ) (x : ℝ) : Arg (XF ℝ) := ⟨ty, ⟨shape, fun _ => fin x⟩⟩

/-! ### C45 dewtemp -/

/-- C45. For arrays of equal shape (both xarray or neither) with temperatures in (0,1320] K and humidities in
(0,100] %, `dewtemp` succeeds, keeps the shape and every dew point is a positive number, at most the temperature,
and equal to it exactly at 100 %. -/
theorem C45_dew_point_bounds (t rh : Arg (XF ℝ)) (hty : t.ty = .dataArray ↔ rh.ty = .dataArray)
    (hs : t.val.shape = rh.val.shape) (T R : List ℕ → ℝ)
    (ht : ∀ i, InBounds t.val.shape i → t.val.get i = fin (T i) ∧ 0 < T i ∧ T i ≤ 1320)
    (hr : ∀ i, InBounds t.val.shape i → rh.val.get i = fin (R i) ∧ 0 < R i ∧ R i ≤ 100) :
    ∃ r, dewtemp t rh = .ok r ∧ r.val.shape = t.val.shape ∧
      ∀ i, InBounds t.val.shape i → ∃ td, r.val.get i = fin td ∧ 0 < td ∧ td ≤ T i ∧ (td = T i ↔ R i = 100) := by
  obtain ⟨r, h1, h2, h3⟩ := zip_same dewtempPoint t.val rh.val hs
  have key : ∀ i, InBounds t.val.shape i →
      ∃ td, r.get i = fin td ∧ 0 < td ∧ td ≤ T i ∧ (td = T i ↔ R i = 100) := by
    intro i hi
    obtain ⟨e1, a1, a2⟩ := ht i hi
    obtain ⟨e2, b1, b2⟩ := hr i hi
    refine ⟨dewR (T i) (R i), ?_, dewR_pos a1 a2 b1 b2, ?_, ?_⟩
    · rw [h3 i hi, e1, e2, dewtempPoint_fin a1 a2 b1 b2]
    · rcases b2.lt_or_eq with h | h
      · have := dewR_mono a1 a2 b1 h le_rfl
        rw [dewR_hundred a2] at this
        exact this.le
      · rw [h, dewR_hundred a2]
    · constructor
      · intro he
        by_contra hne
        have := dewR_mono a1 a2 b1 (lt_of_le_of_ne b2 hne) le_rfl
        rw [dewR_hundred a2] at this
        linarith
      · intro h
        rw [h, dewR_hundred a2]
  unfold dewtemp
  by_cases hx : t.ty = .dataArray
  · have hx' := hty.mp hx
    simp only [hx, hx', true_or, if_true, ne_eq, not_true_eq_false, or_self, if_false, h1]
    exact ⟨_, rfl, h2, key⟩
  · have hx' : ¬ rh.ty = .dataArray := fun h => hx (hty.mpr h)
    simp only [hx, hx', or_self, if_false, h1]
    exact ⟨_, rfl, h2, key⟩

example : ∃ r, dewtemp (constArg .ndarray [2, 3] 300) (constArg .ndarray [2, 3] 50) = .ok r ∧
    r.val.shape = [2, 3] ∧ ∀ i, InBounds [2, 3] i →
      ∃ td, r.val.get i = fin td ∧ 0 < td ∧ td ≤ 300 ∧ (td = 300 ↔ (50:ℝ) = 100) :=
  C45_dew_point_bounds (constArg .ndarray [2, 3] 300) (constArg .ndarray [2, 3] 50) (by simp [constArg]) rfl (fun _ => 300) (fun _ => 50)
    (fun _ _ => ⟨rfl, by norm_num, by norm_num⟩) (fun _ _ => ⟨rfl, by norm_num, by norm_num⟩)

/-- C45. At fixed temperature the dew point strictly increases with relative humidity. -/
theorem C45_increasing_in_humidity (T rh rh' : ℝ) (hT : 0 < T) (hT2 : T ≤ 1320) (h0 : 0 < rh) (h : rh < rh')
    (h1 : rh' ≤ 100) :
    ∃ a b, dewtempPoint (fin T) (fin rh) = fin a ∧ dewtempPoint (fin T) (fin rh') = fin b ∧ a < b :=
  ⟨_, _, dewtempPoint_fin hT hT2 h0 (h.le.trans h1), dewtempPoint_fin hT hT2 (h0.trans h) h1, dewR_mono hT hT2 h0 h h1⟩

example : ∃ a b, dewtempPoint (fin 290) (fin 20) = fin a ∧ dewtempPoint (fin 290) (fin 80) = fin b ∧ a < b :=
  C45_increasing_in_humidity 290 20 80 (by norm_num) (by norm_num) (by norm_num) (by norm_num) (by norm_num)

/-- C45. At fixed relative humidity (at least 0.001 %) the dew point strictly increases with temperature, up to
373 K. -/
theorem C45_increasing_in_temperature (T T' rh : ℝ) (hT : 0 < T) (h : T < T') (hT' : T' ≤ 373) (h0 : 0.001 ≤ rh)
    (h1 : rh ≤ 100) :
    ∃ a b, dewtempPoint (fin T) (fin rh) = fin a ∧ dewtempPoint (fin T') (fin rh) = fin b ∧ a < b := by
  have hr : 0 < rh := by linarith
  exact ⟨_, _, dewtempPoint_fin hT (by linarith) hr h1, dewtempPoint_fin (hT.trans h) (by linarith) hr h1,
    dewR_mono_temp hT h hT' h0 h1⟩

example : ∃ a b, dewtempPoint (fin 290) (fin 20) = fin a ∧ dewtempPoint (fin 300) (fin 20) = fin b ∧ a < b :=
  C45_increasing_in_temperature 290 300 20 (by norm_num) (by norm_num) (by norm_num) (by norm_num) (by norm_num)

/-! ### C46 relhum table lookup -/

theorem relhumEs_ok {x : XF ℝ} (h : x ≠ nan) : ∃ e, relhumEs x = .ok e := by
  cases x with
  | fin x => exact ⟨_, relhumEs_fin x⟩
  | pinf => exact ⟨_, (relhumEs_fin 375.16 ▸ (by norm_num [relhumEs, clipTemp]) :
      relhumEs (pinf : XF ℝ) = .ok (fin (esR 375.16)))⟩
  | ninf => exact ⟨_, (relhumEs_fin 173.16 ▸ (by norm_num [relhumEs, clipTemp]) :
      relhumEs (ninf : XF ℝ) = .ok (fin (esR 173.16)))⟩
  | nan => exact absurd rfl h

theorem values_mapM_ok (a : Tensor (XF ℝ)) (h : ∀ i, InBounds a.shape i → a.get i ≠ nan) :
    ∃ es, a.values.mapM relhumEs = .ok es := by
  have : ∀ l : List (XF ℝ), (∀ x ∈ l, x ≠ nan) → ∃ es, l.mapM relhumEs = .ok es := by
    intro l
    induction l with
    | nil => exact fun _ => ⟨[], rfl⟩
    | cons x l ih =>
      intro hl
      obtain ⟨es, hes⟩ := ih (fun y hy => hl y (List.mem_cons_of_mem _ hy))
      obtain ⟨e, he⟩ := relhumEs_ok (hl x (List.mem_cons_self ..))
      rw [List.mapM_cons, he, hes]
      exact ⟨e :: es, rfl⟩
  apply this
  intro x hx
  obtain ⟨i, hi, rfl⟩ := mem_values.mp hx
  exact h i hi

/-- C46. For inputs of equal shape without NaN temperatures (infinities and any extreme value allowed) `relhum`
never fails: every table index it forms is inside the table; the result has the same shape, and at every index it is
the one-point result of the values there. -/
theorem C46_never_out_of_table (t w p : Arg (XF ℝ)) (hw : t.val.shape = w.val.shape) (hp : t.val.shape = p.val.shape)
    (h : ∀ i, InBounds t.val.shape i → t.val.get i ≠ nan) :
    ∃ r, relhum t w p = .ok r ∧ r.val.shape = t.val.shape ∧
      ∀ i, InBounds t.val.shape i → relhumPoint (t.val.get i) (w.val.get i) (p.val.get i) = .ok (r.val.get i) := by
  obtain ⟨es, hes⟩ := values_mapM_ok t.val h
  unfold relhum
  simp only [hes]
  rw [if_neg (by simp only [listTimesScalar, hw]; simp)]
  set e : Tensor (XF ℝ) := t.val.map relhumEsD with he
  obtain ⟨r, h1, h2, h3⟩ := zip3_same relhumOfEs e w.val p.val hw hp
  rw [h1]
  refine ⟨_, rfl, h2, ?_⟩
  intro i hi
  show _ = Except.ok (r.get i)
  rw [h3 i hi]
  obtain ⟨y, hy⟩ := relhumEs_ok (h i hi)
  simp only [he, Tensor.map, relhumPoint, relhumEsD, hy]
  rfl

/-- C46. At a tabulated temperature the saturation pressure is the table entry (times 0.1). -/
theorem C46_exact_at_table_points (k : ℕ) (hk : k ≤ 202) :
    relhumEs (fin (173.16 + k)) = .ok (fin (0.1 * ((relhumTable.getD k 0 : ℚ) : ℝ))) := by
  rw [relhumEs_fin]
  have hk' : (k : ℝ) ≤ 202 := by exact_mod_cast hk
  have : shiftR (173.16 + k) = k := by
    unfold shiftR
    rw [max_eq_left (by linarith [Nat.cast_nonneg (α := ℝ) k]), min_eq_left (by linarith)]
    ring
  rw [esR, this, lerp_nat, mul_comm]
  rfl

/-- C46. Between two tabulated temperatures the saturation pressure lies between their entries. -/
theorem C46_between_neighbours (k : ℕ) (hk : k ≤ 202) (T : ℝ) (h1 : 173.16 + k ≤ T) (h2 : T ≤ 173.16 + (k + 1)) :
    ∃ e, relhumEs (fin T) = .ok (fin e) ∧ 0.1 * ((relhumTable.getD k 0 : ℚ) : ℝ) ≤ e ∧
      e ≤ 0.1 * ((relhumTable.getD (k + 1) 0 : ℚ) : ℝ) := by
  refine ⟨esR T, relhumEs_fin T, ?_, ?_⟩
  · have := C46_exact_at_table_points k hk
    rw [relhumEs_fin] at this
    injection this with this
    injection this with this
    rw [← this]
    exact esR_mono h1
  · rcases hk.eq_or_lt with rfl | hlt
    · have hb := (lerp_between tab (shiftR_nonneg T) (tab_mono _ _ (by omega) (by have := shiftR_floor T; omega))).2
      have := tab_mono (⌊shiftR T⌋₊ + 1) 203 (by have := shiftR_floor T; omega) le_rfl
      show esR T ≤ 0.1 * tab 203
      unfold esR
      linarith
    · have := C46_exact_at_table_points (k + 1) hlt
      rw [relhumEs_fin] at this
      injection this with this
      injection this with this
      rw [← this]
      exact esR_mono (by push_cast; exact h2)

example : ∃ r, relhum (constArg .ndarray [2] 1000) (constArg .ndarray [2] 0.01) (constArg .ndarray [2] 100000) = .ok r ∧
    r.val.shape = [2] :=
  let ⟨r, h, hs, _⟩ := C46_never_out_of_table (constArg .ndarray [2] 1000) (constArg .ndarray [2] 0.01)
    (constArg .ndarray [2] 100000) rfl rfl (fun _ _ => by simp [constArg])
  ⟨r, h, hs⟩

example : relhumEs (fin (173.16 + (100 : ℕ))) = .ok (fin (0.1 * ((6107.8 : ℚ) : ℝ))) :=
  C46_exact_at_table_points 100 (by norm_num)

example : ∃ e, relhumEs (fin 273.5) = .ok (fin e) ∧ 0.1 * ((6107.8 : ℚ) : ℝ) ≤ e ∧ e ≤ 0.1 * ((6566.2 : ℚ) : ℝ) :=
  C46_between_neighbours 100 (by norm_num) 273.5 (by norm_num) (by norm_num)

/-! ### C47 relhum bounds and monotonicity -/

/-- C47. relhum is a number, at least 0.0001. -/
theorem C47_lower_bound (t w p : ℝ) :
    ∃ r, relhumPoint (fin t) (fin w) (fin p) = .ok (fin r) ∧ 0.0001 ≤ r :=
  ⟨_, relhumPoint_fin t w p, le_max_right _ _⟩

/-- C47. relhum does not increase with temperature. -/
theorem C47_antitone_temperature (t t' w p : ℝ) (h : t ≤ t') (hw : 0 ≤ w) (hp : 0 ≤ p) :
    ∃ a b, relhumPoint (fin t) (fin w) (fin p) = .ok (fin a) ∧ relhumPoint (fin t') (fin w) (fin p) = .ok (fin b) ∧
      b ≤ a :=
  ⟨_, _, relhumPoint_fin t w p, relhumPoint_fin t' w p, rhR_anti (esR_pos t) (esR_mono h) hw hp⟩

/-- C47. relhum does not decrease with mixing ratio. -/
theorem C47_monotone_mixing_ratio (t w w' p : ℝ) (h : w ≤ w') (hw : 0 ≤ w) :
    ∃ a b, relhumPoint (fin t) (fin w) (fin p) = .ok (fin a) ∧ relhumPoint (fin t) (fin w') (fin p) = .ok (fin b) ∧
      a ≤ b :=
  ⟨_, _, relhumPoint_fin t w p, relhumPoint_fin t w' p, rhR_mono_w (esR_pos t) hw h⟩

/-- C47. relhum does not decrease with pressure. -/
theorem C47_monotone_pressure (t w p p' : ℝ) (h : p ≤ p') (hw : 0 ≤ w) :
    ∃ a b, relhumPoint (fin t) (fin w) (fin p) = .ok (fin a) ∧ relhumPoint (fin t) (fin w) (fin p') = .ok (fin b) ∧
      a ≤ b :=
  ⟨_, _, relhumPoint_fin t w p, relhumPoint_fin t w p', rhR_mono_p (esR_pos t) hw h⟩

/-- C47. Away from the floor value the result is 100 times the mixing ratio over the saturation mixing ratio. -/
theorem C47_ratio_to_saturation (t w p : ℝ) :
    ∃ e, relhumEs (fin t) = .ok (fin e) ∧ 0 < e ∧ (0.378 * e < p → 0.0001 ≤ 100 * (w / satMixingRatio e p) →
      relhumPoint (fin t) (fin w) (fin p) = .ok (fin (100 * (w / satMixingRatio e p)))) := by
  refine ⟨esR t, relhumEs_fin t, esR_pos t, ?_⟩
  intro hp hf
  rw [relhumPoint_fin]
  have e0 := esR_pos t
  have : 100 * (w / satMixingRatio (esR t) p) = w * (p - 0.378 * esR t) / (0.622 * esR t) * 100 := by
    unfold satMixingRatio
    have : p - 0.378 * esR t ≠ 0 := by linarith
    field_simp
  rw [rhR, max_eq_left (by rw [← this]; exact hf), this]

example : ∃ a b, relhumPoint (fin 280) (fin 0.005) (fin 90000) = .ok (fin a) ∧
    relhumPoint (fin 300) (fin 0.005) (fin 90000) = .ok (fin b) ∧ b ≤ a :=
  C47_antitone_temperature 280 300 0.005 90000 (by norm_num) (by norm_num) (by norm_num)

/-! ### C48 relhum_ice and relhum_water -/

/-- C48. Over ice: 100 times mixing ratio over saturation mixing ratio, for every temperature from 0 K up and every
pressure with positive denominators. -/
theorem C48_ice_ratio (t w p : ℝ) (ht : 0 ≤ t) (hp : 0.378 * magnusIce (t - 273.15) < p * 0.01) :
    relhumIcePoint (fin t) (fin w) (fin p)
      = fin (100 * (w / satMixingRatio (magnusIce (t - 273.15)) (p * 0.01))) := by
  have he := magnusIce_pos (t - 273.15)
  unfold relhumIcePoint
  rw [estIce_fin ht, rh_of_est he]
  congr 1
  unfold satMixingRatio
  have : p * 0.01 - 0.378 * magnusIce (t - 273.15) ≠ 0 := by linarith
  field_simp

/-- C48. The same over water, for temperatures above 35.86 K. -/
theorem C48_water_ratio (t w p : ℝ) (ht : 35.86 < t) (hp : 0.378 * tetensWater t < p * 0.01) :
    relhumWaterPoint (fin t) (fin w) (fin p) = fin (100 * (w / satMixingRatio (tetensWater t) (p * 0.01))) := by
  have he := tetensWater_pos t
  unfold relhumWaterPoint
  rw [estWater_fin ht, rh_of_est he]
  congr 1
  unfold satMixingRatio
  have : p * 0.01 - 0.378 * tetensWater t ≠ 0 := by linarith
  field_simp

theorem sat_pos {e p : ℝ} (he : 0 < e) (hp : 0.378 * e < p) : 0 < satMixingRatio e p := by
  unfold satMixingRatio
  apply div_pos <;> linarith

/-- C48. Relative humidity is 100 exactly when the air is saturated. -/
theorem C48_hundred_iff_saturated (t w p : ℝ) (ht : 35.86 < t) :
    (0.378 * magnusIce (t - 273.15) < p * 0.01 →
      (relhumIcePoint (fin t) (fin w) (fin p) = fin 100 ↔ w = satMixingRatio (magnusIce (t - 273.15)) (p * 0.01))) ∧
    (0.378 * tetensWater t < p * 0.01 →
      (relhumWaterPoint (fin t) (fin w) (fin p) = fin 100 ↔ w = satMixingRatio (tetensWater t) (p * 0.01))) := by
  constructor
  · intro hp
    have hs := sat_pos (magnusIce_pos (t - 273.15)) hp
    rw [C48_ice_ratio t w p (by linarith) hp, XF.fin.injEq]
    constructor
    · intro h
      field_simp at h
      linarith
    · rintro rfl
      rw [div_self hs.ne', mul_one]
  · intro hp
    have hs := sat_pos (tetensWater_pos t) hp
    rw [C48_water_ratio t w p ht hp, XF.fin.injEq]
    constructor
    · intro h
      field_simp at h
      linarith
    · rintro rfl
      rw [div_self hs.ne', mul_one]

/-- C48. Linear in the mixing ratio (including where the saturation mixing ratio is infinite or negative). -/
theorem C48_linear_in_mixing_ratio (t p a b w w' : ℝ) (ht : 35.86 < t) :
    relhumIcePoint (fin t) (fin (a * w + b * w')) (fin p) =
      fin a * relhumIcePoint (fin t) (fin w) (fin p) + fin b * relhumIcePoint (fin t) (fin w') (fin p) ∧
    relhumWaterPoint (fin t) (fin (a * w + b * w')) (fin p) =
      fin a * relhumWaterPoint (fin t) (fin w) (fin p) + fin b * relhumWaterPoint (fin t) (fin w') (fin p) := by
  unfold relhumIcePoint relhumWaterPoint
  rw [estIce_fin (by linarith), estWater_fin ht]
  simp only [rh_of_est (magnusIce_pos _), rh_of_est (tetensWater_pos _), fin_mul, fin_add, XF.fin.injEq]
  have h1 := (magnusIce_pos (t - 273.15)).ne'
  have h2 := (tetensWater_pos t).ne'
  constructor <;> field_simp <;> ring

/-- C48. At fixed positive mixing ratio and pressure, relative humidity strictly decreases with temperature. -/
theorem C48_strictly_decreasing_in_temperature (t t' w p : ℝ) (ht : 35.86 < t) (h : t < t') (hw : 0 < w) (hp : 0 < p) :
    (∃ a b, relhumIcePoint (fin t) (fin w) (fin p) = fin a ∧ relhumIcePoint (fin t') (fin w) (fin p) = fin b ∧ b < a) ∧
    (∃ a b, relhumWaterPoint (fin t) (fin w) (fin p) = fin a ∧ relhumWaterPoint (fin t') (fin w) (fin p) = fin b ∧ b < a) := by
  unfold relhumIcePoint relhumWaterPoint
  rw [estIce_fin (by linarith), estWater_fin ht, estIce_fin (by linarith), estWater_fin (ht.trans h)]
  simp only [rh_of_est (magnusIce_pos _), rh_of_est (tetensWater_pos _)]
  exact ⟨⟨_, _, rfl, rfl, rh_est_anti (magnusIce_pos _) (magnusIce_strictMono (by linarith) (by linarith)) hw hp⟩,
    ⟨_, _, rfl, rfl, rh_est_anti (tetensWater_pos _) (tetensWater_strictMono ht h) hw hp⟩⟩

/-- C48. Ice and water agree at 273.15 K, and over ice is at least over water from 154.5 K to 273.15 K. -/
theorem C48_ice_vs_water (t w p : ℝ) (h1 : 154.5 ≤ t) (h2 : t ≤ 273.15) (hw : 0 < w) (hp : 0 < p) :
    relhumIcePoint (fin 273.15) (fin w) (fin p) = relhumWaterPoint (fin 273.15) (fin w) (fin p) ∧
    ∃ a b, relhumIcePoint (fin t) (fin w) (fin p) = fin a ∧ relhumWaterPoint (fin t) (fin w) (fin p) = fin b ∧ b ≤ a := by
  unfold relhumIcePoint relhumWaterPoint
  rw [estIce_fin (by norm_num), estWater_fin (by norm_num), estIce_fin (by linarith), estWater_fin (by linarith)]
  simp only [rh_of_est (magnusIce_pos _), rh_of_est (tetensWater_pos _)]
  refine ⟨?_, _, _, rfl, rfl, ?_⟩
  · congr 1
    have : magnusIce (273.15 - 273.15) = tetensWater 273.15 := by norm_num [magnusIce, tetensWater]
    rw [this]
  · rcases (ice_le_water h1 h2).eq_or_lt with he | hl
    · rw [he]
    · exact (rh_est_anti (magnusIce_pos _) hl hw hp).le

example : ∃ a b, relhumIcePoint (fin 250) (fin 0.001) (fin 50000) = fin a ∧
    relhumWaterPoint (fin 250) (fin 0.001) (fin 50000) = fin b ∧ b ≤ a :=
  (C48_ice_vs_water 250 0.001 50000 (by norm_num) (by norm_num) (by norm_num) (by norm_num)).2

/-- the pressure hypothesis of `C48_ice_ratio` is met at 1000 hPa for every temperature up to the ice point -/
example (t w : ℝ) (h0 : 0 ≤ t) (h : t ≤ 273.15) : relhumIcePoint (fin t) (fin w) (fin 100000)
    = fin (100 * (w / satMixingRatio (magnusIce (t - 273.15)) (100000 * 0.01))) := by
  apply C48_ice_ratio t w _ h0
  have : magnusIce (t - 273.15) ≤ magnusIce 0 := by
    rcases h.eq_or_lt with h | h
    · rw [h]; norm_num
    · exact (magnusIce_strictMono (by linarith) (by linarith)).le
  have h2 : magnusIce 0 = 6.1128 := by norm_num [magnusIce]
  linarith

/-- C48. The array functions: for three inputs of one type and one shape the result has that shape and is the
one-point formula at every index. -/
theorem C48_elementwise (t w p : Arg (XF ℝ)) (h1 : t.ty = w.ty) (h2 : w.ty = p.ty) (hw : t.val.shape = w.val.shape)
    (hp : t.val.shape = p.val.shape) :
    (∃ r, relhumIce t w p = .ok r ∧ r.val.shape = t.val.shape ∧ ∀ i, InBounds t.val.shape i →
      r.val.get i = relhumIcePoint (t.val.get i) (w.val.get i) (p.val.get i)) ∧
    (∃ r, relhumWater t w p = .ok r ∧ r.val.shape = t.val.shape ∧ ∀ i, InBounds t.val.shape i →
      r.val.get i = relhumWaterPoint (t.val.get i) (w.val.get i) (p.val.get i)) := by
  constructor
  · obtain ⟨r, e1, e2, e3⟩ := zip3_same relhumIcePoint t.val w.val p.val hw hp
    unfold relhumIce
    rw [if_neg (by simp [h1, h2]), if_neg (by simp [← hw, ← hp]), e1]
    refine ⟨_, rfl, ?_⟩
    dsimp only
    split_ifs <;> exact ⟨e2, e3⟩
  · obtain ⟨r, e1, e2, e3⟩ := zip3_same relhumWaterPoint t.val w.val p.val hw hp
    unfold relhumWater
    rw [if_neg (by simp [h1, h2]), if_neg (by simp [← hw, ← hp]), e1]
    refine ⟨_, rfl, ?_⟩
    dsimp only
    split_ifs <;> exact ⟨e2, e3⟩

example : ∃ r, relhumIce (constArg .list [4] 260) (constArg .list [4] 0.001) (constArg .list [4] 80000) = .ok r ∧
    r.val.shape = [4] :=
  let ⟨r, h, hs, _⟩ := (C48_elementwise (constArg .list [4] 260) (constArg .list [4] 0.001) (constArg .list [4] 80000)
    rfl rfl rfl rfl).1
  ⟨r, h, hs⟩

end Verif.Props
