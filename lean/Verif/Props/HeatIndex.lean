import Verif.Lemmas.HeatIndex
import Verif.Props.Humidity

/-
Properties C49, C50 (heat_index) and C55, C56 (shape checks and container types of the humidity functions).
-/

set_option linter.unusedSectionVars false
namespace Verif.Props
open Model XF Spec Lemmas Tensor

/-! ### C49 -/

/-- C49. Below 40 F the heat index is the temperature, whatever the humidity value (NaN included) and whichever
coefficients are chosen. -/
theorem C49_cold_is_temperature (alt : Bool) (t : ℝ) (h : t < 40) (rh : XF ℝ) :
    heatIndexPoint alt (fin t) rh = fin t := by
  have hcrit : (40:ℝ) < hiCrit alt := by unfold hiCrit; split_ifs <;> norm_num
  have h1 : ¬ hiCrit alt ≤ t := by linarith
  have h2 : ¬ (80:ℝ) ≤ t := by linarith
  unfold heatIndexPoint
  simp [sel, h, h1, h2]

example : heatIndexPoint false (fin 39.9) (fin 100) = fin 39.9 := C49_cold_is_temperature _ _ (by norm_num) _

/-- the values of the humidity argument are acceptable to the range check: every value that is a number lies in
[0,100] (infinities do not) -/
def HumidityInRange (rh : Tensor (XF ℝ)) : Prop :=
  ∀ i, InBounds rh.shape i → lt (rh.get i) (fin 0) = false ∧ lt (fin 100) (rh.get i) = false

/-- C49. For two arguments of one type and one (non-empty) shape, with NaN humidities allowed only in xarray input,
heat_index raises ValueError exactly when some humidity is below 0 or above 100; otherwise it returns an array of the
same shape holding the one-point result at every index. -/
theorem C49_range_check_partial (alt : Bool) (t rh : Arg (XF ℝ)) (hty : t.ty = rh.ty) (hs : t.val.shape = rh.val.shape)
    (hne : ∃ i, InBounds rh.val.shape i)
    (hnan : rh.ty = .dataArray ∨ ∀ i, InBounds rh.val.shape i → (rh.val.get i).isNaN = false) :
    (¬ HumidityInRange rh.val → heatIndex alt t rh = .error .valueError) ∧
    (HumidityInRange rh.val → ∃ wn r, heatIndex alt t rh = .ok (wn, r) ∧ r.val.shape = t.val.shape ∧
      ∀ i, InBounds t.val.shape i → r.val.get i = heatIndexPoint alt (t.val.get i) (rh.val.get i)) := by
  have hvals : rh.val.values ≠ [] := by
    obtain ⟨i, hi⟩ := hne
    exact List.ne_nil_of_mem (mem_values.mpr ⟨i, hi, rfl⟩)
  have hok : decide (rh.ty = .dataArray) = true ∨ ∀ x ∈ rh.val.values, x.isNaN = false := by
    rcases hnan with h | h
    · exact Or.inl (by simp [h])
    · right
      intro x hx
      obtain ⟨i, hi, rfl⟩ := mem_values.mp hx
      exact h i hi
  have hmin := reduceMin_lt (decide (rh.ty = .dataArray)) rh.val.values (fin 0) hok
  have hmax := reduceMax_lt (decide (rh.ty = .dataArray)) rh.val.values (fin 100) hok
  have hiff : (lt (reduceMin (decide (rh.ty = .dataArray)) rh.val.values) (fin 0) = true ∨
      lt (fin 100) (reduceMax (decide (rh.ty = .dataArray)) rh.val.values) = true) ↔ ¬ HumidityInRange rh.val := by
    rw [hmin, hmax, List.any_eq_true, List.any_eq_true]
    unfold HumidityInRange
    push Not
    constructor
    · rintro (⟨x, hx, h⟩ | ⟨x, hx, h⟩)
      · obtain ⟨i, hi, rfl⟩ := mem_values.mp hx
        exact ⟨i, hi, fun h' => by simp [h] at h'⟩
      · obtain ⟨i, hi, rfl⟩ := mem_values.mp hx
        exact ⟨i, hi, fun _ => by simp [h]⟩
    · rintro ⟨i, hi, h⟩
      have hm : rh.val.get i ∈ rh.val.values := mem_values.mpr ⟨i, hi, rfl⟩
      cases hlt : lt (rh.val.get i) (fin 0) with
      | true => exact Or.inl ⟨_, hm, hlt⟩
      | false => exact Or.inr ⟨_, hm, by simpa using h hlt⟩
  unfold heatIndex
  simp only [hty, hs, ne_eq, not_true_eq_false, if_false, hvals]
  constructor
  · intro h
    rw [if_pos (hiff.mpr h)]
  · intro h
    rw [if_neg (fun h' => hiff.mp h' h)]
    obtain ⟨r, e1, e2, e3⟩ := zip_same (heatIndexPoint alt) t.val rh.val hs
    rw [e1]
    rw [hs] at e2 e3
    refine ⟨_, _, rfl, ?_⟩
    split_ifs <;> exact ⟨e2, e3⟩

/-- C49. The range check of numpy input is disabled by a single NaN: humidity 150 % next to a NaN is accepted. -/
theorem C49_counterexample :
    ∃ t rh : Arg (XF ℝ), t.ty = rh.ty ∧ t.val.shape = rh.val.shape ∧ ¬ HumidityInRange rh.val ∧
      ∃ wn r, heatIndex false t rh = .ok (wn, r) := by
  refine ⟨⟨.ndarray, ⟨[2], fun _ => fin 90⟩⟩, ⟨.ndarray, ⟨[2], fun i => if i = [0] then nan else fin 150⟩⟩, rfl, rfl, ?_, ?_⟩
  · intro h
    have := (h [1] (by simp [InBounds])).2
    norm_num at this
  · have hv : Tensor.values (⟨[2], fun i => if i = [0] then nan else fin 150⟩ : Tensor (XF ℝ)) = [nan, fin 150] := by
      simp [Tensor.values, Tensor.indices, List.range_succ]
    unfold heatIndex
    simp only [hv, reduceMin, reduceMax, Tensor.zip, bshape_self]
    simp only [ne_eq, not_true_eq_false, if_false, reduceCtorEq, decide_false, Bool.false_eq_true, List.any_cons,
      isNaN_nan, Bool.true_or, if_true, nan_lt, lt_nan, or_self]
    exact ⟨_, _, rfl⟩

example : heatIndex false (constArg .ndarray [3] 90) (constArg .ndarray [3] 101) = .error .valueError := by
  refine (C49_range_check_partial false (constArg .ndarray [3] 90) (constArg .ndarray [3] 101) rfl rfl
    ⟨[0], by simp [InBounds, constArg]⟩ (Or.inr (fun _ _ => rfl))).1 ?_
  intro h
  have := (h [0] (by simp [InBounds, constArg])).2
  norm_num [constArg] at this

example : ∃ wn r, heatIndex false (constArg .ndarray [3] 90) (constArg .ndarray [3] 60) = .ok (wn, r) := by
  obtain ⟨wn, r, h, -⟩ := (C49_range_check_partial false (constArg .ndarray [3] 90) (constArg .ndarray [3] 60) rfl rfl
    ⟨[0], by simp [InBounds, constArg]⟩ (Or.inr (fun _ _ => rfl))).2
    (fun i _ => by constructor <;> norm_num [constArg])
  exact ⟨wn, r, h⟩

/-- C49. For every finite temperature and humidity the result is a finite number. -/
theorem C49_total (alt : Bool) (t rh : ℝ) : ∃ r : ℝ, heatIndexPoint alt (fin t) (fin rh) = fin r :=
  ⟨_, heatIndexPoint_fin alt t rh⟩

/-! ### C50 -/

/-- C50 is false: at 80 F and 0 % humidity the simple heat index (about 77.7) is below the threshold of 79, yet the
low-humidity adjustment is subtracted from it. -/
theorem C50_counterexample :
    hiSimple 80 0 < hiThreshold false ∧ hiDocumented false 80 0 = hiSimple 80 0 ∧
    heatIndexPoint false (fin 80) (fin 0) ≠ fin (hiDocumented false 80 0) := by
  have h1 : hiSimple 80 0 < 79 := by norm_num [hiSimple]
  refine ⟨by simpa [hiThreshold] using h1, ?_, ?_⟩
  · unfold hiDocumented
    norm_num [hiThreshold, h1]
  · rw [heatIndexPoint_fin]
    intro h
    injection h with h
    exact (hiCode_eq_iff false 80 0 le_rfl).mp h ⟨rfl, by norm_num, by norm_num, h1⟩

/-- C50, exactly where it holds: for humidity in range, heat_index is the documented value unless the default
coefficients are used, the temperature is at least 80 F, humidity is below 13 % and the simple heat index is below
79 (which confines the temperature to 80–81.2 F). Missing from the full property: that region. -/
theorem C50_documented_formula_partial (alt : Bool) (t rh : ℝ) (h0 : 0 ≤ rh) :
    heatIndexPoint alt (fin t) (fin rh) = fin (hiDocumented alt t rh) ↔
      ¬ (alt = false ∧ 80 ≤ t ∧ rh < 13 ∧ hiSimple t rh < 79) := by
  rw [heatIndexPoint_fin, XF.fin.injEq]
  exact hiCode_eq_iff alt t rh h0

/-- the excluded region is empty for the alternate coefficients and from 81.2 F up -/
example (t rh : ℝ) (h0 : 0 ≤ rh) (ht : 81.2 ≤ t) :
    heatIndexPoint false (fin t) (fin rh) = fin (hiDocumented false t rh) := by
  rw [C50_documented_formula_partial false t rh h0]
  rintro ⟨-, -, -, h⟩
  unfold hiSimple at h
  linarith

example (t rh : ℝ) (h0 : 0 ≤ rh) : heatIndexPoint true (fin t) (fin rh) = fin (hiDocumented true t rh) := by
  rw [C50_documented_formula_partial true t rh h0]
  simp

/-! ### C55 shape checks -/

/-- C55. heat_index, relhum_ice and relhum_water reject inputs of different shapes (given equal types). -/
theorem C55_shape_mismatch_rejected_partial (alt : Bool) (t w p : Arg (XF ℝ)) (h1 : t.ty = w.ty) (h2 : w.ty = p.ty) :
    (t.val.shape ≠ w.val.shape → heatIndex alt t w = .error .valueError) ∧
    ((t.val.shape ≠ w.val.shape ∨ t.val.shape ≠ p.val.shape) →
      relhumIce t w p = .error .valueError ∧ relhumWater t w p = .error .valueError) := by
  constructor
  · intro h
    unfold heatIndex
    simp [h1, h]
  · intro h
    unfold relhumIce relhumWater
    rw [if_neg (by simp [h1, h2]), if_pos h, if_neg (by simp [h1, h2]), if_pos h]
    exact ⟨rfl, rfl⟩

example : relhumIce (constArg .ndarray [2] 260) (constArg .ndarray [3] 0.001) (constArg .ndarray [2] 80000)
    = .error .valueError :=
  ((C55_shape_mismatch_rejected_partial false (constArg .ndarray [2] 260) (constArg .ndarray [3] 0.001)
    (constArg .ndarray [2] 80000) rfl rfl).2 (Or.inl (by simp [constArg]))).1

/-- C55 fails for dewtemp and relhum: a two-value array is accepted together with a one-value array (the test is
`not (generator)`, never true) and silently broadcast. -/
theorem C55_counterexample :
    (∃ r, dewtemp (constArg .ndarray [2] 300) (constArg .ndarray [1] 50) = .ok r ∧ r.val.shape = [2]) ∧
    (∃ r, relhum (constArg .ndarray [2] 300) (constArg .ndarray [1] 0.01) (constArg .ndarray [3, 1] 100000) = .ok r ∧
      r.val.shape = [3, 2]) := by
  constructor
  · exact ⟨_, rfl, rfl⟩
  · obtain ⟨es, hes⟩ := values_mapM_ok (constArg .ndarray [2] 300).val (fun _ _ => by simp [constArg])
    unfold relhum
    rw [hes]
    exact ⟨_, rfl, rfl⟩

/-- C55, what does hold for dewtemp: shapes numpy cannot broadcast together are rejected, and only those. -/
theorem C55_dewtemp_broadcast_partial (t rh : Arg (XF ℝ)) (hty : t.ty = .dataArray ↔ rh.ty = .dataArray) :
    dewtemp t rh = .error .valueError ↔ bshape t.val.shape rh.val.shape = none := by
  unfold dewtemp Tensor.zip
  by_cases hx : t.ty = .dataArray
  · have hx' := hty.mp hx
    cases h : bshape t.val.shape rh.val.shape <;> simp [hx, hx', Except.map]
  · have hx' : ¬ rh.ty = .dataArray := fun h => hx (hty.mpr h)
    cases h : bshape t.val.shape rh.val.shape <;> simp [hx, hx', Except.map]

example : dewtemp (constArg .ndarray [2] 300) (constArg .ndarray [3] 50) = .error .valueError :=
  (C55_dewtemp_broadcast_partial (constArg .ndarray [2] 300) (constArg .ndarray [3] 50) (by simp [constArg])).mpr
    (by simp [constArg, bshape, bshapeRev, bdim])

/-! ### C56 container types -/

/-- the container of the output is the one of the input: a list for a list, a (subclass of) float for a float, a
numpy value for a numpy array, an xarray.DataArray for an xarray.DataArray -/
def SameContainer (i o : PyType) : Prop :=
  match i with
  | .list => o = .list
  | .float | .int => o.isInstance .float
  | .ndarray => o = .ndarray ∨ o = .npScalar
  | .dataArray => o = .dataArray
  | .tuple | .npScalar => True

/-- C56. relhum_ice and heat_index return the container they were given. -/
theorem C56_container_preserved_partial (alt : Bool) (t w p : Arg (XF ℝ)) (hwf : t.WF) :
    (∀ r, relhumIce t w p = .ok r → SameContainer t.ty r.ty) ∧
    (∀ wn r, heatIndex alt t w = .ok (wn, r) → SameContainer t.ty r.ty) := by
  constructor
  · intro r hr
    unfold relhumIce at hr
    split at hr
    · cases hr
    rename_i hty
    split at hr
    · cases hr
    rename_i hsh
    push Not at hsh
    obtain ⟨q, e1, e2, -⟩ := zip3_same relhumIcePoint t.val w.val p.val hsh.1 hsh.2
    rw [e1] at hr
    simp only [Except.map, Except.ok.injEq] at hr
    subst hr
    unfold Arg.WF at hwf
    clear * - hwf e2
    cases hT : t.ty <;>
      simp_all [SameContainer, npResultType, tolistType, PyType.isInstance]
    by_cases h : t.val.shape = [] <;> simp [h]
  · intro wn r hr
    unfold heatIndex at hr
    split at hr
    · cases hr
    clear * - hr hwf
    split at hr
    · cases hr
    rename_i hsh
    push Not at hsh
    split at hr
    · cases hr
    dsimp only at hr
    split at hr
    · cases hr
    clear * - hr hwf hsh
    obtain ⟨q, e1, e2, -⟩ := zip_same (heatIndexPoint alt) t.val w.val hsh
    rw [e1] at hr
    simp only [Except.map, Except.ok.injEq, Prod.mk.injEq] at hr
    obtain ⟨-, hr⟩ := hr
    subst hr
    unfold Arg.WF at hwf
    cases hT : t.ty <;>
      simp_all [SameContainer, npResultType, tolistType, PyType.isInstance]

example : ∃ r, relhumIce (constArg .list [4] 260) (constArg .list [4] 0.001) (constArg .list [4] 80000) = .ok r ∧
    r.ty = .list := by
  obtain ⟨r, h, -⟩ := (C48_elementwise (constArg .list [4] 260) (constArg .list [4] 0.001) (constArg .list [4] 80000)
    rfl rfl rfl rfl).1
  exact ⟨r, h, (C56_container_preserved_partial false _ _ _ (by simp [Arg.WF, constArg])).1 r h⟩

/-- C56. Mixed argument types raise TypeError in all three functions. -/
theorem C56_mixed_types_rejected (alt : Bool) (t w p : Arg (XF ℝ)) :
    (t.ty ≠ w.ty → heatIndex alt t w = .error .typeError) ∧
    (¬ (t.ty = w.ty ∧ w.ty = p.ty) → relhumIce t w p = .error .typeError ∧ relhumWater t w p = .error .typeError) := by
  refine ⟨fun h => ?_, fun h => ?_⟩
  · unfold heatIndex; rw [if_pos h]
  · unfold relhumIce relhumWater; rw [if_pos h, if_pos h]; exact ⟨rfl, rfl⟩

example : relhumIce (constArg .list [4] 260) (constArg .list [4] 0.001) (constArg .ndarray [4] 80000)
    = .error .typeError := ((C56_mixed_types_rejected false _ _ _).2 (by simp [constArg])).1

/-- C56 fails for relhum_water: three lists give a numpy array. -/
theorem C56_counterexample :
    ∃ r, relhumWater (constArg .list [2] 260) (constArg .list [2] 0.001) (constArg .list [2] 80000) = .ok r ∧
      r.ty = .ndarray ∧ ¬ SameContainer .list r.ty := by
  obtain ⟨q, e1, e2, -⟩ := zip3_same relhumWaterPoint (constArg .list [2] 260).val (constArg .list [2] 0.001).val
    (constArg .list [2] 80000).val rfl rfl
  refine ⟨⟨.ndarray, q⟩, ?_, rfl, by simp [SameContainer]⟩
  unfold relhumWater
  rw [if_neg (by simp [constArg]), if_neg (by simp [constArg]), e1]
  have : q.shape ≠ [] := by rw [e2]; simp [constArg]
  simp [Except.map, constArg, npResultType, this]

end Verif.Props
