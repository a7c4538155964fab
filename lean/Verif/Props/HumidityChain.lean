import Verif.Props.RelhumTable
import Verif.Props.EofCount
import Verif.Props.HeatIndex

/-
Property C195: the relative humidity returned by relhum as an argument of dewtemp and heat_index.
-/

set_option linter.unusedSectionVars false
namespace Verif.Props
open Model XF Spec Lemmas Tensor

/-- with the saturation vapour pressure `e` of relhum's table (Pa) at temperature `T`, the mixing ratio `w` is at most the saturation mixing ratio
0.622 e / (p - 0.378 e) -/
def NotSupersaturated (T w p : ℝ) : Prop := ∃ e, relhumEs (fin T) = .ok (fin e) ∧ w * (p - 0.378 * e) ≤ 0.622 * e

theorem notSuper_iff (T w p : ℝ) : NotSupersaturated T w p ↔ rhR (esR T) w p ≤ 100 := by
  have he := esR_pos T
  have hpos : (0 : ℝ) < 0.622 * esR T := by positivity
  have key : rhR (esR T) w p ≤ 100 ↔ w * (p - 0.378 * esR T) ≤ 0.622 * esR T := by
    unfold rhR
    rw [max_le_iff]
    constructor
    · rintro ⟨h, -⟩
      have : w * (p - 0.378 * esR T) / (0.622 * esR T) ≤ 1 := by linarith
      rwa [div_le_one hpos] at this
    · intro h
      have : w * (p - 0.378 * esR T) / (0.622 * esR T) ≤ 1 := (div_le_one hpos).mpr h
      exact ⟨by linarith, by norm_num⟩
  rw [key]
  constructor
  · rintro ⟨e, h1, h2⟩
    rw [relhumEs_fin] at h1
    injection h1 with h1
    injection h1 with h1
    subst h1
    exact h2
  · exact fun h => ⟨_, relhumEs_fin T, h⟩

/-- **C195, dewtemp.** Of air that is nowhere supersaturated, dewtemp of the temperature and of what relhum returns is a dew point everywhere: a positive number,
at most the temperature, equal to it exactly if relhum gives 100 %. -/
theorem C195_dewtemp (t w p : Arg (XF ℝ)) (hw : t.val.shape = w.val.shape) (hp : t.val.shape = p.val.shape) (T W P : List ℕ → ℝ)
    (ht : HasReals t.val T) (hwv : HasReals w.val W) (hpv : HasReals p.val P) (hty : t.ty = .dataArray ∨ w.ty ≠ .dataArray ∧ p.ty ≠ .dataArray)
    (hT : ∀ i, InBounds t.val.shape i → 0 < T i ∧ T i ≤ 1320) (hns : ∀ i, InBounds t.val.shape i → NotSupersaturated (T i) (W i) (P i)) :
    ∃ rh td, relhum t w p = .ok rh ∧ dewtemp t rh = .ok td ∧ td.val.shape = t.val.shape ∧ ∀ i, InBounds t.val.shape i →
      ∃ r d, rh.val.get i = fin r ∧ 0.0001 ≤ r ∧ r ≤ 100 ∧ td.val.get i = fin d ∧ 0 < d ∧ d ≤ T i ∧ (d = T i ↔ r = 100) := by
  obtain ⟨rh, h1, h2, h3⟩ := relhum_call t w p hw hp T W P ht hwv hpv
  have hc := (C56_relhum_container t w p rh h1).1
  have hr : ∀ i, InBounds t.val.shape i → rh.val.get i = fin (rhR (esR (T i)) (W i) (P i)) ∧ 0.0001 ≤ rhR (esR (T i)) (W i) (P i) ∧
      rhR (esR (T i)) (W i) (P i) ≤ 100 := fun i hi => ⟨h3 i (by rw [h2]; exact hi), le_max_right _ _, (notSuper_iff _ _ _).mp (hns i hi)⟩
  obtain ⟨td, d1, d2, d3⟩ := C45_dew_point_bounds t rh (by rw [hc]; tauto) h2.symm T (fun i => rhR (esR (T i)) (W i) (P i))
    (fun i hi => ⟨ht i hi, hT i hi⟩) (fun i hi => ⟨(hr i hi).1, by linarith [(hr i hi).2.1], (hr i hi).2.2⟩)
  refine ⟨rh, td, h1, d1, d2, fun i hi => ?_⟩
  obtain ⟨d, e1, e2⟩ := d3 i hi
  exact ⟨_, d, (hr i hi).1, (hr i hi).2.1, (hr i hi).2.2, e1, e2⟩

/-- **C195, dewtemp.** More water vapour, at the same temperature and pressure: a higher dew point, unless relhum returns its smallest value 0.0001 for both. -/
theorem C195_moister (T w w' p : ℝ) (hT : 0 < T) (hT2 : T ≤ 1320) (hww : w < w') (hp : ∀ e, relhumEs (fin T) = .ok (fin e) → 0.378 * e < p)
    (hns : NotSupersaturated T w' p) :
    ∃ r r' d d', relhumPoint (fin T) (fin w) (fin p) = .ok (fin r) ∧ relhumPoint (fin T) (fin w') (fin p) = .ok (fin r') ∧
      dewtempPoint (fin T) (fin r) = fin d ∧ dewtempPoint (fin T) (fin r') = fin d' ∧ d ≤ d' ∧ (0.0001 < r' → d < d') := by
  have he := esR_pos T
  have hpe := hp _ (relhumEs_fin T)
  have hr' := (notSuper_iff _ _ _).mp hns
  have hlt : w * (p - 0.378 * esR T) / (0.622 * esR T) * 100 < w' * (p - 0.378 * esR T) / (0.622 * esR T) * 100 := by
    apply mul_lt_mul_of_pos_right _ (by norm_num)
    apply div_lt_div_of_pos_right _ (by positivity)
    exact mul_lt_mul_of_pos_right hww (by linarith)
  have hle : rhR (esR T) w p ≤ rhR (esR T) w' p := max_le_max hlt.le le_rfl
  have h0 : (0 : ℝ) < rhR (esR T) w p := lt_of_lt_of_le (by norm_num) (le_max_right _ _)
  have hstrict : 0.0001 < rhR (esR T) w' p → rhR (esR T) w p < rhR (esR T) w' p := by
    intro h
    unfold rhR at h ⊢
    have h2 : (0.0001 : ℝ) < w' * (p - 0.378 * esR T) / (0.622 * esR T) * 100 := by
      rcases lt_max_iff.mp h with h | h
      · exact h
      · exact absurd h (lt_irrefl _)
    rw [max_eq_left h2.le]
    exact max_lt hlt h2
  refine ⟨_, _, _, _, relhumPoint_fin T w p, relhumPoint_fin T w' p, dewtempPoint_fin hT hT2 h0 (hle.trans hr'),
    dewtempPoint_fin hT hT2 (h0.trans_le hle) hr', ?_, fun h => dewR_mono hT hT2 h0 (hstrict h) hr'⟩
  rcases hle.lt_or_eq with h | h
  · exact (dewR_mono hT hT2 h0 h hr').le
  · rw [h]

/-- **C195, heat_index.** What relhum returns is accepted by heat_index exactly if the air is nowhere supersaturated; then the heat index is a number everywhere.
If it is supersaturated at one point of the array, however little, the call raises ValueError. -/
theorem C195_heat_index (alt : Bool) (t w p tf : Arg (XF ℝ)) (hw : t.val.shape = w.val.shape) (hp : t.val.shape = p.val.shape) (T W P F : List ℕ → ℝ)
    (ht : HasReals t.val T) (hwv : HasReals w.val W) (hpv : HasReals p.val P) (hf : HasReals tf.val F) (hs : tf.val.shape = t.val.shape)
    (hne : ∃ i, InBounds t.val.shape i)
    (hty : tf.ty = .dataArray ∧ t.ty = .dataArray ∨ tf.ty = .ndarray ∧ t.val.shape ≠ [] ∧ t.ty ≠ .dataArray ∧ w.ty ≠ .dataArray ∧ p.ty ≠ .dataArray) :
    ∃ rh, relhum t w p = .ok rh ∧
      ((∀ i, InBounds t.val.shape i → NotSupersaturated (T i) (W i) (P i)) → ∃ wn h, heatIndex alt tf rh = .ok (wn, h) ∧ h.val.shape = t.val.shape ∧
        ∀ i, InBounds t.val.shape i → ∃ v, h.val.get i = fin v) ∧
      ((∃ i, InBounds t.val.shape i ∧ ¬ NotSupersaturated (T i) (W i) (P i)) → heatIndex alt tf rh = .error .valueError) := by
  obtain ⟨rh, h1, h2, h3⟩ := relhum_call t w p hw hp T W P ht hwv hpv
  obtain ⟨c1, c2⟩ := C56_relhum_container t w p rh h1
  have hty' : tf.ty = rh.ty := by
    rcases hty with ⟨a, b⟩ | ⟨a, b, c, d, e⟩
    · rw [a, c1.mpr (Or.inl b)]
    · have hn : rh.ty ≠ .dataArray := fun h => by
        have := c1.mp h
        tauto
      rw [a, c2 hn, h2, if_neg b]
  have hr : ∀ i, InBounds rh.val.shape i → rh.val.get i = fin (rhR (esR (T i)) (W i) (P i)) := h3
  obtain ⟨k1, k2⟩ := C49_range_check_partial alt tf rh hty' (by rw [hs, h2]) (by rw [h2]; exact hne)
    (Or.inr fun i hi => by rw [hr i hi]; rfl)
  have hrange : HumidityInRange rh.val ↔ ∀ i, InBounds t.val.shape i → NotSupersaturated (T i) (W i) (P i) := by
    unfold HumidityInRange
    rw [h2]
    refine forall₂_congr fun i hi => ?_
    rw [hr i (by rw [h2]; exact hi), notSuper_iff]
    have h0 : ¬ rhR (esR (T i)) (W i) (P i) < 0 := not_lt.mpr (le_trans (by norm_num) (le_max_right _ _))
    simp [XF.lt, h0]
  refine ⟨rh, h1, fun h => ?_, fun ⟨i, hi, hn⟩ => k1 fun h => hn (hrange.mp h i hi)⟩
  obtain ⟨wn, r, r1, r2, r3⟩ := k2 (hrange.mpr h)
  refine ⟨wn, r, r1, by rw [r2, hs], fun i hi => ?_⟩
  rw [r3 i (by rw [hs]; exact hi), hf i (by rw [hs]; exact hi), hr i (by rw [h2]; exact hi), heatIndexPoint_fin]
  exact ⟨_, rfl⟩

/-! ### cases -/

theorem esR_low_le : esR 173.16 ≤ 0.01 := by
  have := C46_exact_at_table_points 0 (by norm_num)
  rw [relhumEs_fin] at this
  injection this with this
  injection this with this
  simp only [Nat.cast_zero, add_zero] at this
  rw [this]
  have : relhumTable.getD 0 0 = 0.01403 := rfl
  rw [this]
  norm_num

/-- dry air at 173.16 K and 100000 Pa is not supersaturated, a mixing ratio of 1 is: both cases of `C195_heat_index` occur -/
example : NotSupersaturated 173.16 0 100000 ∧ ¬ NotSupersaturated 173.16 1 100000 := by
  constructor
  · exact ⟨_, relhumEs_fin _, by rw [zero_mul]; exact mul_nonneg (by norm_num) (esR_pos _).le⟩
  · rintro ⟨e, h1, h2⟩
    rw [relhumEs_fin] at h1
    injection h1 with h1
    injection h1 with h1
    subst h1
    have := esR_low_le
    linarith

example : ∃ rh td, relhum (constArg .ndarray [2, 3] 300) (constArg .ndarray [2, 3] 0) (constArg .ndarray [2, 3] 100000) = .ok rh ∧
    dewtemp (constArg .ndarray [2, 3] 300) rh = .ok td ∧ td.val.shape = [2, 3] ∧ ∀ i, InBounds [2, 3] i →
      ∃ r d, rh.val.get i = fin r ∧ 0.0001 ≤ r ∧ r ≤ 100 ∧ td.val.get i = fin d ∧ 0 < d ∧ d ≤ 300 ∧ (d = 300 ↔ r = 100) :=
  C195_dewtemp (constArg .ndarray [2, 3] 300) (constArg .ndarray [2, 3] 0) (constArg .ndarray [2, 3] 100000) rfl rfl (fun _ => 300) (fun _ => 0)
    (fun _ => 100000) (fun _ _ => rfl) (fun _ _ => rfl) (fun _ _ => rfl) (Or.inr ⟨by simp [constArg], by simp [constArg]⟩)
    (fun _ _ => by norm_num) (fun _ _ => ⟨_, relhumEs_fin _, by rw [zero_mul]; exact mul_nonneg (by norm_num) (esR_pos _).le⟩)

end Verif.Props
