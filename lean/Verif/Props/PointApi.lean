import Verif.Spec.Points
import Verif.Props.HeatIndex
import Verif.Props.Evap

/-
C45-C54, C56 and C79 once more, for whole calls of the public functions: what a call with arrays of real numbers returns at every index.
-/

set_option linter.unusedSectionVars false
namespace Verif.Props
open Model XF Spec Lemmas Tensor

/-! ### dewtemp -/

theorem dewtemp_call (t rh : Arg (XF ℝ)) (hty : t.ty = .dataArray ↔ rh.ty = .dataArray) (hs : t.val.shape = rh.val.shape) :
    ∃ r, dewtemp t rh = .ok r ∧ r.val.shape = t.val.shape ∧ ∀ i, InBounds t.val.shape i →
      r.val.get i = dewtempPoint (t.val.get i) (rh.val.get i) := by
  obtain ⟨r, h1, h2, h3⟩ := zip_same dewtempPoint t.val rh.val hs
  unfold dewtemp
  by_cases hx : t.ty = .dataArray
  · have hx' := hty.mp hx
    simp only [hx, hx', true_or, if_true, ne_eq, not_true_eq_false, or_self, if_false, h1]
    exact ⟨_, rfl, h2, h3⟩
  · have hx' : ¬ rh.ty = .dataArray := fun h => hx (hty.mpr h)
    simp only [hx, hx', or_self, if_false, h1]
    exact ⟨_, rfl, h2, h3⟩

/-- C45. The values of a call of dewtemp: the dew point `td` is where, by the Clausius-Clapeyron law with the latent heat of the air
temperature, the saturation pressure has fallen to the given fraction of the one at `T`. -/
theorem C45_clausius_clapeyron (t rh : Arg (XF ℝ)) (hty : t.ty = .dataArray ↔ rh.ty = .dataArray)
    (hs : t.val.shape = rh.val.shape) (T R : List ℕ → ℝ) (ht : HasReals t.val T) (hr : HasReals rh.val R)
    (hT : ∀ i, InBounds t.val.shape i → 0 < T i ∧ T i ≤ 1320) (hR : ∀ i, InBounds t.val.shape i → 0 < R i ∧ R i ≤ 100) :
    ∃ r td, dewtemp t rh = .ok r ∧ r.val.shape = t.val.shape ∧ HasReals r.val td ∧
      ∀ i, InBounds t.val.shape i → 0 < td i ∧ R i / 100 = Real.exp (latentOverGas (T i) * (1 / T i - 1 / td i)) := by
  obtain ⟨r, h1, h2, h3⟩ := dewtemp_call t rh hty hs
  refine ⟨r, fun i => dewR (T i) (R i), h1, h2, ?_, ?_⟩
  · intro i hi
    rw [h2] at hi
    rw [h3 i hi, ht i hi, hr i (hs ▸ hi), dewtempPoint_fin (hT i hi).1 (hT i hi).2 (hR i hi).1 (hR i hi).2]
  · intro i hi
    obtain ⟨a1, a2⟩ := hT i hi
    obtain ⟨b1, b2⟩ := hR i hi
    refine ⟨dewR_pos a1 a2 b1 b2, ?_⟩
    have hl := lhvR_pos a2
    have hL : latentOverGas (T i) = lhvR (T i) := by unfold latentOverGas lhvR; field_simp; norm_num; ring
    rw [inv_dewR a1 a2, hL]
    have : lhvR (T i) * (1 / T i - (1 / T i + -Real.log (R i * 0.01) / lhvR (T i))) = Real.log (R i * 0.01) := by
      field_simp; ring
    rw [this, Real.exp_log (by positivity)]
    norm_num
    ring

example : ∃ r td, dewtemp (constArg .ndarray [2, 3] 300) (constArg .ndarray [2, 3] 50) = .ok r ∧ r.val.shape = [2, 3] ∧ HasReals r.val td ∧
    ∀ i, InBounds [2, 3] i → 0 < td i ∧ (50 : ℝ) / 100 = Real.exp (latentOverGas 300 * (1 / 300 - 1 / td i)) :=
  C45_clausius_clapeyron (constArg .ndarray [2, 3] 300) (constArg .ndarray [2, 3] 50) (by simp [constArg]) rfl (fun _ => 300) (fun _ => 50)
    (fun _ _ => rfl) (fun _ _ => rfl) (fun _ _ => by norm_num) (fun _ _ => by norm_num)

/-- C45. Of two calls of dewtemp with the same temperatures (up to 1320 K), the one with the larger humidities returns the larger dew points; of two
calls with the same humidities (0.001 % to 100 %), the one with the larger temperatures (up to 373 K) does. -/
theorem C45_calls_increasing (t t' rh rh' : Arg (XF ℝ)) (hty : t.ty = .dataArray ↔ rh.ty = .dataArray) (hs : t.val.shape = rh.val.shape)
    (T R : List ℕ → ℝ) (ht : HasReals t.val T) (hr : HasReals rh.val R)
    (hT : ∀ i, InBounds t.val.shape i → 0 < T i ∧ T i ≤ 1320) (hR : ∀ i, InBounds t.val.shape i → 0 < R i ∧ R i ≤ 100) :
    (∀ R', rh'.ty = rh.ty → rh'.val.shape = t.val.shape → HasReals rh'.val R' →
      (∀ i, InBounds t.val.shape i → R i < R' i ∧ R' i ≤ 100) →
      ∃ r r' a b, dewtemp t rh = .ok r ∧ dewtemp t rh' = .ok r' ∧ HasReals r.val a ∧ HasReals r'.val b ∧ ∀ i, InBounds t.val.shape i → a i < b i) ∧
    (∀ T', t'.ty = t.ty → t'.val.shape = t.val.shape → HasReals t'.val T' →
      (∀ i, InBounds t.val.shape i → T i < T' i ∧ T' i ≤ 373 ∧ 0.001 ≤ R i) →
      ∃ r r' a b, dewtemp t rh = .ok r ∧ dewtemp t' rh = .ok r' ∧ HasReals r.val a ∧ HasReals r'.val b ∧ ∀ i, InBounds t.val.shape i → a i < b i) := by
  obtain ⟨r, h1, h2, h3⟩ := dewtemp_call t rh hty hs
  have hval : HasReals r.val (fun i => dewR (T i) (R i)) := by
    intro i hi
    rw [h2] at hi
    rw [h3 i hi, ht i hi, hr i (hs ▸ hi), dewtempPoint_fin (hT i hi).1 (hT i hi).2 (hR i hi).1 (hR i hi).2]
  constructor
  · intro R' e1 e2 e3 e4
    obtain ⟨r', g1, g2, g3⟩ := dewtemp_call t rh' (by rw [e1]; exact hty) e2.symm
    refine ⟨r, r', _, fun i => dewR (T i) (R' i), h1, g1, hval, ?_, ?_⟩
    · intro i hi
      rw [g2] at hi
      have := hR i hi
      rw [g3 i hi, ht i hi, e3 i (e2 ▸ hi), dewtempPoint_fin (hT i hi).1 (hT i hi).2 (this.1.trans (e4 i hi).1) (e4 i hi).2]
    · intro i hi
      exact dewR_mono (hT i hi).1 (hT i hi).2 (hR i hi).1 (e4 i hi).1 (e4 i hi).2
  · intro T' e1 e2 e3 e4
    obtain ⟨r', g1, g2, g3⟩ := dewtemp_call t' rh (by rw [e1]; exact hty) (by rw [e2, hs])
    refine ⟨r, r', _, fun i => dewR (T' i) (R i), h1, g1, hval, ?_, ?_⟩
    · intro i hi
      rw [g2] at hi
      have hi' := e2 ▸ hi
      obtain ⟨k1, k2, k3⟩ := e4 i hi'
      rw [g3 i hi, e3 i hi, hr i (hs ▸ hi'), dewtempPoint_fin ((hT i hi').1.trans k1) (by linarith) (hR i hi').1 (hR i hi').2]
    · intro i hi
      obtain ⟨k1, k2, k3⟩ := e4 i hi
      exact dewR_mono_temp (hT i hi).1 k1 k2 k3 (hR i hi).2

example : ∃ r r' a b, dewtemp (constArg .list [3] 300) (constArg .list [3] 50) = .ok r ∧ dewtemp (constArg .list [3] 300) (constArg .list [3] 60) = .ok r' ∧
    HasReals r.val a ∧ HasReals r'.val b ∧ ∀ i, InBounds [3] i → a i < b i :=
  (C45_calls_increasing (constArg .list [3] 300) (constArg .list [3] 310) (constArg .list [3] 50) (constArg .list [3] 60) (by simp [constArg]) rfl
    (fun _ => 300) (fun _ => 50) (fun _ _ => rfl) (fun _ _ => rfl) (fun _ _ => by norm_num) (fun _ _ => by norm_num)).1 (fun _ => 60) rfl rfl
    (fun _ _ => rfl) (fun _ _ => by norm_num)

/-! ### relhum -/

theorem lerpEntry_eq {s : ℝ} {k : ℕ} (hs : 0 ≤ s) (h1 : (k : ℝ) ≤ s) (h2 : s ≤ k + 1) : lerpEntry relhumTable k s = lerp tab s := by
  rcases h2.eq_or_lt with h | h
  · have : s = ((k + 1 : ℕ) : ℝ) := by rw [h]; push_cast; rfl
    rw [this, lerp_nat]
    unfold lerpEntry tab
    push_cast
    ring
  · have hf : ⌊s⌋₊ = k := (Nat.floor_eq_iff hs).mpr ⟨h1, h⟩
    unfold lerp lerpEntry tab
    rw [hf]
    ring

/-- C46. The values of a call of relhum, for temperatures between two tabulated ones: 100 times the mixing ratio over the one of saturated air, with
the saturation pressure interpolated linearly in the table, and never below 0.0001. -/
theorem C46_call_value (t w p : Arg (XF ℝ)) (hw : t.val.shape = w.val.shape) (hp : t.val.shape = p.val.shape) (T W P : List ℕ → ℝ)
    (ht : HasReals t.val T) (hwv : HasReals w.val W) (hpv : HasReals p.val P) :
    ∃ r v, relhum t w p = .ok r ∧ r.val.shape = t.val.shape ∧ HasReals r.val v ∧ ∀ i, InBounds t.val.shape i →
      0.0001 ≤ v i ∧
      (∀ k : ℕ, k ≤ 201 → 173.16 + k ≤ T i → T i ≤ 173.16 + (k + 1) → ∀ e, e = 0.1 * lerpEntry relhumTable k (T i - 173.16) → 0.378 * e < P i →
        v i = max (100 * (W i / satMixingRatio e (P i))) 0.0001) := by
  obtain ⟨r, h1, h2, h3⟩ := C46_never_out_of_table t w p hw hp (fun i hi => by rw [ht i hi]; simp)
  refine ⟨r, fun i => rhR (esR (T i)) (W i) (P i), h1, h2, ?_, ?_⟩
  · intro i hi
    rw [h2] at hi
    have := h3 i hi
    rw [ht i hi, hwv i (hw ▸ hi), hpv i (hp ▸ hi), relhumPoint_fin] at this
    injection this with this
    exact this.symm
  · intro i hi
    refine ⟨le_max_right _ _, ?_⟩
    intro k hk k1 k2 e he hep
    have hsh : shiftR (T i) = T i - 173.16 := by
      have : (k : ℝ) ≤ 201 := by exact_mod_cast hk
      unfold shiftR
      rw [max_eq_left (by linarith [Nat.cast_nonneg (α := ℝ) k]), min_eq_left (by linarith)]
    have hse : esR (T i) = e := by
      unfold esR
      rw [hsh, he, lerpEntry_eq (by linarith [Nat.cast_nonneg (α := ℝ) k]) (by linarith) (by linarith), mul_comm]
    have e0 : 0 < e := hse ▸ esR_pos (T i)
    show rhR (esR (T i)) (W i) (P i) = _
    rw [hse]
    unfold rhR satMixingRatio
    congr 1
    have : P i - 0.378 * e ≠ 0 := by linarith
    field_simp

example : ∃ r v, relhum (constArg .ndarray [2] 273.5) (constArg .ndarray [2] 0.003) (constArg .ndarray [2] 90000) = .ok r ∧ r.val.shape = [2] ∧
    HasReals r.val v ∧ 0.0001 ≤ v [1] := by
  obtain ⟨r, v, h1, h2, h3, h4⟩ := C46_call_value (constArg .ndarray [2] 273.5) (constArg .ndarray [2] 0.003) (constArg .ndarray [2] 90000) rfl rfl
    (fun _ => 273.5) (fun _ => 0.003) (fun _ => 90000) (fun _ _ => rfl) (fun _ _ => rfl) (fun _ _ => rfl)
  exact ⟨r, v, h1, h2, h3, (h4 [1] (by simp [InBounds, constArg])).1⟩

/-- C47. Of two calls of relhum, the one with temperatures at least as high, mixing ratios and pressures at most as large returns values at most as
large. Temperatures may be any real numbers. -/
theorem C47_calls_monotone (t w p t' w' p' : Arg (XF ℝ)) (s : List ℕ)
    (hs : t.val.shape = s ∧ w.val.shape = s ∧ p.val.shape = s ∧ t'.val.shape = s ∧ w'.val.shape = s ∧ p'.val.shape = s)
    (T W P T' W' P' : List ℕ → ℝ)
    (ht : HasReals t.val T) (hw : HasReals w.val W) (hp : HasReals p.val P) (ht' : HasReals t'.val T') (hw' : HasReals w'.val W') (hp' : HasReals p'.val P')
    (hle : ∀ i, InBounds s i → T i ≤ T' i ∧ 0 ≤ W' i ∧ W' i ≤ W i ∧ 0 ≤ P' i ∧ P' i ≤ P i) :
    ∃ r r' v v', relhum t w p = .ok r ∧ relhum t' w' p' = .ok r' ∧ HasReals r.val v ∧ HasReals r'.val v' ∧ ∀ i, InBounds s i → v' i ≤ v i := by
  obtain ⟨a1, a2, a3, a4, a5, a6⟩ := hs
  obtain ⟨r, h1, h2, h3⟩ := C46_never_out_of_table t w p (a1.trans a2.symm) (a1.trans a3.symm) (fun i hi => by rw [ht i hi]; simp)
  obtain ⟨r', g1, g2, g3⟩ := C46_never_out_of_table t' w' p' (a4.trans a5.symm) (a4.trans a6.symm) (fun i hi => by rw [ht' i hi]; simp)
  refine ⟨r, r', fun i => rhR (esR (T i)) (W i) (P i), fun i => rhR (esR (T' i)) (W' i) (P' i), h1, g1, ?_, ?_, ?_⟩
  · intro i hi
    rw [h2] at hi
    have := h3 i hi
    have hi' := a1 ▸ hi
    rw [ht i hi, hw i (a2.symm ▸ hi'), hp i (a3.symm ▸ hi'), relhumPoint_fin] at this
    injection this with this
    exact this.symm
  · intro i hi
    rw [g2] at hi
    have := g3 i hi
    have hi' := a4 ▸ hi
    rw [ht' i hi, hw' i (a5.symm ▸ hi'), hp' i (a6.symm ▸ hi'), relhumPoint_fin] at this
    injection this with this
    exact this.symm
  · intro i hi
    obtain ⟨k1, k2, k3, k4, k5⟩ := hle i hi
    exact ((rhR_anti (esR_pos _) (esR_mono k1) k2 k4).trans (rhR_mono_w (esR_pos _) k2 k3)).trans (rhR_mono_p (esR_pos _) (k2.trans k3) k5)

example : ∃ r r' v v', relhum (constArg .ndarray [2] 273.5) (constArg .ndarray [2] 0.003) (constArg .ndarray [2] 90000) = .ok r ∧
    relhum (constArg .ndarray [2] 280) (constArg .ndarray [2] 0.003) (constArg .ndarray [2] 80000) = .ok r' ∧
    HasReals r.val v ∧ HasReals r'.val v' ∧ ∀ i, InBounds [2] i → v' i ≤ v i :=
  C47_calls_monotone _ _ _ _ _ _ [2] ⟨rfl, rfl, rfl, rfl, rfl, rfl⟩ (fun _ => 273.5) (fun _ => 0.003) (fun _ => 90000) (fun _ => 280) (fun _ => 0.003)
    (fun _ => 80000) (fun _ _ => rfl) (fun _ _ => rfl) (fun _ _ => rfl) (fun _ _ => rfl) (fun _ _ => rfl) (fun _ _ => rfl) (fun _ _ => by norm_num)

/-! ### relhum_ice and relhum_water -/

/-- C48. The values of calls of relhum_ice and relhum_water: 100 times the mixing ratio over the one of saturated air, by the Magnus formula over ice and
the Tetens formula over water; over ice at least over water up to the freezing point (from 154.5 K). -/
theorem C48_call_values (t w p : Arg (XF ℝ)) (h1 : t.ty = w.ty) (h2 : w.ty = p.ty) (hw : t.val.shape = w.val.shape)
    (hp : t.val.shape = p.val.shape) (T W P : List ℕ → ℝ) (ht : HasReals t.val T) (hwv : HasReals w.val W) (hpv : HasReals p.val P)
    (hT : ∀ i, InBounds t.val.shape i → 35.86 < T i)
    (hP : ∀ i, InBounds t.val.shape i → 0.378 * magnusIce (T i - 273.15) < P i / 100 ∧ 0.378 * tetensWater (T i) < P i / 100) :
    ∃ ri rw vi vw, relhumIce t w p = .ok ri ∧ relhumWater t w p = .ok rw ∧ ri.val.shape = t.val.shape ∧ rw.val.shape = t.val.shape ∧
      HasReals ri.val vi ∧ HasReals rw.val vw ∧ ∀ i, InBounds t.val.shape i →
        vi i = 100 * (W i / satMixingRatio (magnusIce (T i - 273.15)) (P i / 100)) ∧
        vw i = 100 * (W i / satMixingRatio (tetensWater (T i)) (P i / 100)) ∧
        (154.5 ≤ T i → T i ≤ 273.15 → 0 < W i → vw i ≤ vi i) := by
  obtain ⟨⟨ri, a1, a2, a3⟩, ⟨rw', b1, b2, b3⟩⟩ := C48_elementwise t w p h1 h2 hw hp
  have hP' : ∀ i, InBounds t.val.shape i → 0.378 * magnusIce (T i - 273.15) < P i * 0.01 ∧ 0.378 * tetensWater (T i) < P i * 0.01 := by
    intro i hi
    have := hP i hi
    norm_num at this ⊢
    constructor <;> linarith [this.1, this.2]
  have h01 : ∀ x : ℝ, x * 0.01 = x / 100 := by intro x; norm_num; ring
  refine ⟨ri, rw', fun i => 100 * (W i / satMixingRatio (magnusIce (T i - 273.15)) (P i / 100)),
    fun i => 100 * (W i / satMixingRatio (tetensWater (T i)) (P i / 100)), a1, b1, a2, b2, ?_, ?_, ?_⟩
  · intro i hi
    rw [a2] at hi
    rw [a3 i hi, ht i hi, hwv i (hw ▸ hi), hpv i (hp ▸ hi), C48_ice_ratio _ _ _ (by linarith [hT i hi]) (hP' i hi).1, h01]
  · intro i hi
    rw [b2] at hi
    rw [b3 i hi, ht i hi, hwv i (hw ▸ hi), hpv i (hp ▸ hi), C48_water_ratio _ _ _ (hT i hi) (hP' i hi).2, h01]
  · intro i hi
    refine ⟨rfl, rfl, fun k1 k2 k3 => ?_⟩
    have hppos : 0 < P i := by
      have := (hP i hi).1
      have := magnusIce_pos (T i - 273.15)
      linarith
    obtain ⟨-, a, b, e1, e2, e3⟩ := C48_ice_vs_water (T i) (W i) (P i) k1 k2 k3 hppos
    rw [C48_ice_ratio _ _ _ (by linarith) (hP' i hi).1, h01] at e1
    rw [C48_water_ratio _ _ _ (hT i hi) (hP' i hi).2, h01] at e2
    injection e1 with e1
    injection e2 with e2
    show 100 * (W i / satMixingRatio (tetensWater (T i)) (P i / 100)) ≤ 100 * (W i / satMixingRatio (magnusIce (T i - 273.15)) (P i / 100))
    rw [e1, e2]
    exact e3

example : ∃ ri rw vi vw, relhumIce (constArg .list [2] 273.15) (constArg .list [2] 0.003) (constArg .list [2] 90000) = .ok ri ∧
    relhumWater (constArg .list [2] 273.15) (constArg .list [2] 0.003) (constArg .list [2] 90000) = .ok rw ∧
    HasReals ri.val vi ∧ HasReals rw.val vw ∧ vw [0] ≤ vi [0] := by
  obtain ⟨ri, rw', vi, vw, e1, e2, -, -, e3, e4, e5⟩ := C48_call_values (constArg .list [2] 273.15) (constArg .list [2] 0.003) (constArg .list [2] 90000)
    rfl rfl rfl rfl (fun _ => 273.15) (fun _ => 0.003) (fun _ => 90000) (fun _ _ => rfl) (fun _ _ => rfl) (fun _ _ => rfl) (fun _ _ => by norm_num)
    (fun _ _ => by norm_num [magnusIce, tetensWater])
  exact ⟨ri, rw', vi, vw, e1, e2, e3, e4, (e5 [0] (by simp [InBounds, constArg])).2.2 (by norm_num) (by norm_num) (by norm_num)⟩

/-- C48. Of two calls with the same positive mixing ratios and pressures, the one with the higher temperatures returns the strictly smaller humidities,
over ice and over water. -/
theorem C48_calls_decreasing (t t' w p : Arg (XF ℝ)) (h1 : t.ty = w.ty) (h2 : w.ty = p.ty) (h3 : t'.ty = w.ty) (hw : t.val.shape = w.val.shape)
    (hp : t.val.shape = p.val.shape) (hs : t'.val.shape = t.val.shape) (T T' W P : List ℕ → ℝ) (ht : HasReals t.val T) (ht' : HasReals t'.val T')
    (hwv : HasReals w.val W) (hpv : HasReals p.val P)
    (h : ∀ i, InBounds t.val.shape i → 35.86 < T i ∧ T i < T' i ∧ 0 < W i ∧ 0 < P i) :
    (∃ r r' v v', relhumIce t w p = .ok r ∧ relhumIce t' w p = .ok r' ∧ HasReals r.val v ∧ HasReals r'.val v' ∧ ∀ i, InBounds t.val.shape i → v' i < v i) ∧
    (∃ r r' v v', relhumWater t w p = .ok r ∧ relhumWater t' w p = .ok r' ∧ HasReals r.val v ∧ HasReals r'.val v' ∧
      ∀ i, InBounds t.val.shape i → v' i < v i) := by
  obtain ⟨⟨ri, a1, a2, a3⟩, ⟨rw', b1, b2, b3⟩⟩ := C48_elementwise t w p h1 h2 hw hp
  obtain ⟨⟨ri', c1, c2, c3⟩, ⟨rw'', d1, d2, d3⟩⟩ := C48_elementwise t' w p h3 h2 (hs.trans hw) (hs.trans hp)
  have key := fun i hi => C48_strictly_decreasing_in_temperature (T i) (T' i) (W i) (P i) (h i hi).1 (h i hi).2.1 (h i hi).2.2.1 (h i hi).2.2.2
  classical
  constructor
  · refine ⟨ri, ri', fun i => if hi : InBounds t.val.shape i then (key i hi).1.choose else 0,
      fun i => if hi : InBounds t.val.shape i then (key i hi).1.choose_spec.choose else 0, a1, c1, ?_, ?_, ?_⟩
    · intro i hi
      rw [a2] at hi
      rw [a3 i hi, ht i hi, hwv i (hw ▸ hi), hpv i (hp ▸ hi)]
      simp only [dif_pos hi]
      exact (key i hi).1.choose_spec.choose_spec.1
    · intro i hi
      rw [c2, hs] at hi
      rw [c3 i (hs.symm ▸ hi), ht' i (hs.symm ▸ hi), hwv i (hw ▸ hi), hpv i (hp ▸ hi)]
      simp only [dif_pos hi]
      exact (key i hi).1.choose_spec.choose_spec.2.1
    · intro i hi
      simp only [dif_pos hi]
      exact (key i hi).1.choose_spec.choose_spec.2.2
  · refine ⟨rw', rw'', fun i => if hi : InBounds t.val.shape i then (key i hi).2.choose else 0,
      fun i => if hi : InBounds t.val.shape i then (key i hi).2.choose_spec.choose else 0, b1, d1, ?_, ?_, ?_⟩
    · intro i hi
      rw [b2] at hi
      rw [b3 i hi, ht i hi, hwv i (hw ▸ hi), hpv i (hp ▸ hi)]
      simp only [dif_pos hi]
      exact (key i hi).2.choose_spec.choose_spec.1
    · intro i hi
      rw [d2, hs] at hi
      rw [d3 i (hs.symm ▸ hi), ht' i (hs.symm ▸ hi), hwv i (hw ▸ hi), hpv i (hp ▸ hi)]
      simp only [dif_pos hi]
      exact (key i hi).2.choose_spec.choose_spec.2.1
    · intro i hi
      simp only [dif_pos hi]
      exact (key i hi).2.choose_spec.choose_spec.2.2

example : ∃ r r' v v', relhumIce (constArg .list [2] 250) (constArg .list [2] 0.001) (constArg .list [2] 50000) = .ok r ∧
    relhumIce (constArg .list [2] 251) (constArg .list [2] 0.001) (constArg .list [2] 50000) = .ok r' ∧ HasReals r.val v ∧ HasReals r'.val v' ∧
    ∀ i, InBounds [2] i → v' i < v i :=
  (C48_calls_decreasing (constArg .list [2] 250) (constArg .list [2] 251) (constArg .list [2] 0.001) (constArg .list [2] 50000) rfl rfl rfl rfl rfl rfl
    (fun _ => 250) (fun _ => 251) (fun _ => 0.001) (fun _ => 50000) (fun _ _ => rfl) (fun _ _ => rfl) (fun _ _ => rfl) (fun _ _ => rfl)
    (fun _ _ => by norm_num)).1

/-! ### heat_index -/

/-- C49, C50. The values of a call of heat_index with real temperatures and humidities in [0,100]: below 40 F the temperature; otherwise a number, which is
the documented one unless the default coefficients are used, the temperature is at least 80 F, humidity is below 13 % and the simple index is below 79. -/
theorem C49_call_values (alt : Bool) (t rh : Arg (XF ℝ)) (hty : t.ty = rh.ty) (hs : t.val.shape = rh.val.shape)
    (hne : ∃ i, InBounds t.val.shape i) (T R : List ℕ → ℝ) (ht : HasReals t.val T) (hr : HasReals rh.val R)
    (hR : ∀ i, InBounds t.val.shape i → 0 ≤ R i ∧ R i ≤ 100) :
    ∃ wn r v, heatIndex alt t rh = .ok (wn, r) ∧ r.val.shape = t.val.shape ∧ HasReals r.val v ∧
      (wn = true ↔ ∀ i, InBounds t.val.shape i → R i ≤ 1) ∧ ∀ i, InBounds t.val.shape i →
        (T i < 40 → v i = T i) ∧
        (v i = hiDocumented alt (T i) (R i) ↔ ¬ (alt = false ∧ 80 ≤ T i ∧ R i < 13 ∧ hiSimple (T i) (R i) < 79)) := by
  have hrange : HumidityInRange rh.val := by
    intro i hi
    have := hR i (hs.symm ▸ hi)
    rw [hr i hi]
    simp only [lt_fin, decide_eq_false_iff_not, not_lt]
    exact this
  have hnan : rh.ty = .dataArray ∨ ∀ i, InBounds rh.val.shape i → (rh.val.get i).isNaN = false :=
    Or.inr (fun i hi => by rw [hr i hi]; rfl)
  obtain ⟨wn, r, h1, h2, h3⟩ := (C49_range_check_partial alt t rh hty hs (hs ▸ hne) hnan).2 hrange
  refine ⟨wn, r, fun i => hiCode alt (T i) (R i), h1, h2, ?_, ?_, ?_⟩
  · intro i hi
    rw [h2] at hi
    rw [h3 i hi, ht i hi, hr i (hs ▸ hi), heatIndexPoint_fin]
  · have hw : wn = le (reduceMax (decide (rh.ty = .dataArray)) rh.val.values) (fin 1) := by
      obtain ⟨q, e1, -, -⟩ := zip_same (heatIndexPoint alt) t.val rh.val hs
      unfold heatIndex at h1
      rw [if_neg (by simp [hty]), if_neg (by simp [hs])] at h1
      rw [e1] at h1
      simp only [Except.map] at h1
      by_cases hv : rh.val.values = []
      · rw [if_pos hv] at h1
        cases h1
      · rw [if_neg hv] at h1
        by_cases hc : (reduceMin (decide (rh.ty = .dataArray)) rh.val.values).lt (fin 0) = true ∨
            (fin 100).lt (reduceMax (decide (rh.ty = .dataArray)) rh.val.values) = true
        · rw [if_pos hc] at h1
          cases h1
        · rw [if_neg hc] at h1
          injection h1 with h1
          exact (congrArg Prod.fst h1).symm
    have hmax := reduceMax_lt (decide (rh.ty = .dataArray)) rh.val.values (fin 1)
      (Or.inr (by intro x hx; obtain ⟨i, hi, rfl⟩ := mem_values.mp hx; rw [hr i hi]; rfl))
    have hfin : ∃ m, reduceMax (decide (rh.ty = .dataArray)) rh.val.values = fin m := by
      have hall : ∀ x ∈ rh.val.values, ∃ y, x = fin y := by
        intro x hx
        obtain ⟨i, hi, rfl⟩ := mem_values.mp hx
        exact ⟨_, hr i hi⟩
      have hnn : rh.val.values ≠ [] := by
        obtain ⟨i, hi⟩ := hne
        exact List.ne_nil_of_mem (mem_values.mpr ⟨i, hs ▸ hi, rfl⟩)
      generalize rh.val.values = l at hall hnn
      have hfil : (if decide (rh.ty = .dataArray) = true then l.filter (fun x => !x.isNaN) else l) = l := by
        split_ifs
        · rw [List.filter_eq_self]
          intro x hx
          obtain ⟨y, rfl⟩ := hall x hx
          rfl
        · rfl
      have hany : l.any XF.isNaN = false := by
        rw [List.any_eq_false]
        intro x hx
        obtain ⟨y, rfl⟩ := hall x hx
        simp
      unfold reduceMax
      simp only [hfil, hany]
      cases l with
      | nil => exact absurd rfl hnn
      | cons x xs =>
        have : ∀ (xs : List (XF ℝ)) (a : ℝ), (∀ x ∈ xs, ∃ y, x = fin y) → ∃ m, xs.foldl (fun a b => sel (lt a b) b a) (fin a) = fin m := by
          intro xs
          induction xs with
          | nil => exact fun a _ => ⟨a, rfl⟩
          | cons b xs ih =>
            intro a hb
            obtain ⟨y, rfl⟩ := hb _ (List.mem_cons_self ..)
            rw [List.foldl_cons]
            have : sel (lt (fin a) (fin y)) (fin y) (fin a) = fin y ∨ sel (lt (fin a) (fin y)) (fin y) (fin a) = fin a := by
              unfold sel
              split_ifs
              · exact Or.inl rfl
              · exact Or.inr rfl
            rcases this with h | h
            · rw [h]
              exact ih y (fun x hx => hb x (List.mem_cons_of_mem _ hx))
            · rw [h]
              exact ih a (fun x hx => hb x (List.mem_cons_of_mem _ hx))
        obtain ⟨y, rfl⟩ := hall x (List.mem_cons_self ..)
        exact this xs y (fun x hx => hall x (List.mem_cons_of_mem _ hx))
    obtain ⟨m, hm⟩ := hfin
    rw [hw, hm]
    rw [hm, lt_fin] at hmax
    simp only [le_fin, decide_eq_true_eq]
    rw [← not_lt, ← decide_eq_false_iff_not, hmax, List.any_eq_false]
    constructor
    · intro h i hi
      have := h _ (mem_values.mpr ⟨i, hs ▸ hi, rfl⟩)
      rw [hr i (hs ▸ hi)] at this
      simpa using this
    · intro h x hx
      obtain ⟨i, hi, rfl⟩ := mem_values.mp hx
      rw [hr i hi]
      simpa using h i (hs.symm ▸ hi)
  · intro i hi
    refine ⟨fun h => ?_, hiCode_eq_iff alt _ _ (hR i hi).1⟩
    simp [hiCode, h]

example : ∃ wn r v, heatIndex false (constArg .ndarray [2] 95) (constArg .ndarray [2] 60) = .ok (wn, r) ∧ HasReals r.val v ∧
    v [1] = hiDocumented false 95 60 := by
  obtain ⟨wn, r, v, h1, -, h2, -, h3⟩ := C49_call_values false (constArg .ndarray [2] 95) (constArg .ndarray [2] 60) rfl rfl ⟨[0], by simp [InBounds, constArg]⟩
    (fun _ => 95) (fun _ => 60) (fun _ _ => rfl) (fun _ _ => rfl) (fun _ _ => by norm_num)
  exact ⟨wn, r, v, h1, h2, ((h3 [1] (by simp [InBounds, constArg])).2).mpr (by norm_num)⟩

/-- C50, stated for calls: on one point (default coefficients, 80 F, 0 %) heat_index does not return the documented value. -/
theorem C50_call_counterexample :
    ∃ wn r v, heatIndex false (constArg .ndarray [1] 80) (constArg .ndarray [1] 0) = .ok (wn, r) ∧ r.val.get [0] = fin v ∧ v ≠ hiDocumented false 80 0 := by
  have h0 : InBounds [1] [0] := by simp [InBounds]
  obtain ⟨wn, r, v, h1, hsh, h2, -, h3⟩ := C49_call_values false (constArg .ndarray [1] 80) (constArg .ndarray [1] 0) rfl rfl ⟨[0], by simp [InBounds, constArg]⟩
    (fun _ => 80) (fun _ => 0) (fun _ _ => rfl) (fun _ _ => rfl) (fun _ _ => by norm_num)
  refine ⟨wn, r, v [0], h1, h2 [0] (by rw [hsh]; exact h0), ?_⟩
  intro h
  exact ((h3 [0] h0).2).mp h ⟨rfl, le_rfl, by norm_num, by norm_num [hiSimple]⟩

/-! ### max_daylight -/

theorem hourArg_eq (d l : ℝ) : hourArg d l = cosSunset d l := by
  unfold hourArg cosSunset decR declination
  rw [show 2 * Real.pi / 365 * d = 2 * Real.pi * d / 365 by ring, show l * (Real.pi / 180) = l * Real.pi / 180 by ring]
  ring

/-- C51. The values of a call of max_daylight, for latitudes up to 66 degrees: the FAO 56 formula, a number of hours strictly between 0 and 24, in a table
with the days as rows; 12 hours on the equator; hours at opposite latitudes add up to 24. -/
theorem C51_call_values (jday lat : Tensor (XF ℝ)) (n m : ℕ) (hn : jday.shape = [n]) (hm : lat.shape = [m]) (D L : List ℕ → ℝ)
    (hD : HasReals jday D) (hL : HasReals lat L) (h66 : ∀ j, j < m → |L [j]| ≤ 66) :
    ∃ wn r v, maxDaylight jday lat = .ok (wn, r) ∧ r.shape = [n, m] ∧ HasReals r v ∧ ∀ i j, i < n → j < m →
      v [i, j] = 24 / Real.pi * Real.arccos (cosSunset (D [i]) (L [j])) ∧ 0 < v [i, j] ∧ v [i, j] < 24 ∧ (L [j] = 0 → v [i, j] = 12) ∧
      ∀ j', j' < m → L [j'] = -L [j] → v [i, j] + v [i, j'] = 24 := by
  obtain ⟨wn, r, h1, h2, h3⟩ := (C51_table_layout jday lat).1 ⟨n, m, hn, hm⟩
  have hsh : r.shape = [n, m] := by rw [h2, hn, hm]; rfl
  have hval : ∀ i j, i < n → j < m → r.get [i, j] = fin (24 / Real.pi * Real.arccos (cosSunset (D [i]) (L [j]))) := by
    intro i j hi hj
    rw [h3 i j (by rw [hsh]; simp [InBounds, hi, hj]), hD [i] (by rw [hn]; simp [InBounds, hi]), hL [j] (by rw [hm]; simp [InBounds, hj]),
      daylightPoint_fin (h66 j hj), hourArg_eq]
  refine ⟨wn, r, fun x => 24 / Real.pi * Real.arccos (cosSunset (D [x.getD 0 0]) (L [x.getD 1 0])), h1, hsh, ?_, ?_⟩
  · intro x hx
    rw [hsh] at hx
    cases hx with
    | cons a hx => cases hx with
      | cons b hx => cases hx with
        | nil => exact hval _ _ a b
  · intro i j hi hj
    have hb := C51_defined_up_to_66 (D [i]) (L [j]) (h66 j hj)
    rw [daylightPoint_fin (h66 j hj), hourArg_eq] at hb
    obtain ⟨x, hx, k1, k2⟩ := hb
    injection hx with hx
    refine ⟨rfl, by simpa [hx] using k1, by simpa [hx] using k2, ?_, ?_⟩
    · intro h0
      have := C51_equator (D [i])
      rw [daylightPoint_fin (by simp), hourArg_eq] at this
      injection this with this
      simpa [h0] using this
    · intro j' hj' hneg
      simp only [List.getD_cons_zero, List.getD_cons_succ]
      rw [hneg, ← hourArg_eq, ← hourArg_eq, hourArg_neg, hours_neg]
      ring

example : ∃ wn r v, maxDaylight ⟨[1], fun _ => fin 100⟩ ⟨[2], fun i => fin (if i = [0] then 40 else -40)⟩ = .ok (wn, r) ∧ HasReals r v ∧
    v [0, 0] + v [0, 1] = 24 := by
  obtain ⟨wn, r, v, h1, -, h2, h3⟩ := C51_call_values ⟨[1], fun _ => fin 100⟩ ⟨[2], fun i => fin (if i = [0] then 40 else -40)⟩ 1 2 rfl rfl (fun _ => 100)
    (fun i => if i = [0] then 40 else -40) (fun _ _ => rfl) (fun _ _ => rfl) (by
      intro j _
      split_ifs <;> norm_num [abs_of_neg])
  exact ⟨wn, r, v, h1, h2, (h3 0 0 (by norm_num) (by norm_num)).2.2.2.2 1 (by norm_num) (by norm_num)⟩

/-- C79, exactly: for a non-empty list of real latitudes, the "not possible" warning is given iff all of them lie beyond 66 degrees, the "limited validity"
warning iff all of them lie beyond 55 but none beyond 66, and otherwise none is given. -/
theorem C79_exact (jday lat : Tensor (XF ℝ)) (n m : ℕ) (hn : jday.shape = [n]) (hm : lat.shape = [m]) (h0 : 0 < m) (L : List ℕ → ℝ) (hL : HasReals lat L) :
    ∃ wn r, maxDaylight jday lat = .ok (wn, r) ∧
      (wn = some .notPossible ↔ ∀ j < m, 66 < |L [j]|) ∧
      (wn = some .limitedValidity ↔ ∀ j < m, 55 < |L [j]| ∧ |L [j]| ≤ 66) ∧
      (wn = none ↔ (∃ j < m, |L [j]| ≤ 55) ∨ (∃ j < m, |L [j]| ≤ 66) ∧ ∃ j < m, 66 < |L [j]|) := by
  have hvals : lat.values = (List.range m).map (fun k : ℕ => fin (L [k])) := by
    rw [values_vec lat m hm]
    apply List.map_congr_left
    intro k hk
    exact hL [k] (by rw [hm]; simp [InBounds, List.mem_range.mp hk])
  have e1 : (lat.values.all (fun l => lt (fin 55) (XF.abs l)) = true) ↔ ∀ j < m, 55 < |L [j]| := by rw [hvals]; simp
  have e2 : (lat.values.all (fun l => le (XF.abs l) (fin 66)) = true) ↔ ∀ j < m, |L [j]| ≤ 66 := by rw [hvals]; simp
  have e3 : (lat.values.all (fun l => lt (fin 66) (XF.abs l)) = true) ↔ ∀ j < m, 66 < |L [j]| := by rw [hvals]; simp
  unfold maxDaylight
  rw [if_neg (by simp [hn, hm])]
  refine ⟨_, _, rfl, ?_⟩
  unfold daylightWarning
  simp only [Bool.and_eq_true, e1, e2, e3]
  by_cases c1 : (∀ j < m, 55 < |L [j]|) ∧ ∀ j < m, |L [j]| ≤ 66
  · rw [if_pos c1]
    refine ⟨⟨fun h => by simp at h, fun h => ?_⟩, ⟨fun _ j hj => ⟨c1.1 j hj, c1.2 j hj⟩, fun _ => rfl⟩, ⟨fun h => by simp at h, ?_⟩⟩
    · exact absurd (c1.2 0 h0) (not_le.mpr (h 0 h0))
    · rintro (⟨j, hj, h⟩ | ⟨-, j, hj, h⟩)
      · exact absurd (c1.1 j hj) (not_lt.mpr h)
      · exact absurd (c1.2 j hj) (not_le.mpr h)
  · rw [if_neg c1]
    by_cases c2 : ∀ j < m, 66 < |L [j]|
    · rw [if_pos c2]
      refine ⟨⟨fun _ => c2, fun _ => rfl⟩, ⟨fun h => by simp at h, fun h => absurd (h 0 h0).2 (not_le.mpr (c2 0 h0))⟩, ⟨fun h => by simp at h, ?_⟩⟩
      rintro (⟨j, hj, h⟩ | ⟨⟨j, hj, h⟩, -⟩)
      · linarith [c2 j hj]
      · linarith [c2 j hj]
    · rw [if_neg c2]
      refine ⟨⟨fun h => by simp at h, fun h => absurd h c2⟩, ⟨fun h => by simp at h, fun h => absurd ⟨fun j hj => (h j hj).1, fun j hj => (h j hj).2⟩ c1⟩,
        ⟨fun _ => ?_, fun _ => rfl⟩⟩
      push Not at c2
      by_cases c3 : ∀ j < m, 55 < |L [j]|
      · right
        refine ⟨c2, ?_⟩
        by_contra hc
        push Not at hc
        exact c1 ⟨c3, hc⟩
      · left
        push Not at c3
        exact c3

example : ∃ wn r, maxDaylight ⟨[1], fun _ => fin 100⟩ ⟨[2], fun i => fin (if i = [0] then 60 else 70)⟩ = .ok (wn, r) ∧ wn = none := by
  obtain ⟨wn, r, h, -, -, h3⟩ := C79_exact ⟨[1], fun _ => fin 100⟩ ⟨[2], fun i => fin (if i = [0] then 60 else 70)⟩ 1 2 rfl rfl (by norm_num)
    (fun i => if i = [0] then 60 else 70) (fun _ _ => rfl)
  exact ⟨wn, r, h, h3.mpr (Or.inr ⟨⟨0, by norm_num, by norm_num [abs_of_pos]⟩, ⟨1, by norm_num, by norm_num [abs_of_pos]⟩⟩)⟩

/-! ### saturation vapour pressure, its slope, psychrometric constant -/

theorem fao56_eq (f : ℝ) : fao56 f = tetensC ((f - 32) * 5 / 9) := rfl

/-- C52. The values of calls of saturation_vapor_pressure and actual_saturation_vapor_pressure: the FAO 56 formula above freezing, the fill value at and
below freezing and for a missing temperature. -/
theorem C52_call_values (t : Arg (XF ℝ)) (tfill : XF ℝ) :
    ∀ f ∈ [saturationVaporPressure t tfill, actualSaturationVaporPressure t tfill], f.val.shape = t.val.shape ∧
      (f.ty = .dataArray ↔ t.ty = .dataArray) ∧ ∀ i, InBounds t.val.shape i →
        (t.val.get i = nan → f.val.get i = tfill) ∧
        ∀ x, t.val.get i = fin x → (x ≤ 32 → f.val.get i = tfill) ∧ (32 < x → f.val.get i = fin (fao56 x) ∧ 0.6108 < fao56 x) := by
  intro f hf
  have hf' : f = saturationVaporPressure t tfill := by
    simp only [List.mem_cons, List.not_mem_nil, or_false] at hf
    rcases hf with rfl | rfl <;> rfl
  subst hf'
  refine ⟨rfl, by unfold saturationVaporPressure; simp, fun i _ => ?_⟩
  have hv : (saturationVaporPressure t tfill).val.get i = svpPoint tfill (t.val.get i) := rfl
  refine ⟨fun h => ?_, fun x hx => ⟨fun h => ?_, fun h => ⟨?_, ?_⟩⟩⟩
  · rw [hv, h]
    exact (C52_fill_and_bound tfill 0).2.1
  · rw [hv, hx, svpPoint_below tfill h]
  · rw [hv, hx, svpPoint_above tfill h]
    rfl
  · rw [fao56_eq]
    exact tetensC_gt (by linarith)

/-- C52. Warmer air has the strictly larger saturation pressure: two calls with temperatures above freezing. -/
theorem C52_calls_increasing (t t' : Arg (XF ℝ)) (tfill : XF ℝ) (hs : t.val.shape = t'.val.shape) (T T' : List ℕ → ℝ) (ht : HasReals t.val T)
    (ht' : HasReals t'.val T') (h : ∀ i, InBounds t.val.shape i → 32 < T i ∧ T i < T' i) :
    HasReals (saturationVaporPressure t tfill).val (fun i => fao56 (T i)) ∧ HasReals (saturationVaporPressure t' tfill).val (fun i => fao56 (T' i)) ∧
      ∀ i, InBounds t.val.shape i → fao56 (T i) < fao56 (T' i) := by
  refine ⟨fun i hi => ?_, fun i hi => ?_, fun i hi => ?_⟩
  · exact ((((C52_call_values t tfill _ (List.mem_cons_self ..)).2.2 i hi).2 _ (ht i hi)).2 (h i hi).1).1
  · exact ((((C52_call_values t' tfill _ (List.mem_cons_self ..)).2.2 i hi).2 _ (ht' i hi)).2 ((h i (hs ▸ hi)).1.trans (h i (hs ▸ hi)).2)).1
  · rw [fao56_eq, fao56_eq]
    exact tetensC_strictMono (by linarith [(h i hi).1]) (by linarith [(h i hi).2])

example : fao56 50 < fao56 90 :=
  (C52_calls_increasing (constArg .ndarray [2] 50) (constArg .ndarray [2] 90) nan rfl (fun _ => 50) (fun _ => 90) (fun _ _ => rfl) (fun _ _ => rfl)
    (fun _ _ => by norm_num)).2.2 [0] (by simp [InBounds, constArg])

/-- C53. The values of a call of saturation_vapor_pressure_slope against the derivative, per kelvin, of the curve that saturation_vapor_pressure returns:
above freezing they are `4096/4098.171` of it; at and below freezing the fill value. Missing from the full property: equality. -/
theorem C53_call_values_partial (t : Arg (XF ℝ)) (tfill : XF ℝ) :
    (saturationVaporPressureSlope t tfill).val.shape = t.val.shape ∧
    ((saturationVaporPressureSlope t tfill).ty = .dataArray ↔ t.ty = .dataArray) ∧
    ∀ i x, InBounds t.val.shape i → t.val.get i = fin x →
      (x ≤ 32 → (saturationVaporPressureSlope t tfill).val.get i = tfill) ∧
      (32 < x → ∃ m, HasDerivAt (fun k => fao56 (32 + 9 / 5 * k)) m ((x - 32) * 5 / 9) ∧ 0 < m ∧
        (saturationVaporPressureSlope t tfill).val.get i = fin (4096 / 4098.171 * m)) := by
  refine ⟨rfl, by unfold saturationVaporPressureSlope; simp, fun i x _ hx => ⟨fun h => ?_, fun h => ?_⟩⟩
  · show svpSlopePoint tfill (t.val.get i) = _
    rw [hx, C53_fill tfill x h]
  · set c := (x - 32) * 5 / 9 with hc
    have hc0 : 0 < c := by rw [hc]; linarith
    have hpos : 0 < tetensC c / (c + 237.3) ^ 2 := by
      have := tetensC_gt hc0
      have h2 : 0 < c + 237.3 := by linarith
      exact div_pos (by linarith) (by positivity)
    refine ⟨17.27 * 237.3 * (tetensC c / (c + 237.3) ^ 2), ?_, by positivity, ?_⟩
    · refine (tetensC_deriv hc0).congr_of_eventuallyEq (Filter.Eventually.of_forall fun k => ?_)
      show fao56 (32 + 9 / 5 * k) = tetensC k
      rw [fao56_eq]
      congr 1
      ring
    · show svpSlopePoint tfill (t.val.get i) = _
      rw [hx, svpSlopePoint_above tfill h, ← hc]
      congr 1
      norm_num
      ring

example : ∃ m, HasDerivAt (fun k => fao56 (32 + 9 / 5 * k)) m ((50 - 32) * 5 / 9) ∧ 0 < m ∧
    (saturationVaporPressureSlope (constArg .ndarray [2] 50)).val.get [0] = fin (4096 / 4098.171 * m) :=
  ((C53_call_values_partial (constArg .ndarray [2] 50) nan).2.2 [0] 50 (by simp [InBounds, constArg]) rfl).2 (by norm_num)

/-- C54. Linear: the call on a combination of two pressure arrays is the combination of the two calls, and every value is 0.66474e-3 times the pressure. -/
theorem C54_calls_linear (x y z : Arg (XF ℝ)) (X Y : List ℕ → ℝ) (a b : ℝ)
    (hX : HasReals x.val X) (hY : HasReals y.val Y) (hZ : HasReals z.val (fun i => a * X i + b * Y i)) :
    ∃ u v : List ℕ → ℝ, HasReals (psychrometricConstant x).val u ∧ HasReals (psychrometricConstant y).val v ∧
      HasReals (psychrometricConstant z).val (fun i => a * u i + b * v i) ∧ ∀ i, u i = 0.66474e-3 * X i := by
  have key : ∀ (p : Arg (XF ℝ)) (f : List ℕ → ℝ), HasReals p.val f → HasReals (psychrometricConstant p).val (fun i => 0.66474e-3 * f i) := by
    intro p f hf i hi
    rw [(C54_elementwise p).2 i, hf i hi, fin_mul]
  refine ⟨_, _, key x X hX, key y Y hY, ?_, fun _ => rfl⟩
  intro i hi
  rw [key z _ hZ i hi]
  congr 1
  ring

example : ∃ u v : List ℕ → ℝ, HasReals (psychrometricConstant (constArg .list [2] 100)).val u ∧ HasReals (psychrometricConstant (constArg .list [2] 50)).val v ∧
    HasReals (psychrometricConstant (constArg .list [2] 250)).val (fun i => 2 * u i + 1 * v i) ∧ ∀ i : List ℕ, u i = 0.66474e-3 * 100 :=
  C54_calls_linear (constArg .list [2] 100) (constArg .list [2] 50) (constArg .list [2] 250) (fun _ => 100) (fun _ => 50) 2 1
    (fun _ _ => rfl) (fun _ _ => rfl) (fun _ _ => by norm_num [constArg])

/-! ### C56 -/

/-- C56. dewtemp rejects a DataArray together with anything else. -/
theorem C56_dewtemp_mixed_rejected (t rh : Arg (XF ℝ)) (h : ¬ (t.ty = .dataArray ↔ rh.ty = .dataArray)) : dewtemp t rh = .error .typeError := by
  unfold dewtemp
  rw [if_pos (by tauto), if_pos (by tauto)]

example : dewtemp (constArg .dataArray [2] 300) (constArg .ndarray [2] 50) = .error .typeError :=
  C56_dewtemp_mixed_rejected _ _ (by simp [constArg])

/-- C56. The container that dewtemp and relhum return: a DataArray for DataArrays, otherwise a numpy array or scalar. -/
theorem C56_dewtemp_container (t rh : Arg (XF ℝ)) (r : Arg (XF ℝ)) (h : dewtemp t rh = .ok r) :
    (r.ty = .dataArray ↔ t.ty = .dataArray) ∧ (r.ty = .dataArray ↔ rh.ty = .dataArray) ∧ (r.ty ≠ .dataArray → r.ty = npResultType r.val.shape) := by
  unfold dewtemp at h
  cases hz : Tensor.zip dewtempPoint t.val rh.val with
  | error e => rw [hz] at h; simp only [Except.map] at h; split_ifs at h
  | ok q =>
    rw [hz] at h
    simp only [Except.map] at h
    split_ifs at h with h1 h2
    · injection h with h
      subst h
      push Not at h2
      simp [h2.1, h2.2]
    · injection h with h
      subst h
      push Not at h1
      have : npResultType q.shape ≠ .dataArray := by unfold npResultType; split_ifs <;> simp
      simp [h1.1, h1.2, this]

end Verif.Props
