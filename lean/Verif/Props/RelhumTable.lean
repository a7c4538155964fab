import Verif.Lemmas.RelhumTable
import Verif.Props.PointApi

/-
C118: relhum, which looks the saturation pressure up in a table, agrees with relhum_water and relhum_ice, which use formulas.
-/

set_option linter.unusedSectionVars false
namespace Verif.Props
open Model XF Spec Lemmas Tensor

theorem water_eq (T : ℝ) : 100 * tetensWater T = curve 17.269 35.86 T := by
  unfold tetensWater curve
  rw [← mul_assoc]
  norm_num

theorem ice_eq (T : ℝ) : 100 * magnusIce (T - 273.15) = curve 22.571 (-0.56) T := by
  unfold magnusIce curve
  rw [← mul_assoc]
  have : T - 273.15 + 273.71 = T - (-0.56) := by norm_num; ring
  rw [this]
  norm_num

/-- the lookup at `173.16 + k + s` -/
theorem esR_at {k : ℕ} (hk : k ≤ 201) {s : ℝ} (hs : 0 ≤ s) (hs1 : s ≤ 1) : esR (173.16 + k + s) = 0.1 * ((1 - s) * tab k + s * tab (k + 1)) := by
  have hk' : (k : ℝ) ≤ 201 := by exact_mod_cast hk
  have h0 : (0 : ℝ) ≤ k := Nat.cast_nonneg k
  have hsh : shiftR (173.16 + k + s) = k + s := by
    unfold shiftR
    rw [max_eq_left (by linarith), min_eq_left (by linarith)]
    ring
  unfold esR
  rw [hsh, ← lerpEntry_eq (k := k) (by linarith) (by linarith) (by linarith)]
  unfold lerpEntry tab
  ring

theorem esR_range {a c lo hi : ℚ} (ha : 0 < a) (hc : c < 173) (hlo : 0 ≤ lo) (hhi : 0 ≤ hi) (k0 k1 : ℕ) (hk1 : k1 ≤ 202)
    (hn : ∀ k, k0 ≤ k → k ≤ k1 → nodeOk a c lo hi k = true) {v0 : ℚ} (hv0 : v0 ≤ 0.21)
    (hv : a * (273.15 - c) / ((173.16 + k0 - c) * (173.16 + k0 + 1 - c)) ≤ v0) {T : ℝ} (h1 : 173.16 + k0 ≤ T) (h2 : T ≤ 173.16 + k1) (hlt : k0 < k1) :
    lo * (1 - v0 / (4 * (173.16 + k0 - c))) * curve a c T ≤ esR T ∧ esR T ≤ hi * (1 + v0 ^ 2 / 7) * curve a c T := by
  have ha' : (0 : ℝ) < a := by exact_mod_cast ha
  have hc' : (c : ℝ) < 173 := by exact_mod_cast hc
  have hlo' : (0 : ℝ) ≤ lo := by exact_mod_cast hlo
  have hv0' : (v0 : ℝ) ≤ 0.21 := by
    have : ((v0 : ℚ) : ℝ) ≤ ((0.21 : ℚ) : ℝ) := by exact_mod_cast hv0
    refine this.trans (le_of_eq ?_)
    norm_num
  have hv' : (a : ℝ) * (273.15 - c) / ((173.16 + k0 - c) * (173.16 + k0 + 1 - c)) ≤ v0 := by
    have : ((a * (273.15 - c) / ((173.16 + k0 - c) * (173.16 + k0 + 1 - c)) : ℚ) : ℝ) ≤ ((v0 : ℚ) : ℝ) := by exact_mod_cast hv
    push_cast at this
    refine le_trans (le_of_eq ?_) this
    norm_num
  -- the interval
  obtain ⟨k, e1, e2, e3, e4⟩ : ∃ k : ℕ, k0 ≤ k ∧ k + 1 ≤ k1 ∧ 173.16 + (k : ℝ) ≤ T ∧ T ≤ 173.16 + k + 1 := by
    have hT0 : 0 ≤ T - 173.16 := by linarith [Nat.cast_nonneg (α := ℝ) k0]
    by_cases hlast : T = 173.16 + k1
    · refine ⟨k1 - 1, by omega, by omega, ?_, ?_⟩
      · rw [Nat.cast_sub (by omega), hlast]
        push_cast
        linarith
      · rw [Nat.cast_sub (by omega), hlast]
        push_cast
        linarith
    · have hT1 : T < 173.16 + k1 := lt_of_le_of_ne h2 hlast
      refine ⟨⌊T - 173.16⌋₊, Nat.le_floor (by linarith), ?_, ?_, ?_⟩
      · have : ⌊T - 173.16⌋₊ < k1 := (Nat.floor_lt hT0).mpr (by linarith)
        omega
      · linarith [Nat.floor_le hT0]
      · linarith [Nat.lt_floor_add_one (T - 173.16)]
  have hkk : (k0 : ℝ) ≤ k := by exact_mod_cast e1
  have hk0 : (0 : ℝ) ≤ k0 := Nat.cast_nonneg k0
  have hvk : (a : ℝ) * (273.15 - c) / ((173.16 + k - c) * (173.16 + k + 1 - c)) ≤ v0 := by
    refine le_trans ?_ hv'
    apply div_le_div_of_nonneg_left (mul_nonneg ha'.le (by linarith)) (mul_pos (by linarith) (by linarith))
    apply mul_le_mul (by linarith) (by linarith) (by linarith) (by linarith)
  have n0 := nodeOk_spec hlo hhi (hn k e1 (by omega))
  have n1 := nodeOk_spec hlo hhi (hn (k + 1) (by omega) (by omega))
  push_cast at n1
  have hb := between_nodes (k := k) (s := T - 173.16 - k) ha' hc' hlo' n0 n1 hv0' hvk (by linarith) (by linarith)
  have hT : 173.16 + (k : ℝ) + (T - 173.16 - k) = T := by ring
  rw [← esR_at (by omega) (by linarith) (by linarith), hT] at hb
  refine ⟨le_trans ?_ hb.1, hb.2⟩
  apply mul_le_mul_of_nonneg_right _ (curve_pos _ _ _).le
  apply mul_le_mul_of_nonneg_left _ hlo'
  have hv00 : (0 : ℝ) ≤ v0 := le_trans (div_nonneg (mul_nonneg ha'.le (by linarith)) (mul_nonneg (by linarith) (by linarith))) hv'
  have : (v0 : ℝ) / (4 * (173.16 + k - c)) ≤ v0 / (4 * (173.16 + k0 - c)) :=
    div_le_div_of_nonneg_left hv00 (by linarith) (by linarith)
  linarith

theorem nodes_of {p : ℕ → Bool} {k0 n : ℕ} (h : (List.range n).all (fun j => p (k0 + j)) = true) : ∀ k, k0 ≤ k → k < k0 + n → p k = true := by
  intro k h1 h2
  have := List.all_eq_true.mp h (k - k0) (List.mem_range.mpr (by omega))
  rwa [Nat.add_sub_cancel' h1] at this

theorem water_nodes_1 : (List.range 66).all (fun j => nodeOk 17.269 35.86 0.9979 0.9992 (100 + j)) = true := by decide +kernel
theorem water_nodes_2 : (List.range 38).all (fun j => nodeOk 17.269 35.86 0.9896 0.9981 (165 + j)) = true := by decide +kernel
theorem water_nodes_3 : (List.range 21).all (fun j => nodeOk 17.269 35.86 0 0.9985 (80 + j)) = true := by decide +kernel
theorem ice_nodes_1 : (List.range 21).all (fun j => nodeOk 22.571 (-0.56) 0.9987 1.0069 (0 + j)) = true := by decide +kernel
theorem ice_nodes_2 : (List.range 61).all (fun j => nodeOk 22.571 (-0.56) 0.9968 0.9998 (20 + j)) = true := by decide +kernel
theorem ice_nodes_3 : (List.range 21).all (fun j => nodeOk 22.571 (-0.56) 0.998 1.06 (80 + j)) = true := by decide +kernel

theorem es_water_1 {T : ℝ} (h1 : 273.16 ≤ T) (h2 : T ≤ 338.16) : 0.9978 * (100 * tetensWater T) ≤ esR T ∧ esR T ≤ 100 * tetensWater T := by
  have := esR_range (a := 17.269) (c := 35.86) (lo := 0.9979) (hi := 0.9992) (v0 := 0.0726) (by norm_num) (by norm_num) (by norm_num) (by norm_num) 100 165
    (by norm_num) (fun k a b => nodes_of water_nodes_1 k a (by omega)) (by norm_num) (by norm_num) (T := T) (by norm_num; linarith) (by norm_num; linarith)
    (by norm_num)
  rw [water_eq]
  have hc := curve_pos 17.269 35.86 T
  norm_num at this hc ⊢
  constructor <;> nlinarith [this.1, this.2]

theorem es_water_2 {T : ℝ} (h1 : 338.16 ≤ T) (h2 : T ≤ 375.16) : 0.9895 * (100 * tetensWater T) ≤ esR T ∧ esR T ≤ 100 * tetensWater T := by
  have := esR_range (a := 17.269) (c := 35.86) (lo := 0.9896) (hi := 0.9981) (v0 := 0.0448) (by norm_num) (by norm_num) (by norm_num) (by norm_num) 165 202
    (by norm_num) (fun k a b => nodes_of water_nodes_2 k a (by omega)) (by norm_num) (by norm_num) (T := T) (by norm_num; linarith) (by norm_num; linarith)
    (by norm_num)
  rw [water_eq]
  have hc := curve_pos 17.269 35.86 T
  norm_num at this hc ⊢
  constructor <;> nlinarith [this.1, this.2]

theorem es_mixed {T : ℝ} (h1 : 253.16 ≤ T) (h2 : T ≤ 273.16) : 0.9979 * (100 * magnusIce (T - 273.15)) ≤ esR T ∧ esR T ≤ 100 * tetensWater T := by
  have h := esR_range (a := 17.269) (c := 35.86) (lo := 0) (hi := 0.9985) (v0 := 0.0865) (by norm_num) (by norm_num) (by norm_num) (by norm_num) 80 100
    (by norm_num) (fun k a b => nodes_of water_nodes_3 k a (by omega)) (by norm_num) (by norm_num) (T := T) (by norm_num; linarith) (by norm_num; linarith)
    (by norm_num)
  have h' := esR_range (a := 22.571) (c := -0.56) (lo := 0.998) (hi := 1.06) (v0 := 0.0957) (by norm_num) (by norm_num) (by norm_num) (by norm_num) 80 100
    (by norm_num) (fun k a b => nodes_of ice_nodes_3 k a (by omega)) (by norm_num) (by norm_num) (T := T) (by norm_num; linarith) (by norm_num; linarith)
    (by norm_num)
  rw [water_eq, ice_eq]
  have hc := curve_pos 17.269 35.86 T
  have hc' := curve_pos 22.571 (-0.56) T
  norm_num at h h' hc hc' ⊢
  constructor <;> nlinarith [h.2, h'.1]

theorem es_ice_1 {T : ℝ} (h1 : 173.16 ≤ T) (h2 : T ≤ 193.16) :
    0.9984 * (100 * magnusIce (T - 273.15)) ≤ esR T ∧ esR T ≤ 1.013 * (100 * magnusIce (T - 273.15)) := by
  have h' := esR_range (a := 22.571) (c := -0.56) (lo := 0.9987) (hi := 1.0069) (v0 := 0.2036) (by norm_num) (by norm_num) (by norm_num) (by norm_num) 0 20
    (by norm_num) (fun k a b => nodes_of ice_nodes_1 k a (by omega)) (by norm_num) (by norm_num) (T := T) (by norm_num; linarith) (by norm_num; linarith)
    (by norm_num)
  rw [ice_eq]
  have hc' := curve_pos 22.571 (-0.56) T
  norm_num at h' hc' ⊢
  constructor <;> nlinarith [h'.2, h'.1]

theorem es_ice_2 {T : ℝ} (h1 : 193.16 ≤ T) (h2 : T ≤ 253.16) :
    0.9965 * (100 * magnusIce (T - 273.15)) ≤ esR T ∧ esR T ≤ 1.004 * (100 * magnusIce (T - 273.15)) := by
  have h' := esR_range (a := 22.571) (c := -0.56) (lo := 0.9968) (hi := 0.9998) (v0 := 0.1639) (by norm_num) (by norm_num) (by norm_num) (by norm_num) 20 80
    (by norm_num) (fun k a b => nodes_of ice_nodes_2 k a (by omega)) (by norm_num) (by norm_num) (T := T) (by norm_num; linarith) (by norm_num; linarith)
    (by norm_num)
  rw [ice_eq]
  have hc' := curve_pos 22.571 (-0.56) T
  norm_num at h' hc' ⊢
  constructor <;> nlinarith [h'.2, h'.1]

/-- the formula's relative humidity in the form of the table's -/
theorem rh_formula {e p : ℝ} (he : 0 < e) (hp : 0.378 * e < p / 100) (w : ℝ) :
    100 * (w / satMixingRatio e (p / 100)) = w * (p / (100 * e) - 0.378) * (100 / 0.622) := by
  unfold satMixingRatio
  have : p / 100 - 0.378 * e ≠ 0 := by linarith
  field_simp

/-- an error of the saturation pressure as an error of the relative humidity, below boiling -/
theorem rh_upper {e1 e2 w p α A : ℝ} (hα : 0 < α) (hα1 : α ≤ 1) (h : α * e2 ≤ e1) (h2 : 0 < e2) (hp : e2 ≤ p) (hw : 0 ≤ w) (hA : 1 / α - 0.378 ≤ 0.622 * A)
    (hA2 : 1 / α ≤ A) :
    (w * (p - 0.378 * e1) / (0.622 * e1)) * 100 ≤ A * (w * (p / e2 - 0.378) * (100 / 0.622)) := by
  have h1 : 0 < e1 := lt_of_lt_of_le (by positivity) h
  rw [rh_inner h1]
  have hx : 1 ≤ p / e2 := by rw [le_div_iff₀ h2]; linarith
  have e : p / e1 ≤ p / e2 * (1 / α) := by
    rw [div_mul_div_comm, mul_one]
    apply div_le_div_of_nonneg_left (by linarith) (by positivity) (by linarith)
  have key : p / e1 - 0.378 ≤ A * (p / e2 - 0.378) := by nlinarith
  have : (w * p / e1 - 0.378 * w) = w * (p / e1 - 0.378) := by ring
  rw [this]
  calc w * (p / e1 - 0.378) * (100 / 0.622) ≤ w * (A * (p / e2 - 0.378)) * (100 / 0.622) := by
        apply mul_le_mul_of_nonneg_right _ (by norm_num)
        exact mul_le_mul_of_nonneg_left key hw
    _ = _ := by ring

theorem rh_lower {e1 e2 w p β B : ℝ} (hβ : 1 ≤ β) (h : e1 ≤ β * e2) (h1 : 0 < e1) (h2 : 0 < e2) (hp : e2 ≤ p) (hw : 0 ≤ w)
    (hB : 0.622 * B ≤ 1 / β - 0.378) (hB2 : B ≤ 1 / β) :
    B * (w * (p / e2 - 0.378) * (100 / 0.622)) ≤ (w * (p - 0.378 * e1) / (0.622 * e1)) * 100 := by
  rw [rh_inner h1]
  have hx : 1 ≤ p / e2 := by rw [le_div_iff₀ h2]; linarith
  have e : p / e2 * (1 / β) ≤ p / e1 := by
    rw [div_mul_div_comm, mul_one]
    apply div_le_div_of_nonneg_left (by linarith) h1 (by linarith)
  have key : B * (p / e2 - 0.378) ≤ p / e1 - 0.378 := by nlinarith
  have : (w * p / e1 - 0.378 * w) = w * (p / e1 - 0.378) := by ring
  rw [this]
  calc B * (w * (p / e2 - 0.378) * (100 / 0.622)) = w * (B * (p / e2 - 0.378)) * (100 / 0.622) := by ring
    _ ≤ _ := by
        apply mul_le_mul_of_nonneg_right _ (by norm_num)
        exact mul_le_mul_of_nonneg_left key hw

/-- what the two humidity functions return at a point -/
theorem relhum_call (t w p : Arg (XF ℝ)) (hw : t.val.shape = w.val.shape) (hp : t.val.shape = p.val.shape) (T W P : List ℕ → ℝ)
    (ht : HasReals t.val T) (hwv : HasReals w.val W) (hpv : HasReals p.val P) :
    ∃ r, relhum t w p = .ok r ∧ r.val.shape = t.val.shape ∧ HasReals r.val (fun i => rhR (esR (T i)) (W i) (P i)) := by
  obtain ⟨r, h1, h2, h3⟩ := C46_never_out_of_table t w p hw hp (fun i hi => by rw [ht i hi]; simp)
  refine ⟨r, h1, h2, ?_⟩
  intro i hi
  rw [h2] at hi
  have := h3 i hi
  rw [ht i hi, hwv i (hw ▸ hi), hpv i (hp ▸ hi), relhumPoint_fin] at this
  injection this with this
  exact this.symm

/-- C118, above 253.16 K (-20 C): for inputs of one type and shape, with mixing ratios not negative and water not boiling, relhum is never below
relhum_water; from 273.16 K to 338.16 K (0 C to 65 C) it exceeds it by at most 0.36 %, up to 375.16 K (102 C) by at most 1.71 %. (Both up to the least
value 0.0001 that relhum returns.) -/
theorem C118_water (t w p : Arg (XF ℝ)) (h1 : t.ty = w.ty) (h2 : w.ty = p.ty) (hw : t.val.shape = w.val.shape) (hp : t.val.shape = p.val.shape)
    (T W P : List ℕ → ℝ) (ht : HasReals t.val T) (hwv : HasReals w.val W) (hpv : HasReals p.val P)
    (h : ∀ i, InBounds t.val.shape i → 253.16 ≤ T i ∧ T i ≤ 375.16 ∧ 0 ≤ W i ∧ 100 * tetensWater (T i) ≤ P i) :
    ∃ r rw v vw, relhum t w p = .ok r ∧ relhumWater t w p = .ok rw ∧ HasReals r.val v ∧ HasReals rw.val vw ∧ r.val.shape = t.val.shape ∧
      rw.val.shape = t.val.shape ∧ ∀ i, InBounds t.val.shape i →
        0 ≤ vw i ∧ max (vw i) 0.0001 ≤ v i ∧ (273.16 ≤ T i → T i ≤ 338.16 → v i ≤ max (1.0036 * vw i) 0.0001) ∧
        (338.16 ≤ T i → v i ≤ max (1.0171 * vw i) 0.0001) := by
  obtain ⟨r, e1, e2, e3⟩ := relhum_call t w p hw hp T W P ht hwv hpv
  obtain ⟨-, ⟨rw', b1, b2, b3⟩⟩ := C48_elementwise t w p h1 h2 hw hp
  have h01 : ∀ x : ℝ, x * 0.01 = x / 100 := by intro x; norm_num; ring
  have hlt : ∀ i, InBounds t.val.shape i → 0.378 * tetensWater (T i) < P i / 100 := by
    intro i hi
    have := (h i hi).2.2.2
    have := tetensWater_pos (T i)
    linarith
  refine ⟨r, rw', _, fun i => W i * (P i / (100 * tetensWater (T i)) - 0.378) * (100 / 0.622), e1, b1, e3, ?_, e2, b2, ?_⟩
  · intro i hi
    rw [b2] at hi
    obtain ⟨k1, k2, k3, k4⟩ := h i hi
    rw [b3 i hi, ht i hi, hwv i (hw ▸ hi), hpv i (hp ▸ hi), C48_water_ratio _ _ _ (by linarith) (by rw [h01]; exact hlt i hi), h01,
      rh_formula (tetensWater_pos _) (hlt i hi)]
  · intro i hi
    obtain ⟨k1, k2, k3, k4⟩ := h i hi
    have hpos := tetensWater_pos (T i)
    have hpos' : 0 < 100 * tetensWater (T i) := by positivity
    have hx : 1 ≤ P i / (100 * tetensWater (T i)) := by rw [le_div_iff₀ hpos']; linarith
    have hle : esR (T i) ≤ 100 * tetensWater (T i) := by
      rcases le_total (T i) 273.16 with a | a
      · exact (es_mixed k1 a).2
      · rcases le_total (T i) 338.16 with b | b
        · exact (es_water_1 a b).2
        · exact (es_water_2 b k2).2
    refine ⟨?_, ?_, fun a b => ?_, fun a => ?_⟩
    · have : 0 ≤ P i / (100 * tetensWater (T i)) - 0.378 := by linarith
      positivity
    · apply max_le_max_right
      have := rh_lower (β := 1) (B := 1) (w := W i) le_rfl (by linarith) (esR_pos (T i)) hpos' k4 k3 (by norm_num) (by norm_num)
      rwa [one_mul] at this
    · apply max_le_max_right
      exact rh_upper (α := 0.9978) (by norm_num) (by norm_num) (es_water_1 a b).1 hpos' k4 k3 (by norm_num) (by norm_num)
    · apply max_le_max_right
      exact rh_upper (α := 0.9895) (by norm_num) (by norm_num) (es_water_2 a k2).1 hpos' k4 k3 (by norm_num) (by norm_num)

/-- C118, below 273.16 K: with mixing ratios not negative and a pressure above the saturation pressure over ice, relhum exceeds relhum_ice by at most
0.57 %; from 193.16 K to 253.16 K (-80 C to -20 C) it is below it by at most 0.65 %, from 173.16 K to 193.16 K by at most 2.1 %. -/
theorem C118_ice (t w p : Arg (XF ℝ)) (h1 : t.ty = w.ty) (h2 : w.ty = p.ty) (hw : t.val.shape = w.val.shape) (hp : t.val.shape = p.val.shape)
    (T W P : List ℕ → ℝ) (ht : HasReals t.val T) (hwv : HasReals w.val W) (hpv : HasReals p.val P)
    (h : ∀ i, InBounds t.val.shape i → 173.16 ≤ T i ∧ T i ≤ 273.16 ∧ 0 ≤ W i ∧ 100 * magnusIce (T i - 273.15) ≤ P i) :
    ∃ r ri v vi, relhum t w p = .ok r ∧ relhumIce t w p = .ok ri ∧ HasReals r.val v ∧ HasReals ri.val vi ∧ r.val.shape = t.val.shape ∧
      ri.val.shape = t.val.shape ∧ ∀ i, InBounds t.val.shape i →
        0 ≤ vi i ∧ v i ≤ max (1.0057 * vi i) 0.0001 ∧ (193.16 ≤ T i → T i ≤ 253.16 → max (0.9935 * vi i) 0.0001 ≤ v i) ∧
        (T i ≤ 193.16 → max (0.979 * vi i) 0.0001 ≤ v i) := by
  obtain ⟨r, e1, e2, e3⟩ := relhum_call t w p hw hp T W P ht hwv hpv
  obtain ⟨⟨ri, b1, b2, b3⟩, -⟩ := C48_elementwise t w p h1 h2 hw hp
  have h01 : ∀ x : ℝ, x * 0.01 = x / 100 := by intro x; norm_num; ring
  have hlt : ∀ i, InBounds t.val.shape i → 0.378 * magnusIce (T i - 273.15) < P i / 100 := by
    intro i hi
    have := (h i hi).2.2.2
    have := magnusIce_pos (T i - 273.15)
    linarith
  refine ⟨r, ri, _, fun i => W i * (P i / (100 * magnusIce (T i - 273.15)) - 0.378) * (100 / 0.622), e1, b1, e3, ?_, e2, b2, ?_⟩
  · intro i hi
    rw [b2] at hi
    obtain ⟨k1, k2, k3, k4⟩ := h i hi
    rw [b3 i hi, ht i hi, hwv i (hw ▸ hi), hpv i (hp ▸ hi), C48_ice_ratio _ _ _ (by linarith) (by rw [h01]; exact hlt i hi), h01,
      rh_formula (magnusIce_pos _) (hlt i hi)]
  · intro i hi
    obtain ⟨k1, k2, k3, k4⟩ := h i hi
    have hpos := magnusIce_pos (T i - 273.15)
    have hpos' : 0 < 100 * magnusIce (T i - 273.15) := by positivity
    have hx : 1 ≤ P i / (100 * magnusIce (T i - 273.15)) := by rw [le_div_iff₀ hpos']; linarith
    have hle : 0.9965 * (100 * magnusIce (T i - 273.15)) ≤ esR (T i) := by
      rcases le_total (T i) 193.16 with a | a
      · have := (es_ice_1 k1 a).1
        linarith
      · rcases le_total (T i) 253.16 with b | b
        · exact (es_ice_2 a b).1
        · have := (es_mixed b k2).1
          linarith
    refine ⟨?_, ?_, fun a b => ?_, fun a => ?_⟩
    · have : 0 ≤ P i / (100 * magnusIce (T i - 273.15)) - 0.378 := by linarith
      positivity
    · apply max_le_max_right
      exact rh_upper (α := 0.9965) (by norm_num) (by norm_num) hle hpos' k4 k3 (by norm_num) (by norm_num)
    · apply max_le_max_right
      exact rh_lower (β := 1.004) (by norm_num) (es_ice_2 a b).2 (esR_pos (T i)) hpos' k4 k3 (by norm_num) (by norm_num)
    · apply max_le_max_right
      exact rh_lower (β := 1.013) (by norm_num) (es_ice_1 k1 a).2 (esR_pos (T i)) hpos' k4 k3 (by norm_num) (by norm_num)

/-- the hypotheses are met, e.g. at the ice point and 900 hPa -/
example : ∃ r ri v vi, relhum (constArg .list [2] 273.15) (constArg .list [2] 0.003) (constArg .list [2] 90000) = .ok r ∧
    relhumIce (constArg .list [2] 273.15) (constArg .list [2] 0.003) (constArg .list [2] 90000) = .ok ri ∧ HasReals r.val v ∧ HasReals ri.val vi ∧
    v [1] ≤ max (1.0057 * vi [1]) 0.0001 := by
  obtain ⟨r, ri, v, vi, e1, e2, e3, e4, -, -, e5⟩ := C118_ice (constArg .list [2] 273.15) (constArg .list [2] 0.003) (constArg .list [2] 90000)
    rfl rfl rfl rfl (fun _ => 273.15) (fun _ => 0.003) (fun _ => 90000) (fun _ _ => rfl) (fun _ _ => rfl) (fun _ _ => rfl)
    (fun _ _ => by norm_num [magnusIce])
  exact ⟨r, ri, v, vi, e1, e2, e3, e4, (e5 [1] (by simp [InBounds, constArg])).2.1⟩

example : ∃ r rw v vw, relhum (constArg .list [2] 273.15) (constArg .list [2] 0.003) (constArg .list [2] 90000) = .ok r ∧
    relhumWater (constArg .list [2] 273.15) (constArg .list [2] 0.003) (constArg .list [2] 90000) = .ok rw ∧ HasReals r.val v ∧ HasReals rw.val vw ∧
    max (vw [1]) 0.0001 ≤ v [1] := by
  obtain ⟨r, ri, v, vi, e1, e2, e3, e4, -, -, e5⟩ := C118_water (constArg .list [2] 273.15) (constArg .list [2] 0.003) (constArg .list [2] 90000)
    rfl rfl rfl rfl (fun _ => 273.15) (fun _ => 0.003) (fun _ => 90000) (fun _ _ => rfl) (fun _ _ => rfl) (fun _ _ => rfl)
    (fun _ _ => by norm_num [tetensWater])
  exact ⟨r, ri, v, vi, e1, e2, e3, e4, (e5 [1] (by simp [InBounds, constArg])).2.1⟩

end Verif.Props
