import Verif.Lemmas.FloatHeat
import Verif.Props.HeatIndexMono
import Verif.Props.FloatDewtemp

/-
Property C180: the heat index computed in single or double precision.
-/

set_option linter.unusedSectionVars false
namespace Verif.Props
open Model XF Spec Lemmas Tensor

theorem heatIndexPointFl_exact (alt : Bool) : heatIndexPointFl Rounding.exact Rounding.exact alt = heatIndexPoint alt := by
  funext t rh
  unfold heatIndexPointFl heatIndexPoint nwsEqnFl nwsEqn hiCoeffsFl
  simp only [roundXF_exact]
  rfl

/-- If nothing is rounded, this is the function of C49. -/
theorem C180_exact (alt : Bool) (t rh : Arg (XF ℝ)) : heatIndexFl Rounding.exact Rounding.exact alt t rh = heatIndex alt t rh := by
  unfold heatIndexFl heatIndex
  rw [heatIndexPointFl_exact]

variable {D R : Rounding ℝ} {u η η' : ℝ}

/-- both functions make the same checks and then treat every point by itself -/
theorem heatIndexFl_points (D R : Rounding ℝ) (alt : Bool) (t rh : Arg (XF ℝ)) :
    (∃ e, heatIndex alt t rh = .error e ∧ heatIndexFl D R alt t rh = .error e) ∨
    ∃ w r r', heatIndex alt t rh = .ok (w, r) ∧ heatIndexFl D R alt t rh = .ok (w, r') ∧ r'.ty = r.ty ∧ r'.val.shape = t.val.shape ∧ r.val.shape = t.val.shape ∧
      ∀ i, InBounds t.val.shape i → r.val.get i = heatIndexPoint alt (t.val.get i) (rh.val.get i) ∧
        r'.val.get i = heatIndexPointFl D R alt (t.val.get i) (rh.val.get i) := by
  unfold heatIndex heatIndexFl
  by_cases h1 : t.ty ≠ rh.ty
  · exact Or.inl ⟨_, by rw [if_pos h1], by rw [if_pos h1]⟩
  rw [if_neg h1, if_neg h1]
  by_cases h2 : t.val.shape ≠ rh.val.shape
  · exact Or.inl ⟨_, by rw [if_pos h2], by rw [if_pos h2]⟩
  rw [if_neg h2, if_neg h2]
  by_cases h3 : rh.val.values = []
  · exact Or.inl ⟨_, by rw [if_pos h3], by rw [if_pos h3]⟩
  rw [if_neg h3, if_neg h3]
  dsimp only
  generalize reduceMin (decide (rh.ty = .dataArray)) rh.val.values = mn
  generalize reduceMax (decide (rh.ty = .dataArray)) rh.val.values = mx
  by_cases h4 : lt mn (fin 0) = true ∨ lt (fin 100) mx = true
  · exact Or.inl ⟨_, by rw [if_pos h4], by rw [if_pos h4]⟩
  rw [if_neg h4, if_neg h4]
  right
  obtain ⟨r, e1, e2, e3⟩ := zip_same (heatIndexPoint alt) t.val rh.val (not_not.mp h2)
  obtain ⟨r', f1, f2, f3⟩ := zip_same (heatIndexPointFl D R alt) t.val rh.val (not_not.mp h2)
  rw [e1, f1]
  refine ⟨_, _, _, rfl, rfl, ?_⟩
  rw [e2, f2]
  split_ifs <;> exact ⟨rfl, f2, e2, fun i hi => ⟨e3 i hi, f3 i hi⟩⟩

/-- **C180**. Rounding changes neither the exceptions nor the warning, nor the type and shape of the result. -/
theorem C180_checks (D R : Rounding ℝ) (alt : Bool) (t rh : Arg (XF ℝ)) :
    (∃ e, heatIndex alt t rh = .error e ∧ heatIndexFl D R alt t rh = .error e) ∨
    ∃ w r r', heatIndex alt t rh = .ok (w, r) ∧ heatIndexFl D R alt t rh = .ok (w, r') ∧ r'.ty = r.ty ∧ r'.val.shape = r.val.shape := by
  rcases heatIndexFl_points D R alt t rh with h | ⟨w, r, r', h1, h2, h3, h4, h5, -⟩
  · exact Or.inl h
  · exact Or.inr ⟨w, r, r', h1, h2, h3, h4.trans h5.symm⟩

/-- **C180**. Below 40 F the result is the temperature, to the last bit, whatever the humidity there. -/
theorem C180_cold (D R : Rounding ℝ) (alt : Bool) (t rh r : Arg (XF ℝ)) (w : Bool) (h : heatIndexFl D R alt t rh = .ok (w, r)) (i : List ℕ)
    (hi : InBounds t.val.shape i) (x : ℝ) (hx : t.val.get i = fin x) (hc : x < 40) : r.val.get i = fin x := by
  rcases heatIndexFl_points D R alt t rh with ⟨e, -, h'⟩ | ⟨w', r', r'', -, h', -, -, -, h6⟩
  · rw [h] at h'; cases h'
  rw [h] at h'
  have e : r = r'' := by injection h' with h'; injection h' with _ h'
  subst e
  rw [(h6 i hi).2, hx]
  have hcrit : (40:ℝ) < hiCrit alt := by unfold hiCrit; split_ifs <;> norm_num
  have h1 : ¬ hiCrit alt ≤ x := by linarith
  have h2 : ¬ (80:ℝ) ≤ x := by linarith
  unfold heatIndexPointFl
  simp [sel, hc, h1, h2]

/-- **C180**. For humidities from 0 to 100 % and temperatures from 40 to 130 F: the computed simple heat index is within `590 u` F of the exact one. If it is below the
threshold, the result is within `800 u` F of the simple index with its adjustments, otherwise within `90000 u` F of the regression with its adjustments. So wherever
the exact simple index is further than `590 u` F from the threshold, the result is within `90000 u` F of the exact heat index. -/
theorem C180_accuracy (PD : Precise D u η) (PR : Precise R u η') (h95 : D.rep 95) (h17 : D.rep 17) (alt : Bool) (t rh : Arg (XF ℝ)) (hty : t.ty = rh.ty)
    (hs : t.val.shape = rh.val.shape) (hne : ∃ i, InBounds t.val.shape i) (T H : List ℕ → ℝ) (ht : HasReals t.val T) (hh : HasReals rh.val H)
    (hH : ∀ i, InBounds t.val.shape i → 0 ≤ H i ∧ H i ≤ 100) :
    ∃ w r r', heatIndex alt t rh = .ok (w, r) ∧ heatIndexFl D R alt t rh = .ok (w, r') ∧ r'.val.shape = t.val.shape ∧
      ∀ i, InBounds t.val.shape i → D.rep (T i) → 40 ≤ T i → T i ≤ 130 → (T i = 112 ∨ 1e-15 ≤ |112 - T i|) →
        ∃ x x' s, r.val.get i = fin x ∧ r'.val.get i = fin x' ∧ |s - hiSimple (T i) (H i)| ≤ 590 * u ∧
          (s < hiThreshold alt → |x' - (hiSimple (T i) (H i) - hiAdjLow (T i) (H i) + hiAdjHigh (T i) (H i))| ≤ 800 * u) ∧
          (hiThreshold alt ≤ s → |x' - (hiRegression alt (T i) (H i) - hiAdjLow (T i) (H i) + hiAdjHigh (T i) (H i))| ≤ 90000 * u) ∧
          (590 * u < |hiSimple (T i) (H i) - hiThreshold alt| → |x' - x| ≤ 90000 * u) := by
  obtain ⟨w0, r0, a1, -⟩ := heatIndex_call alt t rh hty hs hne T H ht hh hH
  rcases heatIndexFl_points D R alt t rh with ⟨e, h, -⟩ | ⟨w, r, r', h1, h2, -, h4, -, h6⟩
  · rw [h] at a1; cases a1
  refine ⟨w, r, r', h1, h2, h4, fun i hi hrep h40 h130 hgap => ?_⟩
  have hu := PD.acc.u_nonneg
  obtain ⟨hH0, hH1⟩ := hH i hi
  obtain ⟨e1, e2⟩ := h6 i hi
  rw [ht i hi, hh i (hs ▸ hi)] at e1 e2
  rw [heatIndexPoint_fin] at e1
  rw [heatIndexPointFl_fin alt h40] at e2
  obtain ⟨k1, k2⟩ := simple_near PD PR h40 h130 hH0 hH1
  obtain ⟨k3, k4⟩ := regression_near PD PR alt h40 h130 hH0 hH1
  have b1 := adjusted_near PD hrep h95 h17 hH0 hH1 hgap k1 k2 (by norm_num) (by norm_num) (γ := 800) (by norm_num)
  have b2 := adjusted_near PD hrep h95 h17 hH0 hH1 hgap k3 k4 (by norm_num) (by norm_num) (γ := 90000) (by norm_num)
  have n40 : ¬ T i < 40 := not_lt.mpr h40
  have far : ∀ α : ℝ, Near u 800 α (hiSimple (T i) (H i) - hiAdjLow (T i) (H i) + hiAdjHigh (T i) (H i)) →
      Near u 90000 α (hiSimple (T i) (H i) - hiAdjLow (T i) (H i) + hiAdjHigh (T i) (H i)) := fun α h => Near.mono hu h (by norm_num)
  unfold Near at *
  obtain ⟨q1, q2⟩ := abs_le.mp k1
  dsimp only at e2
  by_cases hc : hiThreshold alt ≤ simpleR D R (T i) (H i)
  · rw [if_pos hc] at e2
    refine ⟨_, _, simpleR D R (T i) (H i), e1, e2, k1, fun h => absurd hc (not_le.mpr h), fun _ => b2, fun hfar => ?_⟩
    have : ¬ hiSimple (T i) (H i) < hiThreshold alt := by
      intro hlt
      rw [abs_of_neg (by linarith)] at hfar
      linarith
    unfold hiCode
    rw [if_neg n40, if_neg this]
    exact b2
  · rw [if_neg hc] at e2
    refine ⟨_, _, simpleR D R (T i) (H i), e1, e2, k1, fun _ => b1, fun h => absurd h hc, fun hfar => ?_⟩
    have : hiSimple (T i) (H i) < hiThreshold alt := by
      by_contra hlt
      rw [abs_of_nonneg (by linarith)] at hfar
      linarith
    unfold hiCode
    rw [if_neg n40, if_pos this]
    exact far _ b1

/-! ### The hypotheses hold in single and double precision -/

/-- no number of at most 53 bits other than 112 itself is closer to 112 than 1e-15 -/
theorem gap_112 {p : ℕ} {emin : ℤ} (hp : p ≤ 53) {t : ℝ} (h : RepBin p emin t) : t = 112 ∨ 1e-15 ≤ |112 - t| := by
  obtain ⟨m, e, -, h2, rfl⟩ := h
  by_contra hcon
  push Not at hcon
  obtain ⟨hne, hlt⟩ := hcon
  have hm : |(m : ℝ)| ≤ 2 ^ 53 := by
    have : |m| ≤ 2 ^ 53 := h2.trans (pow_le_pow_right₀ (by norm_num) hp)
    exact_mod_cast this
  have hbig : (64 : ℝ) ≤ m * 2 ^ e := by
    have := (abs_lt.mp hlt).2
    norm_num at this
    linarith
  have he : (-47 : ℤ) ≤ e := by
    by_contra hlt'
    have h3 : (2 : ℝ) ^ e ≤ 2 ^ (-48 : ℤ) := two_zpow_mono (by omega)
    have h4 : (m : ℝ) * 2 ^ e ≤ 2 ^ 53 * 2 ^ (-48 : ℤ) := mul_le_mul ((le_abs_self _).trans hm) h3 (two_zpow_pos e).le (by positivity)
    norm_num [zpow_neg] at h4
    linarith
  have hz : (112 : ℝ) - m * 2 ^ e = ((112 * 2 ^ 47 - m * 2 ^ (e - -47).toNat : ℤ) : ℝ) * 2 ^ (-47 : ℤ) := by
    have h5 := two_zpow_div (K := ℝ) he
    rw [div_eq_iff (two_zpow_pos (-47)).ne'] at h5
    rw [h5]
    push_cast
    rw [sub_mul]
    norm_num [zpow_neg]
    ring
  rw [hz] at hlt
  set z : ℤ := 112 * 2 ^ 47 - m * 2 ^ (e - -47).toNat with hzd
  have hz0 : z ≠ 0 := by
    intro h0
    rw [h0] at hz
    apply hne
    push_cast at hz
    linarith
  have h1 : (1 : ℝ) ≤ |(z : ℝ)| := by exact_mod_cast Int.one_le_abs hz0
  rw [abs_mul, abs_of_pos (two_zpow_pos (-47) : (0 : ℝ) < 2 ^ (-47 : ℤ))] at hlt
  have : (1 : ℝ) * 2 ^ (-47 : ℤ) ≤ |(z : ℝ)| * 2 ^ (-47 : ℤ) := mul_le_mul_of_nonneg_right h1 (two_zpow_pos _).le
  norm_num [zpow_neg] at this hlt
  linarith

theorem rep_nat {p : ℕ} {emin : ℤ} (he : emin ≤ 0) (n : ℕ) (hn : (n : ℤ) ≤ 2 ^ p) : RepBin p emin (n : ℝ) :=
  ⟨n, 0, he, by rwa [abs_of_nonneg (by positivity)], by simp⟩

/-- **C180** in double precision: the result is within 1e-11 F of the exact heat index, except where the exact simple index is within 1e-13 F of the threshold. -/
theorem C180_double (alt : Bool) (t rh : Arg (XF ℝ)) (hty : t.ty = rh.ty) (hs : t.val.shape = rh.val.shape) (hne : ∃ i, InBounds t.val.shape i)
    (T H : List ℕ → ℝ) (ht : HasReals t.val T) (hh : HasReals rh.val H) (hH : ∀ i, InBounds t.val.shape i → 0 ≤ H i ∧ H i ≤ 100) :
    ∃ w r r', heatIndex alt t rh = .ok (w, r) ∧ heatIndexFl float64 float64 alt t rh = .ok (w, r') ∧
      ∀ i, InBounds t.val.shape i → (float64 : Rounding ℝ).rep (T i) → T i ≤ 130 → 1e-13 < |hiSimple (T i) (H i) - hiThreshold alt| →
        ∃ x x', r.val.get i = fin x ∧ r'.val.get i = fin x' ∧ |x' - x| ≤ 1e-11 := by
  obtain ⟨w, r, r', h1, h2, -, h3⟩ := C180_accuracy precise_float64 precise_float64 (rep_nat (by norm_num) 95 (by norm_num)) (rep_nat (by norm_num) 17 (by norm_num))
    alt t rh hty hs hne T H ht hh hH
  refine ⟨w, r, r', h1, h2, fun i hi hrep h130 hfar => ?_⟩
  rcases lt_or_ge (T i) 40 with hc | hc
  · refine ⟨T i, T i, ?_, C180_cold _ _ alt t rh r' w h2 i hi _ (ht i hi) hc, by norm_num⟩
    rw [← C180_exact] at h1
    exact C180_cold _ _ alt t rh r w h1 i hi _ (ht i hi) hc
  · obtain ⟨x, x', s, e1, e2, -, -, -, e3⟩ := h3 i hi hrep hc h130 (gap_112 (le_refl _) hrep)
    exact ⟨x, x', e1, e2, (e3 (lt_of_le_of_lt (by norm_num [zpow_neg]) hfar)).trans (by norm_num [zpow_neg])⟩

/-- **C180** for single-precision arrays: within 0.0054 F of the exact heat index, except where the exact simple index is within 0.00004 F of the threshold. -/
theorem C180_single (alt : Bool) (t rh : Arg (XF ℝ)) (hty : t.ty = rh.ty) (hs : t.val.shape = rh.val.shape) (hne : ∃ i, InBounds t.val.shape i)
    (T H : List ℕ → ℝ) (ht : HasReals t.val T) (hh : HasReals rh.val H) (hH : ∀ i, InBounds t.val.shape i → 0 ≤ H i ∧ H i ≤ 100) :
    ∃ w r r', heatIndex alt t rh = .ok (w, r) ∧ heatIndexFl float32 float64 alt t rh = .ok (w, r') ∧
      ∀ i, InBounds t.val.shape i → (float32 : Rounding ℝ).rep (T i) → T i ≤ 130 → 0.00004 < |hiSimple (T i) (H i) - hiThreshold alt| →
        ∃ x x', r.val.get i = fin x ∧ r'.val.get i = fin x' ∧ |x' - x| ≤ 0.0054 := by
  obtain ⟨w, r, r', h1, h2, -, h3⟩ := C180_accuracy precise_float32 (Precise.coarser precise_float64 (two_zpow_mono (by norm_num)) (by norm_num [zpow_neg]))
    (rep_nat (by norm_num) 95 (by norm_num)) (rep_nat (by norm_num) 17 (by norm_num)) alt t rh hty hs hne T H ht hh hH
  refine ⟨w, r, r', h1, h2, fun i hi hrep h130 hfar => ?_⟩
  rcases lt_or_ge (T i) 40 with hc | hc
  · refine ⟨T i, T i, ?_, C180_cold _ _ alt t rh r' w h2 i hi _ (ht i hi) hc, by norm_num⟩
    rw [← C180_exact] at h1
    exact C180_cold _ _ alt t rh r w h1 i hi _ (ht i hi) hc
  · obtain ⟨x, x', s, e1, e2, -, -, -, e3⟩ := h3 i hi hrep hc h130 (gap_112 (by norm_num) hrep)
    exact ⟨x, x', e1, e2, (e3 (lt_of_le_of_lt (by norm_num [zpow_neg]) hfar)).trans (by norm_num [zpow_neg])⟩

/-- a hot humid day, 96 F and 65 % -/
example : ∃ w r r', heatIndex false (constArg .ndarray [2] 96) (constArg .ndarray [2] 65) = .ok (w, r) ∧
    heatIndexFl float64 float64 false (constArg .ndarray [2] 96) (constArg .ndarray [2] 65) = .ok (w, r') ∧
    ∃ x x', r.val.get [1] = fin x ∧ r'.val.get [1] = fin x' ∧ |x' - x| ≤ 1e-11 := by
  obtain ⟨w, r, r', h1, h2, h3⟩ := C180_double false (constArg .ndarray [2] 96) (constArg .ndarray [2] 65) rfl rfl ⟨[1], by simp [constArg, InBounds]⟩
    (fun _ => 96) (fun _ => 65) (fun _ _ => rfl) (fun _ _ => rfl) (fun _ _ => by norm_num)
  exact ⟨w, r, r', h1, h2, h3 [1] (by simp [constArg, InBounds]) (rep_nat (by norm_num) 96 (by norm_num)) (by norm_num)
    (by rw [abs_of_pos] <;> norm_num [hiSimple, hiThreshold])⟩

/-- dry air in single precision, 84 F and 9 %, where the square root is used -/
example : ∃ w r r', heatIndex false (constArg .dataArray [2] 84) (constArg .dataArray [2] 9) = .ok (w, r) ∧
    heatIndexFl float32 float64 false (constArg .dataArray [2] 84) (constArg .dataArray [2] 9) = .ok (w, r') ∧
    ∃ x x', r.val.get [1] = fin x ∧ r'.val.get [1] = fin x' ∧ |x' - x| ≤ 0.0054 := by
  obtain ⟨w, r, r', h1, h2, h3⟩ := C180_single false (constArg .dataArray [2] 84) (constArg .dataArray [2] 9) rfl rfl ⟨[1], by simp [constArg, InBounds]⟩
    (fun _ => 84) (fun _ => 9) (fun _ _ => rfl) (fun _ _ => rfl) (fun _ _ => by norm_num)
  exact ⟨w, r, r', h1, h2, h3 [1] (by simp [constArg, InBounds]) (rep_nat (by norm_num) 84 (by norm_num)) (by norm_num)
    (by rw [abs_of_pos] <;> norm_num [hiSimple, hiThreshold])⟩

end Verif.Props
