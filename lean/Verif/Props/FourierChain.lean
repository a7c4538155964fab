import Verif.Props.Fourier

/-
Property C139: units of frequency, and filters applied one after the other.
-/

set_option linter.unusedSectionVars false
namespace Verif.Props
open Model Spec Lemmas
variable {n : ℕ} [NeZero n]

/-- **C139, units.** Only the ratios of the cutoffs to the sampling frequency matter: giving all three in another unit changes nothing. -/
theorem C139_unit (fl : Flags) (f cl ch r : ℝ) (hr : r ≠ 0) (x : ZMod n → ℝ) :
    fourierFilter fl (r * f) (r * cl) (r * ch) x = fourierFilter fl f cl ch x := by
  unfold fourierFilter filterRes
  have e : ∀ c : ℝ, r * c / (r * f / (n : ℝ)) = c / (f / (n : ℝ)) := by
    intro c
    rw [mul_div_assoc r f, mul_div_mul_left _ _ hr]
  simp only [e]

theorem loBin_mono {f : ℝ} (hf : 0 < f) {c d : ℝ} (h : c ≤ d) : loBin n f c ≤ loBin n f d := by
  unfold loBin
  apply Int.floor_le_floor
  have : (0 : ℝ) ≤ n := Nat.cast_nonneg n
  gcongr

theorem hiBin_mono {f : ℝ} (hf : 0 < f) {c d : ℝ} (h : c ≤ d) : hiBin n f c ≤ hiBin n f d := by
  unfold hiBin
  apply Int.ceil_le_ceil
  have : (0 : ℝ) ≤ n := Nat.cast_nonneg n
  gcongr

theorem loBin_min {f : ℝ} (hf : 0 < f) (c d : ℝ) : loBin n f (min c d) = min (loBin n f c) (loBin n f d) :=
  (show Monotone (fun c => loBin n f c) from fun _ _ h => loBin_mono hf h).map_min

theorem loBin_max {f : ℝ} (hf : 0 < f) (c d : ℝ) : loBin n f (max c d) = max (loBin n f c) (loBin n f d) :=
  (show Monotone (fun c => loBin n f c) from fun _ _ h => loBin_mono hf h).map_max

theorem hiBin_min {f : ℝ} (hf : 0 < f) (c d : ℝ) : hiBin n f (min c d) = min (hiBin n f c) (hiBin n f d) :=
  (show Monotone (fun c => hiBin n f c) from fun _ _ h => hiBin_mono hf h).map_min

theorem hiBin_max {f : ℝ} (hf : 0 < f) (c d : ℝ) : hiBin n f (max c d) = max (hiBin n f c) (hiBin n f d) :=
  (show Monotone (fun c => hiBin n f c) from fun _ _ h => hiBin_mono hf h).map_max

/-- two filters after each other remove the bins either of them removes -/
theorem fft_chain (fl fl' : Flags) (f cl ch cl' ch' : ℝ) (hf : 0 < f) (h1 : 0 ≤ cl) (h2 : 0 ≤ ch) (h1' : 0 ≤ cl') (h2' : 0 ≤ ch')
    (x : ZMod n → ℝ) (k : ZMod n) :
    npFft (fun t => ((fourierFilter fl f cl ch (fourierFilter fl' f cl' ch' x) t : ℝ) : ℂ)) k =
      if zeroPred fl n (loBin n f cl) (hiBin n f ch) k.val ∨ zeroPred fl' n (loBin n f cl') (hiBin n f ch') k.val then 0
      else npFft (fun t => (x t : ℂ)) k := by
  rw [fft_fourierFilter fl f cl ch hf h1 h2, fft_fourierFilter fl' f cl' ch' hf h1' h2']
  by_cases a : zeroPred fl n (loBin n f cl) (hiBin n f ch) k.val
  · rw [if_pos a, if_pos (Or.inl a)]
  · rw [if_neg a]
    by_cases b : zeroPred fl' n (loBin n f cl') (hiBin n f ch') k.val
    · rw [if_pos b, if_pos (Or.inr b)]
    · rw [if_neg b, if_neg (by tauto)]

/-- **C139, low pass.** Two low-pass filters after each other are the one with the lower cutoff. -/
theorem C139_low (f c d : ℝ) (hf : 0 < f) (hc : 0 ≤ c) (hd : 0 ≤ d) (x : ZMod n → ℝ) :
    fourierLowPass f c (fourierLowPass f d x) = fourierLowPass f (min c d) x := by
  unfold fourierLowPass
  refine eq_of_fft _ _ fun k => ?_
  rw [fft_chain _ _ f c 0 d 0 hf hc (le_refl _) hd (le_refl _), fft_fourierFilter _ f _ 0 hf (le_min hc hd) (le_refl _), loBin_min hf]
  refine if_congr ?_ rfl rfl
  simp only [zeroPred, lowPasses, true_and, Bool.false_eq_true, false_and, or_false]
  omega

/-- **C139, high pass.** Two high-pass filters after each other are the one with the higher cutoff. -/
theorem C139_high (f c d : ℝ) (hf : 0 < f) (hc : 0 ≤ c) (hd : 0 ≤ d) (x : ZMod n → ℝ) :
    fourierHighPass f c (fourierHighPass f d x) = fourierHighPass f (max c d) x := by
  unfold fourierHighPass
  refine eq_of_fft _ _ fun k => ?_
  rw [fft_chain _ _ f 0 c 0 d hf (le_refl _) hc (le_refl _) hd, fft_fourierFilter _ f 0 _ hf (le_refl _) (le_trans hc (le_max_left _ _)), hiBin_max hf]
  refine if_congr ?_ rfl rfl
  simp only [zeroPred, highPasses, true_and, Bool.false_eq_true, false_and, or_false, false_or]
  omega

/-- **C139, band pass.** Two band-pass filters after each other are the one with the common band (nothing is left if there is none). -/
theorem C139_band (f a b c d : ℝ) (hf : 0 < f) (ha : 0 ≤ a) (hb : 0 ≤ b) (hc : 0 ≤ c) (hd : 0 ≤ d) (x : ZMod n → ℝ) :
    fourierBandPass f a b (fourierBandPass f c d x) = fourierBandPass f (max a c) (min b d) x := by
  unfold fourierBandPass
  refine eq_of_fft _ _ fun k => ?_
  rw [fft_chain _ _ f a b c d hf ha hb hc hd, fft_fourierFilter _ f _ _ hf (le_trans ha (le_max_left _ _)) (le_min hb hd), loBin_max hf, hiBin_min hf]
  refine if_congr ?_ rfl rfl
  simp only [zeroPred, bandPasses, true_and, Bool.false_eq_true, false_and, or_false, false_or]
  omega

/-- **C139, band pass from low and high pass** (partial). A band pass is the low pass with its upper cutoff after the high pass with its
lower cutoff. Missing: cutoffs that are not multiples of `frequency / n`, for which it is false (`C139_counterexample`). -/
theorem C139_split_partial (f c d : ℝ) (hf : 0 < f) (hc : 0 ≤ c) (hd : 0 ≤ d) (j k : ℕ) (hj : c = j * (f / n)) (hk : d = k * (f / n)) (x : ZMod n → ℝ) :
    fourierBandPass f c d x = fourierLowPass f d (fourierHighPass f c x) := by
  have hn : (n : ℝ) ≠ 0 := by exact_mod_cast NeZero.ne n
  have ec : c * n / f = (j : ℝ) := by rw [hj]; field_simp
  have ed : d * n / f = (k : ℝ) := by rw [hk]; field_simp
  have l1 : loBin n f c = j := by unfold loBin; rw [ec]; simp
  have l2 : hiBin n f c = j := by unfold hiBin; rw [ec]; simp
  have l3 : loBin n f d = k := by unfold loBin; rw [ed]; simp
  have l4 : hiBin n f d = k := by unfold hiBin; rw [ed]; simp
  unfold fourierBandPass fourierLowPass fourierHighPass
  refine eq_of_fft _ _ fun k' => ?_
  rw [fft_chain _ _ f d 0 0 c hf hd (le_refl _) (le_refl _) hc, fft_fourierFilter _ f _ _ hf hc hd, l1, l2, l3, l4]
  refine if_congr ?_ rfl rfl
  simp only [zeroPred, lowPasses, highPasses, bandPasses, true_and, Bool.false_eq_true, false_and, or_false, false_or]
  omega

/-- **C139** is false for cutoffs between two bins: the band pass rounds its cutoffs outwards, the low and high pass inwards. With four samples
and cutoffs of half and one and a half bins a constant record passes the band pass unchanged, while high pass and low pass remove it. -/
theorem C139_counterexample :
    fourierBandPass (n := 4) 4 (1 / 2) (3 / 2) (fun _ => 1) ≠ fourierLowPass 4 (3 / 2) (fourierHighPass 4 (1 / 2) (fun _ => 1)) := by
  intro h
  have h0 : npFft (fun t => ((fourierBandPass (n := 4) 4 (1 / 2) (3 / 2) (fun _ => 1) t : ℝ) : ℂ)) 0 =
      npFft (fun t => ((fourierLowPass (n := 4) 4 (3 / 2) (fourierHighPass 4 (1 / 2) (fun _ => 1)) t : ℝ) : ℂ)) 0 := by rw [h]
  unfold fourierBandPass fourierLowPass fourierHighPass at h0
  have b1 : loBin 4 4 (1 / 2) = 0 := by unfold loBin; rw [Int.floor_eq_zero_iff]; constructor <;> norm_num
  have b2 : hiBin 4 4 (3 / 2) = 2 := by unfold hiBin; rw [Int.ceil_eq_iff]; constructor <;> norm_num
  have b3 : hiBin 4 4 (1 / 2) = 1 := by unfold hiBin; rw [Int.ceil_eq_iff]; constructor <;> norm_num
  rw [fft_chain _ _ 4 (3 / 2) 0 0 (1 / 2) (by norm_num) (by norm_num) (le_refl _) (le_refl _) (by norm_num),
    fft_fourierFilter _ 4 _ _ (by norm_num) (by norm_num) (by norm_num), b1, b2, b3, if_neg (by simp [zeroPred, bandPasses, harmonic]),
    if_pos (by simp [zeroPred, highPasses, harmonic]), npFft_zero_bin] at h0
  norm_num at h0

/-- cutoffs of one and two bins of a record of eight samples -/
example : (1 : ℝ) = (1 : ℕ) * (8 / (8 : ℕ)) ∧ (2 : ℝ) = (2 : ℕ) * (8 / (8 : ℕ)) ∧ (0 : ℝ) < 8 := by norm_num

end Verif.Props
