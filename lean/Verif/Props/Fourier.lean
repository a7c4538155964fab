import Verif.Lemmas.Sinusoid
import Mathlib.Tactic.NormNum

/-
Properties C27-C33, C78: Fourier filters. Cutoffs are non-negative and the sample frequency positive.
`loBin`/`hiBin` are the cutoffs in units of the frequency step, rounded down/up (`Verif/Spec/Fourier.lean`).
-/

namespace Verif.Props
open Verif.Model Verif.Spec Verif.Lemmas Complex

variable {n : ℕ} [NeZero n]

theorem res_pos {f : ℝ} (hf : 0 < f) : 0 < f / (n : ℝ) :=
  div_pos hf (by exact_mod_cast Nat.pos_of_ne_zero (NeZero.ne n))

theorem loBin_eq (f cl : ℝ) : ⌊cl / (f / (n : ℝ))⌋ = loBin n f cl := by
  unfold loBin; rw [div_div_eq_mul_div]

theorem hiBin_eq (f ch : ℝ) : ⌈ch / (f / (n : ℝ))⌉ = hiBin n f ch := by
  unfold hiBin; rw [div_div_eq_mul_div]

theorem loBin_nonneg {f cl : ℝ} (hf : 0 < f) (hc : 0 ≤ cl) : 0 ≤ loBin n f cl := by
  rw [← loBin_eq]; exact cut_nonneg hc (res_pos hf)

theorem hiBin_nonneg {f ch : ℝ} (hf : 0 < f) (hc : 0 ≤ ch) : 0 ≤ hiBin n f ch := by
  rw [← hiBin_eq]; exact cut_nonneg' hc (res_pos hf)

theorem fft_fourierFilter (fl : Flags) (f cl ch : ℝ) (hf : 0 < f) (h1 : 0 ≤ cl) (h2 : 0 ≤ ch) (x : ZMod n → ℝ)
    (k : ZMod n) :
    npFft (fun t => ((fourierFilter fl f cl ch x t : ℝ) : ℂ)) k
      = if zeroPred fl n (loBin n f cl) (hiBin n f ch) k.val then 0 else npFft (fun t => (x t : ℂ)) k := by
  unfold fourierFilter
  rw [fft_filterRes fl _ cl ch (res_pos hf) h1 h2]
  simp only [loBin_eq, hiBin_eq]

/-- Within the Nyquist range (`cl ≤ ch ≤ f/2`) the cutoff bins satisfy `l + h ≤ n + 1`. -/
theorem nyquist_bins (f cl ch : ℝ) (hf : 0 < f) (hlh : cl ≤ ch) (hch : ch ≤ f / 2) :
    loBin n f cl + hiBin n f ch ≤ n + 1 := by
  have hn : (0 : ℝ) < n := by exact_mod_cast Nat.pos_of_ne_zero (NeZero.ne n)
  have h1 : ch * n / f ≤ (n : ℝ) / 2 := by
    rw [div_le_iff₀ hf]; nlinarith
  have h2 : cl * n / f ≤ (n : ℝ) / 2 := by
    rw [div_le_iff₀ hf]; nlinarith
  have h3 : (loBin n f cl : ℝ) ≤ (n : ℝ) / 2 := le_trans (Int.floor_le _) h2
  have h4 : (hiBin n f ch : ℝ) < (n : ℝ) / 2 + 1 := lt_of_lt_of_le (Int.ceil_lt_add_one _) (by linarith)
  have h5 : ((loBin n f cl + hiBin n f ch : ℤ) : ℝ) < ((n + 1 : ℤ) : ℝ) := by push_cast; linarith
  exact le_of_lt (by exact_mod_cast h5)

/-! ### C27 -/

/-- **C27.** Without any flag the filter returns the signal, for every frequency and cutoff. -/
theorem C27_no_flags_identity (f cl ch : ℝ) (x : ZMod n → ℝ) : fourierFilter {} f cl ch x = x := by
  funext t
  have : zeroBins {} ⌊cl / (f / (n : ℝ))⌋ ⌈ch / (f / (n : ℝ))⌉ (npFft (fun t => (x t : ℂ)))
      = npFft (fun t => (x t : ℂ)) := by
    simp [zeroBins]
  simp [fourierFilter, filterRes, this, npIfft_npFft]

example : fourierFilter {} 10 2 3 (fun t : ZMod 5 => (t.val : ℝ) ^ 2) = fun t => (t.val : ℝ) ^ 2 :=
  C27_no_flags_identity _ _ _ _

/-! ### C28 -/

/-- **C28.** `np.real` discards nothing: the complex inverse transform of the masked spectrum is the returned real
signal, for every flag combination. -/
theorem C28_real_part_exact (fl : Flags) (f cl ch : ℝ) (hf : 0 < f) (h1 : 0 ≤ cl) (h2 : 0 ≤ ch) (x : ZMod n → ℝ)
    (t : ZMod n) :
    npIfft (zeroBins fl (loBin n f cl) (hiBin n f ch) (npFft (fun t => (x t : ℂ)))) t
      = ((fourierFilter fl f cl ch x t : ℝ) : ℂ) := by
  have := re_eq_of_im_zero _ (filter_im_zero fl _ _ (loBin_nonneg (n := n) hf h1) (hiBin_nonneg (n := n) hf h2) x t)
  rw [← this]
  unfold fourierFilter filterRes
  simp only [loBin_eq, hiBin_eq]

example : (0 : ℝ) < 10 ∧ (0 : ℝ) ≤ 2.3 ∧ (0 : ℝ) ≤ 7 := by norm_num

/-! ### C29 -/

/-- **C29, low pass.** Exactly the harmonics below the low cutoff bin survive; they are unchanged. -/
theorem C29_low_pass (f cl : ℝ) (hf : 0 < f) (h1 : 0 ≤ cl) (x : ZMod n → ℝ) (k : ZMod n) :
    npFft (fun t => ((fourierLowPass f cl x t : ℝ) : ℂ)) k
      = if lowPasses (loBin n f cl) (harmonic n k.val) then npFft (fun t => (x t : ℂ)) k else 0 := by
  unfold fourierLowPass
  rw [fft_fourierFilter _ f cl 0 hf h1 le_rfl, ← ite_not]
  refine if_congr ?_ rfl rfl
  simp [zeroPred]

/-- **C29, high pass.** Exactly the harmonics from the high cutoff bin on survive. -/
theorem C29_high_pass (f ch : ℝ) (hf : 0 < f) (h1 : 0 ≤ ch) (x : ZMod n → ℝ) (k : ZMod n) :
    npFft (fun t => ((fourierHighPass f ch x t : ℝ) : ℂ)) k
      = if highPasses (hiBin n f ch) (harmonic n k.val) then npFft (fun t => (x t : ℂ)) k else 0 := by
  unfold fourierHighPass
  rw [fft_fourierFilter _ f 0 ch hf le_rfl h1, ← ite_not]
  refine if_congr ?_ rfl rfl
  simp [zeroPred]

/-- **C29, band pass.** Exactly the harmonics in `[low bin, high bin)` survive. -/
theorem C29_band_pass (f cl ch : ℝ) (hf : 0 < f) (h1 : 0 ≤ cl) (h2 : 0 ≤ ch) (x : ZMod n → ℝ) (k : ZMod n) :
    npFft (fun t => ((fourierBandPass f cl ch x t : ℝ) : ℂ)) k
      = if bandPasses (loBin n f cl) (hiBin n f ch) (harmonic n k.val) then npFft (fun t => (x t : ℂ)) k else 0 := by
  unfold fourierBandPass
  rw [fft_fourierFilter _ f cl ch hf h1 h2, ← ite_not]
  refine if_congr ?_ rfl rfl
  simp [zeroPred]

/-- **C29, band block** (partial). Exactly the harmonics in `[low bin, high bin)` are removed, for cutoffs up to the
Nyquist frequency `f/2`. Missing: high cutoffs above Nyquist, where it is false (`C29_band_block_counterexample`). -/
theorem C29_band_block_partial (f cl ch : ℝ) (hf : 0 < f) (h1 : 0 ≤ cl) (h2 : cl ≤ ch) (h3 : ch ≤ f / 2)
    (x : ZMod n → ℝ) (k : ZMod n) :
    npFft (fun t => ((fourierBandBlock f cl ch x t : ℝ) : ℂ)) k
      = if bandPasses (loBin n f cl) (hiBin n f ch) (harmonic n k.val) then 0 else npFft (fun t => (x t : ℂ)) k := by
  have hch : 0 ≤ ch := le_trans h1 h2
  unfold fourierBandBlock
  rw [fft_fourierFilter _ f cl ch hf h1 hch]
  refine if_congr ?_ rfl rfl
  rw [← blockZ_iff _ _ _ (ZMod.val_lt k) (loBin_nonneg hf h1) (hiBin_nonneg hf hch) (nyquist_bins f cl ch hf h2 h3)]
  simp [zeroPred]

/-- **C29, several flags** (partial). The surviving harmonics are the intersection of what each set flag passes; same
Nyquist restriction, only needed when band block is among the flags. -/
theorem C29_combined_partial (fl : Flags) (f cl ch : ℝ) (hf : 0 < f) (h1 : 0 ≤ cl) (h2 : 0 ≤ ch)
    (h3 : fl.bandBlock = true → cl ≤ ch ∧ ch ≤ f / 2) (x : ZMod n → ℝ) (k : ZMod n) :
    ((fl.lowPass = true → lowPasses (loBin n f cl) (harmonic n k.val)) ∧
     (fl.highPass = true → highPasses (hiBin n f ch) (harmonic n k.val)) ∧
     (fl.bandPass = true → bandPasses (loBin n f cl) (hiBin n f ch) (harmonic n k.val)) ∧
     (fl.bandBlock = true → ¬ bandPasses (loBin n f cl) (hiBin n f ch) (harmonic n k.val)) →
      npFft (fun t => ((fourierFilter fl f cl ch x t : ℝ) : ℂ)) k = npFft (fun t => (x t : ℂ)) k) ∧
    (¬ ((fl.lowPass = true → lowPasses (loBin n f cl) (harmonic n k.val)) ∧
     (fl.highPass = true → highPasses (hiBin n f ch) (harmonic n k.val)) ∧
     (fl.bandPass = true → bandPasses (loBin n f cl) (hiBin n f ch) (harmonic n k.val)) ∧
     (fl.bandBlock = true → ¬ bandPasses (loBin n f cl) (hiBin n f ch) (harmonic n k.val))) →
      npFft (fun t => ((fourierFilter fl f cl ch x t : ℝ) : ℂ)) k = 0) := by
  have key : zeroPred fl n (loBin n f cl) (hiBin n f ch) k.val ↔
    ¬ ((fl.lowPass = true → lowPasses (loBin n f cl) (harmonic n k.val)) ∧
     (fl.highPass = true → highPasses (hiBin n f ch) (harmonic n k.val)) ∧
     (fl.bandPass = true → bandPasses (loBin n f cl) (hiBin n f ch) (harmonic n k.val)) ∧
     (fl.bandBlock = true → ¬ bandPasses (loBin n f cl) (hiBin n f ch) (harmonic n k.val))) := by
    unfold zeroPred
    by_cases hb : fl.bandBlock = true
    · obtain ⟨ha, hb'⟩ := h3 hb
      rw [blockZ_iff _ _ _ (ZMod.val_lt k) (loBin_nonneg hf h1) (hiBin_nonneg hf h2) (nyquist_bins f cl ch hf ha hb')]
      tauto
    · tauto
  rw [fft_fourierFilter fl f cl ch hf h1 h2]
  constructor
  · intro h; rw [if_neg]; rw [key]; exact not_not.2 h
  · intro h; rw [if_pos]; rw [key]; exact h

/-- The unit impulse has all Fourier coefficients 1. -/
theorem fft_impulse (k : ZMod n) : npFft (fun t : ZMod n => (((if t = 0 then 1 else 0 : ℝ)) : ℂ)) k = 1 := by
  unfold npFft
  rw [Finset.sum_eq_single 0]
  · simp
  · intro b _ hb; simp [hb]
  · simp

/-- **C29 counterexample.** 4 samples at frequency 4, band block from 2 to 4: harmonic 1 lies outside `[2, 4)` but is
removed. -/
theorem C29_band_block_counterexample :
    ∃ (x : ZMod 4 → ℝ) (k : ZMod 4), ¬ bandPasses (loBin 4 4 2) (hiBin 4 4 4) (harmonic 4 k.val) ∧
      npFft (fun t => ((fourierBandBlock 4 2 4 x t : ℝ) : ℂ)) k ≠ npFft (fun t => (x t : ℂ)) k := by
  have hl : loBin 4 4 2 = 2 := by unfold loBin; norm_num
  have hh : hiBin 4 4 4 = 4 := by unfold hiBin; norm_num
  refine ⟨fun t => if t = 0 then 1 else 0, 1, ?_, ?_⟩
  · rw [hl, hh]; decide
  · unfold fourierBandBlock
    rw [fft_fourierFilter _ 4 2 4 (by norm_num) (by norm_num) (by norm_num), hl, hh, if_pos (by decide), fft_impulse]
    norm_num

/-- Non-vacuity: a 6-point record, cutoffs at bins 1 and 3 = Nyquist; harmonics 1, 2 are in the band, 0 and 3 not. -/
example : loBin 6 6 1 = 1 ∧ hiBin 6 6 3 = 3 ∧ bandPasses 1 3 (harmonic 6 5) ∧ ¬ bandPasses 1 3 (harmonic 6 3) ∧
    (0:ℝ) ≤ 1 ∧ (1:ℝ) ≤ 3 ∧ (3:ℝ) ≤ 6 / 2 := by
  refine ⟨by unfold loBin; norm_num, by unfold hiBin; norm_num, by decide, by decide, ?_⟩
  norm_num

/-! ### C30 -/

/-- **C30, linearity.** -/
theorem C30_linear (fl : Flags) (f cl ch : ℝ) (hf : 0 < f) (h1 : 0 ≤ cl) (h2 : 0 ≤ ch) (a b : ℝ) (x y : ZMod n → ℝ) :
    fourierFilter fl f cl ch (fun t => a * x t + b * y t)
      = fun t => a * fourierFilter fl f cl ch x t + b * fourierFilter fl f cl ch y t := by
  apply eq_of_fft
  intro k
  have lin : ∀ u v : ZMod n → ℝ, npFft (fun t => ((a * u t + b * v t : ℝ) : ℂ)) k
      = a * npFft (fun t => (u t : ℂ)) k + b * npFft (fun t => (v t : ℂ)) k := by
    intro u v
    have : (fun t => ((a * u t + b * v t : ℝ) : ℂ)) = fun t => ((a : ℂ) * (u t : ℂ)) + ((b : ℂ) * (v t : ℂ)) := by
      funext t; push_cast; rfl
    rw [this, npFft_add, npFft_smul, npFft_smul]
  rw [fft_fourierFilter fl f cl ch hf h1 h2, lin, lin, fft_fourierFilter fl f cl ch hf h1 h2,
    fft_fourierFilter fl f cl ch hf h1 h2]
  split <;> simp

/-- **C30, idempotence.** -/
theorem C30_idempotent (fl : Flags) (f cl ch : ℝ) (hf : 0 < f) (h1 : 0 ≤ cl) (h2 : 0 ≤ ch) (x : ZMod n → ℝ) :
    fourierFilter fl f cl ch (fourierFilter fl f cl ch x) = fourierFilter fl f cl ch x := by
  apply eq_of_fft
  intro k
  rw [fft_fourierFilter fl f cl ch hf h1 h2, fft_fourierFilter fl f cl ch hf h1 h2]
  split <;> rfl

/-! ### C31 -/

theorem fft_add_real (u v : ZMod n → ℝ) (k : ZMod n) :
    npFft (fun t => ((u t + v t : ℝ) : ℂ)) k = npFft (fun t => (u t : ℂ)) k + npFft (fun t => (v t : ℂ)) k := by
  have : (fun t => ((u t + v t : ℝ) : ℂ)) = fun t => (u t : ℂ) + (v t : ℂ) := by funext t; push_cast; rfl
  rw [this, npFft_add]

/-- **C31, band pass + band block** (partial: cutoffs up to Nyquist; false above, `C31_band_counterexample`). -/
theorem C31_band_complement_partial (f cl ch : ℝ) (hf : 0 < f) (h1 : 0 ≤ cl) (h2 : cl ≤ ch) (h3 : ch ≤ f / 2)
    (x : ZMod n → ℝ) : (fun t => fourierBandPass f cl ch x t + fourierBandBlock f cl ch x t) = x := by
  apply eq_of_fft; intro k
  rw [fft_add_real, C29_band_pass f cl ch hf h1 (le_trans h1 h2), C29_band_block_partial f cl ch hf h1 h2 h3]
  split <;> simp

/-- **C31, low + band + high.** For any cutoffs `cl ≤ ch` the three filters split the signal, without any restriction. -/
theorem C31_three_way_split (f cl ch : ℝ) (hf : 0 < f) (h1 : 0 ≤ cl) (h2 : cl ≤ ch) (x : ZMod n → ℝ) :
    (fun t => fourierLowPass f cl x t + fourierBandPass f cl ch x t + fourierHighPass f ch x t) = x := by
  apply eq_of_fft; intro k
  have hle : loBin n f cl ≤ hiBin n f ch := by
    unfold loBin hiBin
    have : cl * n / f ≤ ch * n / f := by
      apply div_le_div_of_nonneg_right _ hf.le
      exact mul_le_mul_of_nonneg_right h2 (by positivity)
    exact le_trans (Int.floor_mono this) (Int.floor_le_ceil _)
  have hs := fft_add_real (fun t => fourierLowPass f cl x t + fourierBandPass f cl ch x t) (fourierHighPass f ch x) k
  rw [hs, fft_add_real, C29_low_pass f cl hf h1, C29_band_pass f cl ch hf h1 (le_trans h1 h2),
    C29_high_pass f ch hf (le_trans h1 h2)]
  generalize harmonic n k.val = m
  generalize loBin n f cl = l at *
  generalize hiBin n f ch = h at *
  by_cases a : lowPasses l m
  · have hb : ¬ bandPasses l h m := by unfold bandPasses lowPasses at *; omega
    have hc : ¬ highPasses h m := by unfold highPasses lowPasses at *; omega
    simp [a, hb, hc]
  · by_cases b : highPasses h m
    · have hb : ¬ bandPasses l h m := by unfold bandPasses highPasses at *; omega
      simp [a, b, hb]
    · have hb : bandPasses l h m := by unfold bandPasses highPasses lowPasses at *; omega
      simp [a, b, hb]

/-- **C31, low + high** (partial). With the same cutoff they sum to the signal when the cutoff is a whole number of
frequency steps. Missing: other cutoffs, where floor/ceil leave out one bin (`C31_low_high_counterexample`). -/
theorem C31_low_high_complement_partial (f c : ℝ) (hf : 0 < f) (h1 : 0 ≤ c) (m : ℕ) (hm : c * n / f = m)
    (x : ZMod n → ℝ) : (fun t => fourierLowPass f c x t + fourierHighPass f c x t) = x := by
  apply eq_of_fft; intro k
  have hl : loBin n f c = m := by unfold loBin; rw [hm]; simp
  have hh : hiBin n f c = m := by unfold hiBin; rw [hm]; simp
  rw [fft_add_real, C29_low_pass f c hf h1, C29_high_pass f c hf h1, hl, hh]
  by_cases a : lowPasses (m : ℤ) (harmonic n k.val)
  · have hc : ¬ highPasses (m : ℤ) (harmonic n k.val) := by unfold highPasses lowPasses at *; omega
    simp [a, hc]
  · have hc : highPasses (m : ℤ) (harmonic n k.val) := by unfold highPasses lowPasses at *; omega
    simp [a, hc]

/-- **C31 counterexample, low + high.** Two samples at frequency 2, cutoff 1/2: the mean is lost by both filters. -/
theorem C31_low_high_counterexample :
    ∃ x : ZMod 2 → ℝ, (fun t => fourierLowPass 2 (1/2) x t + fourierHighPass 2 (1/2) x t) ≠ x := by
  refine ⟨fun t => if t = 0 then 1 else 0, fun hx => ?_⟩
  have hl : loBin 2 2 (1/2) = 0 := by unfold loBin; norm_num
  have hh : hiBin 2 2 (1/2) = 1 := by unfold hiBin; norm_num
  have h := fft_add_real (n := 2) (fourierLowPass 2 (1/2) (fun t => if t = 0 then 1 else 0))
    (fourierHighPass 2 (1/2) (fun t => if t = 0 then 1 else 0)) 0
  have hx' := congrFun hx
  simp only [hx'] at h
  rw [fft_impulse, C29_low_pass 2 (1/2) (by norm_num) (by norm_num),
    C29_high_pass 2 (1/2) (by norm_num) (by norm_num), hl, hh, if_neg (by decide), if_neg (by decide)] at h
  norm_num at h

/-- **C31 counterexample, band.** Above Nyquist: 4 samples at frequency 4, cutoffs 2 and 4. -/
theorem C31_band_counterexample :
    ∃ x : ZMod 4 → ℝ, (fun t => fourierBandPass 4 2 4 x t + fourierBandBlock 4 2 4 x t) ≠ x := by
  refine ⟨fun t => if t = 0 then 1 else 0, fun hx => ?_⟩
  have hl : loBin 4 4 2 = 2 := by unfold loBin; norm_num
  have hh : hiBin 4 4 4 = 4 := by unfold hiBin; norm_num
  have h := fft_add_real (n := 4) (fourierBandPass 4 2 4 (fun t => if t = 0 then 1 else 0))
    (fourierBandBlock 4 2 4 (fun t => if t = 0 then 1 else 0)) 1
  have hx' := congrFun hx
  simp only [hx'] at h
  rw [fft_impulse, C29_band_pass 4 2 4 (by norm_num) (by norm_num) (by norm_num)] at h
  unfold fourierBandBlock at h
  rw [fft_fourierFilter _ 4 2 4 (by norm_num) (by norm_num) (by norm_num), hl, hh, if_neg (by decide),
    if_pos (by decide)] at h
  norm_num at h

example : (fun t => fourierLowPass 6 2 (fun t : ZMod 6 => (t.val : ℝ)) t
    + fourierHighPass 6 2 (fun t : ZMod 6 => (t.val : ℝ)) t) = fun t => (t.val : ℝ) :=
  C31_low_high_complement_partial 6 2 (by norm_num) (by norm_num) 2 (by norm_num) _

/-! ### C32 -/

theorem sum_eq_of_fft0 (x y : ZMod n → ℝ) (h : npFft (fun t => (x t : ℂ)) 0 = npFft (fun t => (y t : ℂ)) 0) :
    ∑ t, x t = ∑ t, y t := by
  rw [npFft_zero_bin, npFft_zero_bin] at h; exact_mod_cast h

/-- **C32, low pass.** The time mean is kept when the cutoff is at least one frequency step. -/
theorem C32_low_pass_keeps_mean (f cl : ℝ) (hf : 0 < f) (h1 : f / n ≤ cl) (x : ZMod n → ℝ) :
    (∑ t, fourierLowPass f cl x t) / n = (∑ t, x t) / n := by
  have hr := res_pos (n := n) hf
  have h0 : 0 ≤ cl := le_trans hr.le h1
  congr 1
  apply sum_eq_of_fft0
  rw [C29_low_pass f cl hf h0, if_pos]
  have : 1 ≤ loBin n f cl := by
    rw [← loBin_eq]; apply Int.le_floor.2; rw [Int.cast_one, le_div_iff₀ hr]; linarith
  simp [lowPasses, harmonic]; omega

/-- **C32, high pass.** Any positive cutoff removes the mean. -/
theorem C32_high_pass_removes_mean (f ch : ℝ) (hf : 0 < f) (h1 : 0 < ch) (x : ZMod n → ℝ) :
    ∑ t, fourierHighPass f ch x t = 0 := by
  have := C29_high_pass f ch hf h1.le x 0
  rw [npFft_zero_bin, if_neg] at this
  · exact_mod_cast this
  · have : 1 ≤ hiBin n f ch := by
      rw [← hiBin_eq]; apply Int.one_le_ceil_iff.2; exact div_pos h1 (res_pos hf)
    simp [highPasses, harmonic]; omega

/-- **C32, band pass.** A low cutoff of at least one frequency step removes the mean. -/
theorem C32_band_pass_removes_mean (f cl ch : ℝ) (hf : 0 < f) (h1 : f / n ≤ cl) (h2 : 0 ≤ ch) (x : ZMod n → ℝ) :
    ∑ t, fourierBandPass f cl ch x t = 0 := by
  have hr := res_pos (n := n) hf
  have h0 : 0 ≤ cl := le_trans hr.le h1
  have := C29_band_pass f cl ch hf h0 h2 x 0
  rw [npFft_zero_bin, if_neg] at this
  · exact_mod_cast this
  · have : 1 ≤ loBin n f cl := by
      rw [← loBin_eq]; apply Int.le_floor.2; rw [Int.cast_one, le_div_iff₀ hr]; linarith
    simp [bandPasses, harmonic]; omega

/-- **C32, band block** (partial: high cutoff up to the sample frequency; false above, `C32_counterexample`). With a low cutoff of at least one step the mean
is kept. -/
theorem C32_band_block_partial (f cl ch : ℝ) (hf : 0 < f) (h1 : f / n ≤ cl) (h2 : 0 ≤ ch) (h3 : ch ≤ f)
    (x : ZMod n → ℝ) : (∑ t, fourierBandBlock f cl ch x t) / n = (∑ t, x t) / n := by
  have hr := res_pos (n := n) hf
  have h0 : 0 ≤ cl := le_trans hr.le h1
  congr 1
  apply sum_eq_of_fft0
  unfold fourierBandBlock
  rw [fft_fourierFilter _ f cl ch hf h0 h2, if_neg]
  have hl : 1 ≤ loBin n f cl := by
    rw [← loBin_eq]; apply Int.le_floor.2; rw [Int.cast_one, le_div_iff₀ hr]; linarith
  have hh : hiBin n f ch ≤ n := by
    unfold hiBin; apply Int.ceil_le.2
    rw [div_le_iff₀ hf]; push_cast
    have : (0:ℝ) ≤ n := by positivity
    nlinarith
  simp [zeroPred, blockZ]; omega

example : (6 : ℝ) / (6 : ℕ) ≤ 1.5 := by norm_num

/-! ### C33 -/

/-- **C33** (partial). Filtering along axis 1 is filtering the transpose along axis 0, for square arrays. Missing:
arrays whose two axes have different lengths, for which it is false (`C33_counterexample`). -/
theorem C33_time_axis_partial (fl : Flags) (f cl ch : ℝ) (x : ZMod n → ZMod n → ℝ) (i j : ZMod n) :
    fourierFilter2D fl f cl ch true x i j = fourierFilter2D fl f cl ch false (fun a b => x b a) j i := by
  simp [fourierFilter2D]

/-- Along axis 0 every column is filtered as a 1-D series. -/
theorem C33_axis0 {a b : ℕ} [NeZero a] [NeZero b] (fl : Flags) (f cl ch : ℝ) (x : ZMod a → ZMod b → ℝ)
    (i : ZMod a) (j : ZMod b) :
    fourierFilter2D fl f cl ch false x i j = fourierFilter fl f cl ch (fun t => x t j) i := by
  simp [fourierFilter2D, fourierFilter]

/-- **C33 counterexample.** A 1×2 array of ones, sample frequency 1, low pass at 1/2: along axis 1 the result is 0,
while filtering the transpose along axis 0 keeps the mean. The frequency step is computed from the wrong axis. -/
theorem C33_counterexample :
    ∃ (x : ZMod 1 → ZMod 2 → ℝ) (i : ZMod 1) (j : ZMod 2),
      fourierFilter2D { lowPass := true } 1 (1/2) 0 true x i j
        ≠ fourierFilter2D { lowPass := true } 1 (1/2) 0 false (fun a b => x b a) j i := by
  by_contra hcon
  push Not at hcon
  have hx := hcon (fun _ _ => 1) 0
  -- wrong resolution: every bin is removed
  have hzero : ∑ j : ZMod 2, fourierFilter2D { lowPass := true } 1 (1/2) 0 true (fun (_ : ZMod 1) (_ : ZMod 2) => 1) 0 j = 0 := by
    have := fft_filterRes (n := 2) { lowPass := true } 1 (1/2) 0 (by norm_num) (by norm_num) le_rfl (fun _ => 1) 0
    rw [npFft_zero_bin, if_pos] at this
    · simp only [fourierFilter2D]
      norm_num at this ⊢
      exact_mod_cast this
    · have : ⌊((1:ℝ)/2) / 1⌋ = 0 := by norm_num
      rw [this]; decide
  have hone : ∑ j : ZMod 2, fourierFilter2D { lowPass := true } 1 (1/2) 0 false (fun (_ : ZMod 2) (_ : ZMod 1) => 1) j 0 = 2 := by
    have h := C32_low_pass_keeps_mean (n := 2) 1 (1/2) (by norm_num) (by norm_num) (fun _ => 1)
    simp only [C33_axis0]
    unfold fourierLowPass at h
    simp at h ⊢
    linarith
  simp only [hx] at hzero
  rw [hone] at hzero
  norm_num at hzero

/-! ### C78 -/

/-- **C78, pass band.** A sinusoid with a whole number `m` of cycles (`2m ≤ n`) that every set flag passes is returned
unchanged. -/
theorem C78_sinusoid_passed (fl : Flags) (f cl ch : ℝ) (hf : 0 < f) (h1 : 0 ≤ cl) (h2 : 0 ≤ ch) (m : ℕ) (hm : 2 * m ≤ n)
    (A B : ℝ) (hbb : fl.bandBlock = true → cl ≤ ch ∧ ch ≤ f / 2)
    (hpass : (fl.lowPass = true → lowPasses (loBin n f cl) m) ∧ (fl.highPass = true → highPasses (hiBin n f ch) m) ∧
      (fl.bandPass = true → bandPasses (loBin n f cl) (hiBin n f ch) m) ∧
      (fl.bandBlock = true → ¬ bandPasses (loBin n f cl) (hiBin n f ch) m)) :
    fourierFilter fl f cl ch (sinusoid n m A B) = sinusoid n m A B := by
  apply eq_of_fft; intro k
  by_cases hk : harmonic n k.val = m
  · rw [← hk] at hpass
    exact (C29_combined_partial fl f cl ch hf h1 h2 hbb _ k).1 hpass
  · rw [fft_fourierFilter fl f cl ch hf h1 h2, fft_sinusoid_zero m hm A B k hk]; simp

/-- **C78, stop band.** A sinusoid that some set flag stops is returned as zero. -/
theorem C78_sinusoid_stopped (fl : Flags) (f cl ch : ℝ) (hf : 0 < f) (h1 : 0 ≤ cl) (h2 : 0 ≤ ch) (m : ℕ) (hm : 2 * m ≤ n)
    (A B : ℝ) (hbb : fl.bandBlock = true → cl ≤ ch ∧ ch ≤ f / 2)
    (hstop : ¬ ((fl.lowPass = true → lowPasses (loBin n f cl) m) ∧ (fl.highPass = true → highPasses (hiBin n f ch) m) ∧
      (fl.bandPass = true → bandPasses (loBin n f cl) (hiBin n f ch) m) ∧
      (fl.bandBlock = true → ¬ bandPasses (loBin n f cl) (hiBin n f ch) m))) :
    fourierFilter fl f cl ch (sinusoid n m A B) = fun _ => 0 := by
  apply eq_of_fft; intro k
  have h0 : npFft (fun _ : ZMod n => ((0 : ℝ) : ℂ)) k = 0 := by unfold npFft; simp
  rw [h0]
  by_cases hk : harmonic n k.val = m
  · rw [← hk] at hstop
    exact (C29_combined_partial fl f cl ch hf h1 h2 hbb _ k).2 hstop
  · rw [fft_fourierFilter fl f cl ch hf h1 h2, fft_sinusoid_zero m hm A B k hk]; simp

/-- Non-vacuity: removing a "tide" of 3 cycles from a 12-point record with a block band from bin 2 to bin 4. -/
example : fourierFilter { bandBlock := true } 12 2 4 (sinusoid 12 3 1 2) = fun _ => 0 := by
  have hl : loBin 12 12 2 = 2 := by unfold loBin; norm_num
  have hh : hiBin 12 12 4 = 4 := by unfold hiBin; norm_num
  apply C78_sinusoid_stopped _ 12 2 4 (by norm_num) (by norm_num) (by norm_num) 3 (by norm_num) 1 2
  · intro _; norm_num
  · rw [hl, hh]; decide

end Verif.Props
