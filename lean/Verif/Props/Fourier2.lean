import Verif.Props.Fourier

/-
Properties C29, C31, C33, exactly: what band-block, the sums of complementary filters and filtering along axis 1 return for every
cutoff and every shape, and when that is the documented result.
-/

namespace Verif.Props
open Verif.Model Verif.Spec Verif.Lemmas Complex

set_option linter.unusedSectionVars false

variable {n : ℕ} [NeZero n]

theorem loBin_le_hiBin {f cl ch : ℝ} (hf : 0 < f) (h : cl ≤ ch) : loBin n f cl ≤ hiBin n f ch := by
  unfold loBin hiBin
  have : cl * n / f ≤ ch * n / f := by
    apply div_le_div_of_nonneg_right _ hf.le
    exact mul_le_mul_of_nonneg_right h (by positivity)
  exact le_trans (Int.floor_mono this) (Int.floor_le_ceil _)

theorem blockZ_mirror (l h : ℤ) (k : ℕ) (hk : k < n) (hl : 0 ≤ l) :
    blockZ n l h k ↔ (bandPasses l h k ∨ bandPasses l h (n - k)) := by
  unfold blockZ bandPasses
  omega

/-- `C29`, band block, exactly, for all cutoffs: bin `k` is removed if `k` or its mirror bin `n - k` lies in the band of bins between the
cutoffs. (The documented filter removes it if the smaller of the two does.) -/
theorem C29_band_block_bins (f cl ch : ℝ) (hf : 0 < f) (h1 : 0 ≤ cl) (h2 : 0 ≤ ch) (x : ZMod n → ℝ) (k : ZMod n) :
    npFft (fun t => ((fourierBandBlock f cl ch x t : ℝ) : ℂ)) k
      = if bandPasses (loBin n f cl) (hiBin n f ch) k.val ∨ bandPasses (loBin n f cl) (hiBin n f ch) (n - k.val) then 0
        else npFft (fun t => (x t : ℂ)) k := by
  unfold fourierBandBlock
  rw [fft_fourierFilter _ f cl ch hf h1 h2]
  refine if_congr ?_ rfl rfl
  rw [← blockZ_mirror _ _ _ (ZMod.val_lt k) (loBin_nonneg hf h1)]
  simp [zeroPred]

/-- the bins band block should remove are those it removes -/
def BlockAgrees (n : ℕ) (l h : ℤ) : Prop :=
  ∀ k < n, (bandPasses l h k ∨ bandPasses l h (n - k)) ↔ bandPasses l h (harmonic n k)

theorem blockAgrees_iff (l h : ℤ) (hl : 0 ≤ l) (hlh : l ≤ h) :
    BlockAgrees n l h ↔ l + h ≤ n + 1 ∨ l = 0 ∨ l = h ∨ n < l := by
  have hn : 0 < n := Nat.pos_of_ne_zero (NeZero.ne n)
  constructor
  · intro hA
    by_contra hc
    push Not at hc
    obtain ⟨c1, c2, c3, c4⟩ := hc
    -- the last bin of the mirrored band with a harmonic below the low cutoff
    have hA' := hA (n - l.toNat) (by omega)
    have hA2 := hA (n - min (h.toNat - 1) n) (by omega)
    unfold bandPasses harmonic at hA' hA2
    omega
  · intro hc k hk
    unfold bandPasses harmonic
    omega

/-- `C29`, band block: for cutoffs `cl ≤ ch` with bins `l` and `h`, the filter removes exactly the documented harmonics of every signal if
and only if `l + h ≤ n + 1`, or `l = 0`, or the band is empty (`l = h` or `l > n`). -/
theorem C29_band_block_exact (f cl ch : ℝ) (hf : 0 < f) (h1 : 0 ≤ cl) (h2 : cl ≤ ch) :
    (∀ (x : ZMod n → ℝ) (k : ZMod n), npFft (fun t => ((fourierBandBlock f cl ch x t : ℝ) : ℂ)) k
        = if bandPasses (loBin n f cl) (hiBin n f ch) (harmonic n k.val) then 0 else npFft (fun t => (x t : ℂ)) k) ↔
      (loBin n f cl + hiBin n f ch ≤ n + 1 ∨ loBin n f cl = 0 ∨ loBin n f cl = hiBin n f ch ∨ (n : ℤ) < loBin n f cl) := by
  rw [← blockAgrees_iff _ _ (loBin_nonneg hf h1) (loBin_le_hiBin hf h2)]
  constructor
  · intro h k hk
    have hx := h (fun t => if t = 0 then 1 else 0) (k : ZMod n)
    rw [C29_band_block_bins f cl ch hf h1 (le_trans h1 h2), fft_impulse, ZMod.val_cast_of_lt hk] at hx
    by_cases a : bandPasses (loBin n f cl) (hiBin n f ch) k ∨ bandPasses (loBin n f cl) (hiBin n f ch) (n - k) <;>
      by_cases b : bandPasses (loBin n f cl) (hiBin n f ch) (harmonic n k) <;> simp [a, b] at hx ⊢
  · intro h x k
    rw [C29_band_block_bins f cl ch hf h1 (le_trans h1 h2)]
    exact if_congr (h k.val (ZMod.val_lt k)) rfl rfl

/-- `C31`, band pass plus band block give the signal for every signal if and only if band block is right. -/
theorem C31_band_exact (f cl ch : ℝ) (hf : 0 < f) (h1 : 0 ≤ cl) (h2 : cl ≤ ch) :
    (∀ x : ZMod n → ℝ, (fun t => fourierBandPass f cl ch x t + fourierBandBlock f cl ch x t) = x) ↔
      (loBin n f cl + hiBin n f ch ≤ n + 1 ∨ loBin n f cl = 0 ∨ loBin n f cl = hiBin n f ch ∨ (n : ℤ) < loBin n f cl) := by
  rw [← C29_band_block_exact f cl ch hf h1 h2]
  have hch := le_trans h1 h2
  constructor
  · intro h x k
    have hs := fft_add_real (fourierBandPass f cl ch x) (fourierBandBlock f cl ch x) k
    have hx := congrFun (h x)
    simp only [hx] at hs
    rw [C29_band_pass f cl ch hf h1 hch] at hs
    split_ifs with hb
    · rw [if_pos hb] at hs
      have := hs.symm
      rw [add_eq_left] at this
      exact this
    · rw [if_neg hb, zero_add] at hs
      exact hs.symm
  · intro h x
    apply eq_of_fft; intro k
    rw [fft_add_real, C29_band_pass f cl ch hf h1 hch, h]
    split <;> simp

/-- `C31`, low pass plus high pass with the same cutoff `c`, exactly: every harmonic is kept but the one just below the cutoff, which
is lost if the cutoff is not a whole number of frequency steps. -/
theorem C31_low_high_exact (f c : ℝ) (hf : 0 < f) (h1 : 0 ≤ c) (x : ZMod n → ℝ) (k : ZMod n) :
    npFft (fun t => ((fourierLowPass f c x t + fourierHighPass f c x t : ℝ) : ℂ)) k
      = if ((harmonic n k.val : ℕ) : ℝ) < c * n / f ∧ c * n / f < (harmonic n k.val : ℕ) + 1 then 0
        else npFft (fun t => (x t : ℂ)) k := by
  rw [fft_add_real, C29_low_pass f c hf h1, C29_high_pass f c hf h1]
  generalize harmonic n k.val = m
  unfold loBin hiBin
  generalize c * n / f = y
  by_cases a : (m : ℤ) < ⌊y⌋
  · have : (m : ℤ) + 1 ≤ ⌊y⌋ := a
    have h3 : ((m : ℝ) + 1) ≤ y := by
      have := Int.le_floor.mp this
      push_cast at this; exact this
    have h4 : ¬ ⌈y⌉ ≤ (m : ℤ) := by
      intro hc
      have := Int.ceil_le.mp hc
      push_cast at this; linarith
    rw [if_pos (show lowPasses ⌊y⌋ m from a), if_neg (show ¬ highPasses ⌈y⌉ m from h4), if_neg (by rintro ⟨-, h⟩; linarith), add_zero]
  · have h3 : y < (m : ℝ) + 1 := by
      by_contra hc
      push Not at hc
      exact a (by
        have : (m : ℤ) + 1 ≤ ⌊y⌋ := Int.le_floor.mpr (by push_cast; exact hc)
        omega)
    rw [if_neg (show ¬ lowPasses ⌊y⌋ m from a), zero_add]
    by_cases b : ⌈y⌉ ≤ (m : ℤ)
    · have h4 := Int.ceil_le.mp b
      push_cast at h4
      rw [if_pos (show highPasses ⌈y⌉ m from b), if_neg (by rintro ⟨h, -⟩; linarith)]
    · have h4 : (m : ℝ) < y := by
        by_contra hc
        push Not at hc
        exact b (Int.ceil_le.mpr (by push_cast; exact hc))
      rw [if_neg (show ¬ highPasses ⌈y⌉ m from b), if_pos ⟨h4, h3⟩]

/-- `C33`, exactly: along axis 1 every row is filtered as a 1-D series whose sample frequency is the given one times the ratio of the two
axis lengths. -/
theorem C33_exact {a b : ℕ} [NeZero a] [NeZero b] (fl : Flags) (f cl ch : ℝ) (x : ZMod a → ZMod b → ℝ) (i : ZMod a) (j : ZMod b) :
    fourierFilter2D fl f cl ch true x i j = fourierFilter fl (f * b / a) cl ch (fun t => x i t) j := by
  have hb : (b : ℝ) ≠ 0 := by exact_mod_cast NeZero.ne b
  have : f * b / a / b = f / a := by field_simp
  simp [fourierFilter2D, fourierFilter, this]

/-- Concrete cases: above the Nyquist frequency band block is right from bin 0 on, and wrong from bin 2 to bin 4 of 4. -/
example : (loBin 4 4 0 = 0 ∧ hiBin 4 4 4 = 4) ∧
    ¬ (loBin 4 4 2 + hiBin 4 4 4 ≤ (4 : ℕ) + 1 ∨ loBin 4 4 2 = 0 ∨ loBin 4 4 2 = hiBin 4 4 4 ∨ ((4 : ℕ) : ℤ) < loBin 4 4 2) := by
  have h0 : loBin 4 4 0 = 0 := by unfold loBin; norm_num
  have hl : loBin 4 4 2 = 2 := by unfold loBin; norm_num
  have hh : hiBin 4 4 4 = 4 := by unfold hiBin; norm_num
  refine ⟨⟨h0, hh⟩, ?_⟩
  rw [hl, hh]; decide

/-- a cutoff of 1.5 steps: harmonic 1 is lost by low + high -/
example : ((harmonic 6 5 : ℕ) : ℝ) < 1.5 * (6 : ℕ) / 6 ∧ (1.5 : ℝ) * (6 : ℕ) / 6 < (harmonic 6 5 : ℕ) + 1 := by
  norm_num [harmonic]

/-- **C28**, in terms of spectra: the filter keeps or removes whole harmonics. There is a set of bins, the same for every signal and
closed under `k ↦ n - k`, and the spectrum of the returned real signal is the spectrum of the input with the other bins set to zero. -/
theorem C28_bins (fl : Flags) (f cl ch : ℝ) (hf : 0 < f) (h1 : 0 ≤ cl) (h2 : 0 ≤ ch) :
    ∃ keep : ZMod n → Bool, (∀ k, keep (-k) = keep k) ∧
      ∀ (x : ZMod n → ℝ) (k : ZMod n), npFft (fun t => ((fourierFilter fl f cl ch x t : ℝ) : ℂ)) k = if keep k then npFft (fun t => (x t : ℂ)) k else 0 := by
  refine ⟨fun k => !decide (zeroPred fl n (loBin n f cl) (hiBin n f ch) k.val), fun k => ?_, fun x k => ?_⟩
  · simp only [zeroPred_neg fl _ _ (loBin_nonneg (n := n) hf h1) (hiBin_nonneg (n := n) hf h2)]
  · rw [fft_fourierFilter fl f cl ch hf h1 h2]
    by_cases hz : zeroPred fl n (loBin n f cl) (hiBin n f ch) k.val
    · simp [hz]
    · simp [hz]

/-- `C32`, band block, exactly, for a low cutoff of at least one frequency step: the mean is removed if bin `n` (the mirror image of bin 0)
lies in the band, and kept otherwise. -/
theorem C32_band_block_exact (f cl ch : ℝ) (hf : 0 < f) (h1 : f / n ≤ cl) (h2 : 0 ≤ ch) (x : ZMod n → ℝ) :
    ∑ t, fourierBandBlock f cl ch x t = if loBin n f cl ≤ n ∧ (n : ℤ) < hiBin n f ch then 0 else ∑ t, x t := by
  have hr := res_pos (n := n) hf
  have h0 : 0 ≤ cl := le_trans hr.le h1
  have hl : 1 ≤ loBin n f cl := by
    rw [← loBin_eq]; apply Int.le_floor.2; rw [Int.cast_one, le_div_iff₀ hr]; linarith
  have hb := C29_band_block_bins f cl ch hf h0 h2 x 0
  rw [npFft_zero_bin, npFft_zero_bin, ZMod.val_zero] at hb
  have hiff : (bandPasses (loBin n f cl) (hiBin n f ch) 0 ∨ bandPasses (loBin n f cl) (hiBin n f ch) (n - 0)) ↔
      loBin n f cl ≤ n ∧ (n : ℤ) < hiBin n f ch := by
    unfold bandPasses
    simp only [Nat.sub_zero]
    omega
  by_cases hc : loBin n f cl ≤ n ∧ (n : ℤ) < hiBin n f ch
  · rw [if_pos (hiff.mpr hc)] at hb
    rw [if_pos hc]
    exact_mod_cast hb
  · rw [if_neg (fun h => hc (hiff.mp h))] at hb
    rw [if_neg hc]
    exact_mod_cast hb

/-- **C32** is false of band block with a high cutoff above the sample frequency: 4 samples at frequency 4, blocking from 2 to 5, lose their
mean. -/
theorem C32_counterexample :
    ∃ x : ZMod 4 → ℝ, (4 : ℝ) / (4 : ℕ) ≤ 2 ∧ (∑ t, x t) / 4 = 1 ∧ (∑ t, fourierBandBlock 4 2 5 x t) / 4 = 0 := by
  refine ⟨fun _ => 1, by norm_num, by simp, ?_⟩
  rw [C32_band_block_exact (n := 4) 4 2 5 (by norm_num) (by norm_num) (by norm_num), if_pos]
  · simp
  · constructor
    · unfold loBin; norm_num
    · unfold hiBin; norm_num

/-- three samples a step: the hypotheses of `C32_band_block_exact` hold with the high cutoff below and above the sample frequency -/
example : (6 : ℝ) / (6 : ℕ) ≤ 1.5 ∧ hiBin 6 6 3 ≤ 6 ∧ (6 : ℤ) < hiBin 6 6 7 := by
  refine ⟨by norm_num, ?_, ?_⟩ <;> unfold hiBin <;> norm_num

end Verif.Props
