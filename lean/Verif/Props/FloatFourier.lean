import Verif.Model.FloatsFourier
import Verif.Lemmas.FloatCast
import Verif.Lemmas.FloatErr
import Verif.Lemmas.FourierNorm
import Verif.Props.Fourier

/-
Properties C164, C165: Fourier filters in floating-point arithmetic. `u` is the relative error of one operation, `η` the absolute error of an underflow.
-/

namespace Verif.Props
open Verif Model Spec Lemmas

variable {n : ℕ} [NeZero n]

/-- the cutoff that the exact computation would turn into the computed bin -/
noncomputable def effective (R : Rounding ℝ) (n : ℕ) (f c : ℝ) : ℝ := R.fl (c / resolutionFl R n f) * (f / n)

theorem loBin_effective (R : Rounding ℝ) {f : ℝ} (hf : 0 < f) (c : ℝ) : loBin n f (effective R n f c) = loBinFl R n f c := by
  rw [← loBin_eq]
  unfold effective loBinFl
  rw [mul_div_cancel_right₀ _ (res_pos (n := n) hf).ne']

theorem hiBin_effective (R : Rounding ℝ) {f : ℝ} (hf : 0 < f) (c : ℝ) : hiBin n f (effective R n f c) = hiBinFl R n f c := by
  rw [← hiBin_eq]
  unfold effective hiBinFl
  rw [mul_div_cancel_right₀ _ (res_pos (n := n) hf).ne']

theorem resolutionFl_nonneg (R : Rounding ℝ) {f : ℝ} (hf : 0 < f) : 0 ≤ resolutionFl R n f := R.fl_nonneg (res_pos (n := n) hf).le

theorem effective_nonneg (R : Rounding ℝ) {f c : ℝ} (hf : 0 < f) (hc : 0 ≤ c) : 0 ≤ effective R n f c :=
  mul_nonneg (R.fl_nonneg (div_nonneg hc (resolutionFl_nonneg (n := n) R hf))) (res_pos (n := n) hf).le

theorem effective_mono (R : Rounding ℝ) {f c d : ℝ} (hf : 0 < f) (h : c ≤ d) : effective R n f c ≤ effective R n f d :=
  mul_le_mul_of_nonneg_right (R.mono _ _ (div_le_div_of_nonneg_right h (resolutionFl_nonneg (n := n) R hf))) (res_pos (n := n) hf).le

theorem quotient_close {R : Rounding ℝ} {u η : ℝ} (A : R.Accurate u η) (hu : u ≤ 1 / 8) {f c : ℝ} (hf : 0 < f) (hres : η ≤ u * (f / n)) (hc : 0 ≤ c) :
    |R.fl (c / resolutionFl R n f) - c * n / f| ≤ 4 * u * (c * n / f) + η := by
  have hr : 0 < f / n := res_pos hf
  have h0 := A.u_nonneg
  have e1 : |resolutionFl R n f - f / n| ≤ 2 * u * (f / n) := by
    have := A.err (f / n)
    rw [abs_of_pos hr] at this
    unfold resolutionFl
    linarith
  generalize resolutionFl R n f = s at *
  have ey : c * n / f = c / (f / n) := by rw [div_div_eq_mul_div]
  rw [ey]
  generalize f / (n : ℝ) = r at *
  have hs : 3 / 4 * r ≤ s := by
    have := (abs_le.mp e1).1
    have := mul_le_mul_of_nonneg_right hu hr.le
    linarith
  have hs0 : 0 < s := by linarith
  have e2 := A.err (c / s)
  rw [abs_of_nonneg (div_nonneg hc hs0.le)] at e2
  have e3 : |c / s - c / r| ≤ 2 * u * (c / s) := by
    have : c / s - c / r = (c / s) * ((r - s) / r) := by field_simp
    rw [this, abs_mul, abs_of_nonneg (div_nonneg hc hs0.le), mul_comm]
    apply mul_le_mul_of_nonneg_right _ (div_nonneg hc hs0.le)
    rw [abs_div, abs_of_pos hr, div_le_iff₀ hr, abs_sub_comm]
    exact e1
  have e4 : c / s ≤ 4 / 3 * (c / r) := by
    have : c / s ≤ c / (3 / 4 * r) := div_le_div_of_nonneg_left hc (by linarith) hs
    refine this.trans (le_of_eq ?_)
    field_simp
  have e5 := mul_le_mul_of_nonneg_left e4 h0
  have := abs_sub_le (R.fl (c / s)) (c / s) (c / r)
  linarith

/-- **C165.** What `fourier_filter` computes with exact transforms is what exact arithmetic gives for cutoffs changed by four units of rounding.
So everything proved about the filters for all cutoffs (C27–C33, C78, C132, C139) holds for the computed bins. -/
theorem C165_backward {R : Rounding ℝ} {u η : ℝ} (A : R.Accurate u η) (hu : u ≤ 1 / 8) (fl : Flags) {f cl ch : ℝ} (hf : 0 < f) (hres : η ≤ u * (f / n))
    (h1 : 0 ≤ cl) (h2 : 0 ≤ ch) : ∃ cl' ch', 0 ≤ cl' ∧ 0 ≤ ch' ∧ |cl' - cl| ≤ 4 * u * cl + η * (f / n) ∧ |ch' - ch| ≤ 4 * u * ch + η * (f / n) ∧ (cl ≤ ch → cl' ≤ ch') ∧
      ∀ x : ZMod n → ℝ, fourierFilterFl R npFft npIfft fl f cl ch x = fourierFilter fl f cl' ch' x := by
  have hr : 0 < f / n := res_pos hf
  have near : ∀ c, 0 ≤ c → |effective R n f c - c| ≤ 4 * u * c + η * (f / n) := by
    intro c hc
    have h := mul_le_mul_of_nonneg_right (quotient_close (n := n) A hu hf hres hc) hr.le
    rw [← abs_of_pos hr, ← abs_mul, abs_of_pos hr] at h
    have e : c * n / f * (f / n) = c := by
      have : (n : ℝ) ≠ 0 := by exact_mod_cast NeZero.ne n
      field_simp
    have e1 : (R.fl (c / resolutionFl R n f) - c * n / f) * (f / n) = effective R n f c - c := by
      unfold effective
      rw [sub_mul, e]
    have e2 : (4 * u * (c * n / f) + η) * (f / n) = 4 * u * c + η * (f / n) := by
      rw [add_mul, mul_assoc, e]
    rwa [e1, e2] at h
  refine ⟨effective R n f cl, effective R n f ch, effective_nonneg R hf h1, effective_nonneg R hf h2, near cl h1, near ch h2, effective_mono R hf, fun x => ?_⟩
  unfold fourierFilterFl fourierFilter filterRes
  simp only [loBin_eq, hiBin_eq, loBin_effective R hf, hiBin_effective R hf]

theorem fl_backward (R : Rounding ℝ) (fl : Flags) {f : ℝ} (hf : 0 < f) (cl ch : ℝ) (x : ZMod n → ℝ) :
    fourierFilterFl R npFft npIfft fl f cl ch x = fourierFilter fl f (effective R n f cl) (effective R n f ch) x := by
  unfold fourierFilterFl fourierFilter filterRes
  simp only [loBin_eq, hiBin_eq, loBin_effective R hf, hiBin_effective R hf]

/-- Without rounding the bins are the specified ones. -/
theorem C165_exact (fl : Flags) (f cl ch : ℝ) (x : ZMod n → ℝ) : fourierFilterFl Rounding.exact npFft npIfft fl f cl ch x = fourierFilter fl f cl ch x := rfl

theorem floor_stable {q y δ : ℝ} (h : |q - y| ≤ δ) (far : ∀ k : ℤ, δ < |y - k|) : ⌊q⌋ = ⌊y⌋ ∧ ⌈q⌉ = ⌈y⌉ := by
  have a1 := Int.floor_le y
  have a2 := Int.lt_floor_add_one y
  have f1 := far ⌊y⌋
  have f2 := far (⌊y⌋ + 1)
  rw [abs_of_nonneg (by linarith)] at f1
  rw [abs_of_nonpos (by push_cast; linarith)] at f2
  push_cast at f2
  have b := abs_le.mp h
  have hq : ⌊q⌋ = ⌊y⌋ := Int.floor_eq_iff.mpr ⟨by linarith, by linarith⟩
  have hd : 0 ≤ δ := (abs_nonneg _).trans h
  have c1 : ⌈y⌉ = ⌊y⌋ + 1 := Int.ceil_eq_iff.mpr ⟨by push_cast; linarith, by push_cast; linarith⟩
  have c2 : ⌈q⌉ = ⌊y⌋ + 1 := Int.ceil_eq_iff.mpr ⟨by push_cast; linarith, by push_cast; linarith⟩
  exact ⟨hq, c2.trans c1.symm⟩

/-- **C164.** The cutoff bin is the specified one unless the cutoff lies within four units of rounding of a bin. -/
theorem C164_bins_partial {R : Rounding ℝ} {u η : ℝ} (A : R.Accurate u η) (hu : u ≤ 1 / 8) {f c : ℝ} (hf : 0 < f) (hres : η ≤ u * (f / n)) (hc : 0 ≤ c)
    (far : ∀ k : ℤ, 4 * u * (c * n / f) + η < |c * n / f - k|) : loBinFl R n f c = loBin n f c ∧ hiBinFl R n f c = hiBin n f c :=
  floor_stable (quotient_close A hu hf hres hc) far

/-- **C164.** It is never more than one bin away (for fewer than 1/(4u) bins: 2e15 in double precision). -/
theorem C164_one_bin {R : Rounding ℝ} {u η : ℝ} (A : R.Accurate u η) (hu : u ≤ 1 / 8) {f c : ℝ} (hf : 0 < f) (hres : η ≤ u * (f / n)) (hc : 0 ≤ c)
    (hn : 4 * u * (c * n / f) + η < 1) : |loBinFl R n f c - loBin n f c| ≤ 1 ∧ |hiBinFl R n f c - hiBin n f c| ≤ 1 := by
  have h := abs_le.mp (quotient_close (n := n) A hu hf hres hc)
  unfold loBinFl hiBinFl loBin hiBin
  generalize R.fl (c / resolutionFl R n f) = q at *
  generalize c * n / f = y at *
  have a1 := Int.floor_le y
  have a2 := Int.lt_floor_add_one y
  have a3 := Int.floor_le q
  have a4 := Int.lt_floor_add_one q
  have a5 := Int.le_ceil y
  have a6 := Int.ceil_lt_add_one y
  have a7 := Int.le_ceil q
  have a8 := Int.ceil_lt_add_one q
  have b1 : ((⌊q⌋ - ⌊y⌋ : ℤ) : ℝ) < ((2 : ℤ) : ℝ) := by push_cast; linarith
  have b2 : ((-2 : ℤ) : ℝ) < ((⌊q⌋ - ⌊y⌋ : ℤ) : ℝ) := by push_cast; linarith
  have b3 : ((⌈q⌉ - ⌈y⌉ : ℤ) : ℝ) < ((2 : ℤ) : ℝ) := by push_cast; linarith
  have b4 : ((-2 : ℤ) : ℝ) < ((⌈q⌉ - ⌈y⌉ : ℤ) : ℝ) := by push_cast; linarith
  have c1 := Int.cast_lt.mp b1
  have c2 := Int.cast_lt.mp b2
  have c3 := Int.cast_lt.mp b3
  have c4 := Int.cast_lt.mp b4
  rw [abs_le, abs_le]
  omega

/-- **C164.** If the frequency step can be stored exactly, a cutoff on a bin is recognised as that bin. -/
theorem C164_on_bin_partial (R : Rounding ℝ) {f c : ℝ} (hstep : R.rep (f / n)) (m : ℕ) (hm : c * n / f = m) (hrep : R.rep m) :
    loBinFl R n f c = m ∧ hiBinFl R n f c = m := by
  have e : R.fl (c / resolutionFl R n f) = m := by
    unfold resolutionFl
    rw [R.fl_of_rep _ hstep, div_div_eq_mul_div, hm, R.fl_of_rep _ hrep]
  unfold loBinFl hiBinFl
  rw [e]
  simp

/-- **C165.** Low pass, band pass and high pass still split the signal. -/
theorem C165_three_way_split (R : Rounding ℝ) {f cl ch : ℝ} (hf : 0 < f) (h1 : 0 ≤ cl) (h2 : cl ≤ ch) (x : ZMod n → ℝ) :
    (fun t => fourierFilterFl R npFft npIfft { lowPass := true } f cl 0 x t + fourierFilterFl R npFft npIfft { bandPass := true } f cl ch x t +
      fourierFilterFl R npFft npIfft { highPass := true } f 0 ch x t) = x := by
  have e0 : effective R n f 0 = 0 := by unfold effective; rw [zero_div, R.fl_zero, zero_mul]
  simp only [fl_backward R _ hf, e0]
  exact C31_three_way_split f _ _ hf (effective_nonneg R hf h1) (effective_mono R hf h2) x

/-! ### a cutoff on a bin -/

theorem step_49 : (float64 : Rounding ℝ).fl ((12 : ℝ) / (588 : ℕ)) = 5882252574524729 / 2 ^ 58 :=
  float64_eq (12 / 588) (5882252574524729 / 2 ^ 58) (by norm_num) (by norm_num) (by decide +kernel)

theorem quotient_49 : (float64 : Rounding ℝ).fl (1 / (5882252574524729 / 2 ^ 58)) = 6896136929411073 / 2 ^ 47 :=
  float64_eq (1 / (5882252574524729 / 2 ^ 58)) (6896136929411073 / 2 ^ 47) (by norm_num) (by norm_num) (by decide +kernel)

theorem bins_49 : loBinFl float64 588 12 1 = 49 ∧ hiBinFl float64 588 12 1 = 50 := by
  unfold loBinFl hiBinFl resolutionFl
  rw [step_49, quotient_49]
  constructor
  · rw [Int.floor_eq_iff]; norm_num
  · rw [Int.ceil_eq_iff]; norm_num

/-- **C164 counterexample.** 49 years of monthly data (12 samples per year), double precision, cutoff of one cycle per year. The annual cycle is on the cutoff:
the high-pass filter should return it unchanged and does so in exact arithmetic. In double precision it is removed by the high-pass filter and by the
low-pass filter. -/
theorem C164_annual_cycle_counterexample (A B : ℝ) : haveI : NeZero 588 := ⟨by norm_num⟩
    loBin 588 12 1 = 49 ∧ hiBin 588 12 1 = 49 ∧ fourierHighPass 12 1 (sinusoid 588 49 A B) = sinusoid 588 49 A B ∧
    fourierFilterFl float64 npFft npIfft { highPass := true } 12 0 1 (sinusoid 588 49 A B) = (fun _ => 0) ∧
    fourierFilterFl float64 npFft npIfft { lowPass := true } 12 1 0 (sinusoid 588 49 A B) = (fun _ => 0) := by
  have : NeZero 588 := ⟨by norm_num⟩
  have hl : loBin 588 12 1 = 49 := by unfold loBin; rw [Int.floor_eq_iff]; norm_num
  have hh : hiBin 588 12 1 = 49 := by unfold hiBin; rw [Int.ceil_eq_iff]; norm_num
  refine ⟨hl, hh, ?_, ?_, ?_⟩
  · refine C78_sinusoid_passed _ 12 0 1 (by norm_num) (by norm_num) (by norm_num) 49 (by norm_num) A B (by simp) ?_
    rw [hh]; simp [highPasses]
  · rw [fl_backward float64 _ (by norm_num)]
    refine C78_sinusoid_stopped _ 12 _ _ (by norm_num) (effective_nonneg _ (by norm_num) (by norm_num)) (effective_nonneg _ (by norm_num) (by norm_num)) 49 (by norm_num) A B (by simp) ?_
    rw [hiBin_effective float64 (by norm_num), bins_49.2]; simp [highPasses]
  · rw [fl_backward float64 _ (by norm_num)]
    refine C78_sinusoid_stopped _ 12 _ _ (by norm_num) (effective_nonneg _ (by norm_num) (by norm_num)) (effective_nonneg _ (by norm_num) (by norm_num)) 49 (by norm_num) A B (by simp) ?_
    rw [loBin_effective float64 (by norm_num), bins_49.1]; simp [lowPasses]

/-! ### accuracy of the transforms -/

/-- The computed transforms have relative error `ε` in the sense of energy: for FFTs `ε` is a small multiple of `u log n`. -/
structure FftAccurate (fft ifft : (ZMod n → ℂ) → ZMod n → ℂ) (ε : ℝ) : Prop where
  nonneg : 0 ≤ ε
  forward : ∀ x, l2 (fun k => fft x k - npFft x k) ≤ ε * l2 (npFft x)
  inverse : ∀ X, l2 (fun t => ifft X t - npIfft X t) ≤ ε * l2 (npIfft X)

/-- **C165.** With transforms of relative error `ε`, the error of the filtered signal is at most `(2 ε + ε²)` times the signal, whatever the filter. -/
theorem C165_accuracy {fft ifft : (ZMod n → ℂ) → ZMod n → ℂ} {ε : ℝ} (T : FftAccurate fft ifft ε) (R : Rounding ℝ) (fl : Flags) {f cl ch : ℝ} (hf : 0 < f) (h1 : 0 ≤ cl) (h2 : 0 ≤ ch)
    (x : ZMod n → ℝ) : l2r (fun t => fourierFilterFl R fft ifft fl f cl ch x t - fourierFilterFl R npFft npIfft fl f cl ch x t) ≤ (2 * ε + ε ^ 2) * l2r x := by
  have hl : 0 ≤ loBinFl R n f cl := by rw [← loBin_effective R hf]; exact loBin_nonneg hf (effective_nonneg R hf h1)
  have hh : 0 ≤ hiBinFl R n f ch := by rw [← hiBin_effective R hf]; exact hiBin_nonneg hf (effective_nonneg R hf h2)
  have hn : (0 : ℝ) < √n := Real.sqrt_pos.mpr (by exact_mod_cast Nat.pos_of_ne_zero (NeZero.ne n))
  unfold fourierFilterFl
  generalize loBinFl R n f cl = l at *
  generalize hiBinFl R n f ch = h at *
  set z : ZMod n → ℂ := fun t => (x t : ℂ) with hz
  set Y' := zeroBins fl l h (fft z) with hY'
  set Y := zeroBins fl l h (npFft z) with hY
  have hlz : l2 z = l2r x := l2_ofReal x
  -- the zeroed spectra
  have d1 : l2 (fun k => Y' k - Y k) ≤ ε * (√n * l2 z) := by
    refine le_trans (l2_le fun k => ?_) ((T.forward z).trans (le_of_eq (by rw [l2_npFft])))
    rw [hY', hY, zeroBins_apply fl l h hl hh, zeroBins_apply fl l h hl hh]
    split
    · simp
    · exact le_refl _
  have d2 : l2 Y' ≤ (1 + ε) * (√n * l2 z) := by
    have a : l2 Y' ≤ l2 (fft z) := l2_le fun k => by
      rw [hY', zeroBins_apply fl l h hl hh]
      split
      · simp
      · exact le_refl _
    have b := l2_add (fun k => fft z k - npFft z k) (npFft z)
    simp only [sub_add_cancel] at b
    have c := T.forward z
    rw [l2_npFft] at b c
    linarith
  -- back
  have t1 : l2 (fun t => ifft Y' t - npIfft Y' t) ≤ ε * ((1 + ε) * l2 z) := by
    refine (T.inverse Y').trans (mul_le_mul_of_nonneg_left ?_ T.nonneg)
    have := l2_npIfft Y'
    rw [← this] at d2
    have d3 : √n * l2 (npIfft Y') ≤ √n * ((1 + ε) * l2 z) := by linarith
    exact le_of_mul_le_mul_left d3 hn
  have t2 : l2 (fun t => npIfft Y' t - npIfft Y t) ≤ ε * l2 z := by
    rw [← npIfft_sub]
    have := l2_npIfft (fun k => Y' k - Y k)
    rw [← this] at d1
    have d3 : √n * l2 (npIfft fun k => Y' k - Y k) ≤ √n * (ε * l2 z) := by linarith
    exact le_of_mul_le_mul_left d3 hn
  have e : (fun t => (ifft Y' t).re - (npIfft Y t).re) = fun t => ((ifft Y' t - npIfft Y' t) + (npIfft Y' t - npIfft Y t)).re := by
    funext t
    simp
  rw [e, ← hlz]
  refine (l2r_re_le _).trans ((l2_add _ _).trans ?_)
  linarith

/-- **C165, no flags.** Transforming forth and back returns the signal up to `(2 ε + ε²)`. -/
theorem C165_no_flags {fft ifft : (ZMod n → ℂ) → ZMod n → ℂ} {ε : ℝ} (T : FftAccurate fft ifft ε) (R : Rounding ℝ) {f cl ch : ℝ} (hf : 0 < f) (h1 : 0 ≤ cl) (h2 : 0 ≤ ch)
    (x : ZMod n → ℝ) : l2r (fun t => fourierFilterFl R fft ifft {} f cl ch x t - x t) ≤ (2 * ε + ε ^ 2) * l2r x := by
  have h := C165_accuracy T R {} hf h1 h2 x
  rw [fl_backward R {} hf, C27_no_flags_identity] at h
  exact h

/-! ### non-vacuity -/

theorem fftAccurate_exact : FftAccurate (n := n) npFft npIfft 0 := by
  constructor
  · exact le_refl _
  · intro x; simp [l2]
  · intro x; simp [l2]

/-- transforms that are wrong by one part in a million -/
example : FftAccurate (n := 12) (fun x k => (1 + 1e-6) * npFft x k) npIfft 1e-6 := by
  refine ⟨by norm_num, fun x => ?_, fun X => ?_⟩
  · have e : (fun k => (1 + 1e-6) * npFft x k - npFft x k) = npFft (fun t => 1e-6 * x t) := by
      rw [npFft_smul]; funext k; ring
    have e2 : l2 (fun t : ZMod 12 => (1e-6 : ℂ) * x t) = 1e-6 * l2 x := by
      rw [l2_eq, l2_eq]
      have := norm_smul (1e-6 : ℂ) (WithLp.toLp 2 x)
      have h3 : ‖(1e-6 : ℂ)‖ = 1e-6 := by norm_num
      rw [h3] at this
      exact this
    rw [e, l2_npFft, l2_npFft, e2]
    exact le_of_eq (by ring)
  · have : l2 (fun t => npIfft X t - npIfft X t) = 0 := by simp [l2]
    rw [this]
    exact mul_nonneg (by norm_num) (l2_nonneg _)

/-- 16 days of hourly data: the frequency step 1/16 per day is exact -/
example : loBinFl float64 384 24 1 = 16 ∧ hiBinFl float64 384 24 1 = 16 :=
  have : NeZero 384 := ⟨by norm_num⟩
  C164_on_bin_partial float64 ⟨1, -4, by norm_num, by norm_num, by norm_num⟩ 16 (by norm_num) ⟨16, 0, by norm_num, by norm_num, by norm_num⟩

/-- between two bins -/
example : loBinFl float64 588 12 (3 / 2) = loBin 588 12 (3 / 2) ∧ hiBinFl float64 588 12 (3 / 2) = hiBin 588 12 (3 / 2) := by
  have : NeZero 588 := ⟨by norm_num⟩
  refine C164_bins_partial float64_accurate (by norm_num [zpow_neg]) (by norm_num) ?_ (by norm_num) fun k => ?_
  · have : (2 : ℝ) ^ (-1075 : ℤ) ≤ 2 ^ (-53 : ℤ) * 2 ^ (-6 : ℤ) := by
      rw [← zpow_add₀ (by norm_num)]
      exact zpow_le_zpow_right₀ (by norm_num) (by norm_num)
    refine this.trans (mul_le_mul_of_nonneg_left (by norm_num [zpow_neg]) (by positivity))
  · have e : ((3 : ℝ) / 2 * (588 : ℕ) / 12 - k) = ((147 - 2 * k : ℤ) : ℝ) / 2 := by push_cast; ring
    have h1 : (1 : ℝ) ≤ |((147 - 2 * k : ℤ) : ℝ)| := by
      have : (1 : ℤ) ≤ |147 - 2 * k| := by
        have : 147 - 2 * k ≠ 0 := by omega
        have := abs_pos.mpr this
        omega
      exact_mod_cast this
    rw [e, abs_div, abs_of_pos (by norm_num : (0 : ℝ) < 2)]
    have h2 : (2 : ℝ) ^ (-1075 : ℤ) ≤ 2 ^ (-53 : ℤ) := zpow_le_zpow_right₀ (by norm_num) (by norm_num)
    have h3 : (2 : ℝ) ^ (-53 : ℤ) ≤ 1e-10 := by norm_num [zpow_neg]
    generalize (2 : ℝ) ^ (-1075 : ℤ) = η at *
    generalize (2 : ℝ) ^ (-53 : ℤ) = u at *
    have e3 : (3 : ℝ) / 2 * ((588 : ℕ) : ℝ) / 12 = 73.5 := by norm_num
    rw [e3]
    linarith

end Verif.Props
