import Verif.Props.Fourier2

/-
Property C132: filters commute with shifts and reversal in time and with each other, and split the energy of the signal.
-/

namespace Verif.Props
open Verif.Model Verif.Spec Verif.Lemmas Complex

variable {n : ℕ} [NeZero n]

/-- spectrum of a shifted signal -/
theorem npFft_shift (x : ZMod n → ℂ) (s k : ZMod n) : npFft (fun t => x (t + s)) k = ZMod.stdAddChar (s * k) * npFft x k := by
  rw [npFft_eq_dft, npFft_eq_dft, ZMod.dft_apply, ZMod.dft_apply, Finset.mul_sum]
  rw [← Equiv.sum_comp (Equiv.addRight s) (fun j => ZMod.stdAddChar (s * k) * ZMod.stdAddChar (-(j * k)) • x j)]
  refine Finset.sum_congr rfl fun j _ => ?_
  simp only [Equiv.coe_addRight, smul_eq_mul]
  rw [← mul_assoc, ← AddChar.map_add_eq_mul]
  congr 2
  ring

/-- spectrum of a reversed signal -/
theorem npFft_reverse (x : ZMod n → ℂ) (k : ZMod n) : npFft (fun t => x (-t)) k = npFft x (-k) := by
  rw [npFft_eq_dft, npFft_eq_dft, ZMod.dft_apply, ZMod.dft_apply]
  rw [← Equiv.sum_comp (Equiv.neg (ZMod n)) (fun j => ZMod.stdAddChar (-(j * -k)) • x j)]
  refine Finset.sum_congr rfl fun j _ => ?_
  simp only [Equiv.neg_apply, neg_mul_neg]

/-- the scalar product of two real signals from their spectra -/
theorem npFft_parseval (x y : ZMod n → ℝ) :
    ((∑ t, x t * y t : ℝ) : ℂ) = 1 / (n : ℂ) * ∑ k, (starRingEnd ℂ) (npFft (fun t => (x t : ℂ)) k) * npFft (fun t => (y t : ℂ)) k := by
  have hy : ∀ t, (y t : ℂ) = 1 / (n : ℂ) * ∑ k, ZMod.stdAddChar (k * t) * npFft (fun t => (y t : ℂ)) k := by
    intro t
    have := congrFun (npIfft_npFft (fun t => (y t : ℂ))) t
    rw [npIfft_eq_invDFT, ZMod.invDFT_apply] at this
    rw [← this]
    simp only [smul_eq_mul, one_div]
  push_cast
  rw [Finset.mul_sum]
  calc ∑ t, (x t : ℂ) * y t
      = ∑ t, ∑ k, 1 / (n : ℂ) * ((x t : ℂ) * (ZMod.stdAddChar (k * t) * npFft (fun t => (y t : ℂ)) k)) := by
        refine Finset.sum_congr rfl fun t _ => ?_
        rw [hy t, Finset.mul_sum, Finset.mul_sum]
        refine Finset.sum_congr rfl fun k _ => ?_
        ring
    _ = ∑ k, ∑ t, 1 / (n : ℂ) * ((x t : ℂ) * (ZMod.stdAddChar (k * t) * npFft (fun t => (y t : ℂ)) k)) := Finset.sum_comm
    _ = _ := by
        refine Finset.sum_congr rfl fun k _ => ?_
        rw [npFft_eq_dft (fun t => (x t : ℂ)), ZMod.dft_apply, map_sum, Finset.sum_mul, Finset.mul_sum]
        refine Finset.sum_congr rfl fun t _ => ?_
        rw [smul_eq_mul, (starRingEnd ℂ).map_mul, conj_stdAddChar, neg_neg, Complex.conj_ofReal, mul_comm t k]
        ring

/-- **C132.** Filtering a record whose samples are moved cyclically by `s` steps gives the filtered record moved by `s` steps: the filters have no
phase shift and treat all positions alike. -/
theorem C132_shift (fl : Flags) (f cl ch : ℝ) (hf : 0 < f) (h1 : 0 ≤ cl) (h2 : 0 ≤ ch) (x : ZMod n → ℝ) (s : ZMod n) :
    fourierFilter fl f cl ch (fun t => x (t + s)) = fun t => fourierFilter fl f cl ch x (t + s) := by
  apply eq_of_fft
  intro k
  rw [fft_fourierFilter fl f cl ch hf h1 h2, npFft_shift (fun t => (x t : ℂ)) s k,
    npFft_shift (fun t => ((fourierFilter fl f cl ch x t : ℝ) : ℂ)) s k, fft_fourierFilter fl f cl ch hf h1 h2]
  split <;> simp

/-- **C132.** Filtering commutes with reversing the record in time. -/
theorem C132_reverse (fl : Flags) (f cl ch : ℝ) (hf : 0 < f) (h1 : 0 ≤ cl) (h2 : 0 ≤ ch) (x : ZMod n → ℝ) :
    fourierFilter fl f cl ch (fun t => x (-t)) = fun t => fourierFilter fl f cl ch x (-t) := by
  apply eq_of_fft
  intro k
  rw [fft_fourierFilter fl f cl ch hf h1 h2, npFft_reverse (fun t => (x t : ℂ)) k,
    npFft_reverse (fun t => ((fourierFilter fl f cl ch x t : ℝ) : ℂ)) k, fft_fourierFilter fl f cl ch hf h1 h2]
  simp only [zeroPred_neg fl _ _ (loBin_nonneg (n := n) hf h1) (hiBin_nonneg (n := n) hf h2)]

/-- **C132.** Filters can be applied in any order. -/
theorem C132_commute (fl fl' : Flags) (f cl ch f' cl' ch' : ℝ) (hf : 0 < f) (h1 : 0 ≤ cl) (h2 : 0 ≤ ch) (hf' : 0 < f') (h1' : 0 ≤ cl')
    (h2' : 0 ≤ ch') (x : ZMod n → ℝ) :
    fourierFilter fl f cl ch (fourierFilter fl' f' cl' ch' x) = fourierFilter fl' f' cl' ch' (fourierFilter fl f cl ch x) := by
  apply eq_of_fft
  intro k
  rw [fft_fourierFilter fl f cl ch hf h1 h2, fft_fourierFilter fl' f' cl' ch' hf' h1' h2', fft_fourierFilter fl' f' cl' ch' hf' h1' h2',
    fft_fourierFilter fl f cl ch hf h1 h2]
  split <;> split <;> rfl

/-- the filtered signal and what was removed are orthogonal -/
theorem filter_orthogonal (fl : Flags) (f cl ch : ℝ) (hf : 0 < f) (h1 : 0 ≤ cl) (h2 : 0 ≤ ch) (x : ZMod n → ℝ) :
    ∑ t, fourierFilter fl f cl ch x t * (x t - fourierFilter fl f cl ch x t) = 0 := by
  have h := npFft_parseval (fourierFilter fl f cl ch x) (fun t => x t - fourierFilter fl f cl ch x t)
  have hz : ∀ k, (starRingEnd ℂ) (npFft (fun t => ((fourierFilter fl f cl ch x t : ℝ) : ℂ)) k) *
      npFft (fun t => (((x t - fourierFilter fl f cl ch x t : ℝ)) : ℂ)) k = 0 := by
    intro k
    have e : (fun t => (((x t - fourierFilter fl f cl ch x t : ℝ)) : ℂ)) =
        fun t => (x t : ℂ) + (-1) * ((fourierFilter fl f cl ch x t : ℝ) : ℂ) := by
      funext t
      push_cast
      ring
    rw [e, npFft_add, npFft_smul]
    simp only [fft_fourierFilter fl f cl ch hf h1 h2]
    split <;> simp
  rw [Finset.sum_congr rfl (fun k _ => hz k)] at h
  rw [Finset.sum_const_zero, mul_zero] at h
  exact_mod_cast h

/-- **C132.** The energy (sum of squares) of the signal is the energy of the filtered signal plus the energy of what the filter removed; so no filter
increases the energy. -/
theorem C132_energy (fl : Flags) (f cl ch : ℝ) (hf : 0 < f) (h1 : 0 ≤ cl) (h2 : 0 ≤ ch) (x : ZMod n → ℝ) :
    ∑ t, x t ^ 2 = ∑ t, fourierFilter fl f cl ch x t ^ 2 + ∑ t, (x t - fourierFilter fl f cl ch x t) ^ 2 ∧
    ∑ t, fourierFilter fl f cl ch x t ^ 2 ≤ ∑ t, x t ^ 2 := by
  have h : ∑ t, x t ^ 2 = ∑ t, fourierFilter fl f cl ch x t ^ 2 + ∑ t, (x t - fourierFilter fl f cl ch x t) ^ 2 := by
    have ho := filter_orthogonal fl f cl ch hf h1 h2 x
    have : ∑ t, x t ^ 2 = ∑ t, fourierFilter fl f cl ch x t ^ 2 + ∑ t, (x t - fourierFilter fl f cl ch x t) ^ 2 +
        2 * ∑ t, fourierFilter fl f cl ch x t * (x t - fourierFilter fl f cl ch x t) := by
      rw [Finset.mul_sum, ← Finset.sum_add_distrib, ← Finset.sum_add_distrib]
      refine Finset.sum_congr rfl fun t _ => ?_
      ring
    rw [this, ho]
    ring
  refine ⟨h, ?_⟩
  rw [h]
  exact le_add_of_nonneg_right (Finset.sum_nonneg fun t _ => sq_nonneg _)

/-- **C132.** The filtered signal is the closest one (least squares) among all signals that the filter leaves unchanged. -/
theorem C132_closest (fl : Flags) (f cl ch : ℝ) (hf : 0 < f) (h1 : 0 ≤ cl) (h2 : 0 ≤ ch) (x y : ZMod n → ℝ)
    (hy : fourierFilter fl f cl ch y = y) : ∑ t, (x t - fourierFilter fl f cl ch x t) ^ 2 ≤ ∑ t, (x t - y t) ^ 2 := by
  have hl := C30_linear fl f cl ch hf h1 h2 1 (-1) x y
  have h := (C132_energy fl f cl ch hf h1 h2 (fun t => 1 * x t + -1 * y t)).1
  rw [hl, hy] at h
  have e1 : ∑ t, (1 * x t + -1 * y t) ^ 2 = ∑ t, (x t - y t) ^ 2 := Finset.sum_congr rfl fun t _ => by ring
  have e2 : ∑ t, (1 * x t + -1 * y t - (1 * fourierFilter fl f cl ch x t + -1 * y t)) ^ 2 = ∑ t, (x t - fourierFilter fl f cl ch x t) ^ 2 :=
    Finset.sum_congr rfl fun t _ => by ring
  rw [e1, e2] at h
  rw [h]
  exact le_add_of_nonneg_left (Finset.sum_nonneg fun t _ => sq_nonneg _)

/-- the hypotheses hold for a low pass at one cycle in eight samples, and the filtered signal of `C132_closest` exists -/
example : (0 : ℝ) < 8 ∧ (0 : ℝ) ≤ 1 ∧ ∃ y : ZMod 8 → ℝ, fourierFilter { lowPass := true } 8 1 0 y = y :=
  ⟨by norm_num, by norm_num, _, C30_idempotent { lowPass := true } 8 1 0 (by norm_num) (by norm_num) le_rfl (fun t => (t.val : ℝ))⟩

end Verif.Props
