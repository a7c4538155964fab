import Verif.Model.Fourier
import Verif.Spec.Fourier
import Mathlib.Tactic.Ring
import Mathlib.Tactic.Linarith

namespace Verif.Lemmas
open Verif.Model Verif.Spec Complex
open scoped ZMod

variable {n : ℕ} [NeZero n]

theorem val_mul_cast (j k : ZMod n) : (((j.val * k.val : ℕ) : ℤ) : ZMod n) = j * k := by
  push_cast
  rw [ZMod.natCast_zmod_val, ZMod.natCast_zmod_val]

theorem npFft_eq_dft (x : ZMod n → ℂ) : npFft x = ZMod.dft x := by
  funext k
  rw [ZMod.dft_apply]
  unfold npFft
  apply Finset.sum_congr rfl
  intro j _
  have h : -(j * k) = ((-((j.val * k.val : ℕ) : ℤ) : ℤ) : ZMod n) := by
    rw [Int.cast_neg, val_mul_cast]
  rw [h, ZMod.stdAddChar_coe, smul_eq_mul, mul_comm]
  congr 2
  push_cast
  ring

theorem npIfft_eq_invDFT (X : ZMod n → ℂ) : npIfft X = ZMod.dft.symm X := by
  funext t
  rw [ZMod.invDFT_apply]
  unfold npIfft
  rw [smul_eq_mul, one_div]
  congr 1
  apply Finset.sum_congr rfl
  intro k _
  rw [← val_mul_cast, ZMod.stdAddChar_coe, smul_eq_mul, mul_comm]
  congr 2

theorem npIfft_npFft (x : ZMod n → ℂ) : npIfft (npFft x) = x := by
  rw [npFft_eq_dft, npIfft_eq_invDFT]; simp

theorem npFft_npIfft (X : ZMod n → ℂ) : npFft (npIfft X) = X := by
  rw [npFft_eq_dft, npIfft_eq_invDFT]; simp

theorem npFft_add (x y : ZMod n → ℂ) : npFft (fun t => x t + y t) = fun k => npFft x k + npFft y k := by
  rw [npFft_eq_dft, npFft_eq_dft, npFft_eq_dft]
  exact map_add _ x y

theorem npFft_smul (c : ℂ) (x : ZMod n → ℂ) : npFft (fun t => c * x t) = fun k => c * npFft x k := by
  rw [npFft_eq_dft, npFft_eq_dft]
  exact map_smul _ c x

theorem npIfft_add (x y : ZMod n → ℂ) : npIfft (fun t => x t + y t) = fun k => npIfft x k + npIfft y k := by
  rw [npIfft_eq_invDFT, npIfft_eq_invDFT, npIfft_eq_invDFT]
  exact map_add _ x y

theorem npIfft_smul (c : ℂ) (x : ZMod n → ℂ) : npIfft (fun t => c * x t) = fun k => c * npIfft x k := by
  rw [npIfft_eq_invDFT, npIfft_eq_invDFT]
  exact map_smul _ c x

/-- conjugation of the standard character -/
theorem conj_stdAddChar (j : ZMod n) : (starRingEnd ℂ) (ZMod.stdAddChar j) = ZMod.stdAddChar (-j) := by
  rw [ZMod.stdAddChar_apply, ZMod.stdAddChar_apply, AddChar.map_neg_eq_inv, ← Circle.coe_inv_eq_conj]

theorem npFft_conj (x : ZMod n → ℂ) (k : ZMod n) :
    (starRingEnd ℂ) (npFft x k) = npFft (fun t => (starRingEnd ℂ) (x t)) (-k) := by
  rw [npFft_eq_dft, npFft_eq_dft, ZMod.dft_apply, ZMod.dft_apply, map_sum]
  apply Finset.sum_congr rfl
  intro j _
  rw [smul_eq_mul, smul_eq_mul, map_mul, conj_stdAddChar]
  congr 2; ring

theorem npIfft_conj (X : ZMod n → ℂ) (t : ZMod n) :
    (starRingEnd ℂ) (npIfft X t) = npIfft (fun k => (starRingEnd ℂ) (X (-k))) t := by
  rw [npIfft_eq_invDFT, npIfft_eq_invDFT, ZMod.invDFT_apply, ZMod.invDFT_apply, smul_eq_mul, smul_eq_mul, map_mul,
    map_sum]
  congr 1
  · simp
  · rw [← Equiv.sum_comp (Equiv.neg (ZMod n))]
    apply Finset.sum_congr rfl
    intro j _
    simp only [Equiv.neg_apply, smul_eq_mul, map_mul, conj_stdAddChar]
    congr 2; ring

/-- A set of bins symmetric under `k ↦ -k`. -/
def SymmetricMask (Z : ZMod n → Bool) : Prop := ∀ k, Z (-k) = Z k

/-- If a symmetric set of bins of a real signal's spectrum is zeroed, the inverse transform is real. -/
theorem ifft_mask_real (Z : ZMod n → Bool) (hZ : SymmetricMask Z) (x : ZMod n → ℝ) (t : ZMod n) :
    (npIfft (fun k => if Z k then 0 else npFft (fun t => (x t : ℂ)) k) t).im = 0 := by
  rw [← Complex.conj_eq_iff_im, npIfft_conj]
  congr 1
  funext k
  rw [hZ k]
  split
  · simp
  · rw [npFft_conj]; simp

theorem re_eq_of_im_zero (z : ℂ) (h : z.im = 0) : ((z.re : ℝ) : ℂ) = z := by
  apply Complex.ext <;> simp [h]

end Verif.Lemmas
