import Verif.Lemmas.Fourier
import Verif.Spec.Norms
import Mathlib.Analysis.InnerProductSpace.PiL2

namespace Verif.Lemmas
open Verif.Model Verif.Spec

variable {n : ℕ} [NeZero n]

theorem l2_eq (x : ZMod n → ℂ) : l2 x = ‖WithLp.toLp 2 x‖ := by
  rw [EuclideanSpace.norm_eq]
  rfl

theorem l2_nonneg (x : ZMod n → ℂ) : 0 ≤ l2 x := Real.sqrt_nonneg _

theorem l2_add (x y : ZMod n → ℂ) : l2 (fun t => x t + y t) ≤ l2 x + l2 y := by
  rw [l2_eq, l2_eq, l2_eq]
  exact norm_add_le (WithLp.toLp 2 x) (WithLp.toLp 2 y)

theorem l2_le {x y : ZMod n → ℂ} (h : ∀ t, ‖x t‖ ≤ ‖y t‖) : l2 x ≤ l2 y :=
  Real.sqrt_le_sqrt (Finset.sum_le_sum fun t _ => pow_le_pow_left₀ (norm_nonneg _) (h t) 2)

theorem l2_ofReal (x : ZMod n → ℝ) : l2 (fun t => (x t : ℂ)) = l2r x := by
  unfold l2 l2r
  congr 1
  exact Finset.sum_congr rfl fun t _ => by rw [Complex.norm_real, Real.norm_eq_abs, sq_abs]

theorem l2r_re_le (x : ZMod n → ℂ) : l2r (fun t => (x t).re) ≤ l2 x := by
  rw [← l2_ofReal]
  exact l2_le fun t => by rw [Complex.norm_real]; exact Complex.abs_re_le_norm _

theorem npFft_parseval_complex (x y : ZMod n → ℂ) :
    (∑ t, (starRingEnd ℂ) (x t) * y t) = 1 / (n : ℂ) * ∑ k, (starRingEnd ℂ) (npFft x k) * npFft y k := by
  have hy : ∀ t, y t = 1 / (n : ℂ) * ∑ k, ZMod.stdAddChar (k * t) * npFft y k := by
    intro t
    have := congrFun (npIfft_npFft y) t
    rw [npIfft_eq_invDFT, ZMod.invDFT_apply] at this
    rw [← this]
    simp only [smul_eq_mul, one_div]
  rw [Finset.mul_sum]
  calc ∑ t, (starRingEnd ℂ) (x t) * y t
      = ∑ t, ∑ k, 1 / (n : ℂ) * ((starRingEnd ℂ) (x t) * (ZMod.stdAddChar (k * t) * npFft y k)) := by
        refine Finset.sum_congr rfl fun t _ => ?_
        conv_lhs => rw [hy t]
        rw [Finset.mul_sum, Finset.mul_sum]
        refine Finset.sum_congr rfl fun k _ => ?_
        ring
    _ = ∑ k, ∑ t, 1 / (n : ℂ) * ((starRingEnd ℂ) (x t) * (ZMod.stdAddChar (k * t) * npFft y k)) := Finset.sum_comm
    _ = _ := by
        refine Finset.sum_congr rfl fun k _ => ?_
        rw [npFft_eq_dft x, ZMod.dft_apply, map_sum, Finset.sum_mul, Finset.mul_sum]
        refine Finset.sum_congr rfl fun t _ => ?_
        rw [smul_eq_mul, (starRingEnd ℂ).map_mul, conj_stdAddChar, neg_neg, mul_comm t k]
        ring

theorem l2_npFft (x : ZMod n → ℂ) : l2 (npFft x) = √n * l2 x := by
  have h := npFft_parseval_complex x x
  simp only [Complex.conj_mul'] at h
  have hn : (n : ℝ) ≠ 0 := by exact_mod_cast NeZero.ne n
  have h' : ∑ t, ‖x t‖ ^ 2 = 1 / (n : ℝ) * ∑ k, ‖npFft x k‖ ^ 2 := by
    apply Complex.ofReal_injective
    push_cast
    exact h
  unfold l2
  rw [← Real.sqrt_mul (by positivity), h']
  congr 1
  field_simp

theorem l2_npIfft (X : ZMod n → ℂ) : √n * l2 (npIfft X) = l2 X := by
  rw [← l2_npFft, npFft_npIfft]

theorem npIfft_sub (X Y : ZMod n → ℂ) : npIfft (fun k => X k - Y k) = fun t => npIfft X t - npIfft Y t := by
  have e : (fun k => X k - Y k) = fun k => X k + (-1) * Y k := by funext k; ring
  rw [e, npIfft_add, npIfft_smul]
  funext t
  ring

end Verif.Lemmas
