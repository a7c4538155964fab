import Verif.Props.Fourier3

/-
Property C226: errors of the data after Fourier filters.
-/

namespace Verif.Props
open Verif.Model Verif.Spec Verif.Lemmas Complex

variable {n : ℕ} [NeZero n]

/-- **C226.** The sum of the squared differences of two records does not grow by filtering. -/
theorem C226_squares (fl : Flags) (f cl ch : ℝ) (hf : 0 < f) (h1 : 0 ≤ cl) (h2 : 0 ≤ ch) (x y : ZMod n → ℝ) :
    ∑ t, (fourierFilter fl f cl ch x t - fourierFilter fl f cl ch y t) ^ 2 ≤ ∑ t, (x t - y t) ^ 2 := by
  have h := (C132_energy fl f cl ch hf h1 h2 (fun t => 1 * x t + -1 * y t)).2
  rw [C30_linear fl f cl ch hf h1 h2 1 (-1) x y] at h
  simpa only [one_mul, neg_one_mul, ← sub_eq_add_neg] using h

/-- **C226.** If two records of `n` samples differ by at most `ε` at every time, the filtered records differ by at most `√n ε`. -/
theorem C226_each (fl : Flags) (f cl ch : ℝ) (hf : 0 < f) (h1 : 0 ≤ cl) (h2 : 0 ≤ ch) (x y : ZMod n → ℝ) (ε : ℝ) (h : ∀ t, |x t - y t| ≤ ε) (t : ZMod n) :
    |fourierFilter fl f cl ch x t - fourierFilter fl f cl ch y t| ≤ Real.sqrt n * ε := by
  have hε : 0 ≤ ε := (abs_nonneg _).trans (h 0)
  have e1 : ∑ t, (x t - y t) ^ 2 ≤ n * ε ^ 2 := by
    refine (Finset.sum_le_sum fun s _ => (sq_le_sq' (abs_le.mp (h s)).1 (abs_le.mp (h s)).2)).trans ?_
    simp [ZMod.card]
  have e2 := Finset.single_le_sum (f := fun t => (fourierFilter fl f cl ch x t - fourierFilter fl f cl ch y t) ^ 2) (fun s _ => sq_nonneg _) (Finset.mem_univ t)
  have e3 : (fourierFilter fl f cl ch x t - fourierFilter fl f cl ch y t) ^ 2 ≤ (Real.sqrt n * ε) ^ 2 := by
    rw [mul_pow, Real.sq_sqrt (Nat.cast_nonneg n)]
    exact (e2.trans (C226_squares fl f cl ch hf h1 h2 x y)).trans e1
  exact abs_le_of_sq_le_sq e3 (mul_nonneg (Real.sqrt_nonneg _) hε)

/-- **C226.** The scalar product (and so the covariance) of a filtered record with another record is the same whichever of the two is filtered, and the same if
both are. -/
theorem C226_either (fl : Flags) (f cl ch : ℝ) (hf : 0 < f) (h1 : 0 ≤ cl) (h2 : 0 ≤ ch) (x y : ZMod n → ℝ) :
    ∑ t, fourierFilter fl f cl ch x t * y t = ∑ t, fourierFilter fl f cl ch x t * fourierFilter fl f cl ch y t ∧
    ∑ t, fourierFilter fl f cl ch x t * y t = ∑ t, x t * fourierFilter fl f cl ch y t := by
  have key : ∀ x y : ZMod n → ℝ, ∑ t, fourierFilter fl f cl ch x t * y t = ∑ t, fourierFilter fl f cl ch x t * fourierFilter fl f cl ch y t := by
    intro x y
    -- the filtered record plus what is removed from the other
    have e1 : fourierFilter fl f cl ch (fun t => 1 * y t + -1 * fourierFilter fl f cl ch y t) = fun _ => 0 := by
      rw [C30_linear fl f cl ch hf h1 h2, C30_idempotent fl f cl ch hf h1 h2]
      funext t; ring
    have e2 : fourierFilter fl f cl ch (fun t => 1 * fourierFilter fl f cl ch x t + 1 * (1 * y t + -1 * fourierFilter fl f cl ch y t)) = fourierFilter fl f cl ch x := by
      rw [C30_linear fl f cl ch hf h1 h2 1 1 (fourierFilter fl f cl ch x) (fun t => 1 * y t + -1 * fourierFilter fl f cl ch y t), e1,
        C30_idempotent fl f cl ch hf h1 h2]
      funext t; ring
    have h := filter_orthogonal fl f cl ch hf h1 h2 (fun t => 1 * fourierFilter fl f cl ch x t + 1 * (1 * y t + -1 * fourierFilter fl f cl ch y t))
    rw [e2] at h
    rw [← sub_eq_zero, ← Finset.sum_sub_distrib, ← h]
    refine Finset.sum_congr rfl fun t _ => ?_
    ring
  refine ⟨key x y, (key x y).trans ?_⟩
  have := key y x
  simp only [mul_comm (fourierFilter fl f cl ch y _)] at this
  exact this.symm

/-- a high pass below the first frequency removes the mean and nothing else -/
theorem high_pass_mean (f ch : ℝ) (hf : 0 < f) (h1 : 0 < ch) (h2 : ch ≤ f / n) (x : ZMod n → ℝ) (t : ZMod n) :
    fourierHighPass f ch x t = x t - (∑ s, x s) / n := by
  have hn : (n : ℝ) ≠ 0 := Nat.cast_ne_zero.mpr (NeZero.ne n)
  have hh : hiBin n f ch ≤ 1 := by
    rw [← hiBin_eq]; apply Int.ceil_le.2; rw [Int.cast_one, div_le_one (res_pos hf)]; exact h2
  -- records without a mean stay
  have keep : ∀ z : ZMod n → ℝ, ∑ s, z s = 0 → fourierHighPass f ch z = z := by
    intro z hz
    apply eq_of_fft
    intro k
    rw [C29_high_pass f ch hf h1.le z k]
    split_ifs with hk
    · rfl
    · have : k = 0 := by
        by_contra h0
        apply hk
        have hv : k.val ≠ 0 := fun h => h0 ((ZMod.val_eq_zero k).mp h)
        have hlt := ZMod.val_lt k
        unfold highPasses harmonic
        omega
      rw [this, npFft_zero_bin, hz, Complex.ofReal_zero]
  -- constants vanish
  have const : ∀ c : ℝ, fourierHighPass f ch (fun _ : ZMod n => c) = fun _ => 0 := by
    intro c
    have hs := fun s => C132_shift (n := n) { highPass := true } f 0 ch hf le_rfl h1.le (fun _ => c) s
    have hm := C32_high_pass_removes_mean f ch hf h1 (fun _ : ZMod n => c)
    have hc : ∀ s, fourierHighPass f ch (fun _ : ZMod n => c) s = fourierHighPass f ch (fun _ : ZMod n => c) 0 := by
      intro s
      have := congrFun (hs s) 0
      rw [zero_add] at this
      exact this.symm
    simp only [hc, Finset.sum_const, Finset.card_univ, ZMod.card, nsmul_eq_mul, mul_eq_zero, hn, false_or] at hm
    funext s
    rw [hc, hm]
  have lin := C30_linear { highPass := true } f 0 ch hf le_rfl h1.le 1 1 (fun s => x s - (∑ s, x s) / n) (fun _ : ZMod n => (∑ s, x s) / n)
  have hx : (fun t => 1 * (x t - (∑ s, x s) / n) + 1 * ((∑ s, x s) / n)) = x := by funext s; ring
  rw [hx] at lin
  have k1 := keep (fun s => x s - (∑ s, x s) / n) (by
    rw [Finset.sum_sub_distrib, Finset.sum_const, Finset.card_univ, ZMod.card, nsmul_eq_mul]; field_simp; ring)
  have k2 := const ((∑ s, x s) / n)
  unfold fourierHighPass at k1 k2 ⊢
  rw [lin, k1, k2]
  ring

/-- **C226** single values: false without the factor. An error of 1 in every sample can become an error of 4/3 in one. -/
theorem C226_single_counterexample : ∃ x y : ZMod 3 → ℝ, (∀ t, |x t - y t| ≤ 1) ∧
    |fourierHighPass 3 (1 / 2) x 0 - fourierHighPass 3 (1 / 2) y 0| = 4 / 3 := by
  refine ⟨fun t => if t = 0 then 1 else -1, fun _ => 0, fun t => ?_, ?_⟩
  · dsimp only
    split_ifs <;> norm_num
  · rw [high_pass_mean 3 (1 / 2) (by norm_num) (by norm_num) (by norm_num), high_pass_mean 3 (1 / 2) (by norm_num) (by norm_num) (by norm_num)]
    have : ∑ s : ZMod 3, (if s = 0 then (1 : ℝ) else -1) = -1 := by
      rw [show (Finset.univ : Finset (ZMod 3)) = {0, 1, 2} by decide, Finset.sum_insert (by decide), Finset.sum_insert (by decide), Finset.sum_singleton,
        if_pos rfl, if_neg (by decide), if_neg (by decide)]
      norm_num
    rw [this]
    norm_num

/-- the bounds for a low pass of eight samples, one of them wrong by 2 -/
example : ∑ t, (fourierFilter { lowPass := true } 8 1 0 (fun t : ZMod 8 => (t.val : ℝ)) t -
      fourierFilter { lowPass := true } 8 1 0 (fun t : ZMod 8 => if t = 3 then 5 else (t.val : ℝ)) t) ^ 2 ≤
    ∑ t : ZMod 8, ((t.val : ℝ) - if t = 3 then 5 else (t.val : ℝ)) ^ 2 :=
  C226_squares { lowPass := true } 8 1 0 (by norm_num) (by norm_num) le_rfl _ _

end Verif.Props
