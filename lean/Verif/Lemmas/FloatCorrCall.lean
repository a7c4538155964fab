import Verif.Lemmas.FloatCorrSum

/-
The sums of `pearson_r` in floating-point arithmetic.
-/

set_option linter.unusedSectionVars false
namespace Verif
namespace Lemmas
open Model Spec

/-- no underflow: the numbers, their deviations and the size `s` of the deviations are far from the smallest stored number -/
structure InRange (u η : ℝ) (N : ℕ) (A B s : ℝ) : Prop where
  s_pos : 0 < s
  left : η ≤ u * A
  right : η ≤ u * B
  fourth : η ≤ u * s ^ 4 / 2
  terms : N * η * (3 * A + 3 * B + 2) ≤ u * s ^ 2

section
variable {R : Rounding ℝ} {u η γ : ℝ} (P : Precise R u η) (g0 : 0 ≤ γ) (g1 : γ ≤ 1 / 10) {α : Type} (v : α → Option (ℝ × ℝ × ℝ)) (T : List α)
  (sum : List ℝ → ℝ) (hs : SumsWithin R sum T.length γ) (hw : ∀ y ∈ T.filterMap v, 0 ≤ y.1)
include P g0 g1 hs hw

/-- the errors of the terms and of the summation together -/
theorem sum_products (t : ℝ × ℝ × ℝ → ℝ) (f g : ℝ × ℝ × ℝ → ℝ) (m n M : ℝ) (ht : ∀ y ∈ T.filterMap v, R.rep (t y)) (hM : 0 ≤ M)
    (hte : ∀ y ∈ T.filterMap v, |t y - y.1 * (f y - m) * (g y - n)| ≤ (41 / 10) * u * |y.1 * (f y - m) * (g y - n)| + η * ((11 / 10) * M + 1))
    (hU : 11 / 10 * (T.length * η * ((11 / 10) * M + 1)) ≤
      u * (Real.sqrt (mom (T.filterMap v) f f m m) * Real.sqrt (mom (T.filterMap v) g g n n))) :
    |sum (T.map (orZero v t)) - mom (T.filterMap v) f g m n| ≤
      (γ + 6 * u) * (Real.sqrt (mom (T.filterMap v) f f m m) * Real.sqrt (mom (T.filterMap v) g g n n)) := by
  have u0 := P.acc.u_nonneg
  have e0 := P.acc.eta_nonneg
  have h1 := hs.cells v T t ht
  have h2 := sum_chain (T.filterMap v) t (fun y => y.1 * (f y - m) * (g y - n)) g0 h1 hte
  have h3 := mom_abs_le (T.filterMap v) hw f g m n
  have hlen : ((T.filterMap v).length : ℝ) ≤ T.length := by exact_mod_cast List.length_filterMap_le _ _
  unfold mom at h3 hU ⊢
  set Q := Real.sqrt ((T.filterMap v).map (fun y => y.1 * (f y - m) * (f y - m))).sum * Real.sqrt ((T.filterMap v).map (fun y => y.1 * (g y - n) * (g y - n))).sum
  have Q0 : 0 ≤ Q := mul_nonneg (Real.sqrt_nonneg _) (Real.sqrt_nonneg _)
  have k1 : (1 + γ) * (1 + 41 / 10 * u) - 1 ≤ γ + 46 / 10 * u := by nlinarith
  have k0 : 0 ≤ (1 + γ) * (1 + 41 / 10 * u) - 1 := by nlinarith
  have c0 : 0 ≤ η * ((11 / 10) * M + 1) := by positivity
  have k2 : (1 + γ) * ((T.filterMap v).length * (η * ((11 / 10) * M + 1))) ≤ 11 / 10 * (T.length * η * ((11 / 10) * M + 1)) := by
    have := mul_le_mul_of_nonneg_right hlen c0
    have := mul_le_mul (by linarith : 1 + γ ≤ 11 / 10) this (by positivity) (by norm_num)
    linarith
  have k3 := mul_le_mul k1 h3 (sum_map_nonneg _ _ fun y _ => abs_nonneg _) (by linarith : 0 ≤ γ + 46 / 10 * u)
  have : 0 ≤ u * Q := mul_nonneg u0 Q0
  nlinarith

/-- the weighted mean -/
theorem wMeanFl_error (f : ℝ × ℝ × ℝ → ℝ) (hr : ∀ y ∈ T.filterMap v, R.rep y.1) {A : ℝ} (hA : ∀ y ∈ T.filterMap v, |f y| ≤ A) (A0 : 0 ≤ A)
    (hW : 0 < ((T.filterMap v).map (·.1)).sum) (hη : η ≤ u * A) (hU : 3 * (T.length * η) ≤ u * (((T.filterMap v).map (·.1)).sum * A)) :
    |wMeanFl R sum v T f - wMean (T.filterMap v) (·.1) f| ≤ 3 * (γ + 2 * u) * A ∧ sum (T.map (orZero v (·.1))) ≠ 0 := by
  have u0 := P.acc.u_nonneg
  have e0 := P.acc.eta_nonneg
  have h1 := hs.cells v T (·.1) hr
  have h1' : ((T.filterMap v).map (fun y => |y.1|)).sum = ((T.filterMap v).map (·.1)).sum := by
    congr 1
    exact List.map_congr_left fun y hy => abs_of_nonneg (hw y hy)
  rw [h1'] at h1
  have h2 := hs.cells v T (fun y => R.fl (f y * y.1)) fun y _ => R.rep_fl _
  have h3 := sum_chain (T.filterMap v) (fun y => R.fl (f y * y.1)) (fun y => y.1 * f y) g0 h2 (k := u) (c := η) fun y _ => by
    have := P.acc.err (f y * y.1)
    rwa [mul_comm (f y)] at this ⊢
  have h4 : ((T.filterMap v).map (fun y => |y.1 * f y|)).sum ≤ ((T.filterMap v).map (·.1)).sum * A := by
    have : ((T.filterMap v).map (fun y => |y.1 * f y|)).sum ≤ ((T.filterMap v).map (fun y => A * y.1 + 0)).sum := by
      refine sum_map_le _ _ _ fun y hy => ?_
      rw [abs_mul, abs_of_nonneg (hw y hy), add_zero, mul_comm]
      exact mul_le_mul_of_nonneg_right (hA y hy) (hw y hy)
    rw [sum_map_add_const] at this
    linarith
  have h5 : |((T.filterMap v).map (fun y => y.1 * f y)).sum| ≤ ((T.filterMap v).map (·.1)).sum * A := by
    refine le_trans ?_ h4
    have := abs_sum_le ((T.filterMap v).map (fun y => y.1 * f y))
    rwa [List.map_map] at this
  have hlen : ((T.filterMap v).length : ℝ) ≤ T.length := by exact_mod_cast List.length_filterMap_le _ _
  have n0 : 0 ≤ ((T.filterMap v).map (fun y => |y.1 * f y|)).sum := sum_map_nonneg _ _ fun y _ => abs_nonneg _
  refine ⟨?_, ?_⟩
  · unfold wMeanFl wMean
    refine mean_error P g0 g1 (c := T.length * η) hW A0 h1 ?_ h5 hU hη
    have k1 : (1 + γ) * (1 + u) - 1 ≤ γ + 12 / 10 * u := by nlinarith
    have k0 : 0 ≤ (1 + γ) * (1 + u) - 1 := by nlinarith
    have k2 : (1 + γ) * ((T.filterMap v).length * η) ≤ 11 / 10 * (T.length * η) :=
      mul_le_mul (by linarith) (mul_le_mul_of_nonneg_right hlen e0) (by positivity) (by norm_num)
    have k3 := mul_le_mul k1 h4 n0 (by linarith : 0 ≤ γ + 12 / 10 * u)
    linarith
  · intro h
    rw [h, zero_sub, abs_neg, abs_of_pos hW] at h1
    nlinarith

/-- the mean without weights -/
theorem meanCellsFl_error (f : ℝ × ℝ × ℝ → ℝ) (hone : ∀ y ∈ T.filterMap v, y.1 = 1) (hr : ∀ y ∈ T.filterMap v, R.rep (f y)) {A : ℝ}
    (hA : ∀ y ∈ T.filterMap v, |f y| ≤ A) (A0 : 0 ≤ A) (hne : T.filterMap v ≠ []) (hη : η ≤ u * A) :
    |meanCellsFl R sum v T f - wMean (T.filterMap v) (·.1) f| ≤ 3 * (γ + 2 * u) * A := by
  have u0 := P.acc.u_nonneg
  have e0 := P.acc.eta_nonneg
  have h2 := hs.cells v T f hr
  have hw1 : ((T.filterMap v).map (·.1)).sum = ((T.filterMap v).length : ℝ) := by
    rw [List.map_congr_left (g := fun _ => (1 : ℝ)) hone]
    simp
  have hW : 0 < ((T.filterMap v).length : ℝ) := by
    exact_mod_cast List.length_pos_iff.mpr hne
  have e1 : ((T.filterMap v).map (fun y => y.1 * f y)).sum = ((T.filterMap v).map f).sum := by
    congr 1
    exact List.map_congr_left fun y hy => by rw [hone y hy, one_mul]
  have h4 : ((T.filterMap v).map (fun y => |f y|)).sum ≤ ((T.filterMap v).length : ℝ) * A := by
    have : ((T.filterMap v).map (fun y => |f y|)).sum ≤ ((T.filterMap v).map (fun y => 0 * f y + A)).sum := by
      refine sum_map_le _ _ _ fun y hy => ?_
      linarith [hA y hy]
    rw [sum_map_add_const] at this
    linarith
  have h5 : |((T.filterMap v).map f).sum| ≤ ((T.filterMap v).length : ℝ) * A := by
    refine le_trans ?_ h4
    have := abs_sum_le ((T.filterMap v).map f)
    rwa [List.map_map] at this
  unfold meanCellsFl wMean
  rw [e1, hw1]
  refine mean_error P g0 g1 (c := 0) hW A0 (by rw [sub_self, abs_zero]; positivity) ?_ h5 (by rw [mul_zero]; positivity) hη
  have := mul_le_mul_of_nonneg_left h4 g0
  have : 0 ≤ u * ((T.filterMap v).length * A) := by positivity
  linarith

/-- the whole computation, from the accuracy of the means and of the terms -/
theorem corr_core {A B s : ℝ} (hr : ∀ y ∈ T.filterMap v, R.rep y.2.1 ∧ R.rep y.2.2) (hA : ∀ y ∈ T.filterMap v, |y.2.1| ≤ A)
    (hB : ∀ y ∈ T.filterMap v, |y.2.2| ≤ B) (I : InRange u η T.length A B s) (hne : T.filterMap v ≠ [])
    (hW : 0 < ((T.filterMap v).map (·.1)).sum)
    (ha : s ^ 2 ≤ mom (T.filterMap v) (·.2.1) (·.2.1) (wMean (T.filterMap v) (·.1) (·.2.1)) (wMean (T.filterMap v) (·.1) (·.2.1)))
    (hb : s ^ 2 ≤ mom (T.filterMap v) (·.2.2) (·.2.2) (wMean (T.filterMap v) (·.1) (·.2.2)) (wMean (T.filterMap v) (·.1) (·.2.2)))
    (m n : ℝ) (rm : R.rep m) (rn : R.rep n)
    (hm : |m - wMean (T.filterMap v) (·.1) (·.2.1)| ≤ 3 * (γ + 2 * u) * A) (hn : |n - wMean (T.filterMap v) (·.1) (·.2.2)| ≤ 3 * (γ + 2 * u) * B)
    (t : ℝ → ℝ → ℝ → ℝ) (ht : ∀ w d f, R.rep (t w d f))
    (hte : ∀ y ∈ T.filterMap v, ∀ d f d' f' M, |d' - d| ≤ u * |d| → |f' - f| ≤ u * |f| → |f| ≤ M →
      |t y.1 d' f' - y.1 * d * f| ≤ (41 / 10) * u * |y.1 * d * f| + η * ((11 / 10) * M + 1)) :
    ∃ r', quotFl R (sum (T.map (orZero v (fun y => t y.1 (R.fl (y.2.1 - m)) (R.fl (y.2.2 - n))))))
        (sum (T.map (orZero v (fun y => t y.1 (R.fl (y.2.1 - m)) (R.fl (y.2.1 - m))))))
        (sum (T.map (orZero v (fun y => t y.1 (R.fl (y.2.2 - n)) (R.fl (y.2.2 - n)))))) = .fin r' ∧
      |r' - correlation (T.filterMap v)| ≤ 5 / 2 * (γ + 10 * u) +
        14 * (γ + 2 * u) ^ 2 * ((A / spread (T.filterMap v) (·.2.1)) ^ 2 + (B / spread (T.filterMap v) (·.2.2)) ^ 2) := by
  have u0 := P.acc.u_nonneg
  have u1 := P.u_le
  have e0 := P.acc.eta_nonneg
  obtain ⟨y0, hy0⟩ := List.exists_mem_of_ne_nil _ hne
  have A0 : 0 ≤ A := (abs_nonneg _).trans (hA y0 hy0)
  have B0 : 0 ≤ B := (abs_nonneg _).trans (hB y0 hy0)
  have s2 : 0 < s ^ 2 := pow_pos I.s_pos 2
  have N1 : (1 : ℝ) ≤ T.length := by
    have h1 : 1 ≤ (T.filterMap v).length := List.length_pos_iff.mpr hne
    have h2 := List.length_filterMap_le v T
    exact_mod_cast h1.trans h2
  have e1 : η ≤ u * s ^ 2 / 2 := by
    have h1 : η ≤ T.length * η := le_mul_of_one_le_left e0 N1
    have h2 : 0 ≤ T.length * η * (3 * A + 3 * B) := by positivity
    have := I.terms
    linarith
  have dev : ∀ (f : ℝ × ℝ × ℝ → ℝ) (C k : ℝ), 0 ≤ C → (∀ y ∈ T.filterMap v, |f y| ≤ C) → |k - wMean (T.filterMap v) (·.1) f| ≤ 3 * (γ + 2 * u) * C →
      ∀ y ∈ T.filterMap v, |f y - k| ≤ 24 / 10 * C := by
    intro f C k C0 hC hk y hy
    have h1 : |wMean (T.filterMap v) (·.1) f| ≤ C := by
      unfold wMean
      rw [abs_div, abs_of_pos hW, div_le_iff₀ hW]
      have h4 : ((T.filterMap v).map (fun y => |y.1 * f y|)).sum ≤ ((T.filterMap v).map (fun y => C * y.1 + 0)).sum := by
        refine sum_map_le _ _ _ fun y hy => ?_
        rw [abs_mul, abs_of_nonneg (hw y hy), add_zero, mul_comm]
        exact mul_le_mul_of_nonneg_right (hC y hy) (hw y hy)
      rw [sum_map_add_const, mul_zero, add_zero] at h4
      refine le_trans ?_ h4
      have := abs_sum_le ((T.filterMap v).map (fun y => y.1 * f y))
      rwa [List.map_map] at this
    have h2 : 3 * (γ + 2 * u) * C ≤ 4 / 10 * C := mul_le_mul_of_nonneg_right (by linarith) C0
    have h3 := hC y hy
    rw [abs_le] at *
    constructor <;> linarith [h1.1, h1.2, h3.1, h3.2, hk.1, hk.2]
  have dA := dev (·.2.1) A m A0 hA hm
  have dB := dev (·.2.2) B n B0 hB hn
  have ga : s ^ 2 ≤ mom (T.filterMap v) (·.2.1) (·.2.1) m m := by
    rw [mom_shift _ hW.ne']
    have : 0 ≤ ((T.filterMap v).map (·.1)).sum * (m - wMean (T.filterMap v) (·.1) (·.2.1)) * (m - wMean (T.filterMap v) (·.1) (·.2.1)) := by
      rw [mul_assoc]
      exact mul_nonneg hW.le (mul_self_nonneg _)
    linarith
  have gb : s ^ 2 ≤ mom (T.filterMap v) (·.2.2) (·.2.2) n n := by
    rw [mom_shift _ hW.ne']
    have : 0 ≤ ((T.filterMap v).map (·.1)).sum * (n - wMean (T.filterMap v) (·.1) (·.2.2)) * (n - wMean (T.filterMap v) (·.1) (·.2.2)) := by
      rw [mul_assoc]
      exact mul_nonneg hW.le (mul_self_nonneg _)
    linarith
  have sa : s ≤ Real.sqrt (mom (T.filterMap v) (·.2.1) (·.2.1) m m) := Real.le_sqrt_of_sq_le ga
  have sb : s ≤ Real.sqrt (mom (T.filterMap v) (·.2.2) (·.2.2) n n) := Real.le_sqrt_of_sq_le gb
  have under : ∀ (C X Y : ℝ), 0 ≤ C → C ≤ A ∨ C ≤ B → s ≤ X → s ≤ Y → 11 / 10 * (T.length * η * ((11 / 10) * (24 / 10 * C) + 1)) ≤ u * (X * Y) := by
    intro C X Y C0 hC hX hY
    have h1 : s ^ 2 ≤ X * Y := by
      rw [sq]
      exact mul_le_mul hX hY I.s_pos.le (I.s_pos.le.trans hX)
    have h2 := mul_le_mul_of_nonneg_left h1 u0
    have h3 : 11 / 10 * ((11 / 10) * (24 / 10 * C) + 1) ≤ 3 * A + 3 * B + 2 := by rcases hC with h | h <;> linarith
    have h4 := mul_le_mul_of_nonneg_left h3 (by positivity : 0 ≤ T.length * η)
    have := I.terms
    linarith
  have h1 := sum_products P g0 g1 v T sum hs hw (fun y => t y.1 (R.fl (y.2.1 - m)) (R.fl (y.2.1 - m))) (·.2.1) (·.2.1) m m (24 / 10 * A) (fun y _ => ht _ _ _)
    (by positivity) (fun y hy => hte y hy _ _ _ _ _ (P.acc.sub (hr y hy).1 rm) (P.acc.sub (hr y hy).1 rm) (dA y hy)) (under A _ _ A0 (Or.inl le_rfl) sa sa)
  have h2 := sum_products P g0 g1 v T sum hs hw (fun y => t y.1 (R.fl (y.2.2 - n)) (R.fl (y.2.2 - n))) (·.2.2) (·.2.2) n n (24 / 10 * B) (fun y _ => ht _ _ _)
    (by positivity) (fun y hy => hte y hy _ _ _ _ _ (P.acc.sub (hr y hy).2 rn) (P.acc.sub (hr y hy).2 rn) (dB y hy)) (under B _ _ B0 (Or.inr le_rfl) sb sb)
  have h3 := sum_products P g0 g1 v T sum hs hw (fun y => t y.1 (R.fl (y.2.1 - m)) (R.fl (y.2.2 - n))) (·.2.1) (·.2.2) m n (24 / 10 * B) (fun y _ => ht _ _ _)
    (by positivity) (fun y hy => hte y hy _ _ _ _ _ (P.acc.sub (hr y hy).1 rm) (P.acc.sub (hr y hy).2 rn) (dB y hy)) (under B _ _ B0 (Or.inr le_rfl) sa sb)
  exact corr_assembly P g0 g1 (T.filterMap v) hw hW I.s_pos ha hb hm hn h1 h2 h3 e1 I.fourth

end

end Lemmas
end Verif
