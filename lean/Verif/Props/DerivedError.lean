import Verif.Props.Gradient
import Verif.Props.PsiLaws

/-
Property C225: how far errors of the data reach into the gradient and the meridional streamfunction.
-/

set_option linter.unusedSectionVars false

namespace Verif.Props

namespace DerivedError
open Spec.Gradient

theorem quotient_error (n : ℕ) (f g x : ℕ → ℝ) (ε : ℝ) (i : ℕ) (hu : |f (upper n i) - g (upper n i)| ≤ ε) (hl : |f (lower i) - g (lower i)| ≤ ε) :
    |quotient n f x i - quotient n g x i| ≤ 2 * ε / |x (upper n i) - x (lower i)| := by
  simp only [quotient]
  rw [← sub_div, abs_div]
  refine div_le_div_of_nonneg_right ?_ (abs_nonneg _)
  obtain ⟨a, b⟩ := abs_le.mp hu
  obtain ⟨c, d⟩ := abs_le.mp hl
  rw [abs_le]
  constructor <;> linarith

end DerivedError

open DerivedError

section
open Model.Gradient Spec.Gradient Lemmas.Gradient

/-- **C225, gradient.** If two fields differ by at most `ε` at every point, their gradients differ by at most `2 ε` divided by the distance
of the two neighbours between which the difference is taken. -/
theorem C225_gradient (k : DataKind) (hk : k ≠ .dataset) {r c : ℕ} (hr : 2 ≤ r) (hc : 2 ≤ c) (f g lon lat : ℕ → ℕ → ℝ) (hs : Spaced r c lon lat)
    (ε : ℝ) (hfg : ∀ i j, i < r → j < c → |f i j - g i j| ≤ ε) :
    ∃ fx fy gx gy, Gives (gradient (field k r c f) (some (grid r c lon)) (some (grid r c lat))) r c fx fy ∧
      Gives (gradient (field k r c g) (some (grid r c lon)) (some (grid r c lat))) r c gx gy ∧
      ∀ i j, i < r → j < c →
        |fx i j - gx i j| ≤ 2 * ε / |arcLat (lat (upper r i) j) - arcLat (lat (lower i) j)| ∧
        |fy i j - gy i j| ≤ 2 * ε / |arcLon (lon i (upper c j)) (lat i (upper c j)) - arcLon (lon i (lower j)) (lat i (lower j))| := by
  refine ⟨_, _, _, _, C75_difference_quotients k hk hr hc f lon lat hs, C75_difference_quotients k hk hr hc g lon lat hs, fun i j hi hj => ⟨?_, ?_⟩⟩
  · exact quotient_error r (fun v => f v j) (fun v => g v j) (fun v => arcLat (lat v j)) ε i (hfg _ _ (upper_lt hi) hj) (hfg _ _ (lower_lt hi) hj)
  · exact quotient_error c (fun v => f i v) (fun v => g i v) (fun v => arcLon (lon i v) (lat i v)) ε j (hfg _ _ hi (upper_lt hj)) (hfg _ _ hi (lower_lt hj))

/-- **C225, gradient: the bound cannot be improved**, along the columns. At every point there is an error of at most `ε` for which it is attained. -/
theorem C225_gradient_attained (k : DataKind) (hk : k ≠ .dataset) {r c : ℕ} (hr : 2 ≤ r) (hc : 2 ≤ c) (f lon lat : ℕ → ℕ → ℝ) (hs : Spaced r c lon lat)
    (ε : ℝ) (hε : 0 ≤ ε) (i j : ℕ) (hi : i < r) (hj : j < c) :
    ∃ g fx fy gx gy, (∀ a b, |f a b - g a b| ≤ ε) ∧ Gives (gradient (field k r c f) (some (grid r c lon)) (some (grid r c lat))) r c fx fy ∧
      Gives (gradient (field k r c g) (some (grid r c lon)) (some (grid r c lat))) r c gx gy ∧
      |fx i j - gx i j| = 2 * ε / |arcLat (lat (upper r i) j) - arcLat (lat (lower i) j)| := by
  refine ⟨fun a b => f a b + (if a = upper r i then ε else -ε), _, _, _, _, fun a b => ?_, C75_difference_quotients k hk hr hc f lon lat hs,
    C75_difference_quotients k hk hr hc _ lon lat hs, ?_⟩
  · simp only [abs_le]
    split_ifs <;> constructor <;> linarith
  · have hne : lower i ≠ upper r i := (lower_lt_upper hr hi).ne
    simp only [quotient, if_true, if_neg hne]
    rw [← sub_div, abs_div]
    congr 1
    rw [show f (upper r i) j - f (lower i) j - (f (upper r i) j + ε - (f (lower i) j + -ε)) = -(2 * ε) by ring, abs_neg, abs_of_nonneg (by linarith)]

/-- **C225, gradient: the bound cannot be improved**, along the rows. At every point there is an error of at most `ε` for which it is attained. -/
theorem C225_gradient_attained_rows (k : DataKind) (hk : k ≠ .dataset) {r c : ℕ} (hr : 2 ≤ r) (hc : 2 ≤ c) (f lon lat : ℕ → ℕ → ℝ) (hs : Spaced r c lon lat)
    (ε : ℝ) (hε : 0 ≤ ε) (i j : ℕ) (hi : i < r) (hj : j < c) :
    ∃ g fx fy gx gy, (∀ a b, |f a b - g a b| ≤ ε) ∧ Gives (gradient (field k r c f) (some (grid r c lon)) (some (grid r c lat))) r c fx fy ∧
      Gives (gradient (field k r c g) (some (grid r c lon)) (some (grid r c lat))) r c gx gy ∧
      |fy i j - gy i j| = 2 * ε / |arcLon (lon i (upper c j)) (lat i (upper c j)) - arcLon (lon i (lower j)) (lat i (lower j))| := by
  refine ⟨fun a b => f a b + (if b = upper c j then ε else -ε), _, _, _, _, fun a b => ?_, C75_difference_quotients k hk hr hc f lon lat hs,
    C75_difference_quotients k hk hr hc _ lon lat hs, ?_⟩
  · simp only [abs_le]
    split_ifs <;> constructor <;> linarith
  · have hne : lower j ≠ upper c j := (lower_lt_upper hc hj).ne
    simp only [quotient, if_true, if_neg hne]
    rw [← sub_div, abs_div]
    congr 1
    rw [show f i (upper c j) - f i (lower j) - (f i (upper c j) + ε - (f i (lower j) + -ε)) = -(2 * ε) by ring, abs_neg, abs_of_nonneg (by linarith)]

/-- a grid of 3 by 3 points, errors of a tenth with changing sign -/
example : ∃ fx fy gx gy,
    Gives (gradient (field .dataArray 3 3 (fun i j => (i + j : ℝ))) (some (grid 3 3 (fun _ j => 10 * (j : ℝ)))) (some (grid 3 3 (fun i _ => 30 - 30 * (i : ℝ))))) 3 3 fx fy ∧
    Gives (gradient (field .dataArray 3 3 (fun i j => (i + j + (-1) ^ i / 10 : ℝ))) (some (grid 3 3 (fun _ j => 10 * (j : ℝ))))
      (some (grid 3 3 (fun i _ => 30 - 30 * (i : ℝ))))) 3 3 gx gy ∧
    |fx 1 1 - gx 1 1| ≤ 2 * (1 / 10) / |arcLat (-30) - arcLat 30| := by
  have hs : Spaced 3 3 (fun _ j => 10 * (j : ℝ)) (fun i _ => 30 - 30 * (i : ℝ)) := by
    apply spaced_of_monotone (by norm_num) (by norm_num) (fun j => 10 * (j : ℝ)) (fun i => 30 - 30 * (i : ℝ))
    · intro i hi
      have : (i : ℝ) ≤ 2 := by exact_mod_cast Nat.lt_succ_iff.mp hi
      constructor <;> nlinarith [Nat.cast_nonneg (α := ℝ) i]
    · right
      intro i i' h _
      have : (i : ℝ) < i' := by exact_mod_cast h
      linarith
    · left
      intro i i' h _
      have : (i : ℝ) < i' := by exact_mod_cast h
      linarith
  obtain ⟨fx, fy, gx, gy, h1, h2, h3⟩ := C225_gradient .dataArray (by simp) (by norm_num) (by norm_num) (fun i j => (i + j : ℝ))
    (fun i j => (i + j + (-1) ^ i / 10 : ℝ)) _ _ hs (1 / 10) (by
      intro i j _ _
      rw [show ((i : ℝ) + j - (i + j + (-1) ^ i / 10)) = -((-1) ^ i / 10) by ring, abs_neg, abs_div, abs_pow, abs_neg, abs_one, one_pow]
      norm_num)
  refine ⟨fx, fy, gx, gy, h1, h2, ?_⟩
  have h := (h3 1 1 (by norm_num) (by norm_num)).1
  norm_num [upper, lower] at h ⊢
  exact h

end

section
open Model Spec Lemmas

/-- **C225, streamfunction.** If two winds have values at the same places and differ by at most `ε` there, their streamfunctions at a level differ by at
most `ε` times the factor `2 π a cos(lat) / g` times the pressure difference between the top level and the lower boundary of the level's layer. -/
theorem C225_streamfunction (rawPs : List (XF ℝ)) (T L n : ℕ) (hn : 2 ≤ n) (lev lat : ℕ → ℝ) (hinc : Increasing n lev) (h0 : 0 ≤ lev 0) (ps : ℕ → ℕ → ℝ)
    (hraw : ∀ p ∈ rawPs, p = .nan ∨ ∃ x : ℝ, 0 < x ∧ p = .fin x) (hps : ∀ t < T, ∀ l < L, (lev 0 + lev 1) / 2 < ps t l)
    (there : ℕ → ℕ → ℕ → Bool) (v w : ℕ → ℕ → ℕ → ℝ) (ε : ℝ) (hε : 0 ≤ ε)
    (hvw : ∀ t < T, ∀ l < L, ∀ k < n, there t l k = true → |v t l k - w t l k| ≤ ε) :
    ∃ P Q : ℕ → ℕ → ℕ → ℝ,
      zonalPsi rawPs (column n lev) (column L lat) (gridOf T L (fun t l => (.fin (ps t l), column n (fun k => masked (there t l k) (v t l k)))))
        = .ok (gridOf T L (fun t l => column n (fun k => .fin (P t l k)))) ∧
      zonalPsi rawPs (column n lev) (column L lat) (gridOf T L (fun t l => (.fin (ps t l), column n (fun k => masked (there t l k) (w t l k)))))
        = .ok (gridOf T L (fun t l => column n (fun k => .fin (Q t l k)))) ∧
      ∀ t < T, ∀ l < L, ∀ k < n, |P t l k - Q t l k| ≤ |massFactor (lat l)| * (ε * (lowerIface n lev (ps t l) k - lev 0)) := by
  have hm : ∀ u : ℕ → ℕ → ℕ → ℝ, ∀ t l j, NoInf (masked (there t l j) (u t l j)) := by
    intro u t l j
    unfold masked NoInf
    split <;> simp
  refine ⟨_, _, C57_call_values rawPs T L n hn lev lat hinc h0 ps _ hraw (hm v) hps, C57_call_values rawPs T L n hn lev lat hinc h0 ps _ hraw (hm w) hps, ?_⟩
  intro t ht l hl k hk
  rw [← mul_sub, abs_mul]
  refine mul_le_mul_of_nonneg_left ?_ (abs_nonneg _)
  rw [← present_sum n lev hinc _ (top_le rawPs T L n hn lev hinc h0 ps hraw hps t l ht hl) k hk, Finset.mul_sum, ← Finset.sum_sub_distrib]
  refine (Finset.abs_sum_le_sum_abs _ _).trans (Finset.sum_le_sum fun j hj => ?_)
  have hjn : j < n := by have := Finset.mem_range.mp hj; omega
  have hp := present_nonneg n lev hinc (ps t l) j hjn
  rw [layerFlux_masked, layerFlux_masked]
  by_cases hb : there t l j = true
  · rw [if_pos hb, if_pos hb, ← sub_mul, abs_mul, abs_of_nonneg hp]
    exact mul_le_mul_of_nonneg_right (hvw t ht l hl j hjn hb) hp
  · rw [if_neg hb, if_neg hb, sub_zero, abs_zero]
    exact mul_nonneg hε hp

/-- two levels, a missing value at the lower one of the second latitude, errors of a tenth -/
example : ∃ P Q : ℕ → ℕ → ℕ → ℝ,
    zonalPsi [.fin 600] (column 2 (fun k => 100 + 400 * (k : ℝ))) (column 2 (fun l => (l : ℝ)))
      (gridOf 1 2 (fun _ l => (.fin 600, column 2 (fun k => masked (decide (l + k < 2)) 5)))) = .ok (gridOf 1 2 (fun t l => column 2 (fun k => .fin (P t l k)))) ∧
    zonalPsi [.fin 600] (column 2 (fun k => 100 + 400 * (k : ℝ))) (column 2 (fun l => (l : ℝ)))
      (gridOf 1 2 (fun _ l => (.fin 600, column 2 (fun k => masked (decide (l + k < 2)) (5 + 1 / 10))))) = .ok (gridOf 1 2 (fun t l => column 2 (fun k => .fin (Q t l k)))) ∧
    |P 0 0 1 - Q 0 0 1| ≤ |massFactor 0| * (1 / 10 * 500) := by
  have hinc : Increasing 2 (fun k => 100 + 400 * (k : ℝ)) := by
    intro i j h _
    have : (i : ℝ) < j := by exact_mod_cast h
    simp only
    linarith
  obtain ⟨P, Q, h1, h2, h3⟩ := C225_streamfunction [.fin 600] 1 2 2 le_rfl (fun k => 100 + 400 * (k : ℝ)) (fun l => (l : ℝ)) hinc (by norm_num) (fun _ _ => 600)
    (by intro p hp; rw [List.mem_singleton] at hp; exact .inr ⟨600, by norm_num, hp⟩) (by intro t _ l _; norm_num)
    (fun _ l k => decide (l + k < 2)) (fun _ _ _ => 5) (fun _ _ _ => 5 + 1 / 10) (1 / 10) (by norm_num)
    (by intro t _ l _ k _ _; rw [abs_le]; constructor <;> norm_num)
  refine ⟨P, Q, h1, h2, ?_⟩
  have h := h3 0 (by norm_num) 0 (by norm_num) 1 (by norm_num)
  norm_num [lowerIface] at h ⊢
  linarith

end

end Verif.Props
