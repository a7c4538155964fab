import Verif.Lemmas.FloatGrad
import Verif.Props.Gradient

namespace Verif.Lemmas.Gradient
open Verif Model Model.Gradient Spec.Gradient Lemmas

theorem diffBy_congr {α : Type} [Sub α] (round half : α → α) {n : ℕ} (hn : 2 ≤ n) {f g : ℕ → α} {i : ℕ} (hi : i < n)
    (h1 : f (lower i) = g (lower i)) (h2 : f (upper n i) = g (upper n i)) : diffBy round half n f i = diffBy round half n g i := by
  unfold diffBy
  by_cases h0 : i = 0
  · subst h0
    have e : upper n 0 = 1 := by simp [upper]; omega
    have e' : lower 0 = 0 := rfl
    rw [e] at h2; rw [e'] at h1
    simp [h1, h2]
  · rw [if_neg h0, if_neg h0]
    by_cases hl : i = n - 1
    · have e : upper n i = n - 1 := by simp [upper]; omega
      have e' : lower i = n - 2 := by simp [lower]; omega
      rw [e] at h2; rw [e'] at h1
      rw [if_pos hl, if_pos hl, h1, h2]
    · have e : upper n i = i + 1 := by simp [upper]; omega
      have e' : lower i = i - 1 := rfl
      rw [e] at h2; rw [e'] at h1
      rw [if_neg hl, if_neg hl, h1, h2]

/-- `gradientBy` with 2-D coordinates on 2-D data -/
theorem gradientBy_2d (A : GradArith) (data : Data) (hk : data.kind ≠ .dataset) {r c : ℕ} (hr : 2 ≤ r) (hc : 2 ≤ c) (hs : data.val.shape = [r, c])
    (lon lat : Tensor ℝ) (hlo : lon.shape = [r, c]) (hla : lat.shape = [r, c]) :
    ∃ a b : Result, gradientBy A data (some lon) (some lat) = .ok [a, b] ∧ a.val.shape = [r, c] ∧ b.val.shape = [r, c] ∧
      (data.kind = .dataArray → (∃ v, a = .dataArray v lon lat) ∧ ∃ v, b = .dataArray v lon lat) ∧
      (data.kind ≠ .dataArray → (∃ v, a = .numpy v) ∧ ∃ v, b = .numpy v) ∧
      ∀ i j, i < r → j < c →
        a.val.get [i, j] = roundX A.round (diffBy (roundX A.round) halfX r (fun v => data.val.get [v, j]) i
          / .fin (diffBy A.round halfR r (fun v => A.arcLat (lat.get [v, j])) i)) ∧
        b.val.get [i, j] = roundX A.round (diffBy (roundX A.round) halfX c (fun v => data.val.get [i, v]) j
          / .fin (diffBy A.round halfR c (fun v => A.arcLon (lon.get [i, v]) (lat.get [i, v])) j)) := by
  obtain ⟨k, la0, lo0, ⟨sh, dv⟩⟩ := data
  obtain ⟨slo, lon⟩ := lon
  obtain ⟨sla, lat⟩ := lat
  simp only at hk hs hlo hla
  subst hs hlo hla
  have n1 : ¬ r < 2 := by omega
  have n2 : ¬ c < 2 := by omega
  have key : ∀ w : Tensor (XF ℝ) → Result,
      (∀ v : Tensor (XF ℝ), v.shape = [r, c] → wrap k v ⟨[r, c], lon⟩ ⟨[r, c], lat⟩ = .ok (w v)) →
      gradientBy A ⟨k, la0, lo0, ⟨[r, c], dv⟩⟩ (some ⟨[r, c], lon⟩) (some ⟨[r, c], lat⟩) = .ok
      [w ⟨[r, c], fun i => roundX A.round (diffBy (roundX A.round) halfX r (fun v => dv ((Tensor.bidx [r, c] i).set 0 v)) ((Tensor.bidx [r, c] i).getD 0 0)
          / .fin (diffBy A.round halfR r (fun v => A.arcLat (lat ((Tensor.bidx [r, c] i).set 0 v))) ((Tensor.bidx [r, c] i).getD 0 0)))⟩,
       w ⟨[r, c], fun i => roundX A.round (diffBy (roundX A.round) halfX c (fun v => dv ((Tensor.bidx [r, c] i).set 1 v)) ((Tensor.bidx [r, c] i).getD 1 0)
          / .fin (diffBy A.round halfR c (fun v => A.arcLon (lon (Tensor.bidx [r, c] ((Tensor.bidx [r, c] i).set 1 v)))
              (lat (Tensor.bidx [r, c] ((Tensor.bidx [r, c] i).set 1 v)))) ((Tensor.bidx [r, c] i).getD 1 0)))⟩] := by
    intro w hw
    simp only [gradientBy, chooseCoords, to2d, Tensor.zip, Tensor.map, npGradientAxisBy, npGradientFirstTwoBy, Option.isNone_some, Bool.or_self,
      Bool.false_eq_true, if_false, bind, Except.bind, pure, Except.pure, List.length_cons, List.length_nil, Tensor.bshape_self,
      List.getElem?_cons_zero, List.getElem?_cons_succ, n1, n2, hk, List.any_cons, List.any_nil, decide_false, Bool.or_false]
    simp [n1, n2, hw, hk]
  have hden : ∀ (lon lat : List ℕ → ℝ) (i j : ℕ), i < r → j < c →
      diffBy A.round halfR c (fun v => A.arcLon (lon (Tensor.bidx [r, c] [i, v])) (lat (Tensor.bidx [r, c] [i, v]))) j
        = diffBy A.round halfR c (fun v => A.arcLon (lon [i, v]) (lat [i, v])) j := by
    intro lon lat i j hi hj
    apply diffBy_congr A.round halfR hc hj
    · simp only [bidx2 hi (lower_lt hj)]
    · simp only [bidx2 hi (upper_lt hj)]
  cases k with
  | dataset => exact absurd rfl hk
  | dataArray =>
    refine ⟨_, _, key (fun v => .dataArray v ⟨[r, c], lon⟩ ⟨[r, c], lat⟩) (fun v hv => by simp [wrap, hv]), rfl, rfl, ?_, ?_, ?_⟩
    · intro _; exact ⟨⟨_, rfl⟩, ⟨_, rfl⟩⟩
    · intro h; exact absurd rfl h
    · intro i j hi hj
      constructor
      · simp only [Result.val, bidx2 hi hj, List.set_cons_zero, List.set_cons_succ, List.getD_cons_zero, List.getD_cons_succ]
      · simp only [Result.val, bidx2 hi hj, List.set_cons_zero, List.set_cons_succ, List.getD_cons_zero, List.getD_cons_succ]
        rw [hden lon lat i j hi hj]
  | numpy =>
    refine ⟨_, _, key (fun v => .numpy v) (fun v hv => by simp [wrap]), rfl, rfl, ?_, ?_, ?_⟩
    · intro h; cases h
    · intro _; exact ⟨⟨_, rfl⟩, ⟨_, rfl⟩⟩
    · intro i j hi hj
      constructor
      · simp only [Result.val, bidx2 hi hj, List.set_cons_zero, List.set_cons_succ, List.getD_cons_zero, List.getD_cons_succ]
      · simp only [Result.val, bidx2 hi hj, List.set_cons_zero, List.set_cons_succ, List.getD_cons_zero, List.getD_cons_succ]
        rw [hden lon lat i j hi hj]
  | other =>
    refine ⟨_, _, key (fun v => .numpy v) (fun v hv => by simp [wrap]), rfl, rfl, ?_, ?_, ?_⟩
    · intro h; cases h
    · intro _; exact ⟨⟨_, rfl⟩, ⟨_, rfl⟩⟩
    · intro i j hi hj
      constructor
      · simp only [Result.val, bidx2 hi hj, List.set_cons_zero, List.set_cons_succ, List.getD_cons_zero, List.getD_cons_succ]
      · simp only [Result.val, bidx2 hi hj, List.set_cons_zero, List.set_cons_succ, List.getD_cons_zero, List.getD_cons_succ]
        rw [hden lon lat i j hi hj]

/-- rounded differences between neighbours -/
theorem diffBy_error {R : Rounding ℝ} {u η : ℝ} (A : R.Accurate u η) (hu : u ≤ 1) {n : ℕ} (hn : 2 ≤ n) {x x' : ℕ → ℝ} {E : ℝ} {i : ℕ} (hi : i < n)
    (h1 : |x' (lower i) - x (lower i)| ≤ E) (h2 : |x' (upper n i) - x (upper n i)| ≤ E) :
    |diffBy R.fl halfR n x' i - factor n i * (x (upper n i) - x (lower i))|
      ≤ factor n i * (2 * E * (1 + 3 * u) + 3 * u * |x (upper n i) - x (lower i)|) + 2 * η := by
  have h0 := A.u_nonneg
  have hη := A.eta_nonneg
  have hE : 0 ≤ E := (abs_nonneg _).trans h1
  have key : |R.fl (x' (upper n i) - x' (lower i)) - (x (upper n i) - x (lower i))|
      ≤ 2 * E + u * (|x (upper n i) - x (lower i)| + 2 * E) + η := by
    apply fl_close A _ le_rfl
    have : x' (upper n i) - x' (lower i) - (x (upper n i) - x (lower i)) = (x' (upper n i) - x (upper n i)) - (x' (lower i) - x (lower i)) := by ring
    rw [this]
    refine (abs_sub _ _).trans ?_
    linarith
  have hD := abs_nonneg (x (upper n i) - x (lower i))
  have huE := mul_nonneg h0 hE
  have huD := mul_nonneg h0 hD
  unfold diffBy factor
  by_cases c0 : i = 0
  · subst c0
    have e : upper n 0 = 1 := by simp [upper]; omega
    have e' : lower 0 = 0 := rfl
    simp only [if_true, e, e'] at *
    rw [one_mul, one_mul]
    linarith
  · simp only [if_neg c0]
    by_cases cl : i = n - 1
    · have e : upper n i = n - 1 := by simp [upper]; omega
      have e' : lower i = n - 2 := by simp [lower]; omega
      simp only [if_pos cl, e, e'] at *
      rw [one_mul, one_mul]
      linarith
    · have e : upper n i = i + 1 := by simp [upper]; omega
      have e' : lower i = i - 1 := rfl
      simp only [if_neg cl, e, e', halfR] at *
      have k2 : |R.fl (x' (i + 1) - x' (i - 1)) / 2 - 1 / 2 * (x (i + 1) - x (i - 1))|
          ≤ (2 * E + u * (|x (i + 1) - x (i - 1)| + 2 * E) + η) / 2 := by
        have : R.fl (x' (i + 1) - x' (i - 1)) / 2 - 1 / 2 * (x (i + 1) - x (i - 1)) = (R.fl (x' (i + 1) - x' (i - 1)) - (x (i + 1) - x (i - 1))) / 2 := by ring
        rw [this, abs_div, abs_two]
        linarith
      have k3 : |1 / 2 * (x (i + 1) - x (i - 1))| ≤ |x (i + 1) - x (i - 1)| / 2 := by
        rw [abs_mul, abs_of_pos (by norm_num : (0 : ℝ) < 1 / 2)]; linarith
      refine (fl_close A k2 k3).trans ?_
      generalize |x (i + 1) - x (i - 1)| = D at *
      have m1 : u * (u * E) ≤ u * E := by nlinarith
      have m2 : u * (u * D) ≤ u * D := by nlinarith
      have m3 : u * η ≤ η := by nlinarith
      nlinarith

theorem factor_pos (n i : ℕ) : 1 / 2 ≤ factor n i := by
  unfold factor
  split
  · norm_num
  · split <;> norm_num

/-- the rounded quotient of rounded differences -/
theorem rounded_quotient {R : Rounding ℝ} {u η : ℝ} (F : FineRounding R u η) {g g' d d' f G D E : ℝ} (hf : 1 / 2 ≤ f) (hg : g = f * G) (hd : d = f * D)
    (hE : 0 ≤ E) (hE1 : E ≤ 1e-3) (hD : 1 ≤ |D|) (eg : |g' - g| ≤ f * (3 * u * |G|) + 2 * η) (ed : |d' - d| ≤ f * (2 * E * (1 + 3 * u) + 3 * u * |D|) + 2 * η) :
    d' ≠ 0 ∧ |R.fl (g' / d') - G / D| ≤ (3 * E / |D| + 8 * u) * |G / D| + 6 * η := by
  have h0 := F.acc.u_nonneg
  have hη := F.acc.eta_nonneg
  have hu := F.u_le
  have hηu : η ≤ u / 100 := F.eta_le.trans (by rw [div_eq_mul_inv]; exact mul_le_mul_of_nonneg_left (by norm_num) h0)
  have hDpos : 0 < |D| := by linarith
  have hfpos : 0 < f := by linarith
  have hD0 : D ≠ 0 := abs_pos.mp hDpos
  have hd1 : |d| = f * |D| := by rw [hd, abs_mul, abs_of_pos hfpos]
  -- relative error of the distance
  obtain ⟨ρ, hρ⟩ : ∃ ρ, ρ = 2.01 * (E / |D|) + 3.05 * u := ⟨_, rfl⟩
  have hED : E / |D| ≤ 1e-3 := (div_le_iff₀ hDpos).mpr (hE1.trans (le_mul_of_one_le_right (by norm_num) hD))
  have hED0 : 0 ≤ E / |D| := div_nonneg hE hDpos.le
  have hρ0 : 0 ≤ ρ := by rw [hρ]; positivity
  have hρ1 : ρ ≤ 1 / 100 := by rw [hρ]; norm_num at hED hu ⊢; linarith
  have ed' : |d' - d| ≤ ρ * |d| := by
    refine ed.trans ?_
    rw [hd1, hρ]
    have e1 : E = E / |D| * |D| := by field_simp
    have huE : u * E ≤ 1e-3 * E := mul_le_mul_of_nonneg_right (hu.trans (by norm_num)) hE
    have b1 : 2 * η ≤ f * (0.05 * u * |D|) := by
      have : u ≤ u * |D| := le_mul_of_one_le_right h0 hD
      have h2 := mul_le_mul_of_nonneg_right hf (mul_nonneg h0 hDpos.le)
      norm_num at h2 ⊢
      linarith
    have b2 : (2.01 * (E / |D|) + 3.05 * u) * (f * |D|) = f * (2.01 * E + 3.05 * u * |D|) := by
      rw [show (2.01 * (E / |D|) + 3.05 * u) * (f * |D|) = f * (2.01 * (E / |D| * |D|) + 3.05 * u * |D|) by ring, ← e1]
    rw [b2]
    have b3 : 2 * E * (1 + 3 * u) + 3 * u * |D| + 0.05 * u * |D| ≤ 2.01 * E + 3.05 * u * |D| := by
      norm_num at huE ⊢
      linarith
    have b4 := mul_le_mul_of_nonneg_left b3 hfpos.le
    linarith
  have hdpos : 0 < |d| := by rw [hd1]; positivity
  have hd' : (1 - ρ) * |d| ≤ |d'| := by
    have := abs_sub_abs_le_abs_sub d d'
    rw [abs_sub_comm d d'] at this
    linarith
  have hd'pos : 0 < |d'| := lt_of_lt_of_le (mul_pos (by linarith) hdpos) hd'
  have hd'0 : d' ≠ 0 := abs_pos.mp hd'pos
  refine ⟨hd'0, ?_⟩
  have hd0 : d ≠ 0 := abs_pos.mp hdpos
  have eq : G / D = g / d := by rw [hg, hd, mul_div_mul_left _ _ hfpos.ne']
  have q1 : |g' / d' - G / D| * |d'| ≤ |g' - g| + |G / D| * (ρ * |d|) := by
    rw [← abs_mul]
    have : (g' / d' - G / D) * d' = (g' - g) + G / D * (d - d') := by
      rw [sub_mul, div_mul_cancel₀ _ hd'0, eq]
      have : g = g / d * d := by rw [div_mul_cancel₀ _ hd0]
      linear_combination this
    rw [this]
    refine (abs_add_le _ _).trans ?_
    rw [abs_mul, abs_sub_comm d d']
    have := mul_le_mul_of_nonneg_left ed' (abs_nonneg (G / D))
    linarith
  have hq0 := abs_nonneg (G / D)
  have eG : |G| = |G / D| * |D| := by rw [abs_div]; field_simp
  have q2 : |g' - g| ≤ (3 * u * |G / D| + 4 * η) * |d| := by
    refine eg.trans ?_
    rw [hd1, eG]
    have : 2 * η ≤ 4 * η * (f * |D|) := by
      have : 1 / 2 ≤ f * |D| := hf.trans (le_mul_of_one_le_right hfpos.le hD)
      have := mul_le_mul_of_nonneg_left this hη
      linarith
    linarith
  have q3 : |g' / d' - G / D| * ((1 - ρ) * |d|) ≤ (3 * u * |G / D| + 4 * η + |G / D| * ρ) * |d| := by
    have := mul_le_mul_of_nonneg_left hd' (abs_nonneg (g' / d' - G / D))
    linarith
  have q4 : |g' / d' - G / D| * (1 - ρ) ≤ 3 * u * |G / D| + 4 * η + |G / D| * ρ := by
    rw [← mul_assoc] at q3
    exact le_of_mul_le_mul_right q3 hdpos
  have q5 : |g' / d' - G / D| ≤ 1.02 * (3 * u * |G / D| + 4 * η + |G / D| * ρ) := by
    have h1 : 0.99 * |g' / d' - G / D| ≤ 3 * u * |G / D| + 4 * η + |G / D| * ρ := by
      have := mul_le_mul_of_nonneg_left (by norm_num; linarith : (0.99 : ℝ) ≤ 1 - ρ) (abs_nonneg (g' / d' - G / D))
      linarith
    have h2 : 0 ≤ 3 * u * |G / D| + 4 * η + |G / D| * ρ := by positivity
    norm_num at h1 ⊢
    linarith
  have q6 := fl_close F.acc q5 (le_refl _)
  refine q6.trans ?_
  rw [show 3 * E / |D| = 3 * (E / |D|) by ring, hρ]
  rw [hρ] at hρ1
  generalize |G / D| = q at *
  generalize E / |D| = e at *
  have z1 : 0 ≤ u * q := mul_nonneg h0 hq0
  have z2 : 0 ≤ e * q := mul_nonneg hED0 hq0
  have z3 : u * (u * q) ≤ 1e-3 * (u * q) := mul_le_mul_of_nonneg_right (hu.trans (by norm_num)) z1
  have z4 : u * (e * q) ≤ 1e-3 * (e * q) := mul_le_mul_of_nonneg_right (hu.trans (by norm_num)) z2
  have z5 : u * η ≤ 1e-3 * η := mul_le_mul_of_nonneg_right (hu.trans (by norm_num)) hη
  norm_num at z3 z4 z5 ⊢
  linarith

theorem diffBy_fin (f : ℝ → ℝ) (n : ℕ) (x : ℕ → ℝ) (i : ℕ) :
    diffBy (roundX f) halfX n (fun v => XF.fin (x v)) i = XF.fin (diffBy f halfR n x i) := by
  unfold diffBy halfX halfR
  split
  · simp [roundX]
  · split
    · simp [roundX]
    · rw [XF.fin_sub]
      simp only [roundX]
      rw [XF.fin_div _ _ two_ne_zero]

end Verif.Lemmas.Gradient
