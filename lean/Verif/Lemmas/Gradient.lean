import Verif.Model.Gradient
import Verif.Spec.Gradient
import Mathlib.Tactic.Ring
import Mathlib.Tactic.Linarith
import Mathlib.Tactic.FieldSimp

namespace Verif.Lemmas.Gradient
open Verif Model.Gradient Spec.Gradient

/-- the array with values `f i j` -/
def grid {α : Type} (r c : ℕ) (f : ℕ → ℕ → α) : Tensor α := ⟨[r, c], fun i => f (i.getD 0 0) (i.getD 1 0)⟩

theorem bidx2 {r c i j : ℕ} (hi : i < r) (hj : j < c) : Tensor.bidx [r, c] [i, j] = [i, j] :=
  Tensor.bidx_of_inBounds (List.Forall₂.cons hi (List.Forall₂.cons hj List.Forall₂.nil))

theorem diffAt_congr {α : Type} [Sub α] (half : α → α) {n : ℕ} (hn : 2 ≤ n) {f g : ℕ → α} {i : ℕ} (hi : i < n)
    (h1 : f (lower i) = g (lower i)) (h2 : f (upper n i) = g (upper n i)) : diffAt half n f i = diffAt half n g i := by
  unfold diffAt
  by_cases h0 : i = 0
  · subst h0
    have e : upper n 0 = 1 := by simp [upper]; omega
    have e' : lower 0 = 0 := rfl
    rw [e] at h2; rw [e'] at h1
    simp [h1, h2]
  · rw [if_neg h0, if_neg h0]
    by_cases hl : i = n - 1
    · have e : upper n i = n - 1 := by simp [upper]; omega
      have e' : lower i = n - 2 := by simp [lower]; omega
      rw [e] at h2; rw [e'] at h1
      rw [if_pos hl, if_pos hl, h1, h2]
    · have e : upper n i = i + 1 := by simp [upper]; omega
      have e' : lower i = i - 1 := rfl
      rw [e] at h2; rw [e'] at h1
      rw [if_neg hl, if_neg hl, h1, h2]

theorem lower_lt {n i : ℕ} (hi : i < n) : lower i < n := by simp only [lower]; omega
theorem upper_lt {n i : ℕ} (hi : i < n) : upper n i < n := by simp only [upper]; omega

/-- the factor between `np.gradient` and the difference between the neighbours -/
noncomputable def factor (n i : ℕ) : ℝ := if i = 0 then 1 else if i = n - 1 then 1 else 1 / 2

theorem factor_ne (n i : ℕ) : factor n i ≠ 0 := by
  unfold factor
  split
  · norm_num
  · split <;> norm_num

theorem diffAt_real {n : ℕ} (hn : 2 ≤ n) (f : ℕ → ℝ) {i : ℕ} (hi : i < n) :
    diffAt halfR n f i = factor n i * (f (upper n i) - f (lower i)) := by
  unfold diffAt factor halfR
  by_cases h0 : i = 0
  · subst h0
    have e : upper n 0 = 1 := by simp [upper]; omega
    have e' : lower 0 = 0 := rfl
    simp [e, e']
  · simp only [if_neg h0]
    by_cases hl : i = n - 1
    · have e : upper n i = n - 1 := by simp [upper]; omega
      have e' : lower i = n - 2 := by simp [lower]; omega
      simp only [if_pos hl, e, e']; ring
    · have e : upper n i = i + 1 := by simp [upper]; omega
      have e' : lower i = i - 1 := rfl
      simp only [if_neg hl, e, e']; ring

theorem diffAt_fin (n : ℕ) (f : ℕ → ℝ) (i : ℕ) : diffAt halfX n (fun v => XF.fin (f v)) i = XF.fin (diffAt halfR n f i) := by
  unfold diffAt halfX halfR
  split
  · simp
  · split
    · simp
    · rw [XF.fin_sub, XF.fin_div _ _ two_ne_zero]

/-- `gradient` with 2-D coordinates on 2-D data -/
theorem gradient_2d (data : Data) (hk : data.kind ≠ .dataset) {r c : ℕ} (hr : 2 ≤ r) (hc : 2 ≤ c) (hs : data.val.shape = [r, c])
    (lon lat : Tensor ℝ) (hlo : lon.shape = [r, c]) (hla : lat.shape = [r, c]) :
    ∃ a b : Result, gradient data (some lon) (some lat) = .ok [a, b] ∧ a.val.shape = [r, c] ∧ b.val.shape = [r, c] ∧
      (data.kind = .dataArray → (∃ v, a = .dataArray v lon lat) ∧ ∃ v, b = .dataArray v lon lat) ∧
      (data.kind ≠ .dataArray → (∃ v, a = .numpy v) ∧ ∃ v, b = .numpy v) ∧
      ∀ i j, i < r → j < c →
        a.val.get [i, j] = diffAt halfX r (fun v => data.val.get [v, j]) i / .fin (diffAt halfR r (fun v => arcLat (lat.get [v, j])) i) ∧
        b.val.get [i, j] = diffAt halfX c (fun v => data.val.get [i, v]) j
          / .fin (diffAt halfR c (fun v => arcLon (lon.get [i, v]) (lat.get [i, v])) j) := by
  obtain ⟨k, la0, lo0, ⟨sh, dv⟩⟩ := data
  obtain ⟨slo, lon⟩ := lon
  obtain ⟨sla, lat⟩ := lat
  simp only at hk hs hlo hla
  subst hs hlo hla
  have n1 : ¬ r < 2 := by omega
  have n2 : ¬ c < 2 := by omega
  have key : ∀ w : Tensor (XF ℝ) → Result,
      (∀ v : Tensor (XF ℝ), v.shape = [r, c] → wrap k v ⟨[r, c], lon⟩ ⟨[r, c], lat⟩ = .ok (w v)) →
      gradient ⟨k, la0, lo0, ⟨[r, c], dv⟩⟩ (some ⟨[r, c], lon⟩) (some ⟨[r, c], lat⟩) = .ok
      [w ⟨[r, c], fun i => diffAt halfX r (fun v => dv ((Tensor.bidx [r, c] i).set 0 v)) ((Tensor.bidx [r, c] i).getD 0 0)
          / .fin (diffAt halfR r (fun v => arcLat (lat ((Tensor.bidx [r, c] i).set 0 v))) ((Tensor.bidx [r, c] i).getD 0 0))⟩,
       w ⟨[r, c], fun i => diffAt halfX c (fun v => dv ((Tensor.bidx [r, c] i).set 1 v)) ((Tensor.bidx [r, c] i).getD 1 0)
          / .fin (diffAt halfR c (fun v => arcLon (lon (Tensor.bidx [r, c] ((Tensor.bidx [r, c] i).set 1 v)))
              (lat (Tensor.bidx [r, c] ((Tensor.bidx [r, c] i).set 1 v)))) ((Tensor.bidx [r, c] i).getD 1 0))⟩] := by
    intro w hw
    simp only [gradient, chooseCoords, to2d, Tensor.zip, Tensor.map, npGradientAxis, npGradientFirstTwo, Option.isNone_some, Bool.or_self,
      Bool.false_eq_true, if_false, bind, Except.bind, pure, Except.pure, List.length_cons, List.length_nil, Tensor.bshape_self,
      List.getElem?_cons_zero, List.getElem?_cons_succ, n1, n2, hk, List.any_cons, List.any_nil, decide_false, Bool.or_false]
    simp [n1, n2, hw, hk]
  have hden : ∀ (lon lat : List ℕ → ℝ) (i j : ℕ), i < r → j < c →
      diffAt halfR c (fun v => arcLon (lon (Tensor.bidx [r, c] [i, v])) (lat (Tensor.bidx [r, c] [i, v]))) j
        = diffAt halfR c (fun v => arcLon (lon [i, v]) (lat [i, v])) j := by
    intro lon lat i j hi hj
    apply diffAt_congr halfR hc hj
    · simp only [bidx2 hi (lower_lt hj)]
    · simp only [bidx2 hi (upper_lt hj)]
  cases k with
  | dataset => exact absurd rfl hk
  | dataArray =>
    refine ⟨_, _, key (fun v => .dataArray v ⟨[r, c], lon⟩ ⟨[r, c], lat⟩) (fun v hv => by simp [wrap, hv]), rfl, rfl, ?_, ?_, ?_⟩
    · intro _; exact ⟨⟨_, rfl⟩, ⟨_, rfl⟩⟩
    · intro h; exact absurd rfl h
    · intro i j hi hj
      constructor
      · simp only [Result.val, bidx2 hi hj, List.set_cons_zero, List.set_cons_succ, List.getD_cons_zero, List.getD_cons_succ]
      · simp only [Result.val, bidx2 hi hj, List.set_cons_zero, List.set_cons_succ, List.getD_cons_zero, List.getD_cons_succ]
        rw [hden lon lat i j hi hj]
  | numpy =>
    refine ⟨_, _, key (fun v => .numpy v) (fun v hv => by simp [wrap]), rfl, rfl, ?_, ?_, ?_⟩
    · intro h; cases h
    · intro _; exact ⟨⟨_, rfl⟩, ⟨_, rfl⟩⟩
    · intro i j hi hj
      constructor
      · simp only [Result.val, bidx2 hi hj, List.set_cons_zero, List.set_cons_succ, List.getD_cons_zero, List.getD_cons_succ]
      · simp only [Result.val, bidx2 hi hj, List.set_cons_zero, List.set_cons_succ, List.getD_cons_zero, List.getD_cons_succ]
        rw [hden lon lat i j hi hj]
  | other =>
    refine ⟨_, _, key (fun v => .numpy v) (fun v hv => by simp [wrap]), rfl, rfl, ?_, ?_, ?_⟩
    · intro h; cases h
    · intro _; exact ⟨⟨_, rfl⟩, ⟨_, rfl⟩⟩
    · intro i j hi hj
      constructor
      · simp only [Result.val, bidx2 hi hj, List.set_cons_zero, List.set_cons_succ, List.getD_cons_zero, List.getD_cons_succ]
      · simp only [Result.val, bidx2 hi hj, List.set_cons_zero, List.set_cons_succ, List.getD_cons_zero, List.getD_cons_succ]
        rw [hden lon lat i j hi hj]

end Verif.Lemmas.Gradient
