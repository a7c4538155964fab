import Verif.Props.Psi3

/-
C147: the streamfunction as a linear, monotone functional of the wind.
-/

set_option linter.unusedSectionVars false

namespace Verif.Spec

/-- a field with missing values: a number where `there`, NaN elsewhere -/
def masked (there : Bool) (x : ℝ) : XF ℝ := if there then .fin x else .nan

/-- `2 π a cos(lat) / g` with the cosine of the number of degrees (see C58) -/
noncomputable def massFactor (lat : ℝ) : ℝ := 2 * Real.pi * 6378137 * Real.cos lat / 9.80665

end Verif.Spec

namespace Verif.Props
open Model Spec Lemmas

/-- a layer that is present -/
def present (d : XF ℝ) : ℝ := match d with
  | .fin y => y
  | _ => 0

theorem layerFlux_fin (x : ℝ) (d : XF ℝ) : layerFlux (.fin x) d = x * present d := by
  cases d <;> simp [layerFlux, present]

theorem layerFlux_masked (m : Bool) (x : ℝ) (d : XF ℝ) : layerFlux (masked m x) d = if m then x * present d else 0 := by
  cases m
  · simp [masked, layerFlux]
  · simp [masked, layerFlux_fin]

theorem nanSum_column (m : ℕ) (d : ℕ → XF ℝ) : nanSum (column m d) = ∑ j ∈ Finset.range m, present (d j) := by
  induction m with
  | zero => simp [nanSum, column]
  | succ m ih =>
    have hstep : column (m + 1) d = column m d ++ [d m] := by simp [column, List.range_succ]
    rw [hstep, Finset.sum_range_succ, ← ih]
    simp only [nanSum, List.filterMap_append, List.sum_append]
    congr 1
    cases d m <;> simp [present, List.filterMap_cons, XF.toFin?]

/-- the layers down to level `k` reach from the top level to the lower boundary of layer `k` -/
theorem present_sum (n : ℕ) (lev : ℕ → ℝ) (hinc : Increasing n lev) (ps : ℝ) (hps : lev 0 ≤ ps) (k : ℕ) (hk : k < n) :
    ∑ j ∈ Finset.range (k + 1), present (thickness n lev ps (lev 0) j) = lowerIface n lev ps k - lev 0 := by
  rw [← nanSum_column]
  unfold lowerIface
  by_cases h : k + 1 < n
  · rw [if_pos h, nanSum_prefix n lev hinc ps (lev 0) le_rfl hps (k + 1) h]
    simp [upperIface]
  · rw [if_neg h, show k + 1 = n by omega]
    exact nanSum_all n (by omega) lev hinc ps (lev 0) le_rfl hps

theorem present_nonneg (n : ℕ) (lev : ℕ → ℝ) (hinc : Increasing n lev) (ps : ℝ) (k : ℕ) (hk : k < n) :
    0 ≤ present (thickness n lev ps (lev 0) k) := by
  unfold thickness
  split
  · simp [present]
  · rename_i h
    have h := not_le.mp h
    have hle : upperIface lev (lev 0) k ≤ lowerIface n lev ps k := by
      unfold lowerIface
      split
      · rename_i hk1
        refine le_min h.le ?_
        have h1 := hinc k (k + 1) (by omega) hk1
        unfold upperIface
        split
        · rename_i h0; subst h0; linarith
        · have h2 := hinc (k - 1) k (by omega) hk
          linarith
      · exact h.le
    simp only [present]
    linarith

section
variable (rawPs : List (XF ℝ)) (T L n : ℕ) (hn : 2 ≤ n) (lev lat : ℕ → ℝ) (hinc : Increasing n lev) (h0 : 0 ≤ lev 0) (ps : ℕ → ℕ → ℝ)
  (hraw : ∀ p ∈ rawPs, p = .nan ∨ ∃ x : ℝ, 0 < x ∧ p = .fin x) (hps : ∀ t < T, ∀ l < L, (lev 0 + lev 1) / 2 < ps t l)

include hn hinc h0 hraw hps

theorem top_le (t l : ℕ) (ht : t < T) (hl : l < L) : lev 0 ≤ ps t l := by
  have h1 := hinc 0 1 (by omega) (by omega)
  linarith [hps t ht l hl]

theorem gridOf_congr {α : Type} (f g : ℕ → ℕ → α) (h : ∀ t < T, ∀ l < L, f t l = g t l) : gridOf T L f = gridOf T L g := by
  unfold gridOf
  refine List.map_congr_left fun t ht => List.map_congr_left fun l hl => ?_
  exact h t (List.mem_range.mp ht) l (List.mem_range.mp hl)

/-- C147: the streamfunction of a linear combination of two winds with values at the same places is the linear combination of their streamfunctions. -/
theorem C147_linear (there : ℕ → ℕ → ℕ → Bool) (v w : ℕ → ℕ → ℕ → ℝ) (a b : ℝ) :
    ∃ P Q : ℕ → ℕ → ℕ → ℝ,
      zonalPsi rawPs (column n lev) (column L lat) (gridOf T L (fun t l => (.fin (ps t l), column n (fun k => masked (there t l k) (v t l k)))))
        = .ok (gridOf T L (fun t l => column n (fun k => .fin (P t l k)))) ∧
      zonalPsi rawPs (column n lev) (column L lat) (gridOf T L (fun t l => (.fin (ps t l), column n (fun k => masked (there t l k) (w t l k)))))
        = .ok (gridOf T L (fun t l => column n (fun k => .fin (Q t l k)))) ∧
      zonalPsi rawPs (column n lev) (column L lat) (gridOf T L (fun t l => (.fin (ps t l), column n (fun k => masked (there t l k) (a * v t l k + b * w t l k)))))
        = .ok (gridOf T L (fun t l => column n (fun k => .fin (a * P t l k + b * Q t l k)))) := by
  have hm : ∀ u : ℕ → ℕ → ℕ → ℝ, ∀ t l j, NoInf (masked (there t l j) (u t l j)) := by
    intro u t l j
    unfold masked NoInf
    split <;> simp
  refine ⟨_, _, C57_call_values rawPs T L n hn lev lat hinc h0 ps _ hraw (hm v) hps, C57_call_values rawPs T L n hn lev lat hinc h0 ps _ hraw (hm w) hps, ?_⟩
  rw [C57_call_values rawPs T L n hn lev lat hinc h0 ps _ hraw (hm (fun t l k => a * v t l k + b * w t l k)) hps]
  congr 1
  refine gridOf_congr rawPs T L n hn lev hinc h0 ps hraw hps _ _ fun t _ l _ => ?_
  unfold column
  refine List.map_congr_left fun k _ => ?_
  congr 1
  have : ∀ j, layerFlux (masked (there t l j) (a * v t l j + b * w t l j)) (thickness n lev (ps t l) (lev 0) j) =
      a * layerFlux (masked (there t l j) (v t l j)) (thickness n lev (ps t l) (lev 0) j) +
      b * layerFlux (masked (there t l j) (w t l j)) (thickness n lev (ps t l) (lev 0) j) := by
    intro j
    simp only [layerFlux_masked]
    split
    · ring
    · ring
  simp only [this, Finset.sum_add_distrib, ← Finset.mul_sum]
  ring

/-- C147: under a wind of speed `V` everywhere, the streamfunction at level `k` is the factor times `V` times the pressure difference between the top level and
the lower boundary of the layer of level `k` (the midpoint to the next level, or the surface where this comes first). -/
theorem C147_uniform (V : ℕ → ℕ → ℝ) :
    zonalPsi rawPs (column n lev) (column L lat) (gridOf T L (fun t l => (.fin (ps t l), column n (fun _ => .fin (V t l)))))
      = .ok (gridOf T L (fun t l => column n (fun k => .fin (massFactor (lat l) * (V t l * (lowerIface n lev (ps t l) k - lev 0)))))) := by
  rw [C57_call_values rawPs T L n hn lev lat hinc h0 ps (fun t l _ => .fin (V t l)) hraw (fun t l j => by simp [NoInf]) hps]
  congr 1
  refine gridOf_congr rawPs T L n hn lev hinc h0 ps hraw hps _ _ fun t ht l hl => ?_
  unfold column
  refine List.map_congr_left fun k hk => ?_
  simp only [layerFlux_fin, ← Finset.mul_sum]
  rw [present_sum n lev hinc _ (top_le rawPs T L n hn lev hinc h0 ps hraw hps t l ht hl) k (List.mem_range.mp hk)]
  rfl

/-- C147: a wind of at most `V` m/s gives a streamfunction of at most that of the uniform wind `V`; a wind that is nowhere southward, where the cosine is not
negative, gives a streamfunction that is not negative and does not decrease downwards. -/
theorem C147_bounds (v : ℕ → ℕ → ℕ → XF ℝ) (hv : ∀ t l j, NoInf (v t l j)) :
    ∃ P : ℕ → ℕ → ℕ → ℝ,
      zonalPsi rawPs (column n lev) (column L lat) (gridOf T L (fun t l => (.fin (ps t l), column n (v t l))))
        = .ok (gridOf T L (fun t l => column n (fun k => .fin (P t l k)))) ∧
      ∀ t < T, ∀ l < L,
        (∀ V, (∀ j < n, ∀ x, v t l j = .fin x → |x| ≤ V) → 0 ≤ V → ∀ k < n, |P t l k| ≤ |massFactor (lat l)| * (V * (lowerIface n lev (ps t l) k - lev 0))) ∧
        (0 ≤ Real.cos (lat l) → (∀ j < n, ∀ x, v t l j = .fin x → 0 ≤ x) → (∀ k < n, 0 ≤ P t l k) ∧ ∀ k, k + 1 < n → P t l k ≤ P t l (k + 1)) := by
  refine ⟨_, C57_call_values rawPs T L n hn lev lat hinc h0 ps v hraw hv hps, fun t ht l hl => ⟨?_, ?_⟩⟩
  · intro V hV hV0 k hk
    rw [abs_mul]
    refine mul_le_mul_of_nonneg_left ?_ (abs_nonneg _)
    rw [← present_sum n lev hinc _ (top_le rawPs T L n hn lev hinc h0 ps hraw hps t l ht hl) k hk, Finset.mul_sum]
    refine (Finset.abs_sum_le_sum_abs _ _).trans (Finset.sum_le_sum fun j hj => ?_)
    have hjn : j < n := by have := Finset.mem_range.mp hj; omega
    have hp := present_nonneg n lev hinc (ps t l) j hjn
    cases hx : v t l j with
    | fin x =>
      rw [layerFlux_fin, abs_mul, abs_of_nonneg hp]
      exact mul_le_mul_of_nonneg_right (hV j hjn x hx) hp
    | nan => simp only [layerFlux, abs_zero]; positivity
    | pinf => simp only [layerFlux, abs_zero]; positivity
    | ninf => simp only [layerFlux, abs_zero]; positivity
  · intro hc hx
    have hf : 0 ≤ 2 * Real.pi * 6378137 * Real.cos (lat l) / 9.80665 := by
      have := Real.pi_pos
      positivity
    have hterm : ∀ j < n, 0 ≤ layerFlux (v t l j) (thickness n lev (ps t l) (lev 0) j) := by
      intro j hj
      have hp := present_nonneg n lev hinc (ps t l) j hj
      cases hxj : v t l j with
      | fin x => rw [layerFlux_fin]; exact mul_nonneg (hx j hj x hxj) hp
      | nan => exact le_rfl
      | pinf => exact le_rfl
      | ninf => exact le_rfl
    constructor
    · intro k hk
      refine mul_nonneg hf (Finset.sum_nonneg fun j hj => hterm j ?_)
      have := Finset.mem_range.mp hj
      omega
    · intro k hk
      refine mul_le_mul_of_nonneg_left ?_ hf
      rw [Finset.sum_range_succ _ (k + 1)]
      linarith [hterm (k + 1) hk]

end

/-- the hypotheses hold for two levels and a surface below both -/
example : Increasing 2 (fun k => 100 + 400 * (k : ℝ)) ∧ ((fun k => 100 + 400 * (k : ℝ)) 0 + (fun k => 100 + 400 * (k : ℝ)) 1) / 2 < (600 : ℝ) ∧
    ∀ p ∈ [XF.fin (600 : ℝ), .nan], p = .nan ∨ ∃ x : ℝ, 0 < x ∧ p = .fin x := by
  refine ⟨?_, by norm_num, ?_⟩
  · intro i j h _
    have : (i : ℝ) < j := by exact_mod_cast h
    simp only
    linarith
  · intro p hp
    simp only [List.mem_cons, List.not_mem_nil, or_false] at hp
    rcases hp with rfl | rfl
    · exact .inr ⟨600, by norm_num, rfl⟩
    · exact .inl rfl

end Verif.Props
