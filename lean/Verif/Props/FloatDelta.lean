import Verif.Lemmas.FloatDelta
import Mathlib.Data.Rat.Floor
import Mathlib.Tactic.NormNum

/-
C130: the layer thicknesses of `delta_pressure` in floating-point arithmetic (every operation rounded, no overflow).
-/

set_option linter.unusedSectionVars false
namespace Verif.Props
open Model Spec Lemmas
variable {K : Type _} [Field K] [LinearOrder K] [IsStrictOrderedRing K]

theorem deltaSortedFl_exact (q : List K) (ps t : K) : deltaSortedFl Rounding.exact q ps t = deltaSorted q (.fin ps) t := by
  unfold deltaSortedFl deltaSorted aboveGround midpoints
  have e : (fun m : K => decide (m < ps)) = (fun m : K => XF.lt (.fin m) (.fin ps)) := by funext m; simp
  have ea : avgFl (Rounding.exact : Rounding K) = fun a b => (a + b) / 2 := rfl
  have es : ∀ a b : K, (XF.fin a - XF.fin b : XF K) = .fin (a - b) := fun a b => by
    change XF.fin (a + -b) = _
    rw [sub_eq_add_neg]
  have ef : ∀ a : K, (Rounding.exact : Rounding K).fl a = a := fun _ => rfl
  simp only [e, ea, es, ef]

/-- with exact arithmetic the thicknesses are the ones of the exact model -/
theorem C130_exact (p : List K) (ps : K) (ptop : Option K) : deltaPressureFl Rounding.exact p ps ptop = deltaPressure p (.fin ps) ptop := by
  unfold deltaPressureFl deltaPressure
  congr 1
  funext t
  unfold deltaPressure1DFl deltaPressure1D
  simp only [deltaSortedFl_exact, XF.lt_fin, decide_eq_true_eq]

/-- **C130** Levels stored in floats, from the top down or from the surface up, a model top not below the first level and a surface below the
first interface (as computed): the call succeeds; a layer is missing exactly if its upper interface, as computed, is at or below the surface; no
thickness is negative. -/
theorem C130_layers (R : Rounding K) (n : ℕ) (hn : 2 ≤ n) (lev : ℕ → K) (hinc : Increasing n lev) (hrep : ∀ i < n, R.rep (lev i)) (ps : K)
    (hrps : R.rep ps) (ptop : Option K) (h0 : 0 ≤ ptop.getD (lev 0)) (ht : ptop.getD (lev 0) ≤ lev 0)
    (hps : avgFl R (lev 0) (lev 1) < ps) :
    ∃ d : ℕ → XF K, deltaPressureFl R (column n lev) ps ptop = .ok (column n d) ∧
      deltaPressureFl R (column n lev).reverse ps ptop = .ok (column n d).reverse ∧
      ∀ k < n, (d k = .nan ↔ 0 < k ∧ ps ≤ avgFl R (lev (k - 1)) (lev k)) ∧ (d k = .nan ∨ ∃ b, d k = .fin b ∧ 0 ≤ b) := by
  obtain ⟨e, he1, hen, hlow, hhigh, hr⟩ := deltaSortedFl_incr R n hn lev hinc ps _ h0 ht hrep hps
  refine ⟨coreEntryFl R n lev ps (ptop.getD (lev 0)) e, ?_, ?_, fun k hk => ?_⟩
  · rw [deltaPressureFl_incr R n hn lev hinc ps ptop h0 ht hrep hps _ (Or.inl rfl), hr]
    simp [Except.map]
  · rw [deltaPressureFl_incr R n hn lev hinc ps ptop h0 ht hrep hps _ (Or.inr rfl), hr]
    have hne : (column n lev).reverse ≠ column n lev := by
      intro h
      have h' : (column n lev).reverse[0]? = (column n lev)[0]? := by rw [h]
      rw [column_reverse, column_getElem? _ _ _ (by omega), column_getElem? _ _ _ (by omega)] at h'
      have := hinc 0 (n - 1) (by omega) (by omega)
      simp only [Option.some.injEq] at h'
      rw [show n - 1 - 0 = n - 1 by omega] at h'
      rw [h'] at this
      exact lt_irrefl _ this
    simp [Except.map, hne]
  · have nn := fun b hb => layer_nonneg (b := b) (k := k) hinc hrep hen hlow he1 ht hrps hb
    have key : coreEntryFl R n lev ps (ptop.getD (lev 0)) e k = .nan ↔ e < k := by
      unfold coreEntryFl
      by_cases h1 : k = e
      · rw [if_pos h1]; simp [h1]
      · rw [if_neg h1]
        by_cases h2 : k = 0
        · rw [if_pos h2]; simp [h2]
        · rw [if_neg h2]
          by_cases h3 : k < e
          · rw [if_pos h3]; simp; omega
          · rw [if_neg h3]; simp; omega
    refine ⟨key.trans ⟨fun h => ⟨by omega, hhigh k h hk⟩, fun ⟨h1, h2⟩ => ?_⟩, ?_⟩
    · by_contra hc
      have := avgFl_mono R (incr_le hinc (show k - 1 ≤ e - 1 by omega) (by omega)) (incr_le hinc (show k ≤ e by omega) hen)
      linarith
    · have hfin : coreEntryFl R n lev ps (ptop.getD (lev 0)) e k = .nan ∨ ∃ b, coreEntryFl R n lev ps (ptop.getD (lev 0)) e k = .fin b := by
        unfold coreEntryFl
        by_cases h1 : k = e
        · rw [if_pos h1]; exact Or.inr ⟨_, rfl⟩
        · rw [if_neg h1]
          by_cases h2 : k = 0
          · rw [if_pos h2]; exact Or.inr ⟨_, rfl⟩
          · rw [if_neg h2]
            by_cases h3 : k < e
            · rw [if_pos h3]; exact Or.inr ⟨_, rfl⟩
            · rw [if_neg h3]; exact Or.inl rfl
      rcases hfin with h | ⟨b, h⟩
      · exact Or.inl h
      · exact Or.inr ⟨b, h, nn b h⟩

/-- **C130** Accuracy in float64: every layer that is not missing differs from the exact thickness, and the sum of the layers from the surface
pressure minus the top, by at most `6·2^-53` of the surface pressure, up to underflow, however many levels there are. -/
theorem C130_accuracy [FloorRing K] (n : ℕ) (hn : 2 ≤ n) (lev : ℕ → K) (hinc : Increasing n lev) (hrep : ∀ i < n, (float64 : Rounding K).rep (lev i))
    (ps : K) (hrps : (float64 : Rounding K).rep ps) (ptop : Option K) (h0 : 0 ≤ ptop.getD (lev 0)) (ht : ptop.getD (lev 0) ≤ lev 0)
    (hrt : (float64 : Rounding K).rep (ptop.getD (lev 0))) (hps : avgFl float64 (lev 0) (lev 1) < ps) :
    ∃ d : ℕ → XF K, deltaPressureFl float64 (column n lev) ps ptop = .ok (column n d) ∧
      (∀ k < n, ∀ b, d k = .fin b →
        |b - (lowerIface n lev ps k - upperIface lev (ptop.getD (lev 0)) k)| ≤ 6 * (2 ^ (-53 : ℤ) * ps) + 3 * 2 ^ (-1075 : ℤ)) ∧
      |nanSum (column n d) - (ps - ptop.getD (lev 0))| ≤ 6 * (2 ^ (-53 : ℤ) * ps) + (n + 1) * 2 ^ (-1075 : ℤ) := by
  obtain ⟨e, he1, hen, hlow, hhigh, hr⟩ := deltaSortedFl_incr float64 n hn lev hinc ps _ h0 ht hrep hps
  refine ⟨coreEntryFl float64 n lev ps (ptop.getD (lev 0)) e, ?_, fun k hk b hb => ?_, ?_⟩
  · rw [deltaPressureFl_incr float64 n hn lev hinc ps ptop h0 ht hrep hps _ (Or.inl rfl), hr]
    simp [Except.map]
  · exact layer_error float64_accurate (by norm_num) hinc h0 ht hrep hen hlow he1 hrt hrps hhigh hb
  · exact layer_sum float64_accurate (by norm_num) hinc h0 ht hrep hen hlow he1 hrt hrps

-- levels 100.1, 200.2, 300.3 hPa above a surface at 260.7 hPa, all as python stores them
example : deltaPressureFl (float64 : Rounding ℚ) [float64.fl (1001 / 10), float64.fl (2002 / 10), float64.fl (3003 / 10)]
    (float64.fl (2607 / 10)) none = .ok [.fin (1760977823046041 / 35184372088832), .fin (7043911292184167 / 70368744177664), .fin (183838344164147 / 17592186044416)] := by decide +kernel

example : Increasing 3 (fun i => (100 * i + 100 : ℚ)) ∧ avgFl float64 (100 : ℚ) 200 < 260 := by
  refine ⟨fun i j h _ => ?_, by decide +kernel⟩
  have : (i : ℚ) < j := by exact_mod_cast h
  show (100 * i + 100 : ℚ) < 100 * j + 100
  linarith

end Verif.Props
