import Verif.Props.FilterField
import Verif.Props.Psi2

/-
Property C207: filtering in time and the meridional streamfunction can be taken in either order if the surface pressure is steady.
-/

set_option linter.unusedSectionVars false
namespace Verif.Props
open Model Spec Lemmas FilterField

/-- the zonal means at `T` times and `L` latitudes: a steady surface pressure and a wind at `n` levels -/
noncomputable def steadyMeans (T L n : ℕ) (ps : ℕ → ℝ) (w : ZMod T → ℕ → ℕ → ℝ) : List (List (XF ℝ × List (XF ℝ))) :=
  gridOf T L fun t l => (.fin (ps l), column n fun j => .fin (w t l j))

/-- a streamfunction at `T` times, `L` latitudes and `n` levels -/
noncomputable def psiValues (T L n : ℕ) (psi : ZMod T → ℕ → ℕ → ℝ) : List (List (List (XF ℝ))) :=
  gridOf T L fun t l => column n fun k => .fin (psi t l k)

/-- **C207.** If the surface pressure is steady, the streamfunction of the filtered wind is the filtered streamfunction, at every
latitude and level. For every filter, number of times, set of levels and wind without gaps. -/
theorem C207_either_order (fl : Flags) (f cl ch : ℝ) (hf : 0 < f) (h1 : 0 ≤ cl) (h2 : 0 ≤ ch) (rawPs : List (XF ℝ)) (T L n : ℕ) [NeZero T] (hn : 2 ≤ n)
    (lev lat : ℕ → ℝ) (hinc : Increasing n lev) (h0 : 0 ≤ lev 0) (ps : ℕ → ℝ) (hraw : ∀ p ∈ rawPs, p = .nan ∨ ∃ x : ℝ, 0 < x ∧ p = .fin x)
    (hps : ∀ l < L, (lev 0 + lev 1) / 2 < ps l) (w : ZMod T → ℕ → ℕ → ℝ) :
    ∃ psi, zonalPsi rawPs (column n lev) (column L lat) (steadyMeans T L n ps w) = .ok (psiValues T L n psi) ∧
      zonalPsi rawPs (column n lev) (column L lat) (steadyMeans T L n ps fun t l j => fourierFilter fl f cl ch (fun s => w s l j) t)
        = .ok (psiValues T L n fun t l k => fourierFilter fl f cl ch (fun s => psi s l k) t) := by
  refine ⟨fun t l k => psiFactor (lat l) * ∑ j ∈ Finset.range (k + 1), layerFlux (.fin (w t l j)) (thickness n lev (ps l) (lev 0) j), ?_, ?_⟩
  · exact C110_accepts_partial rawPs T L n hn lev lat hinc h0 (fun _ l => ps l) (fun t l j => .fin (w t l j)) hraw (fun t l j => by simp [NoInf]) (fun _ _ l hl => hps l hl)
  · refine (C110_accepts_partial rawPs T L n hn lev lat hinc h0 (fun _ l => ps l)
      (fun t l j => .fin (fourierFilter fl f cl ch (fun s => w s l j) t)) hraw (fun t l j => by simp [NoInf]) (fun _ _ l hl => hps l hl)).trans ?_
    congr 1
    unfold psiValues
    congr 1
    funext t l
    congr 1
    funext k
    congr 1
    obtain ⟨H, hH⟩ := kernel fl f cl ch hf h1 h2 (t : ZMod T)
    simp only [hH]
    have e : ∀ (x : ℝ) (j : ℕ), layerFlux (.fin x) (thickness n lev (ps l) (lev 0) j) = x * layerFlux (.fin 1) (thickness n lev (ps l) (lev 0) j) := by
      intro x j
      cases thickness n lev (ps l) (lev 0) j <;> simp [layerFlux]
    simp only [e (∑ s, _), e (w _ _ _), Finset.mul_sum, Finset.sum_mul]
    rw [Finset.sum_comm]
    exact Finset.sum_congr rfl fun s _ => Finset.sum_congr rfl fun j _ => by ring

/-- eight times, two latitudes, three levels; any wind -/
example (w : ZMod 8 → ℕ → ℕ → ℝ) :
    ∃ psi, zonalPsi [.fin 90000, .nan] (column 3 fun k => 10000 + 40000 * (k : ℝ)) (column 2 fun l => 30 * (l : ℝ)) (steadyMeans 8 2 3 (fun _ => 90000) w)
        = .ok (psiValues 8 2 3 psi) ∧
      zonalPsi [.fin 90000, .nan] (column 3 fun k => 10000 + 40000 * (k : ℝ)) (column 2 fun l => 30 * (l : ℝ))
          (steadyMeans 8 2 3 (fun _ => 90000) fun t l j => fourierFilter { lowPass := true } 8 2 0 (fun s => w s l j) t)
        = .ok (psiValues 8 2 3 fun t l k => fourierFilter { lowPass := true } 8 2 0 (fun s => psi s l k) t) := by
  have : NeZero 8 := ⟨by norm_num⟩
  refine C207_either_order { lowPass := true } 8 2 0 (by norm_num) (by norm_num) le_rfl [.fin 90000, .nan] 8 2 3 (by norm_num) _ _ ?_ (by norm_num) _ ?_ ?_ w
  · intro i j hij _
    have : (i : ℝ) < j := by exact_mod_cast hij
    simp only
    linarith
  · intro p hp
    simp only [List.mem_cons, List.not_mem_nil, or_false] at hp
    rcases hp with rfl | rfl
    · exact Or.inr ⟨90000, by norm_num, rfl⟩
    · exact Or.inl rfl
  · intro l _
    norm_num

end Verif.Props
