import Verif.Lemmas.EofLib
import Mathlib.LinearAlgebra.FiniteDimensional.Lemmas

/-
Two EOF analyses of the same fields have the same variances, and the same patterns (up to sign) wherever the variance belongs to one pattern only.
-/

set_option linter.unusedSectionVars false
namespace Verif.Lemmas
open Spec Model.EofFns

variable {n : ℕ} {sh : List ℕ} {a : ℕ → List ℕ → ℝ} {ddof : ℤ} {m m' : ℕ} {E E' : ℕ → List ℕ → ℝ} {P P' : ℕ → ℕ → ℝ} {lam lam' : ℕ → ℝ}

theorem eof_dof (hd : ddof < n) : (0 : ℝ) < n - ddof := by
  have : (ddof : ℝ) < (n : ℝ) := by exact_mod_cast hd
  linarith

theorem eof_inner (h : IsEofAnalysis n sh a ddof m E P lam) (v : List ℕ → ℝ) (t : ℕ) (ht : t < n) :
    gridSum sh (fun s => a t s * v s) = ∑ k ∈ Finset.range m, P k t * gridSum sh (fun s => E k s * v s) := by
  rw [gridSum_congr (g := fun s => ∑ k ∈ Finset.range m, P k t * (E k s * v s)), gridSum_sum]
  · exact Finset.sum_congr rfl fun k _ => gridSum_mul _ _ _
  · intro s hs
    rw [h.complete t ht s hs, Finset.sum_mul]
    exact Finset.sum_congr rfl fun k _ => by ring

/-- the covariance applied to a pattern -/
theorem eof_covariance (h : IsEofAnalysis n sh a ddof m E P lam) (v : List ℕ → ℝ) (s : List ℕ) (hs : Tensor.InBounds sh s) :
    ∑ t ∈ Finset.range n, gridSum sh (fun g => a t g * v g) * a t s
      = ∑ k ∈ Finset.range m, (n - ddof) * lam k * gridSum sh (fun g => E k g * v g) * E k s := by
  have h1 : ∀ t ∈ Finset.range n, gridSum sh (fun g => a t g * v g) * a t s
      = ∑ k ∈ Finset.range m, ∑ l ∈ Finset.range m, gridSum sh (fun g => E k g * v g) * E l s * (P k t * P l t) := by
    intro t ht
    rw [eof_inner h v t (Finset.mem_range.mp ht), h.complete t (Finset.mem_range.mp ht) s hs, Finset.sum_mul_sum]
    exact Finset.sum_congr rfl fun k _ => Finset.sum_congr rfl fun l _ => by ring
  rw [Finset.sum_congr rfl h1, Finset.sum_comm]
  refine Finset.sum_congr rfl fun k hk => ?_
  have hk' := Finset.mem_range.mp hk
  rw [Finset.sum_comm, Finset.sum_eq_single k]
  · rw [← Finset.mul_sum, h.uncorrelated k hk' k hk', if_pos rfl]
    ring
  · intro l hl hne
    rw [← Finset.mul_sum, h.uncorrelated k hk' l (Finset.mem_range.mp hl), if_neg (Ne.symm hne), mul_zero]
  · intro hn
    exact absurd hk hn

/-- the variance explained by a pattern -/
theorem eof_quadratic (h : IsEofAnalysis n sh a ddof m E P lam) (v : List ℕ → ℝ) :
    ∑ t ∈ Finset.range n, gridSum sh (fun g => a t g * v g) ^ 2 = ∑ k ∈ Finset.range m, (n - ddof) * lam k * gridSum sh (fun g => E k g * v g) ^ 2 := by
  have h1 : ∀ t ∈ Finset.range n, gridSum sh (fun g => a t g * v g) ^ 2
      = gridSum sh (fun s => (gridSum sh (fun g => a t g * v g) * a t s) * v s) := by
    intro t _
    rw [sq, ← gridSum_mul]
    exact gridSum_congr fun s _ => by ring
  rw [Finset.sum_congr rfl h1, ← gridSum_sum]
  rw [gridSum_congr (g := fun s => ∑ k ∈ Finset.range m, (n - ddof) * lam k * gridSum sh (fun g => E k g * v g) * (E k s * v s)), gridSum_sum]
  · refine Finset.sum_congr rfl fun k _ => ?_
    rw [gridSum_mul]
    ring
  · intro s hs
    rw [← Finset.sum_mul, eof_covariance h v s hs, Finset.sum_mul]
    exact Finset.sum_congr rfl fun k _ => by ring

/-- the patterns of a combination of patterns -/
theorem eof_coefficient (h : IsEofAnalysis n sh a ddof m E P lam) (q : ℕ) (hq : q ≤ m) (c : ℕ → ℝ) (k : ℕ) (hk : k < m) :
    gridSum sh (fun s => E k s * ∑ i ∈ Finset.range q, c i * E i s) = if k < q then c k else 0 := by
  rw [gridSum_congr (g := fun s => ∑ i ∈ Finset.range q, c i * (E k s * E i s)), gridSum_sum]
  · simp only [gridSum_mul]
    rw [Finset.sum_congr rfl (fun i hi => by rw [h.orthonormal k hk i ((Finset.mem_range.mp hi).trans_le hq)])]
    simp
  · intro s _
    rw [Finset.mul_sum]
    exact Finset.sum_congr rfl fun i _ => by ring

theorem eof_le (h : IsEofAnalysis n sh a ddof m E P lam) (h' : IsEofAnalysis n sh a ddof m' E' P' lam') (hd : ddof < n) (k : ℕ) (hk : k < m) :
    lam k ≤ if k < m' then lam' k else 0 := by
  have hN : (0 : ℝ) < n - ddof := eof_dof hd
  set B : ℝ := if k < m' then lam' k else 0 with hB
  -- a combination of the first `k + 1` patterns that is orthogonal to the first `k` patterns of the other analysis
  let f : (Fin (k + 1) → ℝ) →ₗ[ℝ] (Fin k → ℝ) :=
    { toFun := fun c j => ∑ i, c i * gridSum sh (fun s => E' j s * E i s)
      map_add' := fun c d => by
        funext j
        simp only [Pi.add_apply, add_mul, Finset.sum_add_distrib]
      map_smul' := fun r c => by
        funext j
        simp only [Pi.smul_apply, smul_eq_mul, RingHom.id_apply, Finset.mul_sum, mul_assoc] }
  have hker : LinearMap.ker f ≠ ⊥ := LinearMap.ker_ne_bot_of_finrank_lt (by simp)
  obtain ⟨c, hc, hc0⟩ := Submodule.exists_mem_ne_zero_of_ne_bot hker
  let d : ℕ → ℝ := fun i => if hi : i < k + 1 then c ⟨i, hi⟩ else 0
  let v : List ℕ → ℝ := fun s => ∑ i ∈ Finset.range (k + 1), d i * E i s
  have hpos : 0 < ∑ i ∈ Finset.range (k + 1), d i ^ 2 := by
    rw [Finset.sum_range]
    obtain ⟨i, hi⟩ := Function.ne_iff.mp hc0
    refine Finset.sum_pos' (fun _ _ => sq_nonneg _) ⟨i, Finset.mem_univ _, ?_⟩
    have : d i = c i := by simp only [d, dif_pos i.2]
    rw [this]
    exact lt_of_le_of_ne (sq_nonneg _) (Ne.symm (pow_ne_zero 2 hi))
  have hnorm : gridSum sh (fun s => v s ^ 2) = ∑ i ∈ Finset.range (k + 1), d i ^ 2 :=
    eof_parseval h (Finset.range (k + 1)) (fun i hi => by have := Finset.mem_range.mp hi; omega) d
  have horth : ∀ j < k, gridSum sh (fun s => E' j s * v s) = 0 := by
    intro j hj
    have h0 := congrFun (LinearMap.mem_ker.mp hc) ⟨j, hj⟩
    have h1 : ∑ i : Fin (k + 1), c i * gridSum sh (fun s => E' j s * E i s) = 0 := h0
    rw [gridSum_congr (g := fun s => ∑ i ∈ Finset.range (k + 1), d i * (E' j s * E i s)), gridSum_sum]
    · simp only [gridSum_mul]
      rw [Finset.sum_range, ← h1]
      exact Finset.sum_congr rfl fun i _ => by simp only [d, dif_pos i.2]
    · intro s _
      show E' j s * ∑ i ∈ Finset.range (k + 1), d i * E i s = _
      rw [Finset.mul_sum]
      exact Finset.sum_congr rfl fun i _ => by ring
  have hlow : (n - ddof) * lam k * ∑ i ∈ Finset.range (k + 1), d i ^ 2 ≤ ∑ t ∈ Finset.range n, gridSum sh (fun g => a t g * v g) ^ 2 := by
    rw [eof_quadratic h v]
    have hsub : Finset.range (k + 1) ⊆ Finset.range m := Finset.range_subset_range.mpr hk
    rw [Finset.mul_sum]
    refine le_trans (Finset.sum_le_sum (g := fun i => (n - ddof) * lam i * gridSum sh (fun g => E i g * v g) ^ 2) fun i hi => ?_)
      (Finset.sum_le_sum_of_subset_of_nonneg hsub fun i hi _ => ?_)
    · have hi' := Finset.mem_range.mp hi
      have hco : gridSum sh (fun g => E i g * v g) = d i := by
        rw [eof_coefficient h (k + 1) hk d i (by omega), if_pos hi']
      rw [hco]
      exact mul_le_mul_of_nonneg_right (mul_le_mul_of_nonneg_left (h.decreasing i k (by omega) hk) hN.le) (sq_nonneg _)
    · exact mul_nonneg (mul_nonneg hN.le (h.nonneg i (Finset.mem_range.mp hi))) (sq_nonneg _)
  have hB0 : 0 ≤ B := by
    rw [hB]
    split_ifs with hkm
    · exact h'.nonneg k hkm
    · exact le_rfl
  have hup : ∑ t ∈ Finset.range n, gridSum sh (fun g => a t g * v g) ^ 2 ≤ (n - ddof) * B * ∑ i ∈ Finset.range (k + 1), d i ^ 2 := by
    rw [eof_quadratic h' v, ← hnorm]
    refine le_trans (Finset.sum_le_sum (g := fun j => (n - ddof) * B * gridSum sh (fun g => E' j g * v g) ^ 2) fun j hj => ?_) ?_
    · have hj' := Finset.mem_range.mp hj
      rcases Nat.lt_or_ge j k with hjk | hjk
      · rw [horth j hjk]
        simp
      · refine mul_le_mul_of_nonneg_right (mul_le_mul_of_nonneg_left ?_ hN.le) (sq_nonneg _)
        rw [hB, if_pos (by omega)]
        exact h'.decreasing k j hjk hj'
    · rw [← Finset.mul_sum]
      exact mul_le_mul_of_nonneg_left (eof_bessel h' v (Finset.range m') fun j hj => Finset.mem_range.mp hj) (mul_nonneg hN.le hB0)
  have := le_of_mul_le_mul_right (hlow.trans hup) hpos
  exact le_of_mul_le_mul_left this hN

/-- the variances are determined by the fields -/
theorem eof_variances (h : IsEofAnalysis n sh a ddof m E P lam) (h' : IsEofAnalysis n sh a ddof m' E' P' lam') (hd : ddof < n) (k : ℕ) :
    (if k < m then lam k else 0) = if k < m' then lam' k else 0 := by
  apply le_antisymm
  · by_cases hk : k < m
    · rw [if_pos hk]
      exact eof_le h h' hd k hk
    · rw [if_neg hk]
      split_ifs with hk'
      · exact h'.nonneg k hk'
      · exact le_rfl
  · by_cases hk : k < m'
    · rw [if_pos hk]
      exact eof_le h' h hd k hk
    · rw [if_neg hk]
      split_ifs with hk'
      · exact h.nonneg k hk'
      · exact le_rfl

/-- a pattern whose variance no other pattern has is determined up to its sign -/
theorem eof_pattern (h : IsEofAnalysis n sh a ddof m E P lam) (h' : IsEofAnalysis n sh a ddof m' E' P' lam') (hd : ddof < n) (k : ℕ) (hk : k < m)
    (hpos : 0 < lam k) (hs : ∀ j < m, j ≠ k → lam j ≠ lam k) :
    k < m' ∧ ∃ σ : ℝ, (σ = 1 ∨ σ = -1) ∧ (∀ s, Tensor.InBounds sh s → E' k s = σ * E k s) ∧ ∀ t < n, P' k t = σ * P k t := by
  have hN : (0 : ℝ) < n - ddof := eof_dof hd
  have hv := eof_variances h h' hd k
  rw [if_pos hk] at hv
  have hk' : k < m' := by
    by_contra hc
    rw [if_neg hc] at hv
    linarith
  rw [if_pos hk'] at hv
  have hstar : ∀ s, Tensor.InBounds sh s → lam k * E' k s = ∑ j ∈ Finset.range m, lam j * gridSum sh (fun g => E j g * E' k g) * E j s := by
    intro s hs
    have e1 := eof_covariance h (E' k) s hs
    rw [eof_covariance h' (E' k) s hs, Finset.sum_eq_single k] at e1
    · rw [h'.orthonormal k hk' k hk', if_pos rfl, ← hv, mul_one] at e1
      have e2 : (n - ddof : ℝ) * (lam k * E' k s) = (n - ddof) * ∑ j ∈ Finset.range m, lam j * gridSum sh (fun g => E j g * E' k g) * E j s := by
        rw [← mul_assoc, e1, Finset.mul_sum]
        exact Finset.sum_congr rfl fun j _ => by ring
      exact mul_left_cancel₀ hN.ne' e2
    · intro l hl hne
      rw [h'.orthonormal l (Finset.mem_range.mp hl) k hk', if_neg hne]
      ring
    · intro hn
      exact absurd (Finset.mem_range.mpr hk') hn
  have hzero : ∀ i < m, i ≠ k → gridSum sh (fun g => E i g * E' k g) = 0 := by
    intro i hi hik
    have e1 : lam k * gridSum sh (fun g => E i g * E' k g) = lam i * gridSum sh (fun g => E i g * E' k g) := by
      rw [← gridSum_mul, gridSum_congr (g := fun s => E i s * ∑ j ∈ Finset.range m, lam j * gridSum sh (fun g => E j g * E' k g) * E j s),
        eof_coefficient h m le_rfl (fun j => lam j * gridSum sh (fun g => E j g * E' k g)) i hi, if_pos hi]
      intro s hs
      rw [← hstar s hs]
      ring
    have e2 : (lam i - lam k) * gridSum sh (fun g => E i g * E' k g) = 0 := by linarith
    rcases mul_eq_zero.mp e2 with h0 | h0
    · exact absurd (sub_eq_zero.mp h0) (hs i hi hik)
    · exact h0
  set σ : ℝ := gridSum sh (fun g => E k g * E' k g) with hσ
  have hE : ∀ s, Tensor.InBounds sh s → E' k s = σ * E k s := by
    intro s hs
    have := hstar s hs
    rw [Finset.sum_eq_single k] at this
    · rw [mul_assoc] at this
      exact mul_left_cancel₀ hpos.ne' this
    · intro j hj hne
      rw [hzero j (Finset.mem_range.mp hj) hne]
      ring
    · intro hn
      exact absurd (Finset.mem_range.mpr hk) hn
  refine ⟨hk', σ, ?_, hE, fun t ht => ?_⟩
  · have e1 := h'.orthonormal k hk' k hk'
    rw [if_pos rfl, gridSum_congr (g := fun s => σ ^ 2 * (E k s * E k s)) (fun s hs => by rw [hE s hs]; ring), gridSum_mul,
      h.orthonormal k hk k hk, if_pos rfl, mul_one] at e1
    exact sq_eq_one_iff.mp e1
  · rw [h'.projection k hk' t ht, h.projection k hk t ht, ← gridSum_mul]
    exact gridSum_congr fun s hs => by rw [hE s hs]; ring

end Verif.Lemmas
