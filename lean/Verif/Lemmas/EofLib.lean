import Verif.Spec.EofLib
import Mathlib.Analysis.Matrix.Spectrum
import Mathlib.Analysis.Matrix.PosDef
import Mathlib.Algebra.BigOperators.Fin
import Mathlib.Tactic.Positivity
import Mathlib.Tactic.FieldSimp
import Mathlib.Tactic.Linarith

/-
Facts about EOF analyses, and that every set of fields has one (spectral theorem).
-/

set_option linter.unusedSectionVars false
namespace Verif.Lemmas
open Spec Model.EofFns

theorem gridSum_eq (sh : List ℕ) (f : List ℕ → ℝ) :
    gridSum sh f = ∑ i : Fin (Tensor.indices sh).length, f (Tensor.indices sh)[i] := by
  unfold gridSum
  rw [← Fin.sum_univ_fun_getElem]
  rfl

theorem gridSum_congr {sh : List ℕ} {f g : List ℕ → ℝ} (h : ∀ s, Tensor.InBounds sh s → f s = g s) : gridSum sh f = gridSum sh g := by
  unfold gridSum
  congr 1
  exact List.map_congr_left fun s hs => h s (Tensor.mem_indices.mp hs)

theorem gridSum_sum {ι : Type} (sh : List ℕ) (S : Finset ι) (f : ι → List ℕ → ℝ) :
    gridSum sh (fun s => ∑ k ∈ S, f k s) = ∑ k ∈ S, gridSum sh (f k) := by
  simp only [gridSum_eq]
  exact Finset.sum_comm

theorem gridSum_mul (sh : List ℕ) (c : ℝ) (f : List ℕ → ℝ) : gridSum sh (fun s => c * f s) = c * gridSum sh f := by
  simp only [gridSum_eq, Finset.mul_sum]

theorem indices_nodup (sh : List ℕ) : (Tensor.indices sh).Nodup := by
  induction sh with
  | nil => simp [Tensor.indices]
  | cons d ds ih =>
    unfold Tensor.indices
    rw [List.nodup_flatMap]
    refine ⟨fun k _ => ih.map (fun a b h => by simpa using h), ?_⟩
    refine List.Pairwise.imp ?_ List.nodup_range
    intro a b hab
    simp only [Function.onFun, List.disjoint_iff_ne]
    intro x hx y hy hxy
    obtain ⟨u, -, rfl⟩ := List.mem_map.mp hx
    obtain ⟨v, -, rfl⟩ := List.mem_map.mp hy
    simp at hxy
    exact hab hxy.1

variable {n : ℕ} {sh : List ℕ} {a : ℕ → List ℕ → ℝ} {ddof : ℤ} {m : ℕ} {E : ℕ → List ℕ → ℝ} {P : ℕ → ℕ → ℝ} {lam : ℕ → ℝ}

/-- Parseval for combinations of the patterns -/
theorem eof_parseval (h : IsEofAnalysis n sh a ddof m E P lam) (S : Finset ℕ) (hS : ∀ k ∈ S, k < m) (c : ℕ → ℝ) :
    gridSum sh (fun s => (∑ k ∈ S, c k * E k s) ^ 2) = ∑ k ∈ S, c k ^ 2 := by
  have e : ∀ s, (∑ k ∈ S, c k * E k s) ^ 2 = ∑ k ∈ S, ∑ l ∈ S, c k * c l * (E k s * E l s) := by
    intro s
    rw [sq, Finset.sum_mul_sum]
    exact Finset.sum_congr rfl fun k _ => Finset.sum_congr rfl fun l _ => by ring
  rw [gridSum_congr (fun s _ => e s), gridSum_sum]
  refine Finset.sum_congr rfl fun k hk => ?_
  rw [gridSum_sum, Finset.sum_eq_single k]
  · rw [gridSum_mul, h.orthonormal k (hS k hk) k (hS k hk), if_pos rfl]
    ring
  · intro l hl hne
    rw [gridSum_mul, h.orthonormal k (hS k hk) l (hS l hl), if_neg (Ne.symm hne), mul_zero]
  · intro hn
    exact absurd hk hn

/-- what is left of the fields after the first `q` modes have been removed -/
theorem eof_residual (h : IsEofAnalysis n sh a ddof m E P lam) (q : ℕ) (hq : q ≤ m) :
    ∑ t ∈ Finset.range n, gridSum sh (fun s => (a t s - ∑ k ∈ Finset.range q, P k t * E k s) ^ 2)
      = (n - ddof) * (∑ k ∈ Finset.range m, lam k - ∑ k ∈ Finset.range q, lam k) := by
  have hsub : Finset.range q ⊆ Finset.range m := Finset.range_subset_range.mpr hq
  have h1 : ∀ t ∈ Finset.range n, gridSum sh (fun s => (a t s - ∑ k ∈ Finset.range q, P k t * E k s) ^ 2)
      = ∑ k ∈ Finset.range m \ Finset.range q, P k t * P k t := by
    intro t ht
    rw [gridSum_congr (g := fun s => (∑ k ∈ Finset.range m \ Finset.range q, P k t * E k s) ^ 2), eof_parseval h]
    · exact Finset.sum_congr rfl fun k _ => by ring
    · intro k hk
      exact Finset.mem_range.mp (Finset.mem_sdiff.mp hk).1
    · intro s hs
      rw [h.complete t (Finset.mem_range.mp ht) s hs, ← Finset.sum_sdiff hsub]
      congr 1
      ring
  rw [Finset.sum_congr rfl h1, Finset.sum_comm]
  have h2 : ∀ k ∈ Finset.range m \ Finset.range q, ∑ t ∈ Finset.range n, P k t * P k t = (n - ddof) * lam k := by
    intro k hk
    have := Finset.mem_range.mp (Finset.mem_sdiff.mp hk).1
    rw [h.uncorrelated k this k this, if_pos rfl]
  rw [Finset.sum_congr rfl h2, ← Finset.mul_sum, ← Finset.sum_sdiff hsub]
  ring

/-- the eigenvalues add up to the total variance -/
theorem eof_total (h : IsEofAnalysis n sh a ddof m E P lam) :
    ∑ t ∈ Finset.range n, gridSum sh (fun s => a t s ^ 2) = (n - ddof) * ∑ k ∈ Finset.range m, lam k := by
  have := eof_residual h 0 (Nat.zero_le _)
  simpa using this

/-- Bessel -/
theorem eof_bessel (h : IsEofAnalysis n sh a ddof m E P lam) (v : List ℕ → ℝ) (S : Finset ℕ) (hS : ∀ k ∈ S, k < m) :
    ∑ k ∈ S, gridSum sh (fun s => E k s * v s) ^ 2 ≤ gridSum sh (fun s => v s ^ 2) := by
  set c : ℕ → ℝ := fun k => gridSum sh (fun s => E k s * v s) with hc
  have h0 : 0 ≤ gridSum sh (fun s => (v s - ∑ k ∈ S, c k * E k s) ^ 2) := by
    rw [gridSum_eq]
    exact Finset.sum_nonneg fun _ _ => sq_nonneg _
  have e : gridSum sh (fun s => (v s - ∑ k ∈ S, c k * E k s) ^ 2)
      = gridSum sh (fun s => v s ^ 2) - 2 * gridSum sh (fun s => ∑ k ∈ S, c k * (E k s * v s)) + gridSum sh (fun s => (∑ k ∈ S, c k * E k s) ^ 2) := by
    simp only [gridSum_eq]
    rw [Finset.mul_sum, ← Finset.sum_sub_distrib, ← Finset.sum_add_distrib]
    refine Finset.sum_congr rfl fun i _ => ?_
    have : ∑ k ∈ S, c k * (E k (Tensor.indices sh)[i] * v (Tensor.indices sh)[i]) = (∑ k ∈ S, c k * E k (Tensor.indices sh)[i]) * v (Tensor.indices sh)[i] := by
      rw [Finset.sum_mul]
      exact Finset.sum_congr rfl fun k _ => by ring
    rw [this]
    ring
  rw [e, eof_parseval h S hS, gridSum_sum] at h0
  have e2 : ∑ k ∈ S, gridSum sh (fun s => c k * (E k s * v s)) = ∑ k ∈ S, c k ^ 2 :=
    Finset.sum_congr rfl fun k _ => by rw [gridSum_mul, sq]
  rw [e2] at h0
  linarith

/-- no pattern of unit length explains more variance than the first -/
theorem eof_leading (h : IsEofAnalysis n sh a ddof m E P lam) (hd : ddof < n) (v : List ℕ → ℝ) (B : ℝ) (hB : ∀ k < m, lam k ≤ B) (hB0 : 0 ≤ B)
    (hv : gridSum sh (fun s => v s ^ 2) = 1) :
    ∑ t ∈ Finset.range n, gridSum sh (fun s => a t s * v s) ^ 2 ≤ (n - ddof) * B := by
  have hN : (0 : ℝ) < n - ddof := by
    have : (ddof : ℝ) < (n : ℝ) := by exact_mod_cast hd
    linarith
  set c : ℕ → ℝ := fun k => gridSum sh (fun s => E k s * v s) with hc
  have h1 : ∀ t ∈ Finset.range n, gridSum sh (fun s => a t s * v s) ^ 2 = ∑ k ∈ Finset.range m, ∑ l ∈ Finset.range m, c k * c l * (P k t * P l t) := by
    intro t ht
    have : gridSum sh (fun s => a t s * v s) = ∑ k ∈ Finset.range m, P k t * c k := by
      rw [gridSum_congr (g := fun s => ∑ k ∈ Finset.range m, P k t * (E k s * v s)), gridSum_sum]
      · exact Finset.sum_congr rfl fun k _ => gridSum_mul _ _ _
      · intro s hs
        rw [h.complete t (Finset.mem_range.mp ht) s hs, Finset.sum_mul]
        exact Finset.sum_congr rfl fun k _ => by ring
    rw [this, sq, Finset.sum_mul_sum]
    exact Finset.sum_congr rfl fun k _ => Finset.sum_congr rfl fun l _ => by ring
  have h2 : ∑ t ∈ Finset.range n, gridSum sh (fun s => a t s * v s) ^ 2 = ∑ k ∈ Finset.range m, c k ^ 2 * ((n - ddof) * lam k) := by
    rw [Finset.sum_congr rfl h1, Finset.sum_comm]
    refine Finset.sum_congr rfl fun k hk => ?_
    have hk' := Finset.mem_range.mp hk
    rw [Finset.sum_comm, Finset.sum_eq_single k]
    · rw [← Finset.mul_sum, h.uncorrelated k hk' k hk', if_pos rfl]
      ring
    · intro l hl hne
      rw [← Finset.mul_sum, h.uncorrelated k hk' l (Finset.mem_range.mp hl), if_neg (Ne.symm hne), mul_zero]
    · intro hn
      exact absurd hk hn
  rw [h2]
  have h3 := eof_bessel h v (Finset.range m) (fun k hk => Finset.mem_range.mp hk)
  rw [hv] at h3
  calc ∑ k ∈ Finset.range m, c k ^ 2 * ((n - ddof) * lam k) ≤ ∑ k ∈ Finset.range m, c k ^ 2 * ((n - ddof) * B) := by
        refine Finset.sum_le_sum fun k hk => mul_le_mul_of_nonneg_left ?_ (sq_nonneg _)
        exact mul_le_mul_of_nonneg_left (hB k (Finset.mem_range.mp hk)) hN.le
    _ = (∑ k ∈ Finset.range m, c k ^ 2) * ((n - ddof) * B) := by rw [Finset.sum_mul]
    _ ≤ 1 * ((n - ddof) * B) := mul_le_mul_of_nonneg_right h3 (by positivity)
    _ = _ := one_mul _

/-- every set of fields has an EOF analysis -/
theorem eof_exists (n : ℕ) (sh : List ℕ) (a : ℕ → List ℕ → ℝ) (ddof : ℤ) (hd : ddof < n) :
    ∃ m E P lam, IsEofAnalysis n sh a ddof m E P lam := by
  classical
  have hN : (0 : ℝ) < n - ddof := by
    have : (ddof : ℝ) < (n : ℝ) := by exact_mod_cast hd
    linarith
  set idx := Tensor.indices sh with hidx
  set p := idx.length with hp
  let M : Matrix (Fin n) (Fin p) ℝ := fun t i => a t idx[i]
  have hC : (M.transpose * M).IsHermitian := by
    rw [← Matrix.conjTranspose_eq_transpose_of_trivial]
    exact Matrix.isHermitian_conjTranspose_mul_self M
  let σ : Fin (Fintype.card (Fin p)) ≃ Fin p := Fintype.equivOfCardEq (Fintype.card_fin _)
  have hσ : ∀ k, hC.eigenvalues (σ k) = hC.eigenvalues₀ k := by
    intro k
    unfold Matrix.IsHermitian.eigenvalues
    simp [σ]
  have hcard : Fintype.card (Fin p) = p := Fintype.card_fin p
  let e : ℕ → Fin p → ℝ := fun k => if hk : k < Fintype.card (Fin p) then (hC.eigenvectorBasis (σ ⟨k, hk⟩)).ofLp else 0
  let lam0 : ℕ → ℝ := fun k => if hk : k < Fintype.card (Fin p) then hC.eigenvalues₀ ⟨k, hk⟩ else 0
  have horth : ∀ k < p, ∀ l < p, ∑ i, e k i * e l i = if k = l then 1 else 0 := by
    intro k hk l hl
    rw [← hcard] at hk hl
    have := orthonormal_iff_ite.mp hC.eigenvectorBasis.orthonormal (σ ⟨k, hk⟩) (σ ⟨l, hl⟩)
    simp only [EuclideanSpace.inner_eq_star_dotProduct, dotProduct, Pi.star_apply, star_trivial, EmbeddingLike.apply_eq_iff_eq, Fin.mk.injEq] at this
    simp only [e, dif_pos hk, dif_pos hl]
    rw [← this]
    exact Finset.sum_congr rfl fun i _ => by ring
  have heig : ∀ k < p, ∀ i, ∑ j, (∑ t, M t i * M t j) * e k j = lam0 k * e k i := by
    intro k hk i
    rw [← hcard] at hk
    have := congrFun (hC.mulVec_eigenvectorBasis (σ ⟨k, hk⟩)) i
    rw [hσ] at this
    simp only [Matrix.mulVec, dotProduct, Matrix.mul_apply, Matrix.transpose_apply, Pi.smul_apply, smul_eq_mul] at this
    simp only [e, lam0, dif_pos hk]
    exact this
  let P0 : ℕ → Fin n → ℝ := fun k t => ∑ i, M t i * e k i
  have hPP : ∀ k < p, ∀ l < p, ∑ t, P0 k t * P0 l t = if k = l then lam0 k else 0 := by
    intro k hk l hl
    have : ∑ t, P0 k t * P0 l t = ∑ i, e k i * ∑ j, (∑ t, M t i * M t j) * e l j := by
      have h1 : ∀ t, P0 k t * P0 l t = ∑ i, ∑ j, M t i * e k i * (M t j * e l j) := fun t => Finset.sum_mul_sum _ _ _ _
      simp only [h1]
      rw [Finset.sum_comm]
      refine Finset.sum_congr rfl fun i _ => ?_
      rw [Finset.sum_comm, Finset.mul_sum]
      refine Finset.sum_congr rfl fun j _ => ?_
      rw [Finset.sum_mul, Finset.mul_sum]
      exact Finset.sum_congr rfl fun t _ => by ring
    rw [this]
    simp only [heig l hl]
    have h2 : ∑ i, e k i * (lam0 l * e l i) = lam0 l * ∑ i, e k i * e l i := by
      rw [Finset.mul_sum]
      exact Finset.sum_congr rfl fun i _ => by ring
    rw [h2, horth k hk l hl]
    split_ifs with hkl
    · rw [hkl, mul_one]
    · rw [mul_zero]
  have hrec : ∀ t i, M t i = ∑ k ∈ Finset.range p, P0 k t * e k i := by
    intro t i
    have h1 := hC.eigenvectorBasis.sum_repr (WithLp.toLp 2 (fun j => M t j))
    have h2 : ∑ k : Fin p, (∑ j, M t j * (hC.eigenvectorBasis k).ofLp j) * (hC.eigenvectorBasis k).ofLp i = M t i := by
      have := congrArg (fun u => u.ofLp i) h1
      simp only [WithLp.ofLp_sum, WithLp.ofLp_smul, Finset.sum_apply, Pi.smul_apply, smul_eq_mul] at this
      rw [← this]
      refine Finset.sum_congr rfl fun k _ => ?_
      congr 1
      rw [OrthonormalBasis.repr_apply_apply]
      simp only [EuclideanSpace.inner_eq_star_dotProduct, dotProduct, Pi.star_apply, star_trivial]
    rw [← h2, ← σ.sum_comp, Finset.sum_range]
    refine Fintype.sum_equiv (finCongr hcard) _ _ fun k => ?_
    simp only [P0, e, finCongr_apply, Fin.val_cast, dif_pos k.2, Fin.eta]
  have hlam : ∀ k < p, 0 ≤ lam0 k := by
    intro k hk
    have := hPP k hk k hk
    rw [if_pos rfl] at this
    rw [← this]
    exact Finset.sum_nonneg fun t _ => mul_self_nonneg _
  let pos : List ℕ → Fin p → ℝ := fun s i => if idx[i] = s then 1 else 0
  let E : ℕ → List ℕ → ℝ := fun k s => ∑ i, pos s i * e k i
  have hE : ∀ k (i : Fin p), E k idx[i] = e k i := by
    intro k i
    simp only [E, pos]
    rw [Finset.sum_eq_single i]
    · simp
    · intro j _ hne
      have : idx[j] ≠ idx[i] := fun h => hne (Fin.ext ((indices_nodup sh).getElem_inj_iff.mp h))
      rw [if_neg this, zero_mul]
    · simp
  let P : ℕ → ℕ → ℝ := fun k t => if ht : t < n then P0 k ⟨t, ht⟩ else 0
  refine ⟨p, E, P, fun k => lam0 k / (n - ddof), ⟨le_rfl, ?_, ?_, ?_, ?_, ?_, ?_⟩⟩
  · intro k hk l hl
    rw [gridSum_eq, ← horth k hk l hl]
    exact Finset.sum_congr rfl fun i _ => by rw [← hE k i, ← hE l i]
  · intro k hk t ht
    rw [gridSum_eq]
    simp only [P, dif_pos ht, P0]
    exact Finset.sum_congr rfl fun i _ => by rw [← hE k i]
  · intro k hk l hl
    rw [Finset.sum_range]
    have : ∑ i : Fin n, P k i * P l i = ∑ t, P0 k t * P0 l t :=
      Finset.sum_congr rfl fun t _ => by simp only [P, dif_pos t.2, Fin.eta]
    rw [this, hPP k hk l hl]
    split_ifs
    · field_simp
    · rfl
  · intro k l hkl hl
    have hl' : l < Fintype.card (Fin p) := lt_of_lt_of_eq hl hcard.symm
    have hk' : k < Fintype.card (Fin p) := by omega
    apply div_le_div_of_nonneg_right _ hN.le
    simp only [lam0, dif_pos hl', dif_pos hk']
    exact hC.eigenvalues₀_antitone (Fin.mk_le_mk.mpr hkl)
  · intro k hk
    exact div_nonneg (hlam k hk) hN.le
  · intro t ht s hs
    obtain ⟨i, hi, rfl⟩ := List.getElem_of_mem (Tensor.mem_indices.mpr hs)
    have := hrec ⟨t, ht⟩ ⟨i, hi⟩
    refine Eq.trans this ?_
    refine Finset.sum_congr rfl fun k _ => ?_
    have he := hE k ⟨i, hi⟩
    simp only [P, dif_pos ht]
    rw [← he]
    rfl

end Verif.Lemmas
