import Verif.Props.EofUnits
import Mathlib.Data.Set.Function

/-
Property C215: EOFs do not depend on how samples and grid points are arranged.
-/

set_option linter.unusedSectionVars false

namespace Verif.Spec

/-- `t'` (time along axis `td'`, grid of shape `sh'`) is a rearrangement of `t` (time along axis `td`, grid of shape `sh`): time `u` of `t'` is time `pi u` of
`t`, grid point `g` of `t'` is grid point `phi g` of `t` -/
structure Rearranged (t : Tensor ℝ) (td : ℕ) (sh : List ℕ) (t' : Tensor ℝ) (td' : ℕ) (sh' : List ℕ) (n : ℕ) (pi : ℕ → ℕ) (phi : List ℕ → List ℕ) : Prop where
  times : Set.BijOn pi {u | u < n} {u | u < n}
  points : Set.BijOn phi {g | Tensor.InBounds sh' g} {g | Tensor.InBounds sh g}
  values : ∀ g, Tensor.InBounds sh' g → ∀ u < n, t'.get (g.insertIdx td' u) = t.get ((phi g).insertIdx td (pi u))

end Verif.Spec

namespace Verif.Props
open Model Model.EofFns Spec Lemmas

variable {A A' : Type}

namespace EofOrder

theorem gridSum_finset (sh : List ℕ) (f : List ℕ → ℝ) : gridSum sh f = ∑ s ∈ (Tensor.indices sh).toFinset, f s := by
  rw [List.sum_toFinset f (indices_nodup sh)]
  rfl

theorem gridSum_bij {sh sh' : List ℕ} {phi : List ℕ → List ℕ} (h : Set.BijOn phi {g | Tensor.InBounds sh' g} {g | Tensor.InBounds sh g}) (f : List ℕ → ℝ) :
    gridSum sh' (fun g => f (phi g)) = gridSum sh f := by
  rw [gridSum_finset, gridSum_finset]
  refine Finset.sum_nbij phi (fun g hg => ?_) (fun g hg g' hg' he => ?_) (fun s hs => ?_) (fun _ _ => rfl)
  · exact List.mem_toFinset.mpr (Tensor.mem_indices.mpr (h.mapsTo (Tensor.mem_indices.mp (List.mem_toFinset.mp hg))))
  · exact h.injOn (Tensor.mem_indices.mp (List.mem_toFinset.mp hg)) (Tensor.mem_indices.mp (List.mem_toFinset.mp hg')) he
  · obtain ⟨g, hg, rfl⟩ := h.surjOn (Tensor.mem_indices.mp (List.mem_toFinset.mp hs))
    exact ⟨g, List.mem_toFinset.mpr (Tensor.mem_indices.mpr hg), rfl⟩

theorem timeSum_bij {n : ℕ} {pi : ℕ → ℕ} (h : Set.BijOn pi {u | u < n} {u | u < n}) (f : ℕ → ℝ) :
    ∑ u ∈ Finset.range n, f (pi u) = ∑ u ∈ Finset.range n, f u := by
  refine Finset.sum_nbij pi (fun u hu => ?_) (fun u hu v hv he => ?_) (fun u hu => ?_) (fun _ _ => rfl)
  · exact Finset.mem_range.mpr (h.mapsTo (Finset.mem_range.mp hu))
  · exact h.injOn (Finset.mem_range.mp hu) (Finset.mem_range.mp hv) he
  · obtain ⟨v, hv, rfl⟩ := h.surjOn (Finset.mem_range.mp hu)
    exact ⟨v, Finset.mem_coe.mpr (Finset.mem_range.mpr hv), rfl⟩

/-- the analysis of rearranged fields, with everything put back in place, is an analysis of the fields -/
theorem analysis_rearranged {n : ℕ} {sh sh' : List ℕ} {a : ℕ → List ℕ → ℝ} {ddof : ℤ} {m : ℕ} {E : ℕ → List ℕ → ℝ} {P : ℕ → ℕ → ℝ} {lam : ℕ → ℝ} {pi : ℕ → ℕ}
    {phi : List ℕ → List ℕ} (hp : Set.BijOn pi {u | u < n} {u | u < n}) (hf : Set.BijOn phi {g | Tensor.InBounds sh' g} {g | Tensor.InBounds sh g})
    (h : IsEofAnalysis n sh' (fun u g => a (pi u) (phi g)) ddof m E P lam) :
    IsEofAnalysis n sh a ddof m (fun k s => E k (Function.invFunOn phi {g | Tensor.InBounds sh' g} s))
      (fun k t => P k (Function.invFunOn pi {u | u < n} t)) lam := by
  have hpsi : ∀ g, Tensor.InBounds sh' g → Function.invFunOn phi {g | Tensor.InBounds sh' g} (phi g) = g := fun g hg => hf.injOn.leftInvOn_invFunOn hg
  have hrho : ∀ u < n, Function.invFunOn pi {u | u < n} (pi u) = u := fun u hu => hp.injOn.leftInvOn_invFunOn hu
  refine ⟨?_, fun k hk l hl => ?_, fun k hk t ht => ?_, fun k hk l hl => ?_, h.decreasing, h.nonneg, fun t ht s hs => ?_⟩
  · have hone : ∀ sh : List ℕ, gridSum sh (fun _ => 1) = (Tensor.indices sh).length := fun sh => by simp [gridSum]
    have := gridSum_bij hf (fun _ => 1)
    rw [hone, hone] at this
    have h2 : (Tensor.indices sh').length = (Tensor.indices sh).length := by exact_mod_cast this
    exact h2 ▸ h.modes
  · rw [← h.orthonormal k hk l hl, ← gridSum_bij hf]
    exact gridSum_congr fun g hg => by rw [hpsi g hg]
  · obtain ⟨u, hu, rfl⟩ := hp.surjOn ht
    rw [hrho u hu, h.projection k hk u hu, ← gridSum_bij hf]
    exact gridSum_congr fun g hg => by rw [hpsi g hg]
  · rw [← h.uncorrelated k hk l hl, ← timeSum_bij hp]
    exact Finset.sum_congr rfl fun u hu => by rw [hrho u (Finset.mem_range.mp hu)]
  · obtain ⟨u, hu, rfl⟩ := hp.surjOn ht
    obtain ⟨g, hg, rfl⟩ := hf.surjOn hs
    rw [h.complete u hu g hg]
    exact Finset.sum_congr rfl fun k _ => by rw [hrho u hu, hpsi g hg]

end EofOrder

open EofOrder

/-- **C215**. Rearranged data (times in another order; time along another axis; grid points in another order or on a grid of another shape, with their weights):
the same variances, total variance and fractions of it, and every pattern whose variance differs from its neighbours' is the same up to its sign, rearranged like the
grid points, with the same components up to that sign, rearranged like the times. -/
theorem C215_rearranged {num : List ℝ → A} {mk : Opts ℝ → XArr ℝ A → Except PyErr (Solver ℝ A)} (hmk : EofContract num mk)
    {num' : List ℝ → A'} {mk' : Opts ℝ → XArr ℝ A' → Except PyErr (Solver ℝ A')} (hmk' : EofContract num' mk') (opts opts' : Opts ℝ) (t t' : Tensor ℝ)
    (td td' : ℤ) (h0 : 0 ≤ td) (h0' : 0 ≤ td') (n : ℕ) (hn : t.shape[td.toNat]? = some n) (hn' : t'.shape[td'.toNat]? = some n) (h2 : 2 ≤ t.shape.length)
    (h2' : 2 ≤ t'.shape.length) (hn0 : 0 < n) (hd : opts.ddof < n) (sh sh' : List ℕ) (hsh : sh = t.shape.eraseIdx td.toNat)
    (hsh' : sh' = t'.shape.eraseIdx td'.toNat) (hw : ∀ w, opts.weights = some w → w.shape = sh) (hw' : ∀ w, opts'.weights = some w → w.shape = sh')
    (pi : ℕ → ℕ) (phi : List ℕ → List ℕ) (ht : Rearranged t td.toNat sh t' td'.toNat sh' n pi phi) (hcen : opts'.center = opts.center)
    (hdd : opts'.ddof = opts.ddof) (hwt : ∀ g, Tensor.InBounds sh' g → weightAt opts'.weights g = weightAt opts.weights (phi g))
    (q : ℕ) (hq : 0 < q) (vf : Bool) :
    ∃ e p e' p' c c' ev ev' fr fr' total,
      (eofuncEofs mk (.arr t) q td 0 opts vf false).1 = .ok e ∧ (eofuncPcs mk (.arr t) q td 0 opts false).1 = .ok p ∧
      (eofuncEofs mk' (.arr t') q td' 0 opts' vf false).1 = .ok e' ∧ (eofuncPcs mk' (.arr t') q td' 0 opts' false).1 = .ok p' ∧
      e.data.shape = c :: sh ∧ p.data.shape = [c, n] ∧ e'.data.shape = c' :: sh' ∧ p'.data.shape = [c', n] ∧ ev.length = c ∧ ev'.length = c' ∧
      ("eigenvalues", num ev) ∈ e.attrs ∧ ("eigenvalues", num' ev') ∈ e'.attrs ∧ (∀ k, ev'.getD k 0 = ev.getD k 0) ∧
      ("totalAnomalyVariance", num [total]) ∈ e.attrs ∧ ("totalAnomalyVariance", num' [total]) ∈ e'.attrs ∧
      ("varianceFraction", num fr) ∈ e.attrs ∧ ("varianceFraction", num' fr') ∈ e'.attrs ∧ (∀ k, fr'.getD k 0 = fr.getD k 0) ∧
      ∀ k, k + 1 < q → ev.getD (k + 1) 0 < ev.getD k 0 → (∀ j < k, ev.getD k 0 < ev.getD j 0) →
        k < c ∧ k < c' ∧ ∃ σ : ℝ, (σ = 1 ∨ σ = -1) ∧ (∀ g, Tensor.InBounds sh' g → e'.data.get (k :: g) = σ * e.data.get (k :: phi g)) ∧
          ∀ u < n, p'.data.get [k, u] = σ * p.data.get [k, pi u] := by
  subst hsh hsh'
  have hqz : (0 : ℤ) < (q : ℤ) := by exact_mod_cast hq
  obtain ⟨m, E, P, lam, hA, hc⟩ := C150_analysis hmk opts t td h0 n hn h2 hn0 hd hw
  obtain ⟨m', E', P', lam', hA', hc'⟩ := C150_analysis hmk' opts' t' td' h0' n hn' h2' hn0 (hdd ▸ hd) hw'
  obtain ⟨⟨e, e1, e2, e3, e4, e5, e6⟩, p, p1, p2, p3⟩ := hc q hqz 0 (by simp) vf
  obtain ⟨⟨e', f1, f2, f3, f4, f5, f6⟩, p', g1, g2, g3⟩ := hc' q hqz 0 (by simp) vf
  rw [Int.toNat_natCast] at e2 e3 e4 e6 p2 p3 f2 f3 f4 f6 g2 g3
  have hs0 : ∀ v : ℝ, scaling 0 v = 1 := fun v => by simp [scaling]
  rw [hdd] at hA'
  have hB := analysis_rearranged ht.times ht.points (analysis_congr hA' (b := fun u g => seriesOf t td.toNat opts n (pi u) (phi g)) fun u hu g hg => by
    unfold seriesOf anomaly
    beta_reduce
    rw [hwt g hg, hcen, ht.values g hg u hu, Finset.sum_congr rfl fun v hv => ht.values g hg v (Finset.mem_range.mp hv),
      timeSum_bij ht.times (fun v => t.get ((phi g).insertIdx td.toNat v))])
  have hvar : ∀ k, (if k < m' then lam' k else 0) = if k < m then lam k else 0 := fun k => (eof_variances hA hB hd k).symm
  have hN : (n - opts.ddof : ℝ) ≠ 0 := (eof_dof hd).ne'
  have htot : ∑ j ∈ Finset.range m', lam' j = ∑ j ∈ Finset.range m, lam j := by
    have e1 := eof_total hA
    rw [eof_total hB] at e1
    exact mul_left_cancel₀ hN e1
  rw [htot] at f5
  refine ⟨e, p, e', p', min q m, min q m', (List.range (min q m)).map lam, (List.range (min q m')).map lam', _, _, _, e1, p1, f1, g1, e2, p2, f2, g2, by simp, by simp, e4, f4, ?_,
    e5, f5, e6, f6, ?_, ?_⟩
  · intro k
    rw [range_getD, range_getD, hvar]
  · intro k
    rw [range_getD, range_getD, htot]
    have := congrArg (· / ∑ j ∈ Finset.range m, lam j) (hvar k)
    simp only [ite_div, zero_div] at this
    rw [this]
  · intro k hkq hlt hgt
    simp only [range_getD, if_pos hkq, if_pos (show k < q by omega)] at hlt
    have hkm : k < m := by
      by_contra hcon
      rw [if_neg hcon, if_neg (by omega)] at hlt
      exact lt_irrefl _ hlt
    rw [if_pos hkm] at hlt
    have hnext : ∀ j < m, k < j → lam j < lam k := by
      intro j hj hkj
      rw [if_pos (by omega)] at hlt
      exact lt_of_le_of_lt (hA.decreasing (k + 1) j hkj hj) hlt
    have hpos : 0 < lam k := by
      refine lt_of_le_of_lt ?_ hlt
      split_ifs with h
      · exact hA.nonneg _ h
      · exact le_rfl
    have hprev : ∀ j < k, lam k < lam j := by
      intro j hj
      have := hgt j hj
      rw [range_getD, range_getD, if_pos (by omega), if_pos hkm, if_pos (by omega), if_pos (by omega)] at this
      exact this
    obtain ⟨hk', σ, h1, h3, h4⟩ := eof_pattern hA hB hd k hkm hpos fun j hj hne => by
      rcases Nat.lt_or_gt_of_ne hne with h | h
      · exact (hprev j h).ne'
      · exact (hnext j hj h).ne
    have hkc : k < min q m := by omega
    have hkc' : k < min q m' := by omega
    refine ⟨hkc, hkc', σ, h1, fun g hg => ?_, fun u hu => ?_⟩
    · have hb := ht.points.mapsTo hg
      have := h3 (phi g) hb
      rw [ht.points.injOn.leftInvOn_invFunOn hg] at this
      rw [e3 k hkc _ hb, f3 k hkc' g hg, this, hs0, hs0]
      ring
    · have hb := ht.times.mapsTo hu
      have := h4 (pi u) hb
      rw [ht.times.injOn.leftInvOn_invFunOn hu] at this
      rw [p3 k hkc _ hb, g3 k hkc' u hu, this, hs0, hs0]
      ring

/-- the transposed array with time along the other axis: grid points along the last axis instead of the first -/
example (t : Tensor ℝ) : Rearranged t 1 [2] ⟨[3, 2], fun i => t.get [i.getD 1 0, i.getD 0 0]⟩ 0 [2] 3 id id where
  times := Set.bijOn_id _
  points := Set.bijOn_id _
  values := fun g hg u hu => by
    obtain ⟨a, as, ha, has, rfl⟩ := List.forall₂_cons_right_iff.mp hg
    rw [List.forall₂_nil_right_iff] at has
    subst has
    rfl

/-- the times in reverse order -/
example (t : Tensor ℝ) : Rearranged t 0 [2] ⟨[3, 2], fun i => t.get [2 - i.getD 0 0, i.getD 1 0]⟩ 0 [2] 3 (fun u => 2 - u) id where
  times := by
    refine ⟨fun u hu => ?_, fun u hu v hv h => ?_, fun u hu => ⟨2 - u, ?_, ?_⟩⟩ <;> simp only [Set.mem_ofPred_eq] at * <;> omega
  points := Set.bijOn_id _
  values := fun g hg u hu => by
    obtain ⟨a, as, ha, has, rfl⟩ := List.forall₂_cons_right_iff.mp hg
    rw [List.forall₂_nil_right_iff] at has
    subst has
    rfl

end Verif.Props
