import Verif.Props.EofModes
import Verif.Lemmas.EofUnique

/-
Property C214: EOFs of data in other units, and how far EOFs are determined by the data.
-/

set_option linter.unusedSectionVars false
namespace Verif.Props
open Model Model.EofFns Spec Lemmas

variable {A A' : Type}

theorem analysis_scale {n : ℕ} {sh : List ℕ} {a : ℕ → List ℕ → ℝ} {ddof : ℤ} {m : ℕ} {E : ℕ → List ℕ → ℝ} {P : ℕ → ℕ → ℝ} {lam : ℕ → ℝ} {r : ℝ} (hr : r ≠ 0)
    (h : IsEofAnalysis n sh (fun t s => r * a t s) ddof m E P lam) : IsEofAnalysis n sh a ddof m E (fun k t => P k t / r) (fun k => lam k / r ^ 2) where
  modes := h.modes
  orthonormal := h.orthonormal
  projection := fun k hk t ht => by
    rw [h.projection k hk t ht, div_eq_iff hr, mul_comm, ← gridSum_mul]
    exact gridSum_congr fun s _ => by ring
  uncorrelated := fun k hk l hl => by
    have := h.uncorrelated k hk l hl
    have e : ∑ t ∈ Finset.range n, P k t / r * (P l t / r) = (∑ t ∈ Finset.range n, P k t * P l t) / r ^ 2 := by
      rw [Finset.sum_div]
      exact Finset.sum_congr rfl fun t _ => by field_simp
    rw [e, this]
    split_ifs
    · ring
    · simp
  decreasing := fun k l hkl hl => div_le_div_of_nonneg_right (h.decreasing k l hkl hl) (sq_nonneg r)
  nonneg := fun k hk => div_nonneg (h.nonneg k hk) (sq_nonneg r)
  complete := fun t ht s hs => by
    have := h.complete t ht s hs
    rw [← mul_right_inj' hr, this, Finset.mul_sum]
    exact Finset.sum_congr rfl fun k _ => by field_simp

theorem series_scale (t t' : Tensor ℝ) (k : ℕ) (opts : Opts ℝ) (n : ℕ) (hn : 0 < n) (r : ℝ) (b : List ℕ → ℝ) (hb : opts.center = true ∨ ∀ g, b g = 0)
    (g : List ℕ) (h : ∀ u < n, t'.get (g.insertIdx k u) = r * t.get (g.insertIdx k u) + b g) (u : ℕ) (hu : u < n) :
    seriesOf t' k opts n u g = r * seriesOf t k opts n u g := by
  unfold seriesOf anomaly
  beta_reduce
  rw [Finset.sum_congr rfl fun v hv => h v (Finset.mem_range.mp hv), h u hu, Finset.sum_add_distrib, ← Finset.mul_sum]
  have hn' : (n : ℝ) ≠ 0 := by exact_mod_cast hn.ne'
  rcases hb with hc | hb
  · rw [hc]
    simp only [if_true, Finset.sum_const, Finset.card_range, nsmul_eq_mul]
    field_simp
    ring
  · rw [hb g]
    simp only [Finset.sum_const_zero, add_zero]
    split_ifs <;> ring

/-- numbers of a list, zero beyond its end -/
theorem range_getD (q m : ℕ) (lam : ℕ → ℝ) (k : ℕ) : ((List.range (min q m)).map lam).getD k 0 = if k < q then (if k < m then lam k else 0) else 0 := by
  rw [List.getD_eq_getElem?_getD, List.getElem?_map]
  by_cases h : k < min q m
  · rw [List.getElem?_range h, if_pos (by omega), if_pos (by omega)]
    rfl
  · rw [List.getElem?_eq_none (by rw [List.length_range]; omega)]
    split_ifs
    · omega
    · rfl
    · rfl

/-- **C214**. Data in other units (multiplied by `r`, and if the time mean is removed also with any field `b` added that does not change in time), possibly analysed
by another implementation of the solver: the stored variances are multiplied by `r²`, their fractions of the total variance are the same, and every pattern whose variance
differs from its neighbours' is the same up to its sign, with components multiplied by `r` and the same sign. -/
theorem C214_units {num : List ℝ → A} {mk : Opts ℝ → XArr ℝ A → Except PyErr (Solver ℝ A)} (hmk : EofContract num mk)
    {num' : List ℝ → A'} {mk' : Opts ℝ → XArr ℝ A' → Except PyErr (Solver ℝ A')} (hmk' : EofContract num' mk') (opts : Opts ℝ) (t t' : Tensor ℝ)
    (hsame : t'.shape = t.shape) (td : ℤ) (h0 : 0 ≤ td) (n : ℕ) (hn : t.shape[td.toNat]? = some n) (h2 : 2 ≤ t.shape.length) (hn0 : 0 < n)
    (hd : opts.ddof < n) (sh : List ℕ) (hsh : sh = t.shape.eraseIdx td.toNat) (hw : ∀ w, opts.weights = some w → w.shape = sh) (r : ℝ) (hr : r ≠ 0)
    (b : List ℕ → ℝ) (hb : opts.center = true ∨ ∀ g, b g = 0)
    (ht : ∀ g, Tensor.InBounds sh g → ∀ u < n, t'.get (g.insertIdx td.toNat u) = r * t.get (g.insertIdx td.toNat u) + b g)
    (q : ℕ) (hq : 0 < q) (vf : Bool) :
    ∃ e p e' p' c c' ev ev' fr fr' total total',
      (eofuncEofs mk (.arr t) q td 0 opts vf false).1 = .ok e ∧ (eofuncPcs mk (.arr t) q td 0 opts false).1 = .ok p ∧
      (eofuncEofs mk' (.arr t') q td 0 opts vf false).1 = .ok e' ∧ (eofuncPcs mk' (.arr t') q td 0 opts false).1 = .ok p' ∧
      e.data.shape = c :: sh ∧ p.data.shape = [c, n] ∧ e'.data.shape = c' :: sh ∧ p'.data.shape = [c', n] ∧ ev.length = c ∧ ev'.length = c' ∧
      ("eigenvalues", num ev) ∈ e.attrs ∧ ("eigenvalues", num' ev') ∈ e'.attrs ∧ (∀ k, ev'.getD k 0 = r ^ 2 * ev.getD k 0) ∧
      ("totalAnomalyVariance", num [total]) ∈ e.attrs ∧ ("totalAnomalyVariance", num' [total']) ∈ e'.attrs ∧ total' = r ^ 2 * total ∧
      ("varianceFraction", num fr) ∈ e.attrs ∧ ("varianceFraction", num' fr') ∈ e'.attrs ∧ (∀ k, fr'.getD k 0 = fr.getD k 0) ∧
      ∀ k, k + 1 < q → ev.getD (k + 1) 0 < ev.getD k 0 → (∀ j < k, ev.getD k 0 < ev.getD j 0) →
        k < c ∧ k < c' ∧ ∃ σ : ℝ, (σ = 1 ∨ σ = -1) ∧ (∀ g, Tensor.InBounds sh g → e'.data.get (k :: g) = σ * e.data.get (k :: g)) ∧
          ∀ u < n, p'.data.get [k, u] = σ * (r * p.data.get [k, u]) := by
  subst hsh
  have hqz : (0 : ℤ) < (q : ℤ) := by exact_mod_cast hq
  obtain ⟨m, E, P, lam, hA, hc⟩ := C150_analysis hmk opts t td h0 n hn h2 hn0 hd hw
  obtain ⟨m', E', P', lam', hA', hc'⟩ := C150_analysis hmk' opts t' td h0 n (by rw [hsame]; exact hn) (by rw [hsame]; exact h2) hn0 hd (by rw [hsame]; exact hw)
  obtain ⟨⟨e, e1, e2, e3, e4, e5, e6⟩, p, p1, p2, p3⟩ := hc q hqz 0 (by simp) vf
  obtain ⟨⟨e', f1, f2, f3, f4, f5, f6⟩, p', g1, g2, g3⟩ := hc' q hqz 0 (by simp) vf
  rw [hsame] at f2 f3 hA'
  rw [Int.toNat_natCast] at e2 e3 e4 e6 p2 p3 f2 f3 f4 f6 g2 g3
  have hs0 : ∀ v : ℝ, scaling 0 v = 1 := fun v => by simp [scaling]
  have hB := analysis_scale hr (analysis_congr hA' (b := fun u g => r * seriesOf t td.toNat opts n u g)
    fun u hu g hg => series_scale t t' td.toNat opts n hn0 r b hb g (ht g hg) u hu)
  have hr2 : r ^ 2 ≠ 0 := pow_ne_zero 2 hr
  have hvar : ∀ k, (if k < m' then lam' k else 0) = r ^ 2 * if k < m then lam k else 0 := by
    intro k
    rw [eof_variances hA hB hd k]
    split_ifs
    · field_simp
    · ring
  have hN : (n - opts.ddof : ℝ) ≠ 0 := (eof_dof hd).ne'
  have htot : ∑ j ∈ Finset.range m', lam' j = r ^ 2 * ∑ j ∈ Finset.range m, lam j := by
    have e1 := eof_total hA
    rw [eof_total hB] at e1
    have e2 := mul_left_cancel₀ hN e1
    rw [← e2, ← Finset.sum_div]
    field_simp
  have hev : ∀ k, ((List.range (min q m')).map lam').getD k 0 = r ^ 2 * ((List.range (min q m)).map lam).getD k 0 := by
    intro k
    rw [range_getD, range_getD, hvar]
    split_ifs <;> ring
  refine ⟨e, p, e', p', min q m, min q m', (List.range (min q m)).map lam, (List.range (min q m')).map lam', _, _, _, _, e1, p1, f1, g1, e2, p2, f2, g2, by simp, by simp, e4, f4, hev,
    e5, f5, htot, e6, f6, ?_, ?_⟩
  · intro k
    rw [range_getD, range_getD, htot]
    have := hvar k
    by_cases a1 : k < q
    · rw [if_pos a1, if_pos a1]
      by_cases a2 : k < m
      · rw [if_pos a2] at this ⊢
        by_cases a3 : k < m'
        · rw [if_pos a3] at this ⊢
          rw [this, mul_div_mul_left _ _ hr2]
        · rw [if_neg a3] at this ⊢
          rcases mul_eq_zero.mp this.symm with h | h
          · exact absurd h hr2
          · rw [h, zero_div]
      · rw [if_neg a2] at this ⊢
        by_cases a3 : k < m'
        · rw [if_pos a3] at this ⊢
          rw [this, mul_zero, zero_div]
        · rw [if_neg a3]
    · rw [if_neg a1, if_neg a1]
  · intro k hkq hlt hgt
    simp only [range_getD, if_pos hkq, if_pos (show k < q by omega)] at hlt
    have hkm : k < m := by
      by_contra hcon
      rw [if_neg hcon, if_neg (by omega)] at hlt
      exact lt_irrefl _ hlt
    rw [if_pos hkm] at hlt
    have hnext : ∀ j < m, k < j → lam j < lam k := by
      intro j hj hkj
      rw [if_pos (by omega)] at hlt
      exact lt_of_le_of_lt (hA.decreasing (k + 1) j hkj hj) hlt
    have hpos : 0 < lam k := by
      refine lt_of_le_of_lt ?_ hlt
      split_ifs with h
      · exact hA.nonneg _ h
      · exact le_rfl
    have hprev : ∀ j < k, lam k < lam j := by
      intro j hj
      have := hgt j hj
      rw [range_getD, range_getD, if_pos (by omega), if_pos hkm, if_pos (by omega), if_pos (by omega)] at this
      exact this
    obtain ⟨hk', σ, h1, h3, h4⟩ := eof_pattern hA hB hd k hkm hpos fun j hj hne => by
      rcases Nat.lt_or_gt_of_ne hne with h | h
      · exact (hprev j h).ne'
      · exact (hnext j hj h).ne
    have hkc : k < min q m := by omega
    have hkc' : k < min q m' := by omega
    refine ⟨hkc, hkc', σ, h1, fun g hg => ?_, fun u hu => ?_⟩
    · rw [e3 k hkc g hg, f3 k hkc' g hg, h3 g hg, hs0, hs0]
      ring
    · have := h4 u hu
      rw [div_eq_iff hr] at this
      rw [p3 k hkc u hu, g3 k hkc' u hu, this, hs0, hs0]
      ring

/-- temperatures at three times and two grid points in degrees Celsius and Fahrenheit: the first pattern is the same if its variance is larger than the second's -/
example (mk : Opts ℝ → XArr ℝ (List ℝ) → Except PyErr (Solver ℝ (List ℝ))) (hmk : EofContract id mk) (t : Tensor ℝ) (ht : t.shape = [2, 3]) :
    ∃ e e' ev ev', (eofuncEofs mk (.arr t) 2 1 0 ⟨none, true, 1⟩ false false).1 = .ok e ∧
      (eofuncEofs mk (.arr ⟨t.shape, fun i => 9 / 5 * t.get i + 32⟩) 2 1 0 ⟨none, true, 1⟩ false false).1 = .ok e' ∧
      ("eigenvalues", ev) ∈ e.attrs ∧ ("eigenvalues", ev') ∈ e'.attrs ∧ (∀ k, ev'.getD k 0 = (9 / 5) ^ 2 * ev.getD k 0) ∧
      (ev.getD 1 0 < ev.getD 0 0 → ∃ σ : ℝ, (σ = 1 ∨ σ = -1) ∧ ∀ g, Tensor.InBounds [2] g → e'.data.get (0 :: g) = σ * e.data.get (0 :: g)) := by
  obtain ⟨e, p, e', p', c, c', ev, ev', fr, fr', total, total', h1, -, h3, -, -, -, -, -, -, -, h5, h6, h7, -, -, -, -, -, -, h8⟩ :=
    C214_units hmk hmk ⟨none, true, 1⟩ t ⟨t.shape, fun i => 9 / 5 * t.get i + 32⟩ rfl 1 (by norm_num) 3 (by rw [ht]; rfl) (by rw [ht]; simp) (by norm_num)
      (by norm_num) [2] (by rw [ht]; rfl) (fun w h => by cases h) (9 / 5) (by norm_num) (fun _ => 32) (Or.inl rfl) (fun g _ u _ => rfl) 2 (by norm_num) false
  refine ⟨e, e', ev, ev', h1, h3, h5, h6, h7, fun hlt => ?_⟩
  obtain ⟨-, -, σ, hσ, hE, -⟩ := h8 0 (by norm_num) hlt (fun j hj => absurd hj (by omega))
  exact ⟨σ, hσ, hE⟩

end Verif.Props
