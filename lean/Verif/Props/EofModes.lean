import Verif.Lemmas.EofLib
import Verif.Props.Eof2

/-
C150: what the numbers returned by eofunc_eofs and eofunc_pcs mean, given that the solver of the `eofs` package does what its documentation says (`EofContract`).
-/

set_option linter.unusedSectionVars false
namespace Verif.Props
open Spec Lemmas Model.EofFns

variable {A : Type}

/-- the series analysed when the axis number `k` of the array `t` is time -/
noncomputable def seriesOf (t : Tensor ℝ) (k : ℕ) (opts : Opts ℝ) (n : ℕ) : ℕ → List ℕ → ℝ :=
  anomaly opts.center opts.weights n (fun u s => t.get (s.insertIdx k u))

theorem analysis_congr {n : ℕ} {sh : List ℕ} {a b : ℕ → List ℕ → ℝ} {ddof : ℤ} {m : ℕ} {E : ℕ → List ℕ → ℝ} {P : ℕ → ℕ → ℝ} {lam : ℕ → ℝ}
    (h : IsEofAnalysis n sh a ddof m E P lam) (hab : ∀ t < n, ∀ s, Tensor.InBounds sh s → a t s = b t s) : IsEofAnalysis n sh b ddof m E P lam :=
  ⟨h.modes, h.orthonormal, fun k hk t ht => by
    rw [h.projection k hk t ht]
    exact gridSum_congr fun s hs => by rw [hab t ht s hs], h.uncorrelated, h.decreasing, h.nonneg,
    fun t ht s hs => by rw [← hab t ht s hs]; exact h.complete t ht s hs⟩

/-- C150 for a DataArray whose first dimension is time: one EOF analysis of its series is behind all calls. -/
theorem C150_dataarray {num : List ℝ → A} {mk : Opts ℝ → XArr ℝ A → Except PyErr (Solver ℝ A)} (hmk : EofContract num mk) (opts : Opts ℝ) (x : XArr ℝ A)
    (n : ℕ) (sh : List ℕ) (hx : x.data.shape = n :: sh) (hsh : sh ≠ []) (hd : opts.ddof < n) (hn : 0 < n) (ht : x.dims.head? = some "time")
    (hw : ∀ w, opts.weights = some w → w.shape = sh) (td : ℤ) (h0 : 0 ≤ td) (h1 : td < x.data.shape.length) :
    ∃ m E P lam, IsEofAnalysis n sh (anomaly opts.center opts.weights n (fun t g => x.data.get (t :: g))) opts.ddof m E P lam ∧
      ∀ q : ℤ, 0 < q → ∀ sc ∈ ([0, 1, 2] : List ℤ), ∀ vf,
        (∃ e, (eofuncEofs mk (.xr x) q td sc opts vf false).1 = .ok e ∧ e.data.shape = min q.toNat m :: sh ∧
          (∀ k < min q.toNat m, ∀ g, Tensor.InBounds sh g → e.data.get (k :: g) = scaling sc (lam k) * E k g) ∧
          ("eigenvalues", num ((List.range (min q.toNat m)).map lam)) ∈ e.attrs ∧
          ("totalAnomalyVariance", num [∑ j ∈ Finset.range m, lam j]) ∈ e.attrs ∧
          ("varianceFraction", num ((List.range (min q.toNat m)).map (fun k => lam k / ∑ j ∈ Finset.range m, lam j))) ∈ e.attrs) ∧
        ∃ p, (eofuncPcs mk (.xr x) q td sc opts false).1 = .ok p ∧ p.data.shape = [min q.toNat m, n] ∧
          ∀ k < min q.toNat m, ∀ t < n, p.data.get [k, t] = scaling sc (lam k) * P k t := by
  obtain ⟨s, m, E, P, lam, hs, hA, hv, he, htot⟩ := hmk opts x n sh hx hsh hd hn ht hw
  refine ⟨m, E, P, lam, hA, fun q hq sc hsc vf => ⟨?_, ?_⟩⟩
  · obtain ⟨e, p, v1, v2, v3, v4, v5⟩ := hv q hq sc hsc
    obtain ⟨out, hout⟩ := (C97_eofs_returns mk x q td sc opts vf h0 h1).mpr ⟨hq, s, e, hs, v1, by rw [v3, hx]; rfl⟩
    obtain ⟨-, s', e', w1, w2, w3, -, w4, -, w5, w6⟩ := C97_eofs_values mk x q td sc opts vf false out hout
    rw [hs] at w1
    injection w1 with w1
    subst w1
    rw [v1] at w2
    injection w2 with w2
    subst w2
    refine ⟨out, hout, by rw [w3, v3], fun k hk g hg => by rw [w3]; exact (v5 k hk).1 g hg, ?_, ?_, ?_⟩
    · rw [← (he q hq).1]; exact w4
    · rw [← htot]; exact w5
    · rw [← (he q hq).2]; exact w6
  · obtain ⟨e, p, v1, v2, v3, v4, v5⟩ := hv q hq sc hsc
    have hout : (eofuncPcs mk (.xr x) q td sc opts false).1 = .ok ⟨["pc", "time"], transpose2 p, [], []⟩ := by
      unfold eofuncPcs generateSolver
      simp only [generateData, bind, Except.bind, pure, Except.pure, throw, throwThe, MonadExceptOf.throw, hs]
      rw [if_neg (by omega)]
      simp only [v2, Bool.false_eq_true, if_false, mkDataArray]
      rw [if_neg (by simp [transpose2, v4]), if_neg (by simp)]
    refine ⟨_, hout, by simp [transpose2, v4], fun k hk t ht => ?_⟩
    show p.get [t, k] = _
    exact (v5 k hk).2 t ht

/-- C150. For an array without missing values, of which axis `td` (counted from the front) has `n` entries and is time: there is one EOF analysis of the series at
the grid points (centred and weighted as asked for) such that every call of eofunc_eofs returns its first patterns with the variances as attributes, and every call of
eofunc_pcs its first time series, each scaled as asked for. -/
theorem C150_analysis {num : List ℝ → A} {mk : Opts ℝ → XArr ℝ A → Except PyErr (Solver ℝ A)} (hmk : EofContract num mk) (opts : Opts ℝ) (t : Tensor ℝ)
    (td : ℤ) (h0 : 0 ≤ td) (n : ℕ) (hn : t.shape[td.toNat]? = some n) (h2 : 2 ≤ t.shape.length) (hn0 : 0 < n) (hd : opts.ddof < n)
    (hw : ∀ w, opts.weights = some w → w.shape = t.shape.eraseIdx td.toNat) :
    ∃ m E P lam, IsEofAnalysis n (t.shape.eraseIdx td.toNat) (seriesOf t td.toNat opts n) opts.ddof m E P lam ∧
      ∀ q : ℤ, 0 < q → ∀ sc ∈ ([0, 1, 2] : List ℤ), ∀ vf,
        (∃ e, (eofuncEofs mk (.arr t) q td sc opts vf false).1 = .ok e ∧ e.data.shape = min q.toNat m :: t.shape.eraseIdx td.toNat ∧
          (∀ k < min q.toNat m, ∀ g, Tensor.InBounds (t.shape.eraseIdx td.toNat) g → e.data.get (k :: g) = scaling sc (lam k) * E k g) ∧
          ("eigenvalues", num ((List.range (min q.toNat m)).map lam)) ∈ e.attrs ∧
          ("totalAnomalyVariance", num [∑ j ∈ Finset.range m, lam j]) ∈ e.attrs ∧
          ("varianceFraction", num ((List.range (min q.toNat m)).map (fun k => lam k / ∑ j ∈ Finset.range m, lam j))) ∈ e.attrs) ∧
        ∃ p, (eofuncPcs mk (.arr t) q td sc opts false).1 = .ok p ∧ p.data.shape = [min q.toNat m, n] ∧
          ∀ k < min q.toNat m, ∀ u < n, p.data.get [k, u] = scaling sc (lam k) * P k u := by
  have hlt : td.toNat < t.shape.length := by
    by_contra hge
    rw [List.getElem?_eq_none (by omega)] at hn
    cases hn
  obtain ⟨x, hx, hdim, -, -, -, -, hE, hP⟩ := C66_axis_partial (A := A) t td h0 (by omega)
  obtain ⟨n', hn', hshape⟩ := hx.shape
  rw [hn] at hn'
  injection hn' with hn'
  subst hn'
  have hlen : (t.shape.eraseIdx td.toNat).length = t.shape.length - 1 := by rw [List.length_eraseIdx, if_pos hlt]
  obtain ⟨m, E, P, lam, hA, hc⟩ := C150_dataarray hmk opts x n _ hshape (by intro h; rw [h] at hlen; simp at hlen; omega) hd hn0 hdim hw td h0
    (by rw [hshape, List.length_cons, hlen]; omega)
  refine ⟨m, E, P, lam, analysis_congr hA ?_, fun q hq sc hsc vf => ?_⟩
  · intro u hu s hs
    have hg : ∀ v < n, x.data.get (v :: s) = t.get (s.insertIdx td.toNat v) := fun v hv => hx.get v s (by rw [hshape]; exact List.Forall₂.cons hv hs)
    unfold seriesOf anomaly
    beta_reduce
    rw [hg u hu, Finset.sum_congr rfl fun v hv => hg v (Finset.mem_range.mp hv)]
  · rw [hE, hP]
    exact hc q hq sc hsc vf

/-- C150, what two separate unscaled calls say about the data: the patterns are orthonormal; the value of component `k` at time `u` is the projection of the field
at that time on pattern `k`; different components are uncorrelated and the sum of squares of component `k` is `n - ddof` times the eigenvalue stored with the patterns;
the eigenvalues are non-negative and do not increase. What the `q` first modes leave unexplained of the sum of squares is `n - ddof` times the difference of the
stored total variance and the stored eigenvalues; with as many modes as there are grid points nothing is left: the modes add up to the series. -/
theorem C150_two_calls {num : List ℝ → A} {mk : Opts ℝ → XArr ℝ A → Except PyErr (Solver ℝ A)} (hmk : EofContract num mk) (opts : Opts ℝ) (t : Tensor ℝ)
    (td : ℤ) (h0 : 0 ≤ td) (n : ℕ) (hn : t.shape[td.toNat]? = some n) (h2 : 2 ≤ t.shape.length) (hn0 : 0 < n) (hd : opts.ddof < n)
    (sh : List ℕ) (hsh : sh = t.shape.eraseIdx td.toNat) (hw : ∀ w, opts.weights = some w → w.shape = sh) (q : ℤ) (hq : 0 < q) (vf : Bool) :
    ∃ e p c ev total, (eofuncEofs mk (.arr t) q td 0 opts vf false).1 = .ok e ∧ (eofuncPcs mk (.arr t) q td 0 opts false).1 = .ok p ∧
      e.data.shape = c :: sh ∧ p.data.shape = [c, n] ∧ ("eigenvalues", num ev) ∈ e.attrs ∧ ("totalAnomalyVariance", num [total]) ∈ e.attrs ∧
      ("varianceFraction", num (ev.map (· / total))) ∈ e.attrs ∧ ev.length = c ∧ ev.Pairwise (· ≥ ·) ∧ (∀ v ∈ ev, 0 ≤ v) ∧
      (∀ k < c, ∀ l < c, gridSum sh (fun g => e.data.get (k :: g) * e.data.get (l :: g)) = if k = l then 1 else 0) ∧
      (∀ k < c, ∀ u < n, p.data.get [k, u] = gridSum sh (fun g => seriesOf t td.toNat opts n u g * e.data.get (k :: g))) ∧
      (∀ k < c, ∀ l < c, ∑ u ∈ Finset.range n, p.data.get [k, u] * p.data.get [l, u] = if k = l then (n - opts.ddof) * ev.getD k 0 else 0) ∧
      ∑ u ∈ Finset.range n, gridSum sh (fun g => seriesOf t td.toNat opts n u g ^ 2) = (n - opts.ddof) * total ∧
      ∑ u ∈ Finset.range n, gridSum sh (fun g =>
        (seriesOf t td.toNat opts n u g - ∑ k ∈ Finset.range c, p.data.get [k, u] * e.data.get (k :: g)) ^ 2) = (n - opts.ddof) * (total - ev.sum) ∧
      ((Tensor.indices sh).length ≤ q.toNat → ∀ u < n, ∀ g, Tensor.InBounds sh g →
        seriesOf t td.toNat opts n u g = ∑ k ∈ Finset.range c, p.data.get [k, u] * e.data.get (k :: g)) := by
  subst hsh
  obtain ⟨m, E, P, lam, hA, hc⟩ := C150_analysis hmk opts t td h0 n hn h2 hn0 hd hw
  obtain ⟨⟨e, e1, e2, e3, e4, e5, e6⟩, p, p1, p2, p3⟩ := hc q hq 0 (by simp) vf
  set c := min q.toNat m with hcdef
  have hcm : c ≤ m := Nat.min_le_right _ _
  have hs0 : ∀ v : ℝ, scaling 0 v = 1 := fun v => by simp [scaling]
  have hE : ∀ k < c, ∀ g, Tensor.InBounds (t.shape.eraseIdx td.toNat) g → e.data.get (k :: g) = E k g := fun k hk g hg => by
    rw [e3 k hk g hg, hs0, one_mul]
  have hP : ∀ k < c, ∀ u < n, p.data.get [k, u] = P k u := fun k hk u hu => by rw [p3 k hk u hu, hs0, one_mul]
  have hsum : ((List.range c).map lam).sum = ∑ k ∈ Finset.range c, lam k := rfl
  refine ⟨e, p, c, (List.range c).map lam, ∑ j ∈ Finset.range m, lam j, e1, p1, e2, p2, e4, e5, ?_, by simp, ?_, ?_, ?_, ?_, ?_, eof_total hA, ?_, ?_⟩
  · rw [List.map_map]
    exact e6
  · rw [List.pairwise_map]
    refine (List.pairwise_lt_range (n := c)).imp_of_mem fun {a b} _ hb hab => ?_
    exact hA.decreasing a b hab.le ((List.mem_range.mp hb).trans_le hcm)
  · intro v hv
    obtain ⟨k, hk, rfl⟩ := List.mem_map.mp hv
    exact hA.nonneg k ((List.mem_range.mp hk).trans_le hcm)
  · intro k hk l hl
    rw [← hA.orthonormal k (hk.trans_le hcm) l (hl.trans_le hcm)]
    exact gridSum_congr fun g hg => by rw [hE k hk g hg, hE l hl g hg]
  · intro k hk u hu
    rw [hP k hk u hu, hA.projection k (hk.trans_le hcm) u hu]
    exact gridSum_congr fun g hg => by rw [hE k hk g hg]
  · intro k hk l hl
    have : ((List.range c).map lam).getD k 0 = lam k := by
      rw [List.getD_eq_getElem?_getD, List.getElem?_map, List.getElem?_range hk]
      rfl
    rw [this, ← hA.uncorrelated k (hk.trans_le hcm) l (hl.trans_le hcm)]
    exact Finset.sum_congr rfl fun u hu => by rw [hP k hk u (Finset.mem_range.mp hu), hP l hl u (Finset.mem_range.mp hu)]
  · rw [hsum, ← eof_residual hA c hcm]
    refine Finset.sum_congr rfl fun u hu => gridSum_congr fun g hg => ?_
    congr 2
    exact Finset.sum_congr rfl fun k hk => by
      rw [hP k (Finset.mem_range.mp hk) u (Finset.mem_range.mp hu), hE k (Finset.mem_range.mp hk) g hg]
  · intro hle u hu g hg
    have hc' : c = m := by
      have := hA.modes
      omega
    rw [hA.complete u hu g hg, ← hc']
    exact Finset.sum_congr rfl fun k hk => by
      rw [hP k (Finset.mem_range.mp hk) u hu, hE k (Finset.mem_range.mp hk) g hg]

/-- C150, the first pattern explains the most: no pattern of unit length has a projection with a larger sum of squares. -/
theorem C150_leading {num : List ℝ → A} {mk : Opts ℝ → XArr ℝ A → Except PyErr (Solver ℝ A)} (hmk : EofContract num mk) (opts : Opts ℝ) (t : Tensor ℝ)
    (td : ℤ) (h0 : 0 ≤ td) (n : ℕ) (hn : t.shape[td.toNat]? = some n) (h2 : 2 ≤ t.shape.length) (hn0 : 0 < n) (hd : opts.ddof < n)
    (sh : List ℕ) (hsh : sh = t.shape.eraseIdx td.toNat) (hw : ∀ w, opts.weights = some w → w.shape = sh) (q : ℤ) (hq : 0 < q) (vf : Bool)
    (v : List ℕ → ℝ) (hv : gridSum sh (fun g => v g ^ 2) = 1) :
    ∃ e p, (eofuncEofs mk (.arr t) q td 0 opts vf false).1 = .ok e ∧ (eofuncPcs mk (.arr t) q td 0 opts false).1 = .ok p ∧
      ∑ u ∈ Finset.range n, gridSum sh (fun g => seriesOf t td.toNat opts n u g * v g) ^ 2 ≤
        ∑ u ∈ Finset.range n, gridSum sh (fun g => seriesOf t td.toNat opts n u g * e.data.get (0 :: g)) ^ 2 := by
  subst hsh
  obtain ⟨m, E, P, lam, hA, hc⟩ := C150_analysis hmk opts t td h0 n hn h2 hn0 hd hw
  obtain ⟨⟨e, e1, e2, e3, e4, e5, e6⟩, p, p1, p2, p3⟩ := hc q hq 0 (by simp) vf
  refine ⟨e, p, e1, p1, ?_⟩
  rcases Nat.eq_zero_or_pos m with rfl | hm
  · have h := eof_leading hA hd v 0 (fun k hk => absurd hk (by omega)) le_rfl hv
    rw [mul_zero] at h
    exact h.trans (Finset.sum_nonneg fun u _ => sq_nonneg _)
  · have h := eof_leading hA hd v (lam 0) (fun k hk => hA.decreasing 0 k (Nat.zero_le _) hk) (hA.nonneg 0 hm) hv
    refine h.trans (le_of_eq ?_)
    have hu := hA.uncorrelated 0 hm 0 hm
    rw [if_pos rfl] at hu
    rw [← hu]
    refine Finset.sum_congr rfl fun u hu => ?_
    rw [hA.projection 0 hm u (Finset.mem_range.mp hu), sq]
    have : ∀ g, Tensor.InBounds (t.shape.eraseIdx td.toNat) g → e.data.get (0 :: g) = E 0 g := fun g hg => by
      rw [e3 0 (by omega) g hg]; simp [scaling]
    congr 1 <;> exact gridSum_congr fun g hg => by rw [this g hg]

/-- C150, scaled results: time series divided by the square root of their eigenvalues have the mean square one (with `n - ddof` in the denominator), and together with
patterns multiplied by it they give the same modes as the unscaled results, wherever the eigenvalue is positive. -/
theorem C150_scaled {num : List ℝ → A} {mk : Opts ℝ → XArr ℝ A → Except PyErr (Solver ℝ A)} (hmk : EofContract num mk) (opts : Opts ℝ) (t : Tensor ℝ)
    (td : ℤ) (h0 : 0 ≤ td) (n : ℕ) (hn : t.shape[td.toNat]? = some n) (h2 : 2 ≤ t.shape.length) (hn0 : 0 < n) (hd : opts.ddof < n)
    (sh : List ℕ) (hsh : sh = t.shape.eraseIdx td.toNat) (hw : ∀ w, opts.weights = some w → w.shape = sh) (q : ℤ) (hq : 0 < q) (vf : Bool) :
    ∃ e p e2 p1 c ev, (eofuncEofs mk (.arr t) q td 0 opts vf false).1 = .ok e ∧ (eofuncPcs mk (.arr t) q td 0 opts false).1 = .ok p ∧
      (eofuncEofs mk (.arr t) q td 2 opts vf false).1 = .ok e2 ∧ (eofuncPcs mk (.arr t) q td 1 opts false).1 = .ok p1 ∧
      ("eigenvalues", num ev) ∈ e2.attrs ∧ e2.data.shape = c :: sh ∧ p1.data.shape = [c, n] ∧ ev.length = c ∧
      ∀ k < c, 0 < ev.getD k 0 → ∑ u ∈ Finset.range n, p1.data.get [k, u] ^ 2 = n - opts.ddof ∧
        ∀ u < n, ∀ g, Tensor.InBounds sh g → p1.data.get [k, u] * e2.data.get (k :: g) = p.data.get [k, u] * e.data.get (k :: g) := by
  subst hsh
  obtain ⟨m, E, P, lam, hA, hc⟩ := C150_analysis hmk opts t td h0 n hn h2 hn0 hd hw
  obtain ⟨⟨e, e1, -, e3, -⟩, p, p1, -, p3⟩ := hc q hq 0 (by simp) vf
  obtain ⟨⟨f, f1, f2, f3, f4, -⟩, -⟩ := hc q hq 2 (by simp) vf
  obtain ⟨-, r, r1, r2, r3⟩ := hc q hq 1 (by simp) vf
  have hcm : min q.toNat m ≤ m := Nat.min_le_right _ _
  refine ⟨e, p, f, r, min q.toNat m, _, e1, p1, f1, r1, f4, f2, r2, by simp, fun k hk hpos => ?_⟩
  have hev : ((List.range (min q.toNat m)).map lam).getD k 0 = lam k := by
    rw [List.getD_eq_getElem?_getD, List.getElem?_map, List.getElem?_range hk]
    rfl
  rw [hev] at hpos
  have hsq : √(lam k) * √(lam k) = lam k := Real.mul_self_sqrt hpos.le
  have hsp : 0 < √(lam k) := Real.sqrt_pos.mpr hpos
  constructor
  · have hu := hA.uncorrelated k (hk.trans_le hcm) k (hk.trans_le hcm)
    rw [if_pos rfl] at hu
    have : ∀ u ∈ Finset.range n, r.data.get [k, u] ^ 2 = (P k u * P k u) / lam k := by
      intro u hu
      rw [r3 k hk u (Finset.mem_range.mp hu)]
      have : scaling 1 (lam k) = 1 / √(lam k) := by simp [scaling]
      rw [this, mul_pow, div_pow, sq (√(lam k)), hsq]
      ring
    rw [Finset.sum_congr rfl this, ← Finset.sum_div, hu]
    field_simp
  · intro u hu g hg
    rw [r3 k hk u hu, f3 k hk g hg, p3 k hk u hu, e3 k hk g hg]
    have a1 : scaling 1 (lam k) = 1 / √(lam k) := by simp [scaling]
    have a2 : scaling 2 (lam k) = √(lam k) := by simp [scaling]
    have a0 : scaling 0 (lam k) = 1 := by simp [scaling]
    rw [a1, a2, a0]
    field_simp

/-- a solver that does what the documentation says -/
theorem contract_met : ∃ mk : Opts ℝ → XArr ℝ (List ℝ) → Except PyErr (Solver ℝ (List ℝ)), EofContract id mk := by
  classical
  have key : ∀ (opts : Opts ℝ) (x : XArr ℝ (List ℝ)), ∃ s : Solver ℝ (List ℝ), ∀ n sh, x.data.shape = n :: sh → opts.ddof < n →
      ∃ m E P lam, IsEofAnalysis n sh (anomaly opts.center opts.weights n (fun t g => x.data.get (t :: g))) opts.ddof m E P lam ∧
      (∀ q : ℤ, 0 < q → ∀ sc ∈ ([0, 1, 2] : List ℤ), ∃ e p, s.eofs q sc = .ok e ∧ s.pcs q sc = .ok p ∧
        e.shape = min q.toNat m :: sh ∧ p.shape = [n, min q.toNat m] ∧
        ∀ k < min q.toNat m, (∀ g, Tensor.InBounds sh g → e.get (k :: g) = scaling sc (lam k) * E k g) ∧
          ∀ t < n, p.get [t, k] = scaling sc (lam k) * P k t) ∧
      (∀ q : ℤ, 0 < q → s.eigenvalues q = id ((List.range (min q.toNat m)).map lam) ∧
        s.varianceFraction q = id ((List.range (min q.toNat m)).map (fun k => lam k / ∑ j ∈ Finset.range m, lam j))) ∧
      s.totalAnomalyVariance = id [∑ j ∈ Finset.range m, lam j] := by
    intro opts x
    by_cases h : ∃ n sh, x.data.shape = n :: sh ∧ opts.ddof < n
    · obtain ⟨n, sh, hx, hd⟩ := h
      obtain ⟨m, E, P, lam, hA⟩ := eof_exists n sh (anomaly opts.center opts.weights n (fun t g => x.data.get (t :: g))) opts.ddof hd
      refine ⟨⟨fun q sc => .ok ⟨min q.toNat m :: sh, fun i => scaling sc (lam (i.headD 0)) * E (i.headD 0) i.tail⟩,
        fun q sc => .ok ⟨[n, min q.toNat m], fun i => scaling sc (lam (i.getD 1 0)) * P (i.getD 1 0) (i.getD 0 0)⟩,
        fun q => (List.range (min q.toNat m)).map lam, fun _ _ => [], [∑ j ∈ Finset.range m, lam j],
        fun q => (List.range (min q.toNat m)).map (fun k => lam k / ∑ j ∈ Finset.range m, lam j)⟩, ?_⟩
      intro n' sh' hx' _
      rw [hx] at hx'
      injection hx' with h1 h2
      subst h1 h2
      exact ⟨m, E, P, lam, hA, fun q _ sc _ => ⟨_, _, rfl, rfl, rfl, rfl, fun k _ => ⟨fun _ _ => rfl, fun _ _ => rfl⟩⟩, fun _ _ => ⟨rfl, rfl⟩, rfl⟩
    · exact ⟨⟨fun _ _ => .error .valueError, fun _ _ => .error .valueError, fun _ => [], fun _ _ => [], [], fun _ => []⟩,
        fun n sh hx hd => absurd ⟨n, sh, hx, hd⟩ h⟩
  choose s hs using key
  refine ⟨fun opts x => .ok (s opts x), fun opts x n sh hx _ hd _ _ _ => ?_⟩
  obtain ⟨m, E, P, lam, h1, h2, h3, h4⟩ := hs opts x n sh hx hd
  exact ⟨s opts x, m, E, P, lam, rfl, h1, h2, h3, h4⟩

/-- three times on two grid points, time last: the modes of two calls add up to the anomalies -/
example (mk : Opts ℝ → XArr ℝ (List ℝ) → Except PyErr (Solver ℝ (List ℝ))) (hmk : EofContract id mk) (t : Tensor ℝ) (ht : t.shape = [2, 3]) :
    ∃ e p c, (eofuncEofs mk (.arr t) 2 1 0 ⟨none, true, 1⟩ false false).1 = .ok e ∧ (eofuncPcs mk (.arr t) 2 1 0 ⟨none, true, 1⟩ false).1 = .ok p ∧
      e.data.shape = [c, 2] ∧ p.data.shape = [c, 3] ∧ ∀ u < 3, ∀ g, Tensor.InBounds [2] g →
        seriesOf t 1 ⟨none, true, 1⟩ 3 u g = ∑ k ∈ Finset.range c, p.data.get [k, u] * e.data.get (k :: g) := by
  obtain ⟨e, p, c, ev, total, h1, h2, h3, h4, -, -, -, -, -, -, -, -, -, -, -, h5⟩ := C150_two_calls hmk ⟨none, true, 1⟩ t 1 (by norm_num) 3
    (by rw [ht]; rfl) (by rw [ht]; simp) (by norm_num) (by norm_num) [2] (by rw [ht]; rfl) (fun w h => by cases h) 2 (by norm_num) false
  exact ⟨e, p, c, h1, h2, h3, h4, h5 (by decide)⟩

end Verif.Props
