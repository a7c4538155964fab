import Verif.Lemmas.Hybrid

/-
Properties C08–C11: pressure and layer thickness of hybrid levels.
-/

set_option linter.unusedSectionVars false
namespace Verif.Props
open Model Lemmas
variable {K : Type _} [Field K] [LinearOrder K] [IsStrictOrderedRing K]

/-! ### C08 -/

/-- C08, types: the arguments are accepted exactly when all three are numpy arrays or all three are DataArrays; otherwise
TypeError. -/
theorem C08_types (tp ta tb : PyType) :
    (hybridTypeCheck tp ta tb = .ok () ↔
      (tp = .ndarray ∧ ta = .ndarray ∧ tb = .ndarray) ∨ (tp = .dataArray ∧ ta = .dataArray ∧ tb = .dataArray)) ∧
    (hybridTypeCheck tp ta tb ≠ .ok () → hybridTypeCheck tp ta tb = .error .typeError) := by
  cases tp <;> cases ta <;> cases tb <;> decide

/-- C08, numpy: for a surface pressure grid and coefficient arrays of one or more dimensions the call fails exactly
when the coefficient shapes differ or are not one-dimensional, with ValueError; else level `k` at grid point `(y, x)` has
pressure `hya[k]*p0 + hyb[k]*psfc[y, x]`. -/
theorem C08_numpy (psfc hya hyb : Tensor K) (p0 : K) (ny nx : ℕ) (hp : psfc.shape = [ny, nx]) (ha : hya.shape ≠ []) :
    ((hya.shape ≠ hyb.shape ∨ 1 < hya.shape.length) → pressureNp psfc hya hyb p0 = .error .valueError) ∧
    (∀ n, hya.shape = [n] → hyb.shape = [n] → ∃ r, pressureNp psfc hya hyb p0 = .ok r ∧ r.shape = [n, ny, nx] ∧
      ∀ k y x, k < n → y < ny → x < nx → r.get [k, y, x] = hya.get [k] * p0 + hyb.get [k] * psfc.get [y, x]) ∧
    (¬ (hya.shape ≠ hyb.shape ∨ 1 < hya.shape.length) → ∃ n, hya.shape = [n] ∧ hyb.shape = [n]) := by
  refine ⟨?_, fun n h1 h2 => pressureNp_grid psfc hya hyb p0 n ny nx hp h1 h2, ?_⟩
  · intro h
    unfold pressureNp
    by_cases h1 : hya.shape ≠ hyb.shape
    · simp [h1, throw, throwThe, MonadExceptOf.throw, bind, Except.bind]
    · have h2 : 1 < hya.shape.length := by tauto
      have h1' : hya.shape = hyb.shape := not_not.mp h1
      simp [← h1', h2, throw, throwThe, MonadExceptOf.throw, bind, Except.bind]
  · intro h
    push Not at h
    obtain ⟨h1, h2⟩ := h
    obtain ⟨n, l, hl⟩ := List.exists_cons_of_ne_nil ha
    rw [hl] at h2
    have : l = [] := by
      cases l
      · rfl
      · simp at h2
    exact ⟨n, by rw [hl, this], by rw [← h1, hl, this]⟩

/-- a vector of coefficients along dimension `d` -/
def vec (d : String) (n : ℕ) (f : ℕ → K) : LArr K := ⟨[d], fun _ => n, fun i => f (i d)⟩

/-- C08, xarray: coefficient vectors along `d` and `e` (names may differ, then the second is renamed) and a surface
pressure of any rank without these dimensions: the result has the level dimension followed by those of the surface
pressure, and the formula holds at every index. -/
theorem C08_xarray (psfc : LArr K) (d e : String) (n : ℕ) (a b : ℕ → K) (p0 : K) (hd : d ∉ psfc.dims) (hw : psfc.WF) :
    ∃ r, pressureXr psfc (vec d n a) (vec e n b) p0 = .ok r ∧ r.dims = d :: psfc.dims ∧
      r.size d = n ∧ (∀ f ∈ psfc.dims, r.size f = psfc.size f) ∧
      ∀ i, r.get i = a (i d) * p0 + b (i d) * psfc.get i := by
  have hfilter : psfc.dims.filter (fun f => !([d].contains f)) = psfc.dims := by
    rw [List.filter_eq_self]
    intro f hf
    have : f ≠ d := fun h => hd (h ▸ hf)
    simp [this]
  have hren : ∀ (b' : LArr K), b'.dims = [d] → (∀ f, b'.size f = n) → (∀ i, b'.get i = b (i d)) →
      ∃ r, (do
        let q ← LArr.zip (fun x y => x * y) b' psfc
        LArr.zip (fun x y => x + y) ((vec d n a).map (fun x => x * p0)) q : Except PyErr (LArr K)) = .ok r ∧
        r.dims = d :: psfc.dims ∧ r.size d = n ∧ (∀ f ∈ psfc.dims, r.size f = psfc.size f) ∧
        ∀ i, r.get i = a (i d) * p0 + b (i d) * psfc.get i := by
    intro b' h1 h2 h3
    have z1 : LArr.zip (fun x y => x * y) b' psfc = .ok ⟨[d] ++ psfc.dims, fun f => if ([d] : List String).contains f then n else psfc.size f,
        fun i => b (i d) * psfc.get i⟩ := by
      simp only [LArr.zip, h1, h2, h3, hfilter]
      simp [hd]
    rw [z1]
    have hc : ∀ f ∈ ([d] : List String), (!(([d] ++ psfc.dims).contains f) || n == (if ([d] : List String).contains f then n else psfc.size f)) = true := by
      intro f hf
      simp at hf
      simp [hf]
    have hff : ([d] ++ psfc.dims).filter (fun f => !([d].contains f)) = psfc.dims := by
      rw [List.filter_append, hfilter]
      simp
    apply ok_exists
    simp only [bind, Except.bind, LArr.zip, LArr.map, vec, List.all_eq_true.mpr hc, if_true, hff]
    refine ⟨?_, ?_, ?_, ?_⟩
    · rfl
    · simp
    · intro f hf
      have : f ≠ d := fun h => hd (h ▸ hf)
      simp [this]
    · intro i
      trivial
  have hshape : (vec d n a).shape = (vec e n b).shape := by simp [LArr.shape, vec]
  unfold pressureXr
  simp only [hshape, ne_eq, not_true_eq_false, if_false]
  by_cases hde : d = e
  · subst hde
    have := hren (vec d n b) rfl (fun _ => rfl) (fun _ => rfl)
    simpa [vec, bind, Except.bind, pure, Except.pure] using this
  · have hne : ¬ (vec d n a).dims = (vec e n b).dims := by simp [vec, hde]
    have := hren ((vec e n b).rename ((vec e n b).dims.zip (vec d n a).dims)) (by simp [LArr.rename, vec, LArr.newName])
      (fun _ => rfl) (fun i => by simp [LArr.rename, vec, LArr.newName])
    simpa [hne, bind, Except.bind, pure, Except.pure] using this

example : ∃ r, pressureXr (⟨["lat", "lon"], fun _ => 2, fun i => 90000 + 1000 * (i "lat" : ℚ)⟩ : LArr ℚ)
    (vec "lev" 3 (fun k => (k : ℚ) / 10)) (vec "lev2" 3 (fun k => (k : ℚ) / 4)) 100000 = .ok r ∧
    r.dims = ["lev", "lat", "lon"] ∧ r.size "lev" = 3 ∧ (∀ f ∈ ["lat", "lon"], r.size f = 2) ∧
      ∀ i, r.get i = (i "lev" : ℚ) / 10 * 100000 + (i "lev" : ℚ) / 4 * (90000 + 1000 * (i "lat" : ℚ)) :=
  C08_xarray ⟨["lat", "lon"], fun _ => 2, fun i => 90000 + 1000 * (i "lat" : ℚ)⟩ "lev" "lev2" 3 (fun k => (k : ℚ) / 10)
    (fun k => (k : ℚ) / 4) 100000 (by decide) (fun i j h => by simp [h "lat" (by simp)])

example : ∃ r, pressureNp (⟨[2, 2], fun i => 90000 + 1000 * (i.headD 0 : ℚ)⟩ : Tensor ℚ)
    ⟨[3], fun i => (i.headD 0 : ℚ) / 10⟩ ⟨[3], fun i => (i.headD 0 : ℚ) / 4⟩ 100000 = .ok r ∧ r.shape = [3, 2, 2] ∧
      ∀ k y x, k < 3 → y < 2 → x < 2 → r.get [k, y, x] = (k : ℚ) / 10 * 100000 + (k : ℚ) / 4 * (90000 + 1000 * (y : ℚ)) :=
  (C08_numpy ⟨[2, 2], fun i => 90000 + 1000 * (i.headD 0 : ℚ)⟩ ⟨[3], fun i => (i.headD 0 : ℚ) / 10⟩
    ⟨[3], fun i => (i.headD 0 : ℚ) / 4⟩ 100000 2 2 rfl (by simp)).2.1 3 rfl rfl

/-! ### C09 -/

/-- C09 is false for numpy surface pressure of rank other than 2: with time first the call fails, or, if there happen to be
as many times as levels, silently pairs level `k` with time `k` only; with rank 1 an extra axis appears. -/
theorem C09_counterexample :
    (∃ (psfc hya hyb : Tensor ℚ), psfc.shape = [3, 2, 2] ∧ hya.shape = [2] ∧ hyb.shape = [2] ∧
      pressureNp psfc hya hyb 1 = .error .valueError) ∧
    (∀ (psfc hya hyb : Tensor ℚ) (n ny nx : ℕ), psfc.shape = [n, ny, nx] → hya.shape = [n] → hyb.shape = [n] →
      ∃ r, pressureNp psfc hya hyb 1 = .ok r ∧ r.shape = [n, ny, nx] ∧
        ∀ k y x, k < n → y < ny → x < nx → r.get [k, y, x] = hya.get [k] * 1 + hyb.get [k] * psfc.get [k, y, x]) ∧
    (∃ (psfc hya hyb : Tensor ℚ) (r : Tensor ℚ), psfc.shape = [5] ∧ hya.shape = [2] ∧ hyb.shape = [2] ∧
      pressureNp psfc hya hyb 1 = .ok r ∧ r.shape = [2, 1, 5]) := by
  refine ⟨⟨⟨[3, 2, 2], fun _ => 1⟩, ⟨[2], fun _ => 1⟩, ⟨[2], fun _ => 1⟩, rfl, rfl, rfl, rfl⟩, ?_, ?_⟩
  · intro psfc hya hyb n ny nx hp ha hb
    apply ok_exists
    simp only [pressureNp, ha, hb, ne_eq, not_true_eq_false, if_false, List.length_singleton, lt_irrefl, expandDims12, Tensor.zip,
      Tensor.map, hp, bshape_level_cube, bind, Except.bind, pure, Except.pure]
    refine ⟨?_, ?_⟩
    · trivial
    · intro k y x hk hy hx
      simp [bidx_level n k y x hk, bidx_cube n ny nx k y x hk hy hx]
  · exact ⟨⟨[5], fun _ => 1⟩, ⟨[2], fun _ => 1⟩, ⟨[2], fun _ => 1⟩, _, rfl, rfl, rfl, rfl, rfl⟩

/-- C09 for rank 2. Missing: every other rank (see the counterexample). -/
theorem C09_rank2_partial (psfc hya hyb : Tensor K) (p0 : K) (n ny nx : ℕ) (hp : psfc.shape = [ny, nx])
    (ha : hya.shape = [n]) (hb : hyb.shape = [n]) :
    ∃ r, pressureNp psfc hya hyb p0 = .ok r ∧ r.shape = n :: psfc.shape ∧
      ∀ k y x, k < n → y < ny → x < nx → r.get [k, y, x] = hya.get [k] * p0 + hyb.get [k] * psfc.get [y, x] := by
  rw [hp]
  exact pressureNp_grid psfc hya hyb p0 n ny nx hp ha hb

/-! ### C10 -/

/-- C10, layers (numpy): `n - 1` layers, each the absolute difference of the pressures `pressure_at_hybrid_levels` returns
for the two levels around it, hence never negative. -/
theorem C10_layers_numpy (ps hya hyb : Tensor K) (p0 : K) (n ny nx : ℕ) (hp : ps.shape = [ny, nx])
    (ha : hya.shape = [n]) (hb : hyb.shape = [n]) :
    ∃ r p, deltaHybridNp ps hya hyb p0 = .ok r ∧ pressureNp ps hya hyb p0 = .ok p ∧ r.shape = [n - 1, ny, nx] ∧
      ∀ k y x, k < n - 1 → y < ny → x < nx →
        r.get [k, y, x] = |p.get [k + 1, y, x] - p.get [k, y, x]| ∧ 0 ≤ r.get [k, y, x] := by
  obtain ⟨r, r1, r2, r3⟩ := deltaHybridNp_grid ps hya hyb p0 n ny nx hp ha hb
  obtain ⟨p, p1, p2, p3⟩ := pressureNp_grid ps hya hyb p0 n ny nx hp ha hb
  refine ⟨r, p, r1, p1, r2, fun k y x hk hy hx => ?_⟩
  rw [r3 k y x hk hy hx, p3 k y x (by omega) hy hx, p3 (k + 1) y x (by omega) hy hx]
  exact ⟨abs_sub_comm _ _, abs_nonneg _⟩

/-- C10, layers (xarray), for surface pressure of any rank. -/
theorem C10_layers_xarray (psfc : LArr K) (d e : String) (n : ℕ) (a b : ℕ → K) (p0 : K) (hd : d ∉ psfc.dims) (hw : psfc.WF) :
    ∃ r p, deltaHybridXr psfc (vec d n a) (vec e n b) p0 = .ok r ∧ pressureXr psfc (vec d n a) (vec e n b) p0 = .ok p ∧
      r.dims = d :: psfc.dims ∧ r.size d = n - 1 ∧
      ∀ i, r.get i = |p.get (Function.update i d (i d + 1)) - p.get i| ∧ 0 ≤ r.get i := by
  obtain ⟨p, p1, p2, p3, p4, p5⟩ := C08_xarray psfc d e n a b p0 hd hw
  have hpi : ∀ i k, psfc.get (Function.update i d k) = psfc.get i := by
    intro i k
    apply hw
    intro f hf
    rw [Function.update_of_ne]
    exact fun h => hd (h ▸ hf)
  have hfilter : psfc.dims.filter (fun f => !([d].contains f)) = psfc.dims := by
    rw [List.filter_eq_self]
    intro f hf
    have : f ≠ d := fun h => hd (h ▸ hf)
    simp [this]
  have hff : (d :: psfc.dims).filter (fun f => !([d].contains f)) = psfc.dims := by
    rw [List.filter_cons, hfilter]
    simp
  have hff2 : (d :: psfc.dims).filter (fun f => !((d :: psfc.dims).contains f)) = [] := by
    rw [List.filter_eq_nil_iff]
    intro f hf
    simp at hf ⊢
    tauto
  have key : ∀ (b' : LArr K), b'.dims = [d] → (∀ f, b'.size f = n) → (∀ i, b'.get i = b (i d)) →
      ∃ r, (do
        let ba ← LArr.zip (fun x y => x * y) (sliceDim d 0 (n - 1) b') psfc
        let pa ← LArr.zip (fun x y => x + y) ((sliceDim d 0 (n - 1) (vec d n a)).map (fun x => p0 * x)) ba
        let bb ← LArr.zip (fun x y => x * y) (sliceDim d 1 (n - 1) b') psfc
        let pb ← LArr.zip (fun x y => x + y) ((sliceDim d 1 (n - 1) (vec d n a)).map (fun x => p0 * x)) bb
        LArr.zip (fun x y => |x - y|) pa pb : Except PyErr (LArr K)) = .ok r ∧ r.dims = d :: psfc.dims ∧ r.size d = n - 1 ∧
        ∀ i, r.get i = |(a (i d) * p0 + b (i d) * psfc.get i) - (a (i d + 1) * p0 + b (i d + 1) * psfc.get i)| := by
    intro b' h1 h2 h3
    have hz : ∀ lo, LArr.zip (fun x y => x * y) (sliceDim d lo (n - 1) b') psfc
        = .ok ⟨d :: psfc.dims, fun f => if f = d then n - 1 else psfc.size f, fun i => b (i d + lo) * psfc.get i⟩ := by
      intro lo
      have hc : ([d].all (fun f => !psfc.dims.contains f || (if f = d then n - 1 else n) == psfc.size f)) = true := by
        simp [hd]
      simp only [LArr.zip, sliceDim, h1, h2, h3, hfilter, hc, if_true, Function.update_self]
      congr 2
      funext f
      by_cases hf : f = d <;> simp [hf]
    have hz2 : ∀ lo, LArr.zip (fun x y => x + y) ((sliceDim d lo (n - 1) (vec d n a)).map (fun x => p0 * x))
        (⟨d :: psfc.dims, fun f => if f = d then n - 1 else psfc.size f, fun i => b (i d + lo) * psfc.get i⟩ : LArr K)
        = .ok ⟨d :: psfc.dims, fun f => if f = d then n - 1 else psfc.size f, fun i => p0 * a (i d + lo) + b (i d + lo) * psfc.get i⟩ := by
      intro lo
      have hc : ([d].all (fun f => !(d :: psfc.dims).contains f || (if f = d then n - 1 else n) == (if f = d then n - 1 else psfc.size f))) = true := by
        simp
      simp only [LArr.zip, sliceDim, LArr.map, vec, hff, hc, if_true, Function.update_self]
      congr 2
      funext f
      by_cases hf : f = d <;> simp [hf]
    apply ok_exists
    simp only [hz, hz2, bind, Except.bind]
    have hc : ((d :: psfc.dims).all (fun f => !(d :: psfc.dims).contains f ||
        (if f = d then n - 1 else psfc.size f) == (if f = d then n - 1 else psfc.size f))) = true := by
      simp
    simp only [LArr.zip, hc, if_true, hff2, List.append_nil]
    refine ⟨?_, ?_, ?_⟩
    · trivial
    · simp
    · intro i
      simp [mul_comm p0]
  have hshape : (vec d n a).shape = (vec e n b).shape := by simp [LArr.shape, vec]
  have hrun : ∃ r, deltaHybridXr psfc (vec d n a) (vec e n b) p0 = .ok r ∧ r.dims = d :: psfc.dims ∧ r.size d = n - 1 ∧
        ∀ i, r.get i = |(a (i d) * p0 + b (i d) * psfc.get i) - (a (i d + 1) * p0 + b (i d + 1) * psfc.get i)| := by
    by_cases hde : d = e
    · subst hde
      have := key (vec d n b) rfl (fun _ => rfl) (fun _ => rfl)
      unfold deltaHybridXr
      have e1 : (vec d n a).dims = [d] := rfl
      have e2 : (vec d n b).dims = [d] := rfl
      simp only [hshape, ne_eq, not_true_eq_false, if_false, e1, e2, List.length_singleton, lt_irrefl]
      exact this
    · have := key ((vec e n b).rename [(e, d)]) (by simp [LArr.rename, vec, LArr.newName]) (fun _ => rfl)
        (fun i => by simp [LArr.rename, vec, LArr.newName])
      unfold deltaHybridXr
      have e1 : (vec d n a).dims = [d] := rfl
      have e2 : (vec e n b).dims = [e] := rfl
      simp only [hshape, ne_eq, not_true_eq_false, if_false, e1, e2, hde, not_false_eq_true, if_true]
      exact this
  obtain ⟨r, r1, r2, r3, r4⟩ := hrun
  refine ⟨r, p, r1, p1, r2, r3, fun i => ?_⟩
  rw [r4, p5, p5, hpi, Function.update_self]
  exact ⟨abs_sub_comm _ _, abs_nonneg _⟩

/-- C10, total: if the interface pressures increase down a column (or decrease), the layers of that column add up to the
difference between its ends. -/
theorem C10_total (ps hya hyb : Tensor K) (p0 : K) (n ny nx : ℕ) (hn : 1 ≤ n) (hp : ps.shape = [ny, nx])
    (ha : hya.shape = [n]) (hb : hyb.shape = [n]) (y x : ℕ) (hy : y < ny) (hx : x < nx) :
    ∃ r p, deltaHybridNp ps hya hyb p0 = .ok r ∧ pressureNp ps hya hyb p0 = .ok p ∧
      ((∀ k, k + 1 < n → p.get [k, y, x] ≤ p.get [k + 1, y, x]) ∨ (∀ k, k + 1 < n → p.get [k + 1, y, x] ≤ p.get [k, y, x]) →
        (∑ k ∈ Finset.range (n - 1), r.get [k, y, x]) = |p.get [n - 1, y, x] - p.get [0, y, x]|) := by
  obtain ⟨r, p, h1, h2, h3, h4⟩ := C10_layers_numpy ps hya hyb p0 n ny nx hp ha hb
  refine ⟨r, p, h1, h2, ?_⟩
  have e : (∑ k ∈ Finset.range (n - 1), r.get [k, y, x]) = ∑ k ∈ Finset.range (n - 1), |p.get [k, y, x] - p.get [k + 1, y, x]| := by
    refine Finset.sum_congr rfl (fun k hk => ?_)
    rw [(h4 k y x (Finset.mem_range.mp hk) hy hx).1, abs_sub_comm]
  rw [e]
  rintro (h | h)
  · obtain ⟨s1, s2⟩ := sum_abs_mono (fun k => p.get [k, y, x]) (n - 1) (fun k hk => h k (by omega))
    rw [s1, abs_of_nonneg (by linarith)]
  · obtain ⟨s1, s2⟩ := sum_abs_mono (fun k => - p.get [k, y, x]) (n - 1) (fun k hk => by simpa using h k (by omega))
    have : ∀ k, |p.get [k, y, x] - p.get [k + 1, y, x]| = |(- p.get [k, y, x]) - (- p.get [k + 1, y, x])| := by
      intro k
      rw [← abs_neg]
      congr 1
      ring
    simp only [this]
    rw [s1, abs_of_nonpos (by linarith)]
    ring

/-- C10, reversal: coefficients listed in the opposite order give the layers in the opposite order. -/
theorem C10_reverse (ps hya hyb hya' hyb' : Tensor K) (p0 : K) (n ny nx : ℕ) (hp : ps.shape = [ny, nx])
    (ha : hya.shape = [n]) (hb : hyb.shape = [n]) (ha' : hya'.shape = [n]) (hb' : hyb'.shape = [n])
    (h1 : ∀ k < n, hya'.get [k] = hya.get [n - 1 - k]) (h2 : ∀ k < n, hyb'.get [k] = hyb.get [n - 1 - k]) :
    ∃ r r', deltaHybridNp ps hya hyb p0 = .ok r ∧ deltaHybridNp ps hya' hyb' p0 = .ok r' ∧
      ∀ k y x, k < n - 1 → y < ny → x < nx → r'.get [k, y, x] = r.get [n - 2 - k, y, x] := by
  obtain ⟨r, r1, r2, r3⟩ := deltaHybridNp_grid ps hya hyb p0 n ny nx hp ha hb
  obtain ⟨r', q1, q2, q3⟩ := deltaHybridNp_grid ps hya' hyb' p0 n ny nx hp ha' hb'
  refine ⟨r, r', r1, q1, fun k y x hk hy hx => ?_⟩
  rw [q3 k y x hk hy hx, r3 (n - 2 - k) y x (by omega) hy hx, h1 k (by omega), h1 (k + 1) (by omega), h2 k (by omega),
    h2 (k + 1) (by omega)]
  have e1 : n - 1 - k = n - 2 - k + 1 := by omega
  have e2 : n - 1 - (k + 1) = n - 2 - k := by omega
  rw [e1, e2, abs_sub_comm]

/-- C10, arguments: TypeError exactly for non-array arguments, coefficients of different types, or a `p0` that is not
exactly a Python float or int; the result has the type of `ps`. -/
theorem C10_types (tp ta tb tp0 : PyType) :
    ((tp = .dataArray ∨ tp = .ndarray) ∧ (ta = .dataArray ∨ ta = .ndarray) ∧ ta = tb ∧ (tp0 = .float ∨ tp0 = .int) →
      deltaHybridType tp ta tb tp0 = .ok tp) ∧
    (¬ ((tp = .dataArray ∨ tp = .ndarray) ∧ (ta = .dataArray ∨ ta = .ndarray) ∧ ta = tb ∧ (tp0 = .float ∨ tp0 = .int)) →
      deltaHybridType tp ta tb tp0 = .error .typeError) := by
  unfold deltaHybridType deltaHybridTypeCheck
  refine ⟨fun ⟨h1, h2, h3, h4⟩ => ?_, fun h => ?_⟩
  · subst h3
    simp only [h1, h2, h4, and_self, not_true_eq_false, if_false, ne_eq, bind, Except.bind, pure, Except.pure]
  · dsimp only
    split_ifs with g1 g2 g3 <;> first | rfl | exact absurd ⟨g1.1, g1.2.1, not_not.mp g3, g2⟩ h

example : ∃ r p, deltaHybridNp (⟨[1, 1], fun _ => 100000⟩ : Tensor ℚ) ⟨[3], fun i => (i.headD 0 : ℚ) / 10⟩
      ⟨[3], fun i => (i.headD 0 : ℚ) / 4⟩ 100000 = .ok r ∧
    pressureNp (⟨[1, 1], fun _ => 100000⟩ : Tensor ℚ) ⟨[3], fun i => (i.headD 0 : ℚ) / 10⟩ ⟨[3], fun i => (i.headD 0 : ℚ) / 4⟩ 100000 = .ok p ∧
    ((∀ k, k + 1 < 3 → p.get [k, 0, 0] ≤ p.get [k + 1, 0, 0]) ∨ (∀ k, k + 1 < 3 → p.get [k + 1, 0, 0] ≤ p.get [k, 0, 0]) →
        (∑ k ∈ Finset.range (3 - 1), r.get [k, 0, 0]) = |p.get [3 - 1, 0, 0] - p.get [0, 0, 0]|) :=
  C10_total ⟨[1, 1], fun _ => 100000⟩ ⟨[3], fun i => (i.headD 0 : ℚ) / 10⟩ ⟨[3], fun i => (i.headD 0 : ℚ) / 4⟩ 100000 3 1 1
    (by norm_num) rfl rfl rfl 0 0 (by norm_num) (by norm_num)

/-! ### C11 -/

/-- C11. The sigma value of a hybrid level times the surface pressure is the pressure of the level, for every level and
grid point with non-zero surface pressure. -/
theorem C11_sigma (psfc hya hyb : Tensor K) (p0 : K) (n ny nx : ℕ) (hp : psfc.shape = [ny, nx])
    (ha : hya.shape = [n]) (hb : hyb.shape = [n]) :
    ∃ p, pressureNp psfc hya hyb p0 = .ok p ∧ ∀ k y x, k < n → y < ny → x < nx → psfc.get [y, x] ≠ 0 →
      sigmaFromHybrid (psfc.get [y, x]) (hya.get [k]) (hyb.get [k]) p0 * psfc.get [y, x] = p.get [k, y, x] := by
  obtain ⟨p, p1, p2, p3⟩ := pressureNp_grid psfc hya hyb p0 n ny nx hp ha hb
  refine ⟨p, p1, fun k y x hk hy hx h0 => ?_⟩
  rw [p3 k y x hk hy hx]
  unfold sigmaFromHybrid
  field_simp

example : sigmaFromHybrid (95000 : ℚ) (1 / 10) (1 / 4) 100000 * 95000 = 1 / 10 * 100000 + 1 / 4 * 95000 := by
  norm_num [sigmaFromHybrid]

end Verif.Props
