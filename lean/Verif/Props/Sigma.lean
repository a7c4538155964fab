import Verif.Model.Sigma
import Verif.Spec.Sigma
import Verif.Lemmas.Chunks
import Verif.Props.HybridInterp

/-
Property C21: interpolation from sigma to hybrid levels.
-/

set_option linter.unusedSectionVars false
namespace Verif.Props
open Model Spec Lemmas

section
variable {K : Type _} [Field K] [LinearOrder K] [IsStrictOrderedRing K]

/-- sigma at the hybrid levels: dimensions and values -/
theorem sigma_spec (ps : LArr K) (hd : String) (m : ℕ) (a b : ℕ → K) (p0 : K) (hnew : hd ∉ ps.dims) :
    ∃ S, sigmaFromHybridXr ps (vec hd m a) (vec hd m b) p0 = .ok S ∧ S.dims = hd :: ps.dims ∧ S.size hd = m ∧
      (∀ d ∈ ps.dims, S.size d = ps.size d) ∧ ∀ i, S.get i = a (i hd) * p0 / ps.get i + b (i hd) := by
  have hfilter : ps.dims.filter (fun f => !([hd].contains f)) = ps.dims := by
    rw [List.filter_eq_self]
    intro f hf
    have : f ≠ hd := fun h => hnew (h ▸ hf)
    simp [this]
  have z1 : LArr.zip (fun x y => x / y) ((vec hd m a).map (fun x => x * p0)) ps = .ok ⟨[hd] ++ ps.dims,
      fun f => if ([hd] : List String).contains f then m else ps.size f, fun i => a (i hd) * p0 / ps.get i⟩ := by
    simp only [LArr.zip, vec, LArr.map, hfilter]
    simp [hnew]
  unfold sigmaFromHybridXr
  rw [z1]
  have hc : ∀ f ∈ [hd] ++ ps.dims, (!([hd].contains f) || (if ([hd] : List String).contains f then m else ps.size f) == m) = true := by
    intro f hf
    by_cases h : f = hd
    · subst h; simp
    · simp [h]
  have hff : ([hd] : List String).filter (fun f => !(([hd] ++ ps.dims).contains f)) = [] := by simp
  apply ok_exists
  simp only [bind, Except.bind, LArr.zip, vec, List.all_eq_true.mpr hc, if_true, hff, List.append_nil]
  refine ⟨rfl, ?_, ?_, fun i => trivial⟩
  · simp
  · intro d hd'
    have : d ≠ hd := fun h => hnew (h ▸ hd')
    simp [this, hd']

theorem sigmaData_mem {lev : String} {n : ℕ} {ps : LArr K} {data : LArr (XF K)} (h : SigmaData lev n ps data) (d : String) :
    d ∈ data.dims.filter (fun d => d ≠ lev) ↔ d ∈ ps.dims := by
  have := h.perm.mem_iff (a := d)
  simp only [List.mem_filter, ← this, List.mem_cons, decide_eq_true_eq]
  constructor
  · rintro ⟨h1 | h1, h2⟩
    · exact absurd h1 h2
    · exact h1
  · intro h1
    exact ⟨Or.inr h1, fun he => h.levNew (he ▸ h1)⟩

/-- number of results -/
theorem interpolate1d_length (x xp : List K) (v r : List (XF K)) (h : interpolate1d x xp v = .ok r) : r.length = x.length := by
  unfold interpolate1d at h
  by_cases h1 : xp.length ≠ v.length
  · simp [h1, bind, Except.bind, throw, throwThe, MonadExceptOf.throw] at h
  · by_cases h2 : x.isEmpty
    · simp [h1, h2, bind, Except.bind, throw, throwThe, MonadExceptOf.throw] at h
    · simp only [h1, h2, if_false, bind, Except.bind, pure, Except.pure, Bool.false_eq_true] at h
      split at h
      · cases h
      · rename_i ys hy
        split at h
        · cases h
        · split at h
          · cases h
          · have hl : ys.length = x.length := by
              have := ((mapM_ok_iff _ _ _).mp hy).length_eq
              rw [← this, List.length_insertionSort]
            injection h with h
            rw [← h]
            split_ifs <;> simp [hl]

theorem indicesOf_head (size : String → ℕ) (ds : List String) (h : ∀ d ∈ ds, 0 < size d) :
    ∃ t, LArr.indicesOf size ds = (fun _ => 0) :: t := by
  induction ds with
  | nil => exact ⟨[], rfl⟩
  | cons e ds ih =>
    obtain ⟨t, ht⟩ := ih (fun d hd => h d (by simp [hd]))
    obtain ⟨k, hk⟩ := Nat.exists_eq_succ_of_ne_zero (h e (by simp)).ne'
    have hu : Function.update (fun _ : String => 0) e 0 = fun _ => 0 := by
      funext d; by_cases hde : d = e
      · subst hde; simp
      · simp [hde]
    simp only [LArr.indicesOf, hk, Nat.succ_eq_add_one, List.range_succ_eq_map, List.flatMap_cons, ht, List.map_cons, hu, List.cons_append]
    exact ⟨_, rfl⟩

/-- one column with its width check -/
def sigmaOne (g : K → K) (hd lev : String) (sig : List K) (S : LArr K) (data : LArr (XF K)) (width : ℕ) (i : String → ℕ) :
    Except PyErr (List (XF K)) := do
  let r ← interpolate1d ((S.line hd i).map g) (sig.map g) (data.line lev i)
  if r.length ≠ width then throw .valueError
  return r

theorem sigmaColumns_eq (g : K → K) (lev hd : String) (sig : List K) (ps : LArr K) (data : LArr (XF K)) (n : ℕ) (h : SigmaData lev n ps data)
    (S : LArr K) (hS : S.dims = hd :: ps.dims) (hsz : ∀ d ∈ ps.dims, S.size d = ps.size d) (hnew : hd ∉ ps.dims) (m : ℕ) :
    sigmaColumns g lev sig data S m = (do
      let _ ← (LArr.indicesOf data.size (data.dims.filter (fun d => d ≠ lev))).mapM (sigmaOne g hd lev sig S data (min n m))
      return (⟨data.dims.map (fun d => if d = lev then "hlev" else d), fun d => if d = "hlev" then min n m else data.size d,
        fun i => pick (sigmaOne g hd lev sig S data (min n m) i) (i "hlev")⟩, S.line hd (fun _ => 0))) := by
  have hmem := sigmaData_mem h
  have h1 : lev ∈ data.dims := h.perm.mem_iff.mp (by simp)
  have h2 : ∀ d ∈ data.dims.filter (fun d => d ≠ lev), d ∈ S.dims := by
    intro d hd'; rw [hS]; exact List.mem_cons_of_mem _ ((hmem d).mp hd')
  have h3 : ∀ d ∈ data.dims.filter (fun d => d ≠ lev), S.size d = data.size d := by
    intro d hd'; rw [hsz d ((hmem d).mp hd'), (h.sizes d ((hmem d).mp hd')).1]
  have h4 : S.dims.filter (fun d => d ∉ data.dims.filter (fun d => d ≠ lev)) = [hd] := by
    have hpos : hd ∉ data.dims.filter (fun d => d ≠ lev) := fun hh => hnew ((hmem hd).mp hh)
    rw [hS, List.filter_cons, if_pos (decide_eq_true hpos)]
    rw [List.filter_eq_nil_iff.mpr]
    intro d hd' hc
    exact (of_decide_eq_true hc) ((hmem d).mpr hd')
  obtain ⟨t, ht⟩ := indicesOf_head data.size (data.dims.filter (fun d => d ≠ lev))
    (fun d hd' => by rw [(h.sizes d ((hmem d).mp hd')).1]; exact (h.sizes d ((hmem d).mp hd')).2)
  have h5 : Py.index (LArr.indicesOf data.size (data.dims.filter (fun d => d ≠ lev))) 0 = .ok (fun _ => 0) := by
    rw [ht]; rfl
  unfold sigmaColumns
  simp only [h1, not_true_eq_false, if_false, h4, h5, h.sizeLev, bind, Except.bind, pure, Except.pure]
  rw [if_neg (not_not.mpr h2), if_neg (not_not.mpr h3)]
  rfl

end

theorem sigma_line (ps : LArr ℝ) (S : LArr ℝ) (hd : String) (m : ℕ) (a b : ℕ → ℝ) (p0 : ℝ) (hnew : hd ∉ ps.dims) (hw : ps.WF)
    (hsz : S.size hd = m) (hget : ∀ i, S.get i = a (i hd) * p0 / ps.get i + b (i hd)) (i : String → ℕ) :
    S.line hd i = column m (hybridSigma a b p0 ps i) := by
  unfold LArr.line column
  rw [hsz]
  refine List.map_congr_left fun k _ => ?_
  rw [hget, hybridSigma]
  have : ps.get (Function.update i hd k) = ps.get i := by
    refine hw _ _ fun d hd' => ?_
    rw [Function.update_of_ne]
    rintro rfl
    exact hnew hd'
  simp [this]

/-- a well-formed call of `interp_sigma_to_hybrid`: `n` distinct sigma levels `s`, `m ≥ 1` hybrid levels with coefficients `a`, `b`,
at every grid point in increasing or decreasing order of sigma -/
structure SigmaCall (method lev hd : String) (n : ℕ) (s : ℕ → ℝ) (m : ℕ) (a b : ℕ → ℝ) (p0 : ℝ) (ps : LArr ℝ) (data : LArr (XF ℝ)) :
    Prop where
  known : method = "linear" ∨ method = "log"
  grid : SigmaData lev n ps data
  hdNew : hd ∉ ps.dims
  levels : 0 < m
  distinct : Distinct n s
  sorted : ∀ i, AtPoint ps i → Sorted (column m (hybridSigma a b p0 ps i))
  positive : method = "log" → (∀ k < n, 0 < s k) ∧ ∀ i, AtPoint ps i → ∀ k < m, 0 < hybridSigma a b p0 ps i k

theorem sigma_call_eq (levDim cf : Option String) (method lev hd : String) (hl : levDim = some lev ∨ levDim = none ∧ cf = some lev)
    (n : ℕ) (s : ℕ → ℝ) (m : ℕ) (a b : ℕ → ℝ) (p0 : ℝ) (ps : LArr ℝ) (data : LArr (XF ℝ))
    (h : SigmaCall method lev hd n s m a b p0 ps data) :
    ∃ S, S.line hd (fun _ => 0) = column m (hybridSigma a b p0 ps (fun _ => 0)) ∧
      interpSigmaToHybrid Real.log levDim cf method p0 (column n s) data ps (vec hd m a) (vec hd m b) = (do
      let _ ← (LArr.indicesOf data.size (data.dims.filter (fun d => d ≠ lev))).mapM
        (sigmaOne (coordOf method) hd lev (column n s) S data (min n m))
      return (⟨data.dims.map (fun d => if d = lev then "hlev" else d), fun d => if d = "hlev" then min n m else data.size d,
        fun i => pick (sigmaOne (coordOf method) hd lev (column n s) S data (min n m) i) (i "hlev")⟩, S.line hd (fun _ => 0))) ∧
      ∀ i, AtPoint ps i → ∃ r, interpolate1d ((S.line hd i).map (coordOf method)) ((column n s).map (coordOf method)) (data.line lev i) = .ok r ∧
        r.length = m ∧ ∀ q < m, InterpAt n (fun k => coordOf method (s k)) (levelValue lev data i)
          (coordOf method (hybridSigma a b p0 ps i q)) (r.getD q .nan) := by
  obtain ⟨S, hS, hdims, hsz, hszs, hget⟩ := sigma_spec ps hd m a b p0 h.hdNew
  have hline := sigma_line ps S hd m a b p0 h.hdNew h.grid.wf hsz hget
  refine ⟨S, hline _, ?_, ?_⟩
  · have hfn : funcInterpolate Real.log method = .ok (coordOf method) := by
      rcases h.known with hm | hm <;> simp [funcInterpolate, coordOf, hm]
    have hnh : Py.index (vec hd m a).shape 0 = .ok m := rfl
    rw [← sigmaColumns_eq (coordOf method) lev hd (column n s) ps data n h.grid S hdims hszs h.hdNew m]
    unfold interpSigmaToHybrid
    rcases hl with hl | ⟨hl, hc⟩
    · simp only [hl, hfn, hS, hnh, bind, Except.bind, pure, Except.pure]
    · simp only [hl, hc, hfn, hS, hnh, bind, Except.bind, pure, Except.pure]
  · intro i hi
    have hmono := coordOf_mono method
    have hsS : ∀ k < n, s k ∈ domainOf method := by
      intro k hk
      unfold domainOf
      split_ifs with hm
      · exact (h.positive hm).1 k hk
      · trivial
    have hxS : ∀ t ∈ column m (hybridSigma a b p0 ps i), t ∈ domainOf method := by
      intro t ht
      unfold domainOf
      split_ifs with hm
      · simp only [column, List.mem_map, List.mem_range] at ht
        obtain ⟨k, hk, rfl⟩ := ht
        exact (h.positive hm).2 i hi k hk
      · trivial
    have hcol : (column n s).map (coordOf method) = column n (fun k => coordOf method (s k)) := by simp [column]
    have hd' : Distinct n (fun k => coordOf method (s k)) := fun k hk l hl he =>
      h.distinct k hk l hl (hmono.injOn (hsS k hk) (hsS l hl) he)
    obtain ⟨r, hr, hf⟩ := interpolate1d_spec n h.grid.two (fun k => coordOf method (s k)) (levelValue lev data i) hd'
      ((column m (hybridSigma a b p0 ps i)).map (coordOf method))
      (by simp [column]; exact h.levels.ne') (sorted_map _ _ hmono _ (h.sorted i hi) hxS)
    rw [← hcol, ← line_data lev n data h.grid.sizeLev i, ← hline i] at hr
    refine ⟨r, hr, ?_, ?_⟩
    · rw [← hf.length_eq]; simp [column]
    · intro q hq
      exact forall₂_getD hf q _ .nan (by simp [column_getElem? _ _ _ hq])

/-- C21 when there are at most as many hybrid levels as sigma levels: the call succeeds, keeps the dimension order, returns one
value per hybrid level, and each column is interpolated on its own at its own sigma values. Missing: more hybrid levels than
sigma levels (`C21_counterexample`), and sigma values that are in no order. -/
theorem C21_columns_partial (levDim cf : Option String) (method lev hd : String) (hl : levDim = some lev ∨ levDim = none ∧ cf = some lev)
    (n : ℕ) (s : ℕ → ℝ) (m : ℕ) (a b : ℕ → ℝ) (p0 : ℝ) (ps : LArr ℝ) (data : LArr (XF ℝ))
    (h : SigmaCall method lev hd n s m a b p0 ps data) (hmn : m ≤ n) :
    ∃ out hlev, interpSigmaToHybrid Real.log levDim cf method p0 (column n s) data ps (vec hd m a) (vec hd m b) = .ok (out, hlev) ∧
      IsSigmaInterpolated (coordOf method) lev n s m a b p0 ps data out ∧
      -- the new level coordinate holds the sigma values of the first column
      hlev = column m (hybridSigma a b p0 ps (fun _ => 0)) := by
  obtain ⟨S, hS0, hcall, hcol⟩ := sigma_call_eq levDim cf method lev hd hl n s m a b p0 ps data h
  have hmin : min n m = m := min_eq_right hmn
  have hone : ∀ i, AtPoint ps i → ∃ r, sigmaOne (coordOf method) hd lev (column n s) S data (min n m) i = .ok r ∧
      ∀ q < m, InterpAt n (fun k => coordOf method (s k)) (levelValue lev data i) (coordOf method (hybridSigma a b p0 ps i q)) (r.getD q .nan) := by
    intro i hi
    obtain ⟨r, h1, h2, h3⟩ := hcol i hi
    refine ⟨r, ?_, h3⟩
    simp [sigmaOne, h1, h2, hmin, bind, Except.bind, pure, Except.pure]
  obtain ⟨rs, hrs⟩ := mapM_total (sigmaOne (coordOf method) hd lev (column n s) S data (min n m))
    (LArr.indicesOf data.size (data.dims.filter (fun d => d ≠ lev))) (by
      intro i hi
      have hb := indicesOf_bounds _ _ i hi
      obtain ⟨r, hr, -⟩ := hone i fun d hd' => by
        rw [← (h.grid.sizes d hd').1]
        exact hb d ((sigmaData_mem h.grid d).mpr hd')
      exact ⟨r, hr⟩)
  rw [hcall, hrs]
  refine ⟨_, _, rfl, ⟨rfl, ?_, ?_, ?_⟩, hS0⟩
  · simp [hmin]
  · intro d hd'
    have : d ≠ "hlev" := fun he => h.grid.hlevNew (he ▸ hd')
    simp [this, (h.grid.sizes d hd').1]
  · intro i hi hq
    obtain ⟨r, hr, hv⟩ := hone i hi
    simp only [hr, pick]
    exact hv _ hq

/-- C21 is false with more hybrid than sigma levels: the consistent call always fails with ValueError, because the result is
assigned into a copy of the data cut to `len(hyam)` levels. -/
theorem C21_counterexample (levDim cf : Option String) (method lev hd : String) (hl : levDim = some lev ∨ levDim = none ∧ cf = some lev)
    (n : ℕ) (s : ℕ → ℝ) (m : ℕ) (a b : ℕ → ℝ) (p0 : ℝ) (ps : LArr ℝ) (data : LArr (XF ℝ))
    (h : SigmaCall method lev hd n s m a b p0 ps data) (hmn : n < m) :
    interpSigmaToHybrid Real.log levDim cf method p0 (column n s) data ps (vec hd m a) (vec hd m b) = .error .valueError := by
  obtain ⟨S, hS0, hcall, hcol⟩ := sigma_call_eq levDim cf method lev hd hl n s m a b p0 ps data h
  obtain ⟨t, ht⟩ := indicesOf_head data.size (data.dims.filter (fun d => d ≠ lev))
    (fun d hd' => by rw [(h.grid.sizes d ((sigmaData_mem h.grid d).mp hd')).1]; exact (h.grid.sizes d ((sigmaData_mem h.grid d).mp hd')).2)
  obtain ⟨r, h1, h2, -⟩ := hcol (fun _ => 0) fun d hd' => (h.grid.sizes d hd').2
  have hmin : min n m = n := min_eq_left hmn.le
  have hne : m ≠ n := hmn.ne'
  have hfail : sigmaOne (coordOf method) hd lev (column n s) S data (min n m) (fun _ => 0) = .error .valueError := by
    simp [sigmaOne, h1, h2, hmin, hne, bind, Except.bind, throw, throwThe, MonadExceptOf.throw]
  rw [hcall, ht]
  simp [List.mapM_cons, hfail, bind, Except.bind]

/-- two latitudes, three sigma levels -/
noncomputable def sigmaPs : LArr ℝ := ⟨["lat"], fun _ => 2, fun i => if i "lat" = 0 then 100000 else 80000⟩
noncomputable def sigmaDemo : LArr (XF ℝ) := ⟨["lat", "lev"], fun d => if d = "lev" then 3 else 2, fun i => .fin (10 * i "lev")⟩

theorem sigma_demo_call (m : ℕ) (hm : 0 < m) :
    SigmaCall "linear" "lev" "hyb" 3 (fun k => (k + 1) / 4) m (fun _ => 0) (fun k => (k + 1) / 5) 100000 sigmaPs sigmaDemo where
  known := Or.inl rfl
  grid := {
    two := by norm_num
    levNew := by simp [sigmaPs]
    hlevNew := by simp [sigmaPs]
    perm := by simp [sigmaPs, sigmaDemo]; exact List.Perm.swap _ _ _
    sizeLev := by simp [sigmaDemo]
    sizes := by intro d hd; simp [sigmaPs] at hd; subst hd; simp [sigmaPs, sigmaDemo]
    wf := by intro i j hij; simp [sigmaPs, hij "lat" (by simp [sigmaPs])] }
  hdNew := by simp [sigmaPs]
  levels := hm
  distinct := by
    intro i _ j _ hij
    have : (i : ℝ) = j := by linarith
    exact_mod_cast this
  sorted := by
    intro i _
    left
    simp only [column, hybridSigma, zero_mul, zero_div, zero_add, List.pairwise_map]
    refine List.pairwise_lt_range.imp ?_
    intro x y hxy
    have : (x : ℝ) < y := by exact_mod_cast hxy
    linarith
  positive := by intro hh; exact absurd hh (by decide)

example : (∃ out hlev, interpSigmaToHybrid Real.log (some "lev") none "linear" 100000 (column 3 (fun k => ((k : ℝ) + 1) / 4)) sigmaDemo sigmaPs
    (vec "hyb" 2 (fun _ => 0)) (vec "hyb" 2 (fun k => ((k : ℝ) + 1) / 5)) = .ok (out, hlev) ∧ out.dims = ["lat", "hlev"]) ∧
    interpSigmaToHybrid Real.log (some "lev") none "linear" 100000 (column 3 (fun k => ((k : ℝ) + 1) / 4)) sigmaDemo sigmaPs
    (vec "hyb" 4 (fun _ => 0)) (vec "hyb" 4 (fun k => ((k : ℝ) + 1) / 5)) = .error .valueError := by
  constructor
  · obtain ⟨out, hlev, h1, h2, -⟩ := C21_columns_partial (some "lev") none "linear" "lev" "hyb" (Or.inl rfl) 3 _ 2 _ _ 100000 sigmaPs sigmaDemo
      (sigma_demo_call 2 (by norm_num)) (by norm_num)
    exact ⟨out, hlev, h1, by rw [h2.dims]; rfl⟩
  · exact C21_counterexample (some "lev") none "linear" "lev" "hyb" (Or.inl rfl) 3 _ 4 _ _ 100000 sigmaPs sigmaDemo
      (sigma_demo_call 4 (by norm_num)) (by norm_num)

end Verif.Props
