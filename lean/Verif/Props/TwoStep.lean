import Verif.Props.VertLinear

/-
Property C194: from sigma levels to hybrid levels to pressure levels, by `interp_sigma_to_hybrid` and then `interp_hybrid_to_pressure`.
-/

set_option linter.unusedSectionVars false
namespace Verif.Props
open Model Spec Lemmas

theorem pressure_sigma (a b : ℕ → ℝ) (p0 : ℝ) (ps : LArr ℝ) (i : String → ℕ) (h : 0 < ps.get i) (k : ℕ) :
    levelPressure a b p0 ps i k = hybridSigma a b p0 ps i k * ps.get i := by
  have := h.ne'
  simp only [levelPressure, hybridSigma]
  field_simp

/-- an interpolated value lies between the smallest and the largest value -/
theorem interpAt_range (n : ℕ) (p : ℕ → ℝ) (v : ℕ → XF ℝ) (f : ℕ → ℝ) (lo hi : ℝ) (hv : ∀ k < n, v k = .fin (f k) ∧ lo ≤ f k ∧ f k ≤ hi) (x : ℝ) (y : XF ℝ)
    (h : InterpAt n p v x y) (ho : ¬ Outside n p x) : ∃ z, y = .fin z ∧ lo ≤ z ∧ z ≤ hi := by
  rcases h with ⟨ho', -⟩ | ⟨-, k, l, hb, hy⟩
  · exact absurd ho' ho
  · obtain ⟨bk, bl, hlt, h1, h2, -⟩ := hb
    obtain ⟨vk, k1, k2⟩ := hv k bk
    obtain ⟨vl, l1, l2⟩ := hv l bl
    have hpos : 0 < p l - p k := sub_pos.mpr hlt
    have ht0 : 0 ≤ (x - p k) / (p l - p k) := div_nonneg (by linarith) hpos.le
    have ht1 : (x - p k) / (p l - p k) ≤ 1 := (div_le_one hpos).mpr (by linarith)
    refine ⟨line p f x k l, ?_, ?_, ?_⟩
    · rw [hy, vk, vl]
      simp [lineValue, line]
    · simp only [line]
      nlinarith
    · simp only [line]
      nlinarith

/-- the result of `interp_sigma_to_hybrid` is proper input of `interp_hybrid_to_pressure` -/
theorem second_call (o : HybridOpts) (ho : Accepted o "hlev") (lev hd : String) (n : ℕ) (s : ℕ → ℝ) (m : ℕ) (a b : ℕ → ℝ) (p0 : ℝ) (x : List ℝ)
    (ps : LArr ℝ) (data out : LArr (XF ℝ)) (h : SigmaCall o.method lev hd n s m a b p0 ps data) (hm : 2 ≤ m) (hpl : "plev" ∉ ps.dims)
    (hps : ∀ i, AtPoint ps i → 0 < ps.get i) (hdis : ∀ i, AtPoint ps i → Distinct m (hybridSigma a b p0 ps i)) (hx : x ≠ []) (hs : Sorted x) (hpos : o.method = "log" → ∀ y ∈ x, 0 < y)
    (hi : IsSigmaInterpolated (coordOf o.method) lev n s m a b p0 ps data out) : GoodCall o "hlev" m a b p0 x ps out where
  accepted := ho
  grid := {
    two := hm
    levNew := h.grid.hlevNew
    plevNew := hpl
    perm := by
      rw [hi.dims]
      have := h.grid.perm.map (fun d => if d = lev then "hlev" else d)
      refine List.Perm.trans ?_ this
      simp only [List.map_cons, if_true]
      refine List.Perm.cons _ ?_
      have : ps.dims.map (fun d => if d = lev then "hlev" else d) = ps.dims := by
        rw [List.map_congr_left (g := id)]
        · simp
        · intro d hd'
          rw [if_neg (fun he : d = lev => h.grid.levNew (he ▸ hd'))]
          rfl
      rw [this]
    sizeLev := hi.sizeHlev
    sizes := fun d hd' => ⟨hi.sizes d hd', (h.grid.sizes d hd').2⟩
    wf := h.grid.wf }
  nonempty := hx
  sorted := hs
  distinct := by
    intro i hpt k hk l hl he
    rw [pressure_sigma a b p0 ps i (hps i hpt), pressure_sigma a b p0 ps i (hps i hpt)] at he
    exact hdis i hpt k hk l hl (mul_right_cancel₀ (hps i hpt).ne' he)
  positive := fun hl => ⟨hpos hl, fun i hpt k hk => by
    rw [pressure_sigma a b p0 ps i (hps i hpt)]
    exact mul_pos ((h.positive hl).2 i hpt k hk) (hps i hpt)⟩

/-- the values at the hybrid levels, as input of the second call -/
theorem step_values (g : ℝ → ℝ) (lev : String) (n : ℕ) (s : ℕ → ℝ) (m : ℕ) (a b : ℕ → ℝ) (p0 : ℝ) (ps : LArr ℝ) (data out : LArr (XF ℝ))
    (hg : SigmaData lev n ps data) (hw : data.WF) (hi : IsSigmaInterpolated g lev n s m a b p0 ps data out) (i : String → ℕ) (hpt : AtPoint ps i) (k : ℕ)
    (hk : k < m) :
    InterpAt n (fun k => g (s k)) (levelValue lev data i) (g (hybridSigma a b p0 ps i k)) (levelValue "hlev" out i k) := by
  have hpt' : AtPoint ps (Function.update i "hlev" k) := by
    intro d hd
    rw [Function.update_of_ne (fun he : d = "hlev" => hg.hlevNew (he ▸ hd))]
    exact hpt d hd
  have key := hi.value (Function.update i "hlev" k) hpt' (by simpa using hk)
  have hp : ps.get (Function.update i "hlev" k) = ps.get i := hg.wf _ _ fun d hd => by rw [Function.update_of_ne (fun he : d = "hlev" => hg.hlevNew (he ▸ hd))]
  have hd : levelValue lev data (Function.update i "hlev" k) = levelValue lev data i := by
    funext q
    apply hw
    intro d hd
    by_cases h1 : d = lev
    · subst h1
      simp
    · rw [Function.update_of_ne h1, Function.update_of_ne h1]
      have h2 : d ∈ ps.dims := by
        rcases List.mem_cons.mp (hg.perm.symm.subset hd) with h | h
        · exact absurd h h1
        · exact h
      rw [Function.update_of_ne (fun he : d = "hlev" => hg.hlevNew (he ▸ h2))]
  have hs : hybridSigma a b p0 ps (Function.update i "hlev" k) ((Function.update i "hlev" k) "hlev") = hybridSigma a b p0 ps i k := by
    simp only [hybridSigma, hp, Function.update_self]
  rw [hd, hs] at key
  exact key

/-- **C194, partial: profiles.** Data on sigma levels are interpolated to hybrid levels and the result is interpolated to pressures. If the column's values
are `c + d * sigma` (method "linear") or `c + d * log sigma` (method "log"), the value at a pressure `y` within the hybrid levels is that of the profile at
`sigma = y / ps`, provided the hybrid levels lie within the sigma levels. Needed: the dimension of the coefficients is called `hlev`. -/
theorem C194_profile_partial (levDim cf : Option String) (lev : String) (hl : levDim = some lev ∨ levDim = none ∧ cf = some lev) (o : HybridOpts)
    (ho : Accepted o "hlev") (hx : o.extrapolate = false) (n : ℕ) (s : ℕ → ℝ) (m : ℕ) (a b : ℕ → ℝ) (p0 : ℝ) (x : List ℝ) (ps : LArr ℝ) (data : LArr (XF ℝ))
    (h : SigmaCall o.method lev "hlev" n s m a b p0 ps data) (hw : data.WF) (hmn : m ≤ n) (hm : 2 ≤ m) (hpl : "plev" ∉ ps.dims)
    (hps : ∀ i, AtPoint ps i → 0 < ps.get i) (hdis : ∀ i, AtPoint ps i → Distinct m (hybridSigma a b p0 ps i)) (hne : x ≠ []) (hs : Sorted x) (hpos : o.method = "log" → ∀ y ∈ x, 0 < y) (labels : List ℝ)
    (tBot phi : LArr (XF ℝ)) :
    ∃ mid hlev out, interpSigmaToHybrid Real.log levDim cf o.method p0 (column n s) data ps (vec "hlev" m a) (vec "hlev" m b) = .ok (mid, hlev) ∧
      interpHybridToPressure o p0 x none false labels mid ps (vec "hlev" m a) (vec "hlev" m b) tBot phi = .ok out ∧
      out.dims = data.dims.map (fun d => if d = lev then "plev" else d) ∧
      ∀ i, AtPoint ps i → (∀ k < m, ¬ Outside n s (hybridSigma a b p0 ps i k)) → ∀ y, x[i "plev"]? = some y →
        ¬ Outside m (levelPressure a b p0 ps i) y → ∀ c d : ℝ,
        (o.method = "linear" → (∀ k < n, levelValue lev data i k = .fin (c + d * s k)) → out.get i = .fin (c + d * (y / ps.get i))) ∧
        (o.method = "log" → (∀ k < n, levelValue lev data i k = .fin (c + d * Real.log (s k))) → out.get i = .fin (c + d * Real.log (y / ps.get i))) := by
  obtain ⟨mid, hlev, e1, i1, -⟩ := C21_columns_partial levDim cf o.method lev "hlev" hl n s m a b p0 ps data h hmn
  have hgood := second_call o ho lev "hlev" n s m a b p0 x ps data mid h hm hpl hps hdis hne hs hpos i1
  obtain ⟨out, e2, i2⟩ := call_spec o "hlev" "hlev" m a b p0 x ps mid hgood hx none false rfl labels tBot phi
  refine ⟨mid, hlev, out, e1, e2, ?_, fun i hpt hins y hy hin c d => ?_⟩
  · rw [i2.dims, i1.dims, List.map_map]
    refine List.map_congr_left fun d hd => ?_
    by_cases h1 : d = lev
    · simp [h1]
    · have h2 : d ∈ ps.dims := by
        rcases List.mem_cons.mp (h.grid.perm.symm.subset hd) with h | h
        · exact absurd h h1
        · exact h
      have h3 : d ≠ "hlev" := fun he => h.grid.hlevNew (he ▸ h2)
      simp [h1, h3]
  · have hp := hps i hpt
    have hv : ∀ k < m, _ := fun k hk => step_values (coordOf o.method) lev n s m a b p0 ps data mid h.grid hw i1 i hpt k hk
    have hv2 := i2.value i hpt y hy
    have hin' : ¬ Outside m (fun k => coordOf o.method (levelPressure a b p0 ps i k)) (coordOf o.method y) := by
      rw [outside_transform _ _ (coordOf_mono o.method) m _ (hgood.mem_p i hpt) _ (hgood.mem_x y (List.mem_of_getElem? hy))]
      exact hin
    have key := fun c' d' hp => interpAt_linear m _ _ c' d' hp _ _ hv2 hin'
    constructor
    · intro hme hpr
      have hc : ∀ z, coordOf o.method z = z := fun z => by rw [hme]; simp [coordOf]
      have := key c (d / ps.get i) (fun k hk => by
        have := interpAt_linear n _ _ c d (fun q hq => by rw [hpr q hq, hc]) _ _ (hv k hk) (by rw [h.outside_iff i hpt k hk]; exact hins k hk)
        rw [this, hc, hc, pressure_sigma a b p0 ps i hp]
        congr 1
        field_simp)
      rw [this, hc]
      congr 1
      ring
    · intro hme hpr
      have hc : ∀ z, coordOf o.method z = Real.log z := fun z => by rw [hme]; simp [coordOf]
      have := key (c - d * Real.log (ps.get i)) d (fun k hk => by
        have := interpAt_linear n _ _ c d (fun q hq => by rw [hpr q hq, hc]) _ _ (hv k hk) (by rw [h.outside_iff i hpt k hk]; exact hins k hk)
        rw [this, hc, hc, pressure_sigma a b p0 ps i hp, Real.log_mul ((h.positive hme).2 i hpt k hk).ne' hp.ne']
        congr 1
        ring)
      rw [this, hc, Real.log_div (hpos hme y (List.mem_of_getElem? hy)).ne' hp.ne']
      congr 1
      ring

/-- **C194, partial: bounds.** The same two calls for any column of numbers: at a pressure within the hybrid levels the result is a number between the
smallest and the largest value of the column. -/
theorem C194_bounds_partial (levDim cf : Option String) (lev : String) (hl : levDim = some lev ∨ levDim = none ∧ cf = some lev) (o : HybridOpts)
    (ho : Accepted o "hlev") (hx : o.extrapolate = false) (n : ℕ) (s : ℕ → ℝ) (m : ℕ) (a b : ℕ → ℝ) (p0 : ℝ) (x : List ℝ) (ps : LArr ℝ) (data : LArr (XF ℝ))
    (h : SigmaCall o.method lev "hlev" n s m a b p0 ps data) (hw : data.WF) (hmn : m ≤ n) (hm : 2 ≤ m) (hpl : "plev" ∉ ps.dims)
    (hps : ∀ i, AtPoint ps i → 0 < ps.get i) (hdis : ∀ i, AtPoint ps i → Distinct m (hybridSigma a b p0 ps i)) (hne : x ≠ []) (hs : Sorted x) (hpos : o.method = "log" → ∀ y ∈ x, 0 < y) (labels : List ℝ)
    (tBot phi : LArr (XF ℝ)) :
    ∃ mid hlev out, interpSigmaToHybrid Real.log levDim cf o.method p0 (column n s) data ps (vec "hlev" m a) (vec "hlev" m b) = .ok (mid, hlev) ∧
      interpHybridToPressure o p0 x none false labels mid ps (vec "hlev" m a) (vec "hlev" m b) tBot phi = .ok out ∧
      ∀ i, AtPoint ps i → (∀ k < m, ¬ Outside n s (hybridSigma a b p0 ps i k)) → ∀ y, x[i "plev"]? = some y →
        ¬ Outside m (levelPressure a b p0 ps i) y → ∀ (f : ℕ → ℝ) (lo hi : ℝ), (∀ k < n, levelValue lev data i k = .fin (f k) ∧ lo ≤ f k ∧ f k ≤ hi) →
        ∃ v, out.get i = .fin v ∧ lo ≤ v ∧ v ≤ hi := by
  obtain ⟨mid, hlev, e1, i1, -⟩ := C21_columns_partial levDim cf o.method lev "hlev" hl n s m a b p0 ps data h hmn
  have hgood := second_call o ho lev "hlev" n s m a b p0 x ps data mid h hm hpl hps hdis hne hs hpos i1
  obtain ⟨out, e2, i2⟩ := call_spec o "hlev" "hlev" m a b p0 x ps mid hgood hx none false rfl labels tBot phi
  refine ⟨mid, hlev, out, e1, e2, fun i hpt hins y hy hin f lo hi hf => ?_⟩
  have hin' : ¬ Outside m (fun k => coordOf o.method (levelPressure a b p0 ps i k)) (coordOf o.method y) := by
    rw [outside_transform _ _ (coordOf_mono o.method) m _ (hgood.mem_p i hpt) _ (hgood.mem_x y (List.mem_of_getElem? hy))]
    exact hin
  have h1 : ∀ k < m, ∃ v, levelValue "hlev" mid i k = .fin v ∧ lo ≤ v ∧ v ≤ hi := fun k hk =>
    interpAt_range n _ _ f lo hi hf _ _ (step_values (coordOf o.method) lev n s m a b p0 ps data mid h.grid hw i1 i hpt k hk)
      (by rw [h.outside_iff i hpt k hk]; exact hins k hk)
  choose! v hv using h1
  exact interpAt_range m _ _ v lo hi hv _ _ (i2.value i hpt y hy) hin'

/-- C194 fails if the dimension of the coefficients has any other name, such as `lev`: the second call raises ValueError, because the first has called the
levels of its result `hlev`, and the dimensions of the pressures and of the data differ. -/
theorem C194_counterexample (levDim cf : Option String) (lev hd : String) (hl : levDim = some lev ∨ levDim = none ∧ cf = some lev) (o : HybridOpts)
    (lev' : String) (ho : Accepted o lev') (n : ℕ) (s : ℕ → ℝ) (m : ℕ) (a b : ℕ → ℝ) (p0 : ℝ) (x : List ℝ) (ps : LArr ℝ)
    (data : LArr (XF ℝ)) (h : SigmaCall o.method lev hd n s m a b p0 ps data) (hmn : m ≤ n) (hne : hd ≠ "hlev") (chunks : Option (String → List ℕ))
    (others : Bool) (labels : List ℝ) (tBot phi : LArr (XF ℝ)) :
    ∃ mid hlev, interpSigmaToHybrid Real.log levDim cf o.method p0 (column n s) data ps (vec hd m a) (vec hd m b) = .ok (mid, hlev) ∧
      interpHybridToPressure o p0 x chunks others labels mid ps (vec hd m a) (vec hd m b) tBot phi = .error .valueError := by
  obtain ⟨mid, hlev, e1, i1, -⟩ := C21_columns_partial levDim cf o.method lev hd hl n s m a b p0 ps data h hmn
  refine ⟨mid, hlev, e1, ?_⟩
  obtain ⟨P, hP, hd1, -⟩ := C08_xarray ps hd hd m a b p0 h.hdNew h.grid.wf
  have hno : ¬ P.dims.Perm mid.dims := by
    intro hperm
    have h1 : "hlev" ∈ mid.dims := by
      rw [i1.dims]
      exact List.mem_map.mpr ⟨lev, h.grid.perm.subset (List.mem_cons_self ..), if_pos rfl⟩
    have h2 := hperm.symm.subset h1
    rw [hd1] at h2
    rcases List.mem_cons.mp h2 with h2 | h2
    · exact hne h2.symm
    · exact h.grid.hlevNew h2
  unfold interpHybridToPressure
  rw [checks_of_accepted o lev' ho]
  simp only [bind, Except.bind]
  unfold interpHybridCore
  by_cases hm : lev' ∈ mid.dims
  · simp only [hm, not_true_eq_false, if_false, hP, bind, Except.bind, pure, Except.pure]
    rw [if_pos hno]
    rfl
  · rw [if_pos hm]
    rfl

/-! ### a case -/

/-- three sigma levels, two hybrid levels and two pressures over two latitudes: the hypotheses of the theorems hold -/
theorem twoStep_demo : SigmaCall "linear" "lev" "hlev" 3 (fun k => ((k : ℝ) + 1) / 4) 2 (fun _ => 0) (fun k => ((k : ℝ) + 2) / 5) 100000 sigmaPs sigmaDemo where
  known := Or.inl rfl
  grid := (sigma_demo_call 2 (by norm_num)).grid
  hdNew := by simp [sigmaPs]
  levels := by norm_num
  distinct := (sigma_demo_call 2 (by norm_num)).distinct
  sorted := by
    intro i _
    left
    simp only [column, hybridSigma, zero_mul, zero_div, zero_add, List.pairwise_map]
    refine List.pairwise_lt_range.imp ?_
    intro x y hxy
    have : (x : ℝ) < y := by exact_mod_cast hxy
    linarith
  positive := by intro h; simp at h

/-- 10 k at sigma (k + 1) / 4, that is 40 sigma - 10: at 45000 Pa over a surface pressure of 100000 Pa the two calls give 8 -/
example : ∃ mid hlev out, interpSigmaToHybrid Real.log (some "lev") none "linear" 100000 (column 3 (fun k => ((k : ℝ) + 1) / 4)) sigmaDemo sigmaPs
      (vec "hlev" 2 (fun _ => 0)) (vec "hlev" 2 (fun k => ((k : ℝ) + 2) / 5)) = .ok (mid, hlev) ∧
    interpHybridToPressure { types := [.dataArray, .dataArray, .dataArray, .dataArray], levDim := some "hlev" } 100000 [45000] none false [] mid sigmaPs
      (vec "hlev" 2 (fun _ => 0)) (vec "hlev" 2 (fun k => ((k : ℝ) + 2) / 5)) sigmaDemo sigmaDemo = .ok out ∧ out.get (fun _ => 0) = .fin 8 := by
  obtain ⟨mid, hlev, out, h1, h2, -, h3⟩ := C194_profile_partial (some "lev") none "lev" (Or.inl rfl)
    { types := [.dataArray, .dataArray, .dataArray, .dataArray], levDim := some "hlev" } ⟨rfl, Or.inl rfl, Or.inl rfl, Or.inl ⟨rfl, rfl⟩⟩ rfl 3
    (fun k => ((k : ℝ) + 1) / 4) 2 (fun _ => 0) (fun k => ((k : ℝ) + 2) / 5) 100000 [45000] sigmaPs sigmaDemo twoStep_demo
    (by intro i j hij; simp [sigmaDemo, hij "lev" (by simp [sigmaDemo])]) (by norm_num) (by norm_num) (by simp [sigmaPs])
    (by intro i _; simp only [sigmaPs]; split_ifs <;> norm_num)
    (by
      intro i _ k _ l _ he
      simp only [hybridSigma, zero_mul, zero_div, zero_add] at he
      have : (k : ℝ) = l := by linarith
      exact_mod_cast this) (by simp) (Or.inl (by simp)) (by intro h; simp at h) [] sigmaDemo sigmaDemo
  refine ⟨mid, hlev, out, h1, h2, ?_⟩
  have := (h3 (fun _ => 0) (by intro d hd; simp [sigmaPs]) (by
    intro k hk
    simp only [hybridSigma]
    have : (k : ℝ) = 0 ∨ (k : ℝ) = 1 := by
      rcases (by omega : k = 0 ∨ k = 1) with h | h <;> simp [h]
    rintro (ho | ho)
    · have h0 := ho 0 (by norm_num); rcases this with h | h <;> simp only [h] at h0 <;> norm_num at h0
    · have h0 := ho 2 (by norm_num); rcases this with h | h <;> simp only [h] at h0 <;> norm_num at h0) 45000 (by simp) (by
    rintro (ho | ho)
    · have h0 := ho 0 (by norm_num)
      simp only [levelPressure, sigmaPs] at h0
      norm_num at h0
    · have h0 := ho 1 (by norm_num)
      simp only [levelPressure, sigmaPs] at h0
      norm_num at h0) (-10) 40).1 rfl (by
    intro k _
    simp [levelValue, sigmaDemo]
    ring)
  rw [this]
  simp [sigmaPs]
  norm_num

end Verif.Props
