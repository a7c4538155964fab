import Verif.Props.HybridInterp3
import Verif.Props.Sigma
import Verif.Props.Multidim2

/-
Property C153: the value at a requested level or point does not depend on what else is requested in the same call.
-/

set_option linter.unusedSectionVars false
namespace Verif.Props
open Model Spec Lemmas

section
variable {K : Type} [Field K] [LinearOrder K] [IsStrictOrderedRing K]

/-- for requested coordinates in order, each value of the result is the one of its own coordinate -/
theorem interpolate1d_points (x xp : List K) (v y : List (XF K)) (hs : Sorted x) (h : interpolate1d x xp v = .ok y) :
    List.Forall₂ (fun a b => interpPoint ((sortPairs xp v).map (·.1)) ((sortPairs xp v).map (·.2)) a = .ok b) x y := by
  unfold interpolate1d at h
  by_cases h1 : xp.length ≠ v.length
  · simp [h1, bind, Except.bind, throw, throwThe, MonadExceptOf.throw] at h
  by_cases hx : x = []
  · subst hx
    simp [h1, bind, Except.bind, throw, throwThe, MonadExceptOf.throw] at h
  have hemp : x.isEmpty = false := by simpa using hx
  have hxl : 1 ≤ x.length := List.length_pos_of_ne_nil hx
  obtain ⟨f, hf⟩ : ∃ f : ℕ → K, x = column x.length f := @list_eq_column K ⟨0⟩ x
  have i0 : Py.index x 0 = .ok (f 0) := by rw [hf]; exact index_first _ hxl f
  have i1 : Py.index x (-1) = .ok (f (x.length - 1)) := by
    conv_lhs => rw [hf]
    exact index_last _ hxl f
  have hfi : ∀ i (h : i < x.length), x[i] = f i := by
    intro i h
    have : x[i]? = some (f i) := by
      conv_lhs => rw [hf]
      exact column_getElem? _ _ _ h
    rw [List.getElem?_eq_getElem h] at this
    exact Option.some.inj this
  simp only [h1, hemp, if_false, bind, Except.bind, pure, Except.pure, Bool.false_eq_true, i0, i1] at h
  split at h
  · cases h
  rename_i r hr
  have hfr := (mapM_ok_iff _ _ _).mp hr
  injection h with h
  rw [← h]
  rcases hs with hs | hs
  · have hsort : x.insertionSort (· ≤ ·) = x := hs.insertionSort_eq
    rw [hsort] at hfr
    have : ¬ f (x.length - 1) < f 0 := by
      rcases Nat.eq_or_lt_of_le hxl with h | h
      · rw [← h]; simp
      · have := List.pairwise_iff_getElem.mp hs 0 (x.length - 1) (by omega) (by omega) (by omega)
        rw [hfi, hfi] at this
        exact not_lt.mpr this
    rw [if_neg this]
    exact hfr
  · have hsort : x.insertionSort (· ≤ ·) = x.reverse := by
      refine List.Perm.eq_of_pairwise' (r := (· ≤ ·)) (List.pairwise_insertionSort _ _) (List.pairwise_reverse.mpr hs) ?_
      exact (List.perm_insertionSort _ _).trans (List.reverse_perm x).symm
    rw [hsort] at hfr
    split
    · have := List.rel_reverse hfr
      rwa [List.reverse_reverse] at this
    · rename_i hlt
      have hge : ∀ i j (hi : i < x.length) (hj : j < x.length), i ≤ j → x[j] ≤ x[i] := by
        intro i j hi hj hij
        rcases eq_or_lt_of_le hij with rfl | hl
        · exact le_refl _
        · exact List.pairwise_iff_getElem.mp hs i j hi hj hl
      have hall : ∀ i (h : i < x.length), x[i] = f 0 := by
        intro i h
        have a := hge 0 i (by omega) h (by omega)
        have b := hge i (x.length - 1) h (by omega) (by omega)
        rw [hfi 0 (by omega)] at a
        rw [hfi (x.length - 1) (by omega)] at b
        exact le_antisymm a ((not_lt.mp hlt).trans b)
      have hrev : x.reverse = x := by
        apply List.ext_getElem
        · simp
        · intro i h1 h2
          rw [List.getElem_reverse, hall, hall]
      rw [hrev] at hfr
      exact hfr

/-- the same coordinate in two ordered requests gets the same value -/
theorem pick_same (x x' xp : List K) (v y y' : List (XF K)) (hs : Sorted x) (hs' : Sorted x') (h : interpolate1d x xp v = .ok y)
    (h' : interpolate1d x' xp v = .ok y') (q q' : ℕ) (t : K) (hq : x[q]? = some t) (hq' : x'[q']? = some t) : y.getD q .nan = y'.getD q' .nan := by
  have a := forall₂_getD (interpolate1d_points x xp v y hs h) q t .nan hq
  have b := forall₂_getD (interpolate1d_points x' xp v y' hs' h') q' t .nan hq'
  rw [a] at b
  injection b

end

theorem column_update_get {A : Type _} (arr : LArr A) (hw : arr.WF) (d : String) (hd : d ∉ arr.dims) (i : String → ℕ) (k : ℕ) :
    arr.get (Function.update i d k) = arr.get i :=
  hw _ _ fun d' hd' => Function.update_of_ne (fun he => hd (by rw [← he]; exact hd')) _ _

theorem levelValue_update (lev d : String) (data : LArr (XF ℝ)) (hw : data.WF) (hd : d ∈ data.dims → d = lev) (i : String → ℕ) (k : ℕ) :
    levelValue lev data (Function.update i d k) = levelValue lev data i := by
  funext l
  unfold levelValue
  refine hw _ _ fun d' hd' => ?_
  by_cases h1 : d' = lev
  · subst h1; simp
  · rw [Function.update_of_ne h1, Function.update_of_ne h1]
    by_cases h2 : d' = d
    · subst h2; exact absurd (hd hd') h1
    · exact Function.update_of_ne h2 _ _

/-- C153, `interp_hybrid_to_pressure`, with or without extrapolation: two calls that differ only in the requested pressures (each list in increasing or in decreasing
order) and in the chunking give the same value at each pressure that both request. -/
theorem C153_pressure_levels (o : HybridOpts) (lev e : String) (n : ℕ) (a b : ℕ → ℝ) (p0 : ℝ) (x x' : List ℝ) (ps : LArr ℝ) (data : LArr (XF ℝ))
    (h : GoodCall o lev n a b p0 x ps data) (h' : GoodCall o lev n a b p0 x' ps data) (chunks chunks' : Option (String → List ℕ)) (others others' : Bool)
    (hv : ValidChunks data chunks others) (hv' : ValidChunks data chunks' others') (labels : List ℝ) (tBot phi : LArr (XF ℝ))
    (hw : data.WF) (hwt : tBot.WF ∧ "plev" ∉ tBot.dims) (hwp : phi.WF ∧ "plev" ∉ phi.dims) (out out' : LArr (XF ℝ))
    (hout : interpHybridToPressure o p0 x chunks others labels data ps (vec lev n a) (vec e n b) tBot phi = .ok out)
    (hout' : interpHybridToPressure o p0 x' chunks' others' labels data ps (vec lev n a) (vec e n b) tBot phi = .ok out')
    (i : String → ℕ) (hi : AtPoint ps i) (q q' : ℕ) (y : ℝ) (hq : x[q]? = some y) (hq' : x'[q']? = some y) :
    out.get (Function.update i "plev" q) = out'.get (Function.update i "plev" q') := by
  have hat : ∀ k, AtPoint ps (Function.update i "plev" k) := by
    intro k d hd
    rw [Function.update_of_ne (fun he => h.grid.plevNew (by rw [← he]; exact hd))]
    exact hi d hd
  have hps : ∀ k, ps.get (Function.update i "plev" k) = ps.get i := fun k => column_update_get ps h.grid.wf "plev" h.grid.plevNew i k
  have hdl : "plev" ∈ data.dims → "plev" = lev := by
    intro hd
    rcases List.mem_cons.mp (h.grid.perm.mem_iff.mpr hd) with he | he
    · exact he
    · exact absurd he h.grid.plevNew
  have hval : ∀ k, levelValue lev data (Function.update i "plev" k) = levelValue lev data i := fun k => levelValue_update lev "plev" data hw hdl i k
  have hpr : ∀ k, levelPressure a b p0 ps (Function.update i "plev" k) = levelPressure a b p0 ps i := fun k => by
    funext l; simp [levelPressure, hps]
  rw [call_eq o lev h.accepted] at hout hout'
  have g1 := core_get _ lev e n ps data h.grid a b p0 x chunks others hv labels _ out hout _ (hat q)
  have g2 := core_get _ lev e n ps data h.grid a b p0 x' chunks' others' hv' labels _ out' hout' _ (hat q')
  simp only [hps, hval, hpr, Function.update_self] at g1 g2
  have hxg : x.getD q 0 = y := by rw [List.getD_eq_getElem?_getD, hq]; rfl
  have hxg' : x'.getD q' 0 = y := by rw [List.getD_eq_getElem?_getD, hq']; rfl
  have hd' : Distinct n (fun k => coordOf o.method (levelPressure a b p0 ps i k)) := fun k hk l hl he =>
    h.distinct i hi k hk l hl ((coordOf_mono o.method).injOn (h.mem_p i hi k hk) (h.mem_p i hi l hl) he)
  obtain ⟨r, hr, -⟩ := interpolate1d_spec n h.grid.two _ (levelValue lev data i) hd' (x.map (coordOf o.method)) (by simpa using h.nonempty)
    (sorted_map _ _ (coordOf_mono o.method) x h.sorted h.mem_x)
  obtain ⟨r', hr', -⟩ := interpolate1d_spec n h.grid.two _ (levelValue lev data i) hd' (x'.map (coordOf o.method)) (by simpa using h'.nonempty)
    (sorted_map _ _ (coordOf_mono o.method) x' h'.sorted h'.mem_x)
  have hsame : r.getD q .nan = r'.getD q' .nan :=
    pick_same _ _ _ _ _ _ (sorted_map _ _ (coordOf_mono o.method) x h.sorted h.mem_x) (sorted_map _ _ (coordOf_mono o.method) x' h'.sorted h'.mem_x) hr hr' q q'
      (coordOf o.method y) (by simp [hq]) (by simp [hq'])
  rw [g1, g2, hxg, hxg', hr, hr']
  simp only [pick, hsame]
  cases o.extrapolate with
  | false => rfl
  | true =>
    have hb : ∀ k, belowGround o.variable' lev (argmax labels) data ps tBot phi y (a (argmax labels) * p0 + b (argmax labels) * ps.get i) (Function.update i "plev" k) =
        belowGround o.variable' lev (argmax labels) data ps tBot phi y (a (argmax labels) * p0 + b (argmax labels) * ps.get i) i := by
      intro k
      unfold belowGround
      rw [column_update_get tBot hwt.1 "plev" hwt.2, column_update_get phi hwp.1 "plev" hwp.2, hps]
      have := congrFun (hval k) (argmax labels)
      unfold levelValue at this
      rw [this]
    simp only [if_true, finish, hb]

/-- C153, `interp_sigma_to_hybrid`: two calls that differ only in the hybrid coefficients (both in order, and at most as many as sigma levels) give, in each column, the
same value at each sigma that both request. -/
theorem C153_hybrid_levels (levDim cf : Option String) (method lev hd hd' : String) (hl : levDim = some lev ∨ levDim = none ∧ cf = some lev)
    (n : ℕ) (s : ℕ → ℝ) (m m' : ℕ) (a b a' b' : ℕ → ℝ) (p0 p0' : ℝ) (ps : LArr ℝ) (data : LArr (XF ℝ)) (hw : data.WF)
    (h : SigmaCall method lev hd n s m a b p0 ps data) (h' : SigmaCall method lev hd' n s m' a' b' p0' ps data) (hmn : m ≤ n) (hmn' : m' ≤ n) :
    ∃ out hlev out' hlev', interpSigmaToHybrid Real.log levDim cf method p0 (column n s) data ps (vec hd m a) (vec hd m b) = .ok (out, hlev) ∧
      interpSigmaToHybrid Real.log levDim cf method p0' (column n s) data ps (vec hd' m' a') (vec hd' m' b') = .ok (out', hlev') ∧
      ∀ i, AtPoint ps i → ∀ q q', q < m → q' < m' → hybridSigma a b p0 ps i q = hybridSigma a' b' p0' ps i q' →
        out.get (Function.update i "hlev" q) = out'.get (Function.update i "hlev" q') := by
  have main : ∀ (hd : String) (m : ℕ) (a b : ℕ → ℝ) (p0 : ℝ), SigmaCall method lev hd n s m a b p0 ps data → m ≤ n →
      ∃ out hlev, interpSigmaToHybrid Real.log levDim cf method p0 (column n s) data ps (vec hd m a) (vec hd m b) = .ok (out, hlev) ∧
        ∀ i, AtPoint ps i → ∃ r, interpolate1d ((column m (hybridSigma a b p0 ps i)).map (coordOf method)) ((column n s).map (coordOf method))
          (column n (levelValue lev data i)) = .ok r ∧ ∀ q < m, out.get (Function.update i "hlev" q) = r.getD q .nan := by
    intro hd m a b p0 h hmn
    obtain ⟨S, hS, hdims, hsz, hszs, hget⟩ := sigma_spec ps hd m a b p0 h.hdNew
    have hline := sigma_line ps S hd m a b p0 h.hdNew h.grid.wf hsz hget
    have hfn : funcInterpolate Real.log method = .ok (coordOf method) := by
      rcases h.known with hm | hm <;> simp [funcInterpolate, coordOf, hm]
    have hnh : Py.index (vec hd m a).shape 0 = .ok m := rfl
    have hcall : interpSigmaToHybrid Real.log levDim cf method p0 (column n s) data ps (vec hd m a) (vec hd m b) =
        sigmaColumns (coordOf method) lev (column n s) data S m := by
      unfold interpSigmaToHybrid
      rcases hl with hl | ⟨hl, hc⟩
      · simp only [hl, hfn, hS, hnh, bind, Except.bind, pure, Except.pure]
      · simp only [hl, hc, hfn, hS, hnh, bind, Except.bind, pure, Except.pure]
    rw [hcall, sigmaColumns_eq (coordOf method) lev hd (column n s) ps data n h.grid S hdims hszs h.hdNew m, min_eq_right hmn]
    have hmono := coordOf_mono method
    have hcolS : (column n s).map (coordOf method) = column n (fun k => coordOf method (s k)) := by simp [column]
    have hsS : ∀ k < n, s k ∈ domainOf method := by
      intro k hk
      unfold domainOf
      split_ifs with hm
      · exact (h.positive hm).1 k hk
      · trivial
    have hone : ∀ i, AtPoint ps i → ∃ r, interpolate1d ((column m (hybridSigma a b p0 ps i)).map (coordOf method)) ((column n s).map (coordOf method))
        (column n (levelValue lev data i)) = .ok r ∧ sigmaOne (coordOf method) hd lev (column n s) S data m i = .ok r := by
      intro i hi
      have hxS : ∀ t ∈ column m (hybridSigma a b p0 ps i), t ∈ domainOf method := by
        intro t ht
        unfold domainOf
        split_ifs with hm
        · simp only [column, List.mem_map, List.mem_range] at ht
          obtain ⟨k, hk, rfl⟩ := ht
          exact (h.positive hm).2 i hi k hk
        · trivial
      have hd' : Distinct n (fun k => coordOf method (s k)) := fun k hk l hl he =>
        h.distinct k hk l hl (hmono.injOn (hsS k hk) (hsS l hl) he)
      obtain ⟨r, hr, hf⟩ := interpolate1d_spec n h.grid.two (fun k => coordOf method (s k)) (levelValue lev data i) hd'
        ((column m (hybridSigma a b p0 ps i)).map (coordOf method))
        (by simp [column]; exact h.levels.ne') (sorted_map _ _ hmono _ (h.sorted i hi) hxS)
      rw [← hcolS] at hr
      refine ⟨r, hr, ?_⟩
      have hlen : r.length = m := by rw [← hf.length_eq]; simp [column]
      unfold sigmaOne
      rw [hline i, line_data lev n data h.grid.sizeLev i, hr]
      simp [hlen, bind, Except.bind, pure, Except.pure]
    obtain ⟨rs, hrs⟩ := mapM_total (sigmaOne (coordOf method) hd lev (column n s) S data m)
      (LArr.indicesOf data.size (data.dims.filter (fun d => d ≠ lev))) (by
        intro i hi
        have hb := indicesOf_bounds _ _ i hi
        obtain ⟨r, -, hr⟩ := hone i fun d hd' => by
          rw [← (h.grid.sizes d hd').1]
          exact hb d ((sigmaData_mem h.grid d).mpr hd')
        exact ⟨r, hr⟩)
    rw [hrs]
    refine ⟨_, _, rfl, fun i hi => ?_⟩
    have hps : ∀ k, ps.get (Function.update i "hlev" k) = ps.get i := fun k => column_update_get ps h.grid.wf "hlev" h.grid.hlevNew i k
    have hat : ∀ k, AtPoint ps (Function.update i "hlev" k) := by
      intro k d hd
      rw [Function.update_of_ne (fun he => h.grid.hlevNew (by rw [← he]; exact hd))]
      exact hi d hd
    have hdl : "hlev" ∈ data.dims → "hlev" = lev := by
      intro hd
      rcases List.mem_cons.mp (h.grid.perm.mem_iff.mpr hd) with he | he
      · exact he
      · exact absurd he h.grid.hlevNew
    have hval : ∀ k, levelValue lev data (Function.update i "hlev" k) = levelValue lev data i := fun k => levelValue_update lev "hlev" data hw hdl i k
    have hsig : ∀ k, hybridSigma a b p0 ps (Function.update i "hlev" k) = hybridSigma a b p0 ps i := fun k => by
      funext l; simp [hybridSigma, hps]
    obtain ⟨r, hr, -⟩ := hone i hi
    refine ⟨r, hr, fun q hq => ?_⟩
    obtain ⟨r', hr', ho⟩ := hone _ (hat q)
    rw [hval, hsig, hr] at hr'
    injection hr' with hr'
    show pick (sigmaOne (coordOf method) hd lev (column n s) S data m (Function.update i "hlev" q)) (Function.update i "hlev" q "hlev") = _
    rw [ho, Function.update_self, ← hr']
    rfl
  obtain ⟨out, hlev, e1, g1⟩ := main hd m a b p0 h hmn
  obtain ⟨out', hlev', e2, g2⟩ := main hd' m' a' b' p0' h' hmn'
  refine ⟨out, hlev, out', hlev', e1, e2, fun i hi q q' hq hq' he => ?_⟩
  obtain ⟨r, hr, h1⟩ := g1 i hi
  obtain ⟨r', hr', h2⟩ := g2 i hi
  rw [h1 q hq, h2 q' hq']
  have hdom : ∀ (hd : String) (m : ℕ) (a b : ℕ → ℝ) (p0 : ℝ), SigmaCall method lev hd n s m a b p0 ps data →
      Sorted ((column m (hybridSigma a b p0 ps i)).map (coordOf method)) := by
    intro hd m a b p0 h
    refine sorted_map _ _ (coordOf_mono method) _ (h.sorted i hi) fun t ht => ?_
    unfold domainOf
    split_ifs with hm
    · simp only [column, List.mem_map, List.mem_range] at ht
      obtain ⟨k, hk, rfl⟩ := ht
      exact (h.positive hm).2 i hi k hk
    · trivial
  refine pick_same _ _ _ _ _ _ (hdom hd m a b p0 h) (hdom hd' m' a' b' p0' h') hr hr' q q' (coordOf method (hybridSigma a b p0 ps i q)) ?_ ?_
  · simp [column_getElem? _ _ _ hq]
  · simp [column_getElem? _ _ _ hq', he]

/-- C153, `interp_multidim`: two calls that differ only in the requested latitudes and longitudes give the same value at each point that both request. -/
theorem C153_points {K : Type} [Field K] [LinearOrder K] [IsStrictOrderedRing K] (g : GeoGrid K) (y x : ℕ → K) (h : OnAxes g y x) (cyclic : Bool)
    (h2d : cyclic = true → g.lead = 0) (latOut lonOut latOut' lonOut' : List K) (missing : Option (XF K)) (m : GridMethod) (fill : Option (XF K)) :
    ∃ out out', interpMultidim (.xr g) latOut lonOut cyclic missing m fill = .ok (.dataArray, out) ∧
      interpMultidim (.xr g) latOut' lonOut' cyclic missing m fill = .ok (.dataArray, out') ∧
      ∀ t i j i' j' p q, latOut[i]? = some p → lonOut[j]? = some q → latOut'[i']? = some p → lonOut'[j']? = some q → out.get t i j = out'.get t i' j' := by
  cases cyclic with
  | false =>
    obtain ⟨out, h1, -, -, -, -, -, h2⟩ := plain_eq g y x h latOut lonOut missing m fill
    obtain ⟨out', h1', -, -, -, -, -, h2'⟩ := plain_eq g y x h latOut' lonOut' missing m fill
    refine ⟨out, out', h1, h1', fun t i j i' j' p q a b c d => ?_⟩
    rw [h2 t i j p q a b, h2' t i' j' p q c d]
  | true =>
    obtain ⟨out, h1, h2⟩ := cyclic_eq g y x h (h2d rfl) latOut lonOut missing m fill
    obtain ⟨out', h1', h2'⟩ := cyclic_eq g y x h (h2d rfl) latOut' lonOut' missing m fill
    refine ⟨out, out', h1, h1', fun t i j i' j' p q a b c d => ?_⟩
    rw [h2 t i j p q a b, h2' t i' j' p q c d]

/-- two requests with a pressure in common, on the demonstration grid -/
example : GoodCall (demoOpts "log" true (some "other")) "lev" 2 (fun _ => 0) demoB 100000 [50000, 75000] demoPs demoData ∧
    GoodCall (demoOpts "log" true (some "other")) "lev" 2 (fun _ => 0) demoB 100000 [110000, 100000, 75000, 60000] demoPs demoData ∧ demoData.WF ∧
    "plev" ∉ demoData.dims ∧ ([50000, 75000] : List ℝ)[1]? = some 75000 ∧ ([110000, 100000, 75000, 60000] : List ℝ)[2]? = some 75000 := by
  refine ⟨demo_good _ (Or.inr rfl) _ _ (by simp) (Or.inl (by simp; norm_num)) (by simp),
    demo_good _ (Or.inr rfl) _ _ (by simp) (Or.inr (by simp; norm_num)) (by simp), ?_, by simp [demoData], rfl, rfl⟩
  intro i j hij
  simp only [demoData]
  rw [hij "lev" (by simp [demoData])]

/-- two and three hybrid levels on three sigma levels -/
example : SigmaCall "linear" "lev" "hyb" 3 (fun k => (k + 1) / 4) 2 (fun _ => 0) (fun k => (k + 1) / 5) 100000 sigmaPs sigmaDemo ∧
    SigmaCall "linear" "lev" "hyb" 3 (fun k => (k + 1) / 4) 3 (fun _ => 0) (fun k => (k + 1) / 5) 100000 sigmaPs sigmaDemo ∧ sigmaDemo.WF := by
  refine ⟨sigma_demo_call 2 (by norm_num), sigma_demo_call 3 (by norm_num), ?_⟩
  intro i j hij
  simp only [sigmaDemo]
  rw [hij "lev" (by simp [sigmaDemo])]

example : OnAxes sampleGrid (fun i => 10 * (i : ℚ)) (fun j => 120 * (j : ℚ)) ∧ sampleGrid.lead = 0 := ⟨sampleGrid_onAxes, rfl⟩

end Verif.Props
