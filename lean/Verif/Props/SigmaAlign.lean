import Verif.Props.HybridAlign

/-
Property C185 for `interp_sigma_to_hybrid`.
-/

set_option linter.unusedSectionVars false
namespace Verif.Lemmas
open Verif Model Spec Props
variable {K : Type} [Field K] [LinearOrder K] [IsStrictOrderedRing K]

/-- sigma at the hybrid levels, with labels: positions along the levels are paired by label, everything else stays in place -/
theorem sigmaIdx_spec (ps : IArr K K) (hd : String) (n : ℕ) (a b : ℕ → K) (ia ib : String → Option (List K)) (p0 : K)
    (hl : hd ∉ ps.arr.dims) (hw : ps.arr.WF) (q : List (ℕ × ℕ)) (l : Option (List K)) (hq : joinLabels n n (ia hd) (ib hd) = .ok (q, l))
    (hqn : ∀ e ∈ q, e.1 < n) :
    ∃ P, sigmaIdx ps ⟨vec hd n a, ia⟩ ⟨vec hd n b, ib⟩ p0 = .ok P ∧ P.arr.dims = hd :: ps.arr.dims ∧ P.arr.size hd = q.length ∧
      (∀ d ∈ ps.arr.dims, P.arr.size d = ps.arr.size d) ∧
      ∀ i, i hd < q.length → (∀ d ∈ ps.arr.dims, i d < ps.arr.size d) →
        P.arr.get i = a (q.getD (i hd) (0, 0)).1 * p0 / ps.arr.get i + b (q.getD (i hd) (0, 0)).2 := by
  have hf1 : ps.arr.dims.filter (fun d => !([hd] : List String).contains d) = ps.arr.dims := by
    rw [List.filter_eq_self]
    intro f hf
    have : f ≠ hd := fun h => hl (h ▸ hf)
    simp [this]
  set hb : IArr K K := ⟨vec hd n b, ib⟩ with hbdef
  set ha : IArr K K := IArr.map (fun x => x * p0) ⟨vec hd n a, ia⟩ with hadef
  have z1 := izip_ok (fun x y : K => x / y) ha ps (by
    intro d h1 h2
    have : d = hd := by simpa [hadef, IArr.map, LArr.map, vec] using h1
    exact absurd (this ▸ h2) hl)
  set B : IArr K K := ⟨⟨ha.arr.dims ++ ps.arr.dims.filter (fun d => !ha.arr.dims.contains d), fun d => (IArr.pairs ha ps d).length, fun i =>
      (ha.arr.get (fun d => ((IArr.pairs ha ps d).getD (i d) (0, 0)).1)) / (ps.arr.get (fun d => ((IArr.pairs ha ps d).getD (i d) (0, 0)).2))⟩,
      IArr.joined ha ps⟩ with hB
  have hbdims : hb.arr.dims = [hd] := rfl
  have hadims : ha.arr.dims = [hd] := rfl
  have hbsize : hb.arr.size hd = n := rfl
  have hbidx : hb.index hd = ib hd := rfl
  have pl := pairs_left ha ps hd (by simp [hadims]) hl
  have pr : ∀ d ∈ ps.arr.dims, IArr.pairs ha ps d = (List.range (ps.arr.size d)).map (fun i => (i, i)) ∧ IArr.joined ha ps d = ps.index d := by
    intro d hd'
    exact pairs_right ha ps d (by simp only [hadims, List.mem_singleton]; rintro rfl; exact hl hd')
  have hBdims : B.arr.dims = hd :: ps.arr.dims := by
    show ha.arr.dims ++ ps.arr.dims.filter (fun d => !ha.arr.dims.contains d) = _
    rw [hadims, hf1]; rfl
  have hBlev : B.arr.size hd = n := by
    show (IArr.pairs ha ps hd).length = n
    rw [pl.1]
    show ((List.range n).map (fun i => (i, i))).length = n
    simp
  have hBidx : B.index hd = ia hd := by
    show IArr.joined ha ps hd = _
    rw [pl.2]; rfl
  have hj : joinLabels (B.arr.size hd) (hb.arr.size hd) (B.index hd) (hb.index hd) = .ok (q, l) := by
    rw [hbsize, hBlev, hBidx, hbidx]; exact hq
  have z2 := izip_ok (fun x y : K => x + y) B hb (by
    intro d h1 h2
    have : d = hd := by simpa [hbdims] using h2
    subst this
    exact ⟨_, hj⟩)
  have p2 := pairs_both B hb hd (by simp [hBdims]) (by simp [hbdims]) q l hj
  have p3 : ∀ d ∈ ps.arr.dims, IArr.pairs B hb d = (List.range (B.arr.size d)).map (fun i => (i, i)) := by
    intro d hd'
    exact (pairs_left B hb d (by simp [hBdims, hd']) (by simp only [hbdims, List.mem_singleton]; rintro rfl; exact hl hd')).1
  have hBs : ∀ d ∈ ps.arr.dims, B.arr.size d = ps.arr.size d := by
    intro d hd'
    show (IArr.pairs ha ps d).length = _
    rw [(pr d hd').1]; simp
  have hcall : sigmaIdx ps ⟨vec hd n a, ia⟩ hb p0 = IArr.zip (fun x y : K => x + y) B hb := by
    unfold sigmaIdx
    rw [z1]
    rfl
  refine ⟨_, hcall.trans z2, ?_, ?_, ?_, ?_⟩
  · show B.arr.dims ++ hb.arr.dims.filter (fun d => !B.arr.dims.contains d) = _
    rw [hbdims, hBdims]
    simp
  · show (IArr.pairs B hb hd).length = _
    rw [p2.1]
  · intro d hd'
    show (IArr.pairs B hb d).length = _
    rw [p3 d hd']; simp [hBs d hd']
  · intro i hi hps
    show B.arr.get (fun d => ((IArr.pairs B hb d).getD (i d) (0, 0)).1) + hb.arr.get (fun d => ((IArr.pairs B hb d).getD (i d) (0, 0)).2) = _
    have e1 : hb.arr.get (fun d => ((IArr.pairs B hb d).getD (i d) (0, 0)).2) = b (q.getD (i hd) (0, 0)).2 := by
      show b ((IArr.pairs B hb hd).getD (i hd) (0, 0)).2 = _
      rw [p2.1]
    have hlt : (q.getD (i hd) (0, 0)).1 < n := by
      apply hqn
      rw [show q.getD (i hd) (0, 0) = q[i hd] by simp [List.getD, hi]]
      exact List.getElem_mem _
    have e2 : B.arr.get (fun d => ((IArr.pairs B hb d).getD (i d) (0, 0)).1) = a (q.getD (i hd) (0, 0)).1 * p0 / ps.arr.get i := by
      show a ((IArr.pairs ha ps hd).getD ((IArr.pairs B hb hd).getD (i hd) (0, 0)).1 (0, 0)).1 * p0 /
        ps.arr.get (fun d => ((IArr.pairs ha ps d).getD ((IArr.pairs B hb d).getD (i d) (0, 0)).1 (0, 0)).2) = _
      have e3 : ((IArr.pairs ha ps hd).getD ((IArr.pairs B hb hd).getD (i hd) (0, 0)).1 (0, 0)).1 = (q.getD (i hd) (0, 0)).1 := by
        rw [p2.1, pl.1]
        show (((List.range n).map (fun i => (i, i))).getD _ (0, 0)).1 = _
        rw [diag_getD n _ hlt]
      rw [e3]
      congr 1
      apply hw
      intro d hd'
      rw [p3 d hd', (pr d hd').1, hBs d hd', diag_getD _ _ (hps d hd'), diag_getD _ _ (hps d hd')]
    rw [e1, e2]

/-- two arrays of sigma values that agree at the grid points give results that agree at the grid points -/
theorem sigmaColumns_agree (g : K → K) (lev hd : String) (sig : List K) (ps : LArr K) (data : LArr (XF K)) (n : ℕ) (h : SigmaData lev n ps data)
    (S S' : LArr K) (hS : S.dims = hd :: ps.dims) (hS' : S'.dims = hd :: ps.dims) (hsz : ∀ d ∈ ps.dims, S.size d = ps.size d)
    (hsz' : ∀ d ∈ ps.dims, S'.size d = ps.size d) (hnew : hd ∉ ps.dims) (m : ℕ) (hline : ∀ i, AtPoint ps i → S.line hd i = S'.line hd i)
    (out' : LArr (XF K)) (hc : List K) (hok : sigmaColumns g lev sig data S' m = .ok (out', hc)) :
    ∃ out, sigmaColumns g lev sig data S m = .ok (out, hc) ∧ out.dims = out'.dims ∧ out.size = out'.size ∧
      ∀ i, AtPoint ps i → out.get i = out'.get i := by
  rw [sigmaColumns_eq g lev hd sig ps data n h S' hS' hsz' hnew m] at hok
  have hone : ∀ i, AtPoint ps i → sigmaOne g hd lev sig S data (min n m) i = sigmaOne g hd lev sig S' data (min n m) i := by
    intro i hi
    unfold sigmaOne
    rw [hline i hi]
  have hpt : ∀ i ∈ LArr.indicesOf data.size (data.dims.filter (fun d => d ≠ lev)), AtPoint ps i := by
    intro i hi d hd'
    rw [← (h.sizes d hd').1]
    exact indicesOf_bounds _ _ i hi d ((sigmaData_mem h d).mpr hd')
  cases hm : (LArr.indicesOf data.size (data.dims.filter (fun d => d ≠ lev))).mapM (sigmaOne g hd lev sig S' data (min n m)) with
  | error e => rw [hm] at hok; cases hok
  | ok r =>
    obtain ⟨r2, hr2⟩ := mapM_total (sigmaOne g hd lev sig S data (min n m)) (LArr.indicesOf data.size (data.dims.filter (fun d => d ≠ lev))) (by
      intro i hi
      rw [hone i (hpt i hi)]
      exact mapM_ok_mem _ _ _ hm i hi)
    rw [hm] at hok
    rw [sigmaColumns_eq g lev hd sig ps data n h S hS hsz hnew m, hr2]
    simp only [bind, Except.bind, pure, Except.pure, Except.ok.injEq, Prod.mk.injEq] at hok ⊢
    obtain ⟨rfl, h2⟩ := hok
    refine ⟨_, ⟨rfl, ?_⟩, rfl, rfl, ?_⟩
    · rw [← h2, hline _ (fun d hd' => (h.sizes d hd').2)]
    · intro i hi
      show pick _ _ = pick _ _
      rw [hone i hi]

end Verif.Lemmas

namespace Verif.Props
open Verif Model Spec Lemmas

theorem sigmaIdx_call (method lev hd : String) (n : ℕ) (s : ℕ → ℝ) (m : ℕ) (a b : ℕ → ℝ) (ia ib : String → Option (List ℝ)) (p0 : ℝ)
    (ps : IArr ℝ ℝ) (data : IArr ℝ (XF ℝ)) (σ : ℕ → ℕ) (q : List (ℕ × ℕ)) (l : Option (List ℝ))
    (hq : joinLabels m m (ia hd) (ib hd) = .ok (q, l)) (hqn : q.length = m) (hσ : ∀ k < m, q.getD k (0, 0) = (k, σ k))
    (h : SigmaCall method lev hd n s m a (fun k => b (σ k)) p0 ps.arr data.arr) (hmn : m ≤ n) :
    ∃ out, interpSigmaIdx (coordOf method) lev p0 (column n s) data ps ⟨vec hd m a, ia⟩ ⟨vec hd m b, ib⟩ = .ok out ∧
      (∀ d ∈ ps.arr.dims, out.index d = data.index d) ∧
      IsSigmaInterpolated (coordOf method) lev n s m a (fun k => b (σ k)) p0 ps.arr data.arr out.arr := by
  obtain ⟨P, h1, h2, h3, h4, h5⟩ := sigmaIdx_spec ps hd m a b ia ib p0 h.hdNew h.grid.wf q l hq (by
    intro e he
    obtain ⟨k, hk, rfl⟩ := List.getElem_of_mem he
    have := hσ k (by omega)
    rw [show q.getD k (0, 0) = q[k] by simp [List.getD, hk]] at this
    rw [this]
    show k < m
    omega)
  obtain ⟨S', g1, g2, g3, g4, g5⟩ := sigma_spec ps.arr hd m a (fun k => b (σ k)) p0 h.hdNew
  obtain ⟨out', hc, ho, hi, -⟩ := C21_columns_partial (some lev) none method lev hd (Or.inl rfl) n s m a (fun k => b (σ k)) p0 ps.arr data.arr h hmn
  have hfn : funcInterpolate Real.log method = .ok (coordOf method) := by
    rcases h.known with hm | hm <;> simp [funcInterpolate, coordOf, hm]
  have hnh : Py.index (vec hd m a).shape 0 = .ok m := rfl
  have hcols : sigmaColumns (coordOf method) lev (column n s) data.arr S' m = .ok (out', hc) := by
    unfold interpSigmaToHybrid at ho
    simpa only [hfn, g1, hnh, bind, Except.bind, pure, Except.pure] using ho
  have hne : ∀ d ∈ ps.arr.dims, d ≠ hd := fun d hd' he => h.hdNew (he ▸ hd')
  obtain ⟨out, k1, k2, k3, k4⟩ := sigmaColumns_agree (coordOf method) lev hd (column n s) ps.arr data.arr n h.grid P.arr S' h2 g2 h4 g4 h.hdNew m (by
    intro i hi
    unfold LArr.line
    rw [h3, hqn, g3]
    refine List.map_congr_left fun k hk => ?_
    have hk' : k < m := List.mem_range.mp hk
    rw [h5 _ (by simpa [hqn] using hk') (fun d hd' => by rw [Function.update_of_ne (hne d hd')]; exact hi d hd'), g5]
    simp only [Function.update_self, hσ k hk']) out' hc hcols
  refine ⟨⟨out, fun d => if d = "hlev" then some hc else if d = lev then none else data.index d⟩, ?_, ?_, ?_⟩
  · unfold interpSigmaIdx
    simp only [h1, hnh, k1, bind, Except.bind, pure, Except.pure]
  · intro d hd'
    have e1 : d ≠ lev := fun he => h.grid.levNew (he ▸ hd')
    have e2 : d ≠ "hlev" := fun he => h.grid.hlevNew (he ▸ hd')
    simp [e1, e2]
  · refine ⟨by rw [← hi.dims, ← k2], by rw [← hi.sizeHlev, ← k3], fun d hd' => by rw [← hi.sizes d hd', ← k3], fun i hi' hq' => ?_⟩
    show InterpAt _ _ _ _ (out.get i)
    rw [k4 i hi']
    exact hi.value i hi' hq'

/-- C185, `interp_sigma_to_hybrid`, what the code does: the column at position `i` of `data` is interpolated at the sigma values computed from
the surface pressure at position `i` of `ps`, whatever labels `ps` carries; the result carries the labels of `data`. -/
theorem C185_sigma_by_position (method lev hd : String) (n : ℕ) (s : ℕ → ℝ) (m : ℕ) (a b : ℕ → ℝ) (ia ib : String → Option (List ℝ))
    (hab : ia hd = ib hd) (p0 : ℝ) (ps : IArr ℝ ℝ) (data : IArr ℝ (XF ℝ)) (h : SigmaCall method lev hd n s m a b p0 ps.arr data.arr) (hmn : m ≤ n) :
    ∃ out, interpSigmaIdx (coordOf method) lev p0 (column n s) data ps ⟨vec hd m a, ia⟩ ⟨vec hd m b, ib⟩ = .ok out ∧
      (∀ d ∈ ps.arr.dims, out.index d = data.index d) ∧
      IsSigmaInterpolated (coordOf method) lev n s m a b p0 ps.arr data.arr out.arr := by
  refine sigmaIdx_call method lev hd n s m a b ia ib p0 ps data id ((List.range m).map (fun i => (i, i))) (ib hd) ?_ (by simp) ?_ h hmn
  · rw [hab]; exact joinLabels_same m (ib hd)
  · intro k hk
    exact diag_getD m k hk

/-- C185, `interp_sigma_to_hybrid`: if `ps` lists the points like `data`, every value is interpolated at the sigma of the surface pressure that
carries its labels, and the coefficients of a level are matched by label (`hybm` may list the levels in another order than `hyam`).
Missing: `ps` with the points in another order; see the counterexample. -/
theorem C185_sigma_partial (method lev hd : String) (n : ℕ) (s : ℕ → ℝ) (m : ℕ) (a b : ℕ → ℝ) (ia ib : String → Option (List ℝ)) (p0 : ℝ)
    (ps : IArr ℝ ℝ) (data : IArr ℝ (XF ℝ))
    (hp : ∀ d ∈ ps.arr.dims, ps.index d = data.index d ∧ ∀ l, data.index d = some l → l.Nodup ∧ l.length = data.arr.size d)
    (l l' : List ℝ) (hl : ia hd = some l) (hl' : ib hd = some l') (hnd : l.Nodup) (hlen : l.length = m) (hperm : l'.Perm l)
    (h : SigmaCall method lev hd n s m a (coefAt (ia hd) (ib hd) b) p0 ps.arr data.arr) (hmn : m ≤ n) :
    ∃ out, interpSigmaIdx (coordOf method) lev p0 (column n s) data ps ⟨vec hd m a, ia⟩ ⟨vec hd m b, ib⟩ = .ok out ∧
      (∀ d ∈ ps.arr.dims, out.index d = data.index d) ∧
      IsSigmaInterpolated (coordOf method) lev n s m a (coefAt (ia hd) (ib hd) b) p0 (readAt data.index ps.index ps.arr) data.arr out.arr := by
  obtain ⟨q, hq, hqn, hqk⟩ := joinLabels_perm m l l' hnd hlen hperm
  have hB : coefAt (ia hd) (ib hd) b = fun k => b (placeOf (some l) (some l') k) := by
    rw [hl, hl']; rfl
  rw [hB] at h ⊢
  obtain ⟨out, ho, hi, hv⟩ := sigmaIdx_call method lev hd n s m a b ia ib p0 ps data (placeOf (some l) (some l')) q (some l)
    (by rw [hl, hl']; exact hq) hqn hqk h hmn
  refine ⟨out, ho, hi, hv.dims, hv.sizeHlev, hv.sizes, fun i hi' hk => ?_⟩
  have hread : (readAt data.index ps.index ps.arr).get i = ps.arr.get i := by
    refine h.grid.wf _ _ (fun d hdim => ?_)
    obtain ⟨h1, h2⟩ := hp d hdim
    rw [h1]
    cases hc : data.index d with
    | none => rfl
    | some u =>
      obtain ⟨h3, h4⟩ := h2 u hc
      exact placeOf_self u h3 (i d) (by rw [h4, (h.grid.sizes d hdim).1]; exact hi' d hdim)
  have := hv.value i hi' hk
  unfold hybridSigma at this ⊢
  rw [hread]
  exact this

/-! ### cases -/

/-- surface pressures 100000 and 80000 -/
noncomputable def alignSigmaPs (lats : List ℝ) : IArr ℝ ℝ :=
  ⟨⟨["lat"], fun _ => 2, fun i => if i "lat" = 0 then 100000 else 80000⟩, fun d => if d = "lat" then some lats else none⟩

/-- two sigma levels 0 and 1 with the values 0 and 10 -/
noncomputable def alignSigmaData (lats : List ℝ) : IArr ℝ (XF ℝ) :=
  ⟨⟨["lev", "lat"], fun _ => 2, fun i => .fin (10 * i "lev")⟩, fun d => if d = "lat" then some lats else none⟩

theorem alignSigma_call (l1 l2 : List ℝ) : SigmaCall "linear" "lev" "hyb" 2 (fun k => (k : ℝ)) 1 (fun _ => 1 / 10) (fun _ => 0) 100000
    (alignSigmaPs l1).arr (alignSigmaData l2).arr where
  known := Or.inl rfl
  grid := {
    two := le_refl _
    levNew := by simp [alignSigmaPs]
    hlevNew := by simp [alignSigmaPs]
    perm := List.Perm.refl _
    sizeLev := rfl
    sizes := fun d _ => ⟨rfl, by simp [alignSigmaPs]⟩
    wf := by intro i j hij; simp [alignSigmaPs, hij "lat" (by simp [alignSigmaPs])] }
  hdNew := by simp [alignSigmaPs]
  levels := one_pos
  distinct := by
    intro i _ j _ hij
    have hij : (i : ℝ) = j := hij
    exact_mod_cast hij
  sorted := by
    intro i _
    left
    simp [column]
  positive := by intro hh; exact absurd hh (by decide)

theorem interpAt_unit (y : XF ℝ) (t : ℝ) (h0 : 0 ≤ t) (h1 : t ≤ 1) (l : List ℝ) (i : String → ℕ)
    (h : InterpAt 2 (fun k => coordOf "linear" (k : ℝ)) (levelValue "lev" (alignSigmaData l).arr i) (coordOf "linear" t) y) : y = .fin (10 * t) := by
  have hid : ∀ z : ℝ, coordOf "linear" z = z := fun z => by simp [coordOf]
  simp only [hid] at h
  rcases h with ⟨ho | ho, -⟩ | ⟨-, i', j', ⟨b1, b2, b3, -⟩, hy⟩
  · have := ho 0 (by omega); norm_num at this; linarith
  · have := ho 1 (by omega); norm_num at this; linarith
  · have hi : i' = 0 ∨ i' = 1 := by omega
    have hj : j' = 0 ∨ j' = 1 := by omega
    rcases hi with rfl | rfl <;> rcases hj with rfl | rfl
    · exact absurd b3 (lt_irrefl _)
    · rw [hy]
      simp [lineValue, levelValue, alignSigmaData]
    · norm_num at b3
    · exact absurd b3 (lt_irrefl _)

/-- C185 fails for `interp_sigma_to_hybrid`: `ps` lists the two latitudes in the other order, and the result at latitude 0 is interpolated at the
sigma of latitude 10. -/
theorem C185_sigma_counterexample : ∃ out, interpSigmaIdx (coordOf "linear") "lev" 100000 (column 2 (fun k => (k : ℝ))) (alignSigmaData [0, 10])
      (alignSigmaPs [10, 0]) ⟨vec "hyb" 1 (fun _ => 1 / 10), fun _ => none⟩ ⟨vec "hyb" 1 (fun _ => 0), fun _ => none⟩ = .ok out ∧
    out.index "lat" = some [0, 10] ∧
    ¬ IsSigmaInterpolated (coordOf "linear") "lev" 2 (fun k => (k : ℝ)) 1 (fun _ => 1 / 10) (fun _ => 0) 100000
      (readAt (alignSigmaData [0, 10]).index (alignSigmaPs [10, 0]).index (alignSigmaPs [10, 0]).arr) (alignSigmaData [0, 10]).arr out.arr := by
  obtain ⟨out, ho, hi, hv⟩ := C185_sigma_by_position "linear" "lev" "hyb" 2 (fun k => (k : ℝ)) 1 (fun _ => 1 / 10) (fun _ => 0) (fun _ => none) (fun _ => none)
    rfl 100000 (alignSigmaPs [10, 0]) (alignSigmaData [0, 10]) (alignSigma_call _ _) (by norm_num)
  refine ⟨out, ho, hi "lat" (by simp [alignSigmaPs]), fun hbad => ?_⟩
  have h1 := hv.value (fun _ => 0) (fun d _ => by simp [alignSigmaPs]) (by norm_num)
  have h2 := hbad.value (fun _ => 0) (fun d _ => by simp [readAt, alignSigmaPs]) (by norm_num)
  have s1 : hybridSigma (fun _ => 1 / 10) (fun _ => (0 : ℝ)) 100000 (alignSigmaPs [10, 0]).arr (fun _ => 0) 0 = 1 / 10 := by
    simp [hybridSigma, alignSigmaPs]
  have hidx : ([10, 0] : List ℝ).idxOf 0 = 1 := by
    rw [List.idxOf_cons_ne _ (by norm_num), List.idxOf_cons_self]
  have s2 : hybridSigma (fun _ => 1 / 10) (fun _ => (0 : ℝ)) 100000
      (readAt (alignSigmaData [0, 10]).index (alignSigmaPs [10, 0]).index (alignSigmaPs [10, 0]).arr) (fun _ => 0) 0 = 1 / 8 := by
    simp [hybridSigma, alignSigmaPs, readAt, placeOf, alignSigmaData, hidx]
    norm_num
  rw [s1] at h1
  rw [s2] at h2
  have e1 := interpAt_unit _ _ (by norm_num) (by norm_num) _ _ h1
  have e2 := interpAt_unit _ _ (by norm_num) (by norm_num) _ _ h2
  rw [e1] at e2
  injection e2 with e2
  norm_num at e2

/-- a case of the partial theorem: the latitudes agree -/
example : ∃ out, interpSigmaIdx (coordOf "linear") "lev" 100000 (column 2 (fun k => (k : ℝ))) (alignSigmaData [0, 10])
      (alignSigmaPs [0, 10]) ⟨vec "hyb" 1 (fun _ => 1 / 10), fun _ => some [3]⟩ ⟨vec "hyb" 1 (fun _ => 0), fun _ => some [3]⟩ = .ok out ∧
    IsSigmaInterpolated (coordOf "linear") "lev" 2 (fun k => (k : ℝ)) 1 (fun _ => 1 / 10) (fun _ => 0) 100000
      (readAt (alignSigmaData [0, 10]).index (alignSigmaPs [0, 10]).index (alignSigmaPs [0, 10]).arr) (alignSigmaData [0, 10]).arr out.arr := by
  obtain ⟨out, ho, -, hv⟩ := C185_sigma_partial "linear" "lev" "hyb" 2 (fun k => (k : ℝ)) 1 (fun _ => 1 / 10) (fun _ => 0) (fun _ => some [3]) (fun _ => some [3])
    100000 (alignSigmaPs [0, 10]) (alignSigmaData [0, 10]) (by
      intro d hd
      have : d = "lat" := by simpa [alignSigmaPs] using hd
      subst this
      refine ⟨rfl, fun l hl => ?_⟩
      have : l = [0, 10] := by simpa [alignSigmaData] using hl.symm
      subst this
      exact ⟨by norm_num, rfl⟩) [3] [3] rfl rfl (by simp) rfl (List.Perm.refl _) (alignSigma_call _ _) (by norm_num)
  exact ⟨out, ho, hv⟩

end Verif.Props
