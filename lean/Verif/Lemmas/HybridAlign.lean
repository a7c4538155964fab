import Verif.Model.HybridAlign
import Verif.Spec.HybridAlign
import Verif.Props.Sigma

/-
Lemmas for C185: arithmetic that pairs positions by label.
-/

set_option linter.unusedSectionVars false
namespace Verif.Lemmas
open Verif Model Spec Props
variable {K : Type} [Field K] [LinearOrder K] [IsStrictOrderedRing K]

theorem izip_ok {α β γ : Type} (f : α → β → γ) (a : IArr K α) (b : IArr K β)
    (h : ∀ d ∈ a.arr.dims, d ∈ b.arr.dims → ∃ r, joinLabels (a.arr.size d) (b.arr.size d) (a.index d) (b.index d) = .ok r) :
    IArr.zip f a b = .ok ⟨⟨a.arr.dims ++ b.arr.dims.filter (fun d => !a.arr.dims.contains d), fun d => (IArr.pairs a b d).length, fun i =>
      f (a.arr.get (fun d => ((IArr.pairs a b d).getD (i d) (0, 0)).1)) (b.arr.get (fun d => ((IArr.pairs a b d).getD (i d) (0, 0)).2))⟩,
      IArr.joined a b⟩ := by
  obtain ⟨r, hr⟩ := mapM_total (IArr.joinDim a b) (a.arr.dims ++ b.arr.dims.filter (fun d => !a.arr.dims.contains d)) (by
    intro d _
    unfold IArr.joinDim
    by_cases h1 : d ∈ a.arr.dims
    · by_cases h2 : d ∈ b.arr.dims
      · simp only [h1, h2, if_true]; exact h d h1 h2
      · simp only [h1, h2, if_true, if_false]; exact ⟨_, rfl⟩
    · simp only [h1, if_false]; exact ⟨_, rfl⟩)
  unfold IArr.zip
  simp only [hr, bind, Except.bind, pure, Except.pure]

theorem pairs_left {α β : Type} (a : IArr K α) (b : IArr K β) (d : String) (h1 : d ∈ a.arr.dims) (h2 : d ∉ b.arr.dims) :
    IArr.pairs a b d = (List.range (a.arr.size d)).map (fun i => (i, i)) ∧ IArr.joined a b d = a.index d := by
  simp [IArr.pairs, IArr.joined, IArr.joinDim, h1, h2]

theorem pairs_right {α β : Type} (a : IArr K α) (b : IArr K β) (d : String) (h1 : d ∉ a.arr.dims) :
    IArr.pairs a b d = (List.range (b.arr.size d)).map (fun i => (i, i)) ∧ IArr.joined a b d = b.index d := by
  simp [IArr.pairs, IArr.joined, IArr.joinDim, h1]

theorem pairs_both {α β : Type} (a : IArr K α) (b : IArr K β) (d : String) (h1 : d ∈ a.arr.dims) (h2 : d ∈ b.arr.dims) (q : List (ℕ × ℕ))
    (l : Option (List K)) (h : joinLabels (a.arr.size d) (b.arr.size d) (a.index d) (b.index d) = .ok (q, l)) :
    IArr.pairs a b d = q ∧ IArr.joined a b d = l := by
  simp [IArr.pairs, IArr.joined, IArr.joinDim, h1, h2, h]

theorem diag_getD (n k : ℕ) (h : k < n) : ((List.range n).map (fun i => (i, i))).getD k (0, 0) = (k, k) := by
  simp [List.getD, h]

/-- the pressures with labels: positions along the levels are paired by the labels of the coefficients, everything else stays in place -/
theorem pressureIdx_spec (ps : IArr K K) (lev : String) (n : ℕ) (a b : ℕ → K) (ia ib : String → Option (List K)) (p0 : K)
    (hl : lev ∉ ps.arr.dims) (hw : ps.arr.WF) (q : List (ℕ × ℕ)) (l : Option (List K)) (hq : joinLabels n n (ia lev) (ib lev) = .ok (q, l))
    (hqn : ∀ e ∈ q, e.2 < n) :
    ∃ P, pressureIdx ps ⟨vec lev n a, ia⟩ ⟨vec lev n b, ib⟩ p0 = .ok P ∧ P.arr.dims = lev :: ps.arr.dims ∧ P.arr.size lev = q.length ∧
      (∀ d ∈ ps.arr.dims, P.arr.size d = ps.arr.size d) ∧ P.index lev = l ∧ (∀ d ∈ ps.arr.dims, P.index d = ps.index d) ∧
      ∀ i, i lev < q.length → (∀ d ∈ ps.arr.dims, i d < ps.arr.size d) →
        P.arr.get i = a (q.getD (i lev) (0, 0)).1 * p0 + b (q.getD (i lev) (0, 0)).2 * ps.arr.get i := by
  have hf1 : ps.arr.dims.filter (fun d => !([lev] : List String).contains d) = ps.arr.dims := by
    rw [List.filter_eq_self]
    intro f hf
    have : f ≠ lev := fun h => hl (h ▸ hf)
    simp [this]
  set hb : IArr K K := ⟨vec lev n b, ib⟩ with hbdef
  set ha : IArr K K := IArr.map (fun x => x * p0) ⟨vec lev n a, ia⟩ with hadef
  have z1 := izip_ok (fun x y : K => x * y) hb ps (by
    intro d h1 h2
    have : d = lev := by simpa [hbdef, vec] using h1
    exact absurd (this ▸ h2) hl)
  set B : IArr K K := ⟨⟨hb.arr.dims ++ ps.arr.dims.filter (fun d => !hb.arr.dims.contains d), fun d => (IArr.pairs hb ps d).length, fun i =>
      (hb.arr.get (fun d => ((IArr.pairs hb ps d).getD (i d) (0, 0)).1)) * (ps.arr.get (fun d => ((IArr.pairs hb ps d).getD (i d) (0, 0)).2))⟩,
      IArr.joined hb ps⟩ with hB
  have hbdims : hb.arr.dims = [lev] := rfl
  have hadims : ha.arr.dims = [lev] := rfl
  have hasize : ha.arr.size lev = n := rfl
  have haidx : ha.index lev = ia lev := rfl
  have pl := pairs_left hb ps lev (by simp [hbdims]) hl
  have pr : ∀ d ∈ ps.arr.dims, IArr.pairs hb ps d = (List.range (ps.arr.size d)).map (fun i => (i, i)) ∧ IArr.joined hb ps d = ps.index d := by
    intro d hd
    exact pairs_right hb ps d (by simp only [hbdims, List.mem_singleton]; rintro rfl; exact hl hd)
  have hBdims : B.arr.dims = lev :: ps.arr.dims := by
    show hb.arr.dims ++ ps.arr.dims.filter (fun d => !hb.arr.dims.contains d) = _
    rw [hbdims, hf1]; rfl
  have hBlev : B.arr.size lev = n := by
    show (IArr.pairs hb ps lev).length = n
    rw [pl.1]; simp [hbdef, vec]
  have hBidx : B.index lev = ib lev := by
    show IArr.joined hb ps lev = _
    rw [pl.2]
  have hj : joinLabels (ha.arr.size lev) (B.arr.size lev) (ha.index lev) (B.index lev) = .ok (q, l) := by
    rw [hasize, hBlev, hBidx, haidx]; exact hq
  have z2 := izip_ok (fun x y : K => x + y) ha B (by
    intro d h1 h2
    have : d = lev := by simpa [hadims] using h1
    subst this
    exact ⟨_, hj⟩)
  have p2 := pairs_both ha B lev (by simp [hadims]) (by simp [hBdims]) q l hj
  have p3 : ∀ d ∈ ps.arr.dims, IArr.pairs ha B d = (List.range (B.arr.size d)).map (fun i => (i, i)) ∧ IArr.joined ha B d = B.index d := by
    intro d hd
    exact pairs_right ha B d (by simp only [hadims, List.mem_singleton]; rintro rfl; exact hl hd)
  have hBs : ∀ d ∈ ps.arr.dims, B.arr.size d = ps.arr.size d := by
    intro d hd
    show (IArr.pairs hb ps d).length = _
    rw [(pr d hd).1]; simp
  have hcall : pressureIdx ps ⟨vec lev n a, ia⟩ hb p0 = IArr.zip (fun x y : K => x + y) ha B := by
    unfold pressureIdx
    have hsh : ¬ ((⟨vec lev n a, ia⟩ : IArr K K).arr.shape ≠ hb.arr.shape) := by simp [hbdef, vec, LArr.shape]
    have hdm : ¬ ((⟨vec lev n a, ia⟩ : IArr K K).arr.dims ≠ hb.arr.dims) := by simp [hbdef, vec]
    simp only [hsh, hdm, if_false, bind, Except.bind]
    rw [z1]
  refine ⟨_, hcall.trans z2, ?_, ?_, ?_, ?_, ?_, ?_⟩
  · show ha.arr.dims ++ B.arr.dims.filter (fun d => !ha.arr.dims.contains d) = _
    rw [hadims, hBdims, List.filter_cons]
    simp
    intro f hf h
    exact hl (h ▸ hf)
  · show (IArr.pairs ha B lev).length = _
    rw [p2.1]
  · intro d hd
    show (IArr.pairs ha B d).length = _
    rw [(p3 d hd).1]; simp [hBs d hd]
  · show IArr.joined ha B lev = l
    exact p2.2
  · intro d hd
    show IArr.joined ha B d = _
    rw [(p3 d hd).2]
    exact (pr d hd).2
  · intro i hi hps
    show ha.arr.get (fun d => ((IArr.pairs ha B d).getD (i d) (0, 0)).1) + B.arr.get (fun d => ((IArr.pairs ha B d).getD (i d) (0, 0)).2) = _
    have e1 : ha.arr.get (fun d => ((IArr.pairs ha B d).getD (i d) (0, 0)).1) = a (q.getD (i lev) (0, 0)).1 * p0 := by
      show a ((IArr.pairs ha B lev).getD (i lev) (0, 0)).1 * p0 = _
      rw [p2.1]
    have hlt : (q.getD (i lev) (0, 0)).2 < n := by
      apply hqn
      rw [show q.getD (i lev) (0, 0) = q[i lev] by simp [List.getD, hi]]
      exact List.getElem_mem _
    have e2 : B.arr.get (fun d => ((IArr.pairs ha B d).getD (i d) (0, 0)).2) = b (q.getD (i lev) (0, 0)).2 * ps.arr.get i := by
      show b ((IArr.pairs hb ps lev).getD ((IArr.pairs ha B lev).getD (i lev) (0, 0)).2 (0, 0)).1 *
        ps.arr.get (fun d => ((IArr.pairs hb ps d).getD ((IArr.pairs ha B d).getD (i d) (0, 0)).2 (0, 0)).2) = _
      have e3 : ((IArr.pairs hb ps lev).getD ((IArr.pairs ha B lev).getD (i lev) (0, 0)).2 (0, 0)).1 = (q.getD (i lev) (0, 0)).2 := by
        rw [p2.1, pl.1]
        show (((List.range n).map (fun i => (i, i))).getD _ (0, 0)).1 = _
        rw [diag_getD n _ hlt]
      rw [e3]
      congr 1
      apply hw
      intro d hd
      rw [(p3 d hd).1, (pr d hd).1, hBs d hd, diag_getD _ _ (hps d hd), diag_getD _ _ (hps d hd)]
    rw [e1, e2]

theorem placeOf_self (l : List K) (hl : l.Nodup) (k : ℕ) (hk : k < l.length) : placeOf (some l) (some l) k = k := by
  simp only [placeOf, List.getD, List.getElem?_eq_getElem hk, Option.getD_some]
  exact hl.idxOf_getElem k hk

/-- labels of the same levels in any order are paired up -/
theorem joinLabels_perm (n : ℕ) (x y : List K) (hx : x.Nodup) (hn : x.length = n) (hy : y.Perm x) :
    ∃ q, joinLabels n n (some x) (some y) = .ok (q, some x) ∧ q.length = n ∧
      ∀ k < n, q.getD k (0, 0) = (k, placeOf (some x) (some y) k) := by
  by_cases h : x = y
  · subst h
    refine ⟨(List.range n).map (fun i => (i, i)), by simp [joinLabels], by simp, fun k hk => ?_⟩
    rw [diag_getD n k hk, placeOf_self x hx k (by omega)]
  · have hf : x.filter (fun l => decide (l ∈ y)) = x := by
      rw [List.filter_eq_self]
      intro l hl
      simpa using hy.mem_iff.mpr hl
    refine ⟨x.map (fun l => (x.idxOf l, y.idxOf l)), by simp [joinLabels, h, hx, hy.nodup_iff.mpr hx, hf], by simp [hn], fun k hk => ?_⟩
    have hk' : k < x.length := by omega
    simp only [List.getD, List.getElem?_map, List.getElem?_eq_getElem hk', Option.map_some, Option.getD_some, placeOf, Prod.mk.injEq, and_true]
    exact hx.idxOf_getElem k hk'

/-- eager interpolation when the lines of pressures are known at the grid points -/
theorem interpAlong_lines (g : K → K) (S : Set K) (hg : StrictMonoOn g S) (lev : String) (n : ℕ) (ps P : LArr K) (data : LArr (XF K))
    (h : LevelData lev n ps data) (a b : ℕ → K) (p0 : K) (x : List K) (hx : x ≠ []) (hs : Sorted x) (hxS : ∀ t ∈ x, t ∈ S)
    (hline : ∀ i, AtPoint ps i → P.line lev i = column n (levelPressure a b p0 ps i))
    (hd : ∀ i, AtPoint ps i → Distinct n (levelPressure a b p0 ps i))
    (hpS : ∀ i, AtPoint ps i → ∀ k < n, levelPressure a b p0 ps i k ∈ S) :
    ∃ out, interpAlong g lev x P data = .ok out ∧ IsInterpolated g lev n a b p0 x ps data out := by
  have hcol : ∀ i, AtPoint ps i → ∃ r, colRes g lev x P data i = .ok r ∧ ∀ q y, x[q]? = some y →
      InterpAt n (fun k => g (levelPressure a b p0 ps i k)) (levelValue lev data i) (g y) (pick (colRes g lev x P data i) q) :=
    fun i hi => colRes_spec g S hg lev n h.two x hx hs hxS P data i _ _
      (hline i hi) (line_data lev n data h.sizeLev i) (hd i hi) (hpS i hi)
  refine ⟨_, interpAlong_ok g lev x P data ?_ ?_, ?_⟩
  · refine indicesOf_ne_nil _ _ fun d hd' => ?_
    have hm := (LevelData.filter_mem h d).mp hd'
    rw [(h.sizes d hm).1]
    exact (h.sizes d hm).2
  · intro i hi
    have hb := indicesOf_bounds _ _ i hi
    obtain ⟨r, hr, -⟩ := hcol i fun d hd' => by
      rw [← (h.sizes d hd').1]
      exact hb d ((LevelData.filter_mem h d).mpr hd')
    exact ⟨r, hr⟩
  · refine ⟨rfl, by simp, fun d hd' => ?_, fun i hi y hy => (hcol i hi).choose_spec.2 _ y hy⟩
    have : d ≠ "plev" := fun he => h.plevNew (he ▸ hd')
    simp [this, (h.sizes d hd').1]

end Verif.Lemmas
