import Verif.Lemmas.HybridAlign
import Verif.Props.HybridCall

/-
Property C185: values that belong together are recognised by their labels.
-/

set_option linter.unusedSectionVars false
namespace Verif.Props
open Verif Model Spec Lemmas
section
variable {K : Type} [Field K] [LinearOrder K] [IsStrictOrderedRing K]

/-- what a column needs: requested pressures in order, and pressures of the levels that can be told apart, all in the domain of `g` -/
structure ColumnsOk (g : K → K) (S : Set K) (n : ℕ) (a b : ℕ → K) (p0 : K) (x : List K) (ps : LArr K) : Prop where
  mono : StrictMonoOn g S
  asked : x ≠ []
  sorted : Sorted x
  askedIn : ∀ t ∈ x, t ∈ S
  distinct : ∀ i, AtPoint ps i → Distinct n (Spec.levelPressure a b p0 ps i)
  levelsIn : ∀ i, AtPoint ps i → ∀ k < n, Spec.levelPressure a b p0 ps i k ∈ S

theorem interpAt_congr (n : ℕ) (p p' : ℕ → K) (hp : ∀ k < n, p k = p' k) (v : ℕ → XF K) (x : K) (y : XF K) (h : InterpAt n p' v x y) :
    InterpAt n p v x y := by
  have ho : Outside n p x ↔ Outside n p' x := by
    unfold Outside
    constructor <;> rintro (h | h)
    · exact Or.inl fun k hk => by rw [← hp k hk]; exact h k hk
    · exact Or.inr fun k hk => by rw [← hp k hk]; exact h k hk
    · exact Or.inl fun k hk => by rw [hp k hk]; exact h k hk
    · exact Or.inr fun k hk => by rw [hp k hk]; exact h k hk
  rcases h with ⟨h1, h2⟩ | ⟨h1, i, j, ⟨b1, b2, b3, b4, b5, b6⟩, h3⟩
  · exact Or.inl ⟨ho.mpr h1, h2⟩
  · refine Or.inr ⟨fun h => h1 (ho.mp h), i, j, ⟨b1, b2, ?_, ?_, ?_, ?_⟩, ?_⟩
    · rw [hp i b1, hp j b2]; exact b3
    · rw [hp i b1]; exact b4
    · rw [hp j b2]; exact b5
    · intro k hk
      rw [hp i b1, hp j b2, hp k hk]
      exact b6 k hk
    · rw [hp i b1, hp j b2]; exact h3

/-- the call, once the labels of the two coefficient arrays have been paired -/
theorem hybridIdx_call (g : K → K) (S : Set K) (lev : String) (n : ℕ) (a b : ℕ → K) (ia ib : String → Option (List K)) (p0 : K) (x : List K)
    (ps : IArr K K) (data : IArr K (XF K)) (h : LevelData lev n ps.arr data.arr) (σ : ℕ → ℕ) (q : List (ℕ × ℕ)) (l : Option (List K))
    (hq : joinLabels n n (ia lev) (ib lev) = .ok (q, l)) (hqn : q.length = n) (hσ : ∀ k < n, q.getD k (0, 0) = (k, σ k)) (hσn : ∀ k < n, σ k < n)
    (hc : ColumnsOk g S n a (fun k => b (σ k)) p0 x ps.arr) :
    ∃ out, interpHybridIdx g lev p0 x false data ps ⟨vec lev n a, ia⟩ ⟨vec lev n b, ib⟩ = .ok out ∧
      (∀ d ∈ ps.arr.dims, out.index d = data.index d) ∧ out.index "plev" = (data.index lev).map (fun _ => x) ∧
      IsInterpolated g lev n a (fun k => b (σ k)) p0 x ps.arr data.arr out.arr := by
  obtain ⟨P, h1, h2, h3, h4, h5, h6, h7⟩ := pressureIdx_spec ps lev n a b ia ib p0 h.levNew h.wf q l hq (by
    intro e he
    obtain ⟨k, hk, rfl⟩ := List.getElem_of_mem he
    have := hσ k (by omega)
    rw [show q.getD k (0, 0) = q[k] by simp [List.getD, hk]] at this
    rw [this]
    exact hσn k (by omega))
  have hline : ∀ i, AtPoint ps.arr i → P.arr.line lev i = column n (Spec.levelPressure a (fun k => b (σ k)) p0 ps.arr i) := by
    intro i hi
    unfold LArr.line column
    rw [h3, hqn]
    refine List.map_congr_left fun k hk => ?_
    have hk' : k < n := List.mem_range.mp hk
    have hne : ∀ d ∈ ps.arr.dims, d ≠ lev := fun d hd he => h.levNew (he ▸ hd)
    rw [h7 _ (by simpa [hqn] using hk') (fun d hd => by rw [Function.update_of_ne (hne d hd)]; exact hi d hd), Spec.levelPressure]
    simp only [Function.update_self, hσ k hk']
    rw [h.wf _ i (fun d hd => Function.update_of_ne (hne d hd) _ _)]
  obtain ⟨out, ho, hi⟩ := interpAlong_lines g S hc.mono lev n ps.arr P.arr data.arr h a (fun k => b (σ k)) p0 x hc.asked hc.sorted hc.askedIn hline
    hc.distinct hc.levelsIn
  have m1 : lev ∈ data.arr.dims := h.perm.mem_iff.mp (by simp)
  have m2 : P.arr.dims.Perm data.arr.dims := h2 ▸ h.perm
  have m3 : ∀ d ∈ data.arr.dims, P.arr.size d = data.arr.size d := by
    intro d hd
    rcases List.mem_cons.mp (h.perm.mem_iff.mpr hd) with rfl | hd
    · rw [h3, h.sizeLev, hqn]
    · rw [h4 d hd, (h.sizes d hd).1]
  refine ⟨⟨out, fun d => if d = "plev" then (data.index lev).map (fun _ => x) else if d = lev then none else data.index d⟩, ?_, ?_, ?_, hi⟩
  · unfold interpHybridIdx
    simp only [m1, not_true_eq_false, if_false, h1, m2, bind, Except.bind, pure, Except.pure]
    rw [if_neg (not_not.mpr m3)]
    simp only [ho, Bool.false_eq_true, if_false]
  · intro d hd
    have e1 : d ≠ lev := fun he => h.levNew (he ▸ hd)
    have e2 : d ≠ "plev" := fun he => h.plevNew (he ▸ hd)
    simp [e1, e2]
  · simp

/-- C185, what the code does: whatever labels `ps` carries, the column at position `i` of `data` is interpolated with the surface pressure
at position `i` of `ps`, and the result carries the labels of `data`. -/
theorem C185_by_position (g : K → K) (S : Set K) (lev : String) (n : ℕ) (a b : ℕ → K) (ia ib : String → Option (List K)) (hab : ia lev = ib lev)
    (p0 : K) (x : List K) (ps : IArr K K) (data : IArr K (XF K)) (h : LevelData lev n ps.arr data.arr) (hc : ColumnsOk g S n a b p0 x ps.arr) :
    ∃ out, interpHybridIdx g lev p0 x false data ps ⟨vec lev n a, ia⟩ ⟨vec lev n b, ib⟩ = .ok out ∧
      (∀ d ∈ ps.arr.dims, out.index d = data.index d) ∧ out.index "plev" = (data.index lev).map (fun _ => x) ∧
      IsInterpolated g lev n a b p0 x ps.arr data.arr out.arr := by
  refine hybridIdx_call g S lev n a b ia ib p0 x ps data h id ((List.range n).map (fun i => (i, i))) (ib lev) ?_ ?_ ?_ (fun k hk => hk) hc
  · rw [hab]; exact joinLabels_same n (ib lev)
  · simp
  · intro k hk
    exact diag_getD n k hk

/-- the labels of all arrays agree with those of `data`, in the same order; the levels of `hybm` may be listed in any order -/
structure LabelsAgree (lev : String) (n : ℕ) (data : IArr K (XF K)) (ps : IArr K K) (ia ib : String → Option (List K)) : Prop where
  points : ∀ d ∈ ps.arr.dims, ps.index d = data.index d ∧ ∀ l, data.index d = some l → l.Nodup ∧ l.length = data.arr.size d
  levels : ∃ l m, data.index lev = some l ∧ ia lev = some l ∧ ib lev = some m ∧ l.Nodup ∧ l.length = n ∧ m.Perm l

/-- reading at one's own labels changes nothing -/
theorem readAt_self {lev : String} {n : ℕ} {data : IArr K (XF K)} {ps : IArr K K} {ia ib : String → Option (List K)}
    (h : LabelsAgree lev n data ps ia ib) (hd : LevelData lev n ps.arr data.arr) (i : String → ℕ) (hi : AtPoint ps.arr i) :
    (readAt data.index ps.index ps.arr).get i = ps.arr.get i := by
  refine hd.wf _ _ (fun d hdim => ?_)
  obtain ⟨h1, h2⟩ := h.points d hdim
  rw [h1]
  cases hl : data.index d with
  | none => rfl
  | some l =>
    obtain ⟨h3, h4⟩ := h2 l hl
    exact placeOf_self l h3 (i d) (by rw [h4, (hd.sizes d hdim).1]; exact hi d hdim)

/-- C185: if the labels agree, every value of the result is interpolated from the values that carry its labels — the surface pressure at the
same labelled point, and for each level the coefficients of the level with the same label (also when `hybm` lists its levels in another
order). Missing from the full property: the arrays' labels must be in the same order; see the counterexamples. -/
theorem C185_partial (g : K → K) (S : Set K) (lev : String) (n : ℕ) (a b : ℕ → K) (ia ib : String → Option (List K)) (p0 : K) (x : List K)
    (ps : IArr K K) (data : IArr K (XF K)) (h : LevelData lev n ps.arr data.arr) (hl : LabelsAgree lev n data ps ia ib)
    (hc : ColumnsOk g S n (coefAt (data.index lev) (ia lev) a) (coefAt (data.index lev) (ib lev) b) p0 x (readAt data.index ps.index ps.arr)) :
    ∃ out, interpHybridIdx g lev p0 x false data ps ⟨vec lev n a, ia⟩ ⟨vec lev n b, ib⟩ = .ok out ∧
      (∀ d ∈ ps.arr.dims, out.index d = data.index d) ∧ out.index "plev" = (data.index lev).map (fun _ => x) ∧
      IsInterpolated g lev n (coefAt (data.index lev) (ia lev) a) (coefAt (data.index lev) (ib lev) b) p0 x
        (readAt data.index ps.index ps.arr) data.arr out.arr := by
  obtain ⟨l, m, e1, e2, e3, hnd, hlen, hp⟩ := hl.levels
  obtain ⟨q, hq, hqn, hqk⟩ := joinLabels_perm n l m hnd hlen hp
  have hread := readAt_self hl h
  have hA : ∀ k < n, coefAt (data.index lev) (ia lev) a k = a k := by
    intro k hk
    simp only [coefAt, e1, e2]
    rw [placeOf_self l hnd k (by omega)]
  have hB : coefAt (data.index lev) (ib lev) b = fun k => b (placeOf (some l) (some m) k) := by
    simp only [e1, e3]; rfl
  have hP : ∀ i, AtPoint ps.arr i → ∀ k < n, Spec.levelPressure (coefAt (data.index lev) (ia lev) a) (coefAt (data.index lev) (ib lev) b) p0
      (readAt data.index ps.index ps.arr) i k = Spec.levelPressure a (fun k => b (placeOf (some l) (some m) k)) p0 ps.arr i k := by
    intro i hi k hk
    simp only [Spec.levelPressure, hA k hk, hB, hread i hi]
  have hat : ∀ i, AtPoint ps.arr i → AtPoint (readAt data.index ps.index ps.arr) i := fun i hi => hi
  obtain ⟨out, ho, hi1, hi2, hi3⟩ := hybridIdx_call g S lev n a b ia ib p0 x ps data h (placeOf (some l) (some m)) q (some l)
    (by rw [e2, e3]; exact hq) hqn hqk (by
      intro k hk
      simp only [placeOf]
      rw [← hlen, ← hp.length_eq, List.idxOf_lt_length_iff]
      rw [show l.getD k 0 = l[k]'(by omega) by simp [List.getD, show k < l.length by omega]]
      exact hp.mem_iff.mpr (List.getElem_mem _))
    { mono := hc.mono, asked := hc.asked, sorted := hc.sorted, askedIn := hc.askedIn
      distinct := by
        intro i hi j hj k hk he
        exact hc.distinct i (hat i hi) j hj k hk (by rw [hP i hi j hj, hP i hi k hk]; exact he)
      levelsIn := by
        intro i hi k hk
        rw [← hP i hi k hk]
        exact hc.levelsIn i (hat i hi) k hk }
  refine ⟨out, ho, hi1, hi2, hi3.dims, hi3.sizePlev, hi3.sizes, ?_⟩
  intro i hi y hy
  exact interpAt_congr n _ _ (fun k hk => by rw [hP i hi k hk]) _ _ _ (hi3.value i hi y hy)

/-- C185, with extrapolation: a call that returns has been given arrays whose labels agree, in the same order. -/
theorem C185_extrapolate (g : K → K) (lev : String) (n : ℕ) (a b : ℕ → K) (ia ib : String → Option (List K)) (p0 : K) (x : List K)
    (ps : IArr K K) (data : IArr K (XF K)) (hd : LevelData lev n ps.arr data.arr) (hab : ia lev = ib lev) (out : IArr K (XF K))
    (h : interpHybridIdx g lev p0 x true data ps ⟨vec lev n a, ia⟩ ⟨vec lev n b, ib⟩ = .ok out) :
    ∀ d ∈ ps.arr.dims, ∀ l m, data.index d = some l → ps.index d = some m → l = m := by
  obtain ⟨P, h1, h2, h3, h4, h5, h6, h7⟩ := pressureIdx_spec ps lev n a b ia ib p0 hd.levNew hd.wf _ _ (by rw [hab]; exact joinLabels_same n _) (by
    intro e he
    simp only [List.mem_map, List.mem_range] at he
    obtain ⟨k, hk, rfl⟩ := he
    exact hk)
  have m1 : lev ∈ data.arr.dims := hd.perm.mem_iff.mp (by simp)
  have m2 : P.arr.dims.Perm data.arr.dims := h2 ▸ hd.perm
  have m3 : ∀ d ∈ data.arr.dims, P.arr.size d = data.arr.size d := by
    intro d hdm
    rcases List.mem_cons.mp (hd.perm.mem_iff.mpr hdm) with rfl | hdm
    · rw [h3, hd.sizeLev]; simp
    · rw [h4 d hdm, (hd.sizes d hdm).1]
  intro d hdim l m hl hm
  by_contra hne
  have hbad : ¬ (∀ d ∈ data.arr.dims, d ≠ lev → exactOk (data.index d) (P.index d) = true) := by
    intro hall
    have := hall d (hd.perm.mem_iff.mp (by simp [hdim])) (fun he => hd.levNew (he ▸ hdim))
    rw [h6 d hdim, hl, hm] at this
    simp only [exactOk, decide_eq_true_eq] at this
    exact hne this
  unfold interpHybridIdx at h
  simp only [m1, not_true_eq_false, if_false, h1, m2, bind, Except.bind, pure, Except.pure, if_true] at h
  rw [if_neg (not_not.mpr m3)] at h
  cases hI : interpAlong g lev x P.arr data.arr with
  | error e => rw [hI] at h; cases h
  | ok r =>
    rw [hI] at h
    simp only [if_pos hbad] at h
    cases h

/-- C185, with extrapolation: labels that differ, or stand in another order, are a ValueError. -/
theorem C185_extrapolate_rejects (g : K → K) (S : Set K) (lev : String) (n : ℕ) (a b : ℕ → K) (ia ib : String → Option (List K)) (p0 : K) (x : List K)
    (ps : IArr K K) (data : IArr K (XF K)) (hd : LevelData lev n ps.arr data.arr) (hab : ia lev = ib lev) (hc : ColumnsOk g S n a b p0 x ps.arr)
    (d : String) (hdim : d ∈ ps.arr.dims) (l m : List K) (hl : data.index d = some l) (hm : ps.index d = some m) (hne : l ≠ m) :
    interpHybridIdx g lev p0 x true data ps ⟨vec lev n a, ia⟩ ⟨vec lev n b, ib⟩ = .error .valueError := by
  cases h : interpHybridIdx g lev p0 x true data ps ⟨vec lev n a, ia⟩ ⟨vec lev n b, ib⟩ with
  | ok out => exact absurd (C185_extrapolate g lev n a b ia ib p0 x ps data hd hab out h d hdim l m hl hm) hne
  | error e =>
    obtain ⟨out, ho, -⟩ := C185_by_position g S lev n a b ia ib hab p0 x ps data hd hc
    unfold interpHybridIdx at h ho
    congr 1
    by_cases c1 : ¬ lev ∈ data.arr.dims
    · simp [c1, bind, Except.bind, throw, throwThe, MonadExceptOf.throw] at ho
    cases c2 : pressureIdx ps ⟨vec lev n a, ia⟩ ⟨vec lev n b, ib⟩ p0 with
    | error e' => simp [c1, c2, bind, Except.bind] at ho
    | ok P =>
      by_cases c3 : ¬ (P.arr.dims.Perm data.arr.dims)
      · simp [c1, c2, c3, bind, Except.bind, throw, throwThe, MonadExceptOf.throw] at ho
      by_cases c4 : ¬ (∀ d ∈ data.arr.dims, P.arr.size d = data.arr.size d)
      · simp only [c1, c2, c3, if_false, bind, Except.bind, throw, throwThe, MonadExceptOf.throw] at ho
        rw [if_pos c4] at ho
        cases ho
      simp only [c1, c2, c3, if_false, bind, Except.bind, pure, Except.pure, throw, throwThe, MonadExceptOf.throw] at ho h
      rw [if_neg c4] at ho h
      cases c5 : interpAlong g lev x P.arr data.arr with
      | error e' => rw [c5] at ho; cases ho
      | ok r =>
        rw [c5] at h
        simp only [if_true] at h
        split at h
        · injection h with h; exact h.symm
        · cases h

end

/-! ### cases -/

/-- two levels and two latitudes: 1, 2 in the first column, 10, 20 in the second -/
def alignData (lats levs : List ℚ) : IArr ℚ (XF ℚ) :=
  ⟨⟨["lev", "lat"], fun _ => 2, fun i => .fin ((if i "lat" = 0 then 1 else 10) * (i "lev" + 1))⟩,
    fun d => if d = "lat" then some lats else if d = "lev" then some levs else none⟩

/-- surface pressures 1000 and 600 -/
def alignPs (lats : List ℚ) : IArr ℚ ℚ :=
  ⟨⟨["lat"], fun _ => 2, fun i => if i "lat" = 0 then 1000 else 600⟩, fun d => if d = "lat" then some lats else none⟩

theorem align_levelData (l1 l2 l3 : List ℚ) : LevelData "lev" 2 (alignPs l3).arr (alignData l1 l2).arr where
  two := le_refl _
  levNew := by simp [alignPs]
  plevNew := by simp [alignPs]
  perm := List.Perm.refl _
  sizeLev := rfl
  sizes := fun d _ => ⟨rfl, by simp [alignPs]⟩
  wf := by
    intro i j h
    have := h "lat" (by simp [alignPs])
    simp [alignPs, this]

/-- `hyam = 0`, `hybm = 1/2, 1` -/
def alignB (k : ℕ) : ℚ := if k = 0 then 1 / 2 else 1

theorem align_columns (l1 : List ℚ) : ColumnsOk id Set.univ 2 (fun _ => 0) alignB 100000 [600] (alignPs l1).arr where
  mono := strictMono_id.strictMonoOn _
  asked := by simp
  sorted := Or.inl (by simp)
  askedIn := fun _ _ => trivial
  distinct := by
    intro i _ j hj k hk h
    have hp : (alignPs l1).arr.get i ≠ 0 := by
      simp only [alignPs]; split_ifs <;> norm_num
    simp only [Spec.levelPressure, zero_mul, zero_add] at h
    have := mul_right_cancel₀ hp h
    have hj' : j = 0 ∨ j = 1 := by omega
    have hk' : k = 0 ∨ k = 1 := by omega
    rcases hj' with rfl | rfl <;> rcases hk' with rfl | rfl <;> first | rfl | (exfalso; revert this; norm_num [alignB])
  levelsIn := fun _ _ _ _ => trivial

theorem align_interpAt_two (p : ℕ → ℚ) (v : ℕ → XF ℚ) (x : ℚ) (y : XF ℚ) (h : InterpAt 2 p v x y) (h0 : p 0 ≤ x) (h1 : x ≤ p 1) (h2 : p 0 < p 1) :
    y = lineValue (p 0) (p 1) (v 0) (v 1) x := by
  rcases h with ⟨ho | ho, -⟩ | ⟨-, i, j, ⟨b1, b2, b3, -⟩, hy⟩
  · exact absurd (ho 0 (by omega)) (not_lt.mpr h0)
  · exact absurd (ho 1 (by omega)) (not_lt.mpr h1)
  · have hi : i = 0 ∨ i = 1 := by omega
    have hj : j = 0 ∨ j = 1 := by omega
    rcases hi with rfl | rfl <;> rcases hj with rfl | rfl
    · exact absurd b3 (lt_irrefl _)
    · exact hy
    · exact absurd (b3.trans h2) (lt_irrefl _)
    · exact absurd b3 (lt_irrefl _)

/-- C185 fails: `ps` lists the two latitudes in the other order. The call succeeds; the result at latitude 0 is interpolated with the surface
pressure of latitude 10. -/
theorem C185_points_counterexample : ∃ out, interpHybridIdx id "lev" 100000 [600] false (alignData [0, 10] [1, 2]) (alignPs [10, 0])
      ⟨vec "lev" 2 (fun _ => 0), fun _ => some [1, 2]⟩ ⟨vec "lev" 2 alignB, fun _ => some [1, 2]⟩ = .ok out ∧
    out.index "lat" = some [0, 10] ∧
    ¬ IsInterpolated id "lev" 2 (fun _ => 0) alignB 100000 [600] (readAt (alignData [0, 10] [1, 2]).index (alignPs [10, 0]).index (alignPs [10, 0]).arr)
      (alignData [0, 10] [1, 2]).arr out.arr := by
  obtain ⟨out, ho, hi, -, hv⟩ := C185_by_position id Set.univ "lev" 2 (fun _ => 0) alignB (fun _ => some [1, 2]) (fun _ => some [1, 2]) rfl 100000
    [600] (alignPs [10, 0]) (alignData [0, 10] [1, 2]) (align_levelData _ _ _) (align_columns _)
  refine ⟨out, ho, hi "lat" (by simp [alignPs]), fun hbad => ?_⟩
  have h1 := hv.value (fun _ => 0) (fun d _ => by simp [alignPs]) 600 (by simp)
  have h2 := hbad.value (fun _ => 0) (fun d _ => by simp [readAt, alignPs]) 600 (by simp)
  have e1 := align_interpAt_two _ _ _ _ h1 (by decide +kernel) (by decide +kernel) (by decide +kernel)
  have e2 := align_interpAt_two _ _ _ _ h2 (by decide +kernel) (by decide +kernel) (by decide +kernel)
  rw [e1] at e2
  exact absurd e2 (by decide +kernel)

/-- C185 fails for the levels too: `data` lists its levels from the ground up, the coefficients from the top down. The call succeeds; the level
labelled 1 is taken to be where the level labelled 2 is. -/
theorem C185_levels_counterexample : ∃ out, interpHybridIdx id "lev" 100000 [600] false (alignData [0, 10] [2, 1]) (alignPs [0, 10])
      ⟨vec "lev" 2 (fun _ => 0), fun _ => some [1, 2]⟩ ⟨vec "lev" 2 alignB, fun _ => some [1, 2]⟩ = .ok out ∧
    ¬ IsInterpolated id "lev" 2 (fun _ => 0) (coefAt ((alignData [0, 10] [2, 1]).index "lev") (some [1, 2]) alignB) 100000 [600]
      (alignPs [0, 10]).arr (alignData [0, 10] [2, 1]).arr out.arr := by
  obtain ⟨out, ho, hi, -, hv⟩ := C185_by_position id Set.univ "lev" 2 (fun _ => 0) alignB (fun _ => some [1, 2]) (fun _ => some [1, 2]) rfl 100000
    [600] (alignPs [0, 10]) (alignData [0, 10] [2, 1]) (align_levelData _ _ _) (align_columns _)
  refine ⟨out, ho, fun hbad => ?_⟩
  have h1 := hv.value (fun _ => 0) (fun d _ => by simp [alignPs]) 600 (by simp)
  have h2 := hbad.value (fun _ => 0) (fun d _ => by simp [alignPs]) 600 (by simp)
  have e1 := align_interpAt_two _ _ _ _ h1 (by decide +kernel) (by decide +kernel) (by decide +kernel)
  rw [e1] at h2
  rcases h2 with ⟨ho | ho, -⟩ | ⟨-, i, j, ⟨b1, b2, b3, -⟩, hy⟩
  · exact absurd (ho 1 (by omega)) (by decide +kernel)
  · exact absurd (ho 0 (by omega)) (by decide +kernel)
  · have hi : i = 0 ∨ i = 1 := by omega
    have hj : j = 0 ∨ j = 1 := by omega
    rcases hi with rfl | rfl <;> rcases hj with rfl | rfl
    · exact absurd b3 (lt_irrefl _)
    · exact absurd b3 (by decide +kernel)
    · exact absurd hy (by decide +kernel)
    · exact absurd b3 (lt_irrefl _)

/-- the case of the partial theorem: labels agree, `hybm` lists the levels in the other order -/
example : LabelsAgree "lev" 2 (alignData [0, 10] [1, 2]) (alignPs [0, 10]) (fun _ => some [1, 2]) (fun _ => some [2, 1]) where
  points := by
    intro d hd
    have : d = "lat" := by simpa [alignPs] using hd
    subst this
    refine ⟨rfl, fun l hl => ?_⟩
    have : l = [0, 10] := by simpa [alignData] using hl.symm
    subst this
    exact ⟨by decide +kernel, rfl⟩
  levels := ⟨[1, 2], [2, 1], rfl, rfl, rfl, by decide +kernel, rfl, by decide +kernel⟩

/-- C185: the coefficients `hybm` may lie along a dimension `e` of another name: the call is the same as with that dimension called like
the one of `hyam`, its labels included (so the theorems above apply). -/
theorem C185_renamed {K : Type} [Field K] [LinearOrder K] (g : K → K) (lev d e : String) (n : ℕ) (a b : ℕ → K)
    (ia ib : String → Option (List K)) (p0 : K) (x : List K) (other : Bool) (ps : IArr K K) (data : IArr K (XF K)) :
    interpHybridIdx g lev p0 x other data ps ⟨vec d n a, ia⟩ ⟨vec e n b, ib⟩ =
      interpHybridIdx g lev p0 x other data ps ⟨vec d n a, ia⟩ ⟨vec d n b, fun f => if f = d then ib e else ib f⟩ := by
  have hp : pressureIdx ps ⟨vec d n a, ia⟩ ⟨vec e n b, ib⟩ p0 =
      pressureIdx ps ⟨vec d n a, ia⟩ ⟨vec d n b, fun f => if f = d then ib e else ib f⟩ p0 := by
    by_cases hde : d = e
    · subst hde
      congr 2
      funext f
      split
      · next h => rw [h]
      · rfl
    · have hr : (⟨vec e n b, ib⟩ : IArr K K).rename ((vec e n b).dims.zip (vec d n a).dims) =
          ⟨vec d n b, fun f => if f = d then ib e else ib f⟩ := by
        unfold IArr.rename
        congr 1
        · simp [LArr.rename, vec, LArr.newName]
        · funext f
          by_cases hf : f = d
          · subst hf; simp [vec, LArr.oldName]
          · have : ¬ d = f := fun h => hf h.symm
            simp [vec, LArr.oldName, hf, this]
      have hs : (vec d n a).shape = (vec e n b).shape := by simp [LArr.shape, vec]
      have hs' : (vec e n b).shape = (vec d n b).shape := by simp [LArr.shape, vec]
      have hd : (vec d n a).dims ≠ (vec e n b).dims := by simp [vec, hde]
      have hd' : (vec d n a).dims = (vec d n b).dims := rfl
      unfold pressureIdx
      simp only [hs, hs', hd', ne_eq, not_true_eq_false, if_false, bind, Except.bind, pure, Except.pure]
      rw [if_pos (by simpa [vec] using hde), ← hr]
      rfl
  unfold interpHybridIdx
  rw [hp]

end Verif.Props
