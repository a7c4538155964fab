import Verif.Model.NmseDims
import Verif.Lemmas.HybridAlign

/-
Arithmetic on arrays whose dimensions all have the same sizes and labels.
-/

set_option linter.unusedSectionVars false
namespace Verif.Lemmas
open Verif Model Spec
variable {K : Type} [Field K] [LinearOrder K] [IsStrictOrderedRing K] {α β γ : Type}

/-- the dimensions of `a` have the sizes `S` and the labels `L`; where `N` holds they may have no labels -/
structure Fits (S : String → ℕ) (L : String → Option (List K)) (N : String → Prop) (a : IArr K α) : Prop where
  wf : a.arr.WF
  size : ∀ d ∈ a.arr.dims, a.arr.size d = S d
  index : ∀ d ∈ a.arr.dims, (a.index d = none ∧ N d) ∨ a.index d = L d

theorem fits_map {S : String → ℕ} {L : String → Option (List K)} {N : String → Prop} (f : α → β) {a : IArr K α} (h : Fits S L N a) : Fits S L N (a.map f) where
  wf := by
    intro i j hij
    show f _ = f _
    rw [h.wf i j hij]
  size := h.size
  index := h.index

theorem mem_joinedDims (a b : List String) (d : String) : d ∈ a ++ b.filter (fun d => !a.contains d) ↔ d ∈ a ∨ d ∈ b := by
  simp only [List.mem_append, List.mem_filter]
  by_cases h : d ∈ a <;> simp [h]

theorem join_same {S : String → ℕ} {L : String → Option (List K)} {N : String → Prop} {a : IArr K α} {b : IArr K β} (ha : Fits S L N a) (hb : Fits S L N b)
    (d : String) (h1 : d ∈ a.arr.dims) (h2 : d ∈ b.arr.dims) :
    ∃ l, joinLabels (a.arr.size d) (b.arr.size d) (a.index d) (b.index d) = .ok ((List.range (S d)).map (fun i => (i, i)), l) ∧
      ((l = none ∧ N d) ∨ l = L d) := by
  rw [ha.size d h1, hb.size d h2]
  rcases ha.index d h1 with ⟨e1, n1⟩ | e1 <;> rcases hb.index d h2 with ⟨e2, n2⟩ | e2 <;> rw [e1, e2]
  · exact ⟨none, by simp [joinLabels], Or.inl ⟨rfl, n1⟩⟩
  · exact ⟨L d, by simp [joinLabels], Or.inr rfl⟩
  · cases hL : L d with
    | none => exact ⟨none, by simp [joinLabels], Or.inr rfl⟩
    | some l => exact ⟨some l, by simp [joinLabels], Or.inr rfl⟩
  · cases hL : L d with
    | none => exact ⟨none, by simp [joinLabels], Or.inr rfl⟩
    | some l => exact ⟨some l, by simp [joinLabels], Or.inr rfl⟩

/-- arithmetic on arrays that fit together is arithmetic index by index -/
theorem zip_fits {S : String → ℕ} {L : String → Option (List K)} {N : String → Prop} (f : α → β → γ) {a : IArr K α} {b : IArr K β} (ha : Fits S L N a) (hb : Fits S L N b) :
    ∃ r, IArr.zip f a b = .ok r ∧ Fits S L N r ∧ r.arr.dims = a.arr.dims ++ b.arr.dims.filter (fun d => !a.arr.dims.contains d) ∧
      ∀ i, (∀ d, d ∈ a.arr.dims ∨ d ∈ b.arr.dims → i d < S d) → r.arr.get i = f (a.arr.get i) (b.arr.get i) := by
  have hp : ∀ d, d ∈ a.arr.dims ∨ d ∈ b.arr.dims → IArr.pairs a b d = (List.range (S d)).map (fun i => (i, i)) ∧
      ((IArr.joined a b d = none ∧ N d) ∨ IArr.joined a b d = L d) := by
    intro d hd
    by_cases h1 : d ∈ a.arr.dims
    · by_cases h2 : d ∈ b.arr.dims
      · obtain ⟨l, e, hl⟩ := join_same ha hb d h1 h2
        obtain ⟨p1, p2⟩ := pairs_both a b d h1 h2 _ _ e
        rw [p2]
        exact ⟨p1, hl⟩
      · obtain ⟨p1, p2⟩ := pairs_left a b d h1 h2
        rw [p1, p2, ha.size d h1]
        exact ⟨rfl, ha.index d h1⟩
    · obtain ⟨p1, p2⟩ := pairs_right a b d h1
      have h2 := hd.resolve_left h1
      rw [p1, p2, hb.size d h2]
      exact ⟨rfl, hb.index d h2⟩
  refine ⟨_, izip_ok f a b (fun d h1 h2 => ?_), ⟨?_, ?_, ?_⟩, rfl, ?_⟩
  · obtain ⟨l, e, -⟩ := join_same ha hb d h1 h2
    exact ⟨_, e⟩
  · intro i j hij
    show f _ _ = f _ _
    congr 1
    · apply ha.wf
      intro d hd
      rw [hij d ((mem_joinedDims _ _ d).mpr (Or.inl hd))]
    · apply hb.wf
      intro d hd
      rw [hij d ((mem_joinedDims _ _ d).mpr (Or.inr hd))]
  · intro d hd
    show (IArr.pairs a b d).length = S d
    rw [(hp d ((mem_joinedDims _ _ d).mp hd)).1]
    simp
  · intro d hd
    exact (hp d ((mem_joinedDims _ _ d).mp hd)).2
  · intro i hi
    show f _ _ = f _ _
    congr 1
    · apply ha.wf
      intro d hd
      rw [(hp d (Or.inl hd)).1, diag_getD _ _ (hi d (Or.inl hd))]
    · apply hb.wf
      intro d hd
      rw [(hp d (Or.inr hd)).1, diag_getD _ _ (hi d (Or.inr hd))]

theorem exactOk_iff (x y : Option (List K)) : exactOk x y = true ↔ ∀ a b, x = some a → y = some b → a = b := by
  cases x <;> cases y <;> simp [exactOk]

/-- when `where` with a replacement value succeeds -/
theorem zipExact_ok (f : α → β → γ) (a : IArr K α) (b : IArr K β) (r : IArr K γ) (h : zipExact f a b = .ok r) :
    (∀ d ∈ a.arr.dims, d ∈ b.arr.dims → a.arr.size d = b.arr.size d ∧ ∀ x y, a.index d = some x → b.index d = some y → x = y) ∧
    r.arr.dims = a.arr.dims ++ b.arr.dims.filter (fun d => !a.arr.dims.contains d) ∧
    (∀ d, d ∈ a.arr.dims → d ∈ b.arr.dims → r.arr.size d = a.arr.size d ∧ ∀ y, b.index d = some y → (r.index d).isSome) ∧
    (∀ d, d ∉ a.arr.dims → d ∈ b.arr.dims → r.arr.size d = b.arr.size d ∧ r.index d = b.index d) := by
  unfold zipExact at h
  split at h
  · rename_i hc
    cases h
    refine ⟨?_, rfl, ?_, ?_⟩
    · intro d h1 h2
      have := List.all_eq_true.mp hc d h1
      simp only [List.contains_eq_mem, h2, decide_true, Bool.not_true, Bool.false_or, Bool.and_eq_true, exactOk_iff, beq_iff_eq] at this
      exact ⟨this.2, this.1⟩
    · intro d h1 h2
      refine ⟨by simp [h1], ?_⟩
      intro y hy
      cases ha : a.index d <;> simp [h1, h2, ha, hy]
    · intro d h1 h2
      exact ⟨by simp [h1], by simp [h1]⟩
  · cases h

theorem zipExact_fits {S : String → ℕ} {L : String → Option (List K)} {N : String → Prop} (f : α → β → γ) {a : IArr K α} {b : IArr K β} (ha : Fits S L N a) (hb : Fits S L N b) :
    ∃ r, zipExact f a b = .ok r ∧ Fits S L N r ∧ r.arr.dims = a.arr.dims ++ b.arr.dims.filter (fun d => !a.arr.dims.contains d) ∧
      ∀ i, r.arr.get i = f (a.arr.get i) (b.arr.get i) := by
  have hc : a.arr.dims.all (fun d => !b.arr.dims.contains d || (exactOk (a.index d) (b.index d) && a.arr.size d == b.arr.size d)) = true := by
    rw [List.all_eq_true]
    intro d h1
    by_cases h2 : d ∈ b.arr.dims
    · simp only [List.contains_eq_mem, h2, decide_true, Bool.not_true, Bool.false_or, Bool.and_eq_true, exactOk_iff, beq_iff_eq]
      refine ⟨?_, by rw [ha.size d h1, hb.size d h2]⟩
      intro x y ex ey
      rcases ha.index d h1 with ⟨e1, -⟩ | e1 <;> rcases hb.index d h2 with ⟨e2, -⟩ | e2 <;> rw [ex] at e1 <;> rw [ey] at e2
      · cases e1
      · cases e1
      · cases e2
      · rw [← e1] at e2
        injection e2 with e2
        exact e2.symm
    · simp [h2]
  refine ⟨_, by unfold zipExact; rw [if_pos hc], ⟨?_, ?_, ?_⟩, rfl, fun i => rfl⟩
  · intro i j hij
    show f _ _ = f _ _
    congr 1
    · apply ha.wf
      intro d hd
      exact hij d ((mem_joinedDims _ _ d).mpr (Or.inl hd))
    · apply hb.wf
      intro d hd
      exact hij d ((mem_joinedDims _ _ d).mpr (Or.inr hd))
  · intro d hd
    by_cases h1 : d ∈ a.arr.dims
    · simp [h1, ha.size d h1]
    · have h2 := ((mem_joinedDims _ _ d).mp hd).resolve_left h1
      simp [h1, hb.size d h2]
  · intro d hd
    by_cases h1 : d ∈ a.arr.dims
    · simp only [List.contains_eq_mem, h1, decide_true, if_true]
      rcases ha.index d h1 with ⟨e1, n1⟩ | e1
      · rw [e1]
        by_cases h2 : d ∈ b.arr.dims
        · simpa [h2] using hb.index d h2
        · simp [h2, n1]
      · cases hL : L d with
        | some l => rw [e1, hL]; simp
        | none =>
          rw [e1, hL]
          by_cases h2 : d ∈ b.arr.dims
          · have := hb.index d h2
            rw [hL] at this
            simpa [h2] using this
          · simp [h2]
    · have h2 := ((mem_joinedDims _ _ d).mp hd).resolve_left h1
      simpa [h1] using hb.index d h2

theorem indicesOf_lt (size : String → ℕ) : ∀ (ds : List String), ds.Nodup → ∀ c ∈ LArr.indicesOf size ds, ∀ d ∈ ds, c d < size d
  | [], _, _, _, _, h => by cases h
  | e :: ds, hn, c, hc, d, hd => by
    simp only [LArr.indicesOf, List.mem_flatMap, List.mem_range, List.mem_map] at hc
    obtain ⟨k, hk, c', hc', rfl⟩ := hc
    rcases List.mem_cons.mp hd with h | h
    · subst h
      simpa using hk
    · have hne : d ≠ e := by
        rintro rfl
        exact (List.nodup_cons.mp hn).1 h
      rw [Function.update_of_ne hne]
      exact indicesOf_lt size ds (List.nodup_cons.mp hn).2 c' hc' d h

theorem indicesOf_congr (s t : String → ℕ) : ∀ (ds : List String), (∀ d ∈ ds, s d = t d) → LArr.indicesOf s ds = LArr.indicesOf t ds
  | [], _ => rfl
  | e :: ds, h => by
    simp only [LArr.indicesOf]
    rw [h e (by simp), indicesOf_congr s t ds (fun d hd => h d (by simp [hd]))]

theorem cellsAt_congr (s t : String → ℕ) (sp : List String) (i : String → ℕ) (h : ∀ d ∈ sp, s d = t d) : cellsAt s sp i = cellsAt t sp i := by
  unfold cellsAt
  rw [indicesOf_congr s t sp h]

theorem mem_cellsAt (size : String → ℕ) (sp : List String) (hn : sp.Nodup) (i c : String → ℕ) (hc : c ∈ cellsAt size sp i) :
    (∀ d ∈ sp, c d < size d) ∧ ∀ d, d ∉ sp → c d = i d := by
  unfold cellsAt at hc
  obtain ⟨c', hc', rfl⟩ := List.mem_map.mp hc
  constructor
  · intro d hd
    simp only [List.contains_eq_mem, hd, decide_true, if_true]
    exact indicesOf_lt size sp hn c' hc' d hd
  · intro d hd
    simp [hd]

/-- the mean over some dimensions, at an index of the others -/
theorem meanOver_fits {S : String → ℕ} {L : String → Option (List K)} {N : String → Prop} (sp : List String) (hn : sp.Nodup) {w : IArr K K} {x : IArr K (Option K)}
    (hw : Fits S L N w) (hx : Fits S L N x) (hsp : ∀ d ∈ sp, d ∈ x.arr.dims ∨ d ∈ w.arr.dims) :
    ∃ r, meanOver sp w x = .ok r ∧ Fits S L N r ∧ (∀ d, d ∈ r.arr.dims ↔ (d ∈ x.arr.dims ∨ d ∈ w.arr.dims) ∧ d ∉ sp) ∧
      ∀ i, (∀ d, d ∈ x.arr.dims ∨ d ∈ w.arr.dims → d ∉ sp → i d < S d) →
        r.arr.get i = wmeanNa ((cellsAt S sp i).map w.arr.get) ((cellsAt S sp i).map x.arr.get) := by
  obtain ⟨p, ep, fp, dp, gp⟩ := zip_fits Prod.mk hx hw
  have hps : ∀ d ∈ sp, p.arr.size d = S d := by
    intro d hd
    apply fp.size
    rw [dp]
    exact (mem_joinedDims _ _ d).mpr (hsp d hd)
  have hmem : ∀ d, d ∈ p.arr.dims.filter (fun d => !sp.contains d) ↔ (d ∈ x.arr.dims ∨ d ∈ w.arr.dims) ∧ d ∉ sp := by
    intro d
    rw [List.mem_filter, dp, mem_joinedDims]
    simp
  refine ⟨_, by unfold meanOver; rw [ep]; rfl, ⟨?_, ?_, ?_⟩, hmem, ?_⟩
  · intro i j hij
    have hc : ∀ c : String → ℕ, p.arr.get (fun d => if sp.contains d then c d else i d) = p.arr.get (fun d => if sp.contains d then c d else j d) := by
      intro c
      apply fp.wf
      intro d hd
      by_cases h : d ∈ sp
      · simp [h]
      · simp only [List.contains_eq_mem, h, decide_false]
        exact hij d (List.mem_filter.mpr ⟨hd, by simp [h]⟩)
    show wmeanNa _ _ = wmeanNa _ _
    unfold cellsAt
    simp only [List.map_map, Function.comp_def, hc]
  · intro d hd
    exact fp.size d (List.mem_of_mem_filter hd)
  · intro d hd
    exact fp.index d (List.mem_of_mem_filter hd)
  · intro i hi
    have hg : ∀ c ∈ cellsAt S sp i, p.arr.get c = (x.arr.get c, w.arr.get c) := by
      intro c hc
      obtain ⟨h1, h2⟩ := mem_cellsAt S sp hn i c hc
      apply gp
      intro d hd
      by_cases h : d ∈ sp
      · exact h1 d h
      · rw [h2 d h]
        exact hi d hd h
    show wmeanNa _ _ = wmeanNa _ _
    rw [cellsAt_congr p.arr.size S sp i hps]
    congr 1
    · apply List.map_congr_left
      intro c hc
      rw [hg c hc]
    · apply List.map_congr_left
      intro c hc
      rw [hg c hc]

theorem ofOpt_wmean (ws vs : List K) (h : vs.length = ws.length) : ofOpt (wmeanNa ws (vs.map some)) = weightedMean ws vs := by
  unfold wmeanNa weightedMean
  have h1 : List.zipWith (fun w (v : Option K) => if v.isSome then w else 0) ws (vs.map some) = ws := by
    apply List.ext_getElem
    · simp [h]
    · intro k _ _
      simp
  have h2 : List.zipWith (fun w (v : Option K) => w * v.getD 0) ws (vs.map some) = List.zipWith (· * ·) ws vs := by
    apply List.ext_getElem
    · simp
    · intro k _ _
      simp
  simp only [h1, h2]
  split <;> rfl

theorem wmean_none (ws : List K) (vs : List (Option K)) (h : ∀ v ∈ vs, v = none) : wmeanNa ws vs = none := by
  unfold wmeanNa
  have h1 : List.zipWith (fun w (v : Option K) => if v.isSome then w else 0) ws vs = List.replicate (min ws.length vs.length) 0 := by
    apply List.ext_getElem
    · simp
    · intro k k1 k2
      have : vs[k]'(by simp at k1; omega) = none := h _ (List.getElem_mem _)
      simp [this]
  simp [h1]

/-- the three means of `nmse`, cell by cell -/
theorem nmse_of_means {ι : Type} (c : List ι) (w o m : ι → K) :
    ofOpt (wmeanNa (c.map w) (c.map (fun c => some ((m c - o c) * (m c - o c))))) /
      ofOpt (wmeanNa (c.map w) (c.map (fun x => (wmeanNa (c.map w) (c.map (fun c => some (o c)))).map (fun ow => (o x - ow) * (o x - ow))))) =
    nmseSlice (c.map w) (c.map o) (c.map m) := by
  have e1 : c.map (fun c => some (o c)) = (c.map o).map some := by simp
  have e2 : c.map (fun c => some ((m c - o c) * (m c - o c))) = (List.zipWith (fun m o => (m - o) * (m - o)) (c.map m) (c.map o)).map some := by
    apply List.ext_getElem
    · simp
    · intro k _ _
      simp
  unfold nmseSlice
  rw [← ofOpt_wmean _ (c.map o) (by simp), ← e1]
  cases h : wmeanNa (c.map w) (c.map (fun c => some (o c))) with
  | none =>
    rw [wmean_none _ (c.map (fun x => (none : Option K).map (fun ow => (o x - ow) * (o x - ow)))) (by
      intro v hv
      obtain ⟨x, -, rfl⟩ := List.mem_map.mp hv
      rfl)]
    show ofOpt _ / XF.nan = XF.nan
    cases wmeanNa (c.map w) (c.map (fun c => some ((m c - o c) * (m c - o c)))) <;> rfl
  | some ow =>
    have e3 : c.map (fun x => (some ow).map (fun ow => (o x - ow) * (o x - ow))) = ((c.map o).map (fun o => (o - ow) * (o - ow))).map some := by
      simp
    simp only [ofOpt]
    show ofOpt _ / ofOpt _ = _
    rw [e2, e3, ofOpt_wmean _ _ (by simp), ofOpt_wmean _ _ (by simp)]

end Verif.Lemmas
