import Verif.Lemmas.PearsonNd
import Verif.Props.Pearson
import Verif.Props.FourierNd

/-
C190: pearson_r of N-D arrays along an axis.
-/

namespace Verif.Props
open Model Spec Lemmas

/-- the series along axis `k` at position `j` of the other axes -/
def axisSeries {α : Type} (x : Tensor α) (k : ℕ) (j : List ℕ) : List α :=
  (List.range (x.shape.getD k 0)).map (fun t => x.get (j.insertIdx k t))

/-- weights given to the function for every element of an array of shape `s`, and the weights that count -/
inductive ElementWeights (s : List ℕ) : Tensor ℝ → Option (Tensor (XF ℝ)) → Prop
  | given (W : Tensor ℝ) (hs : W.shape = s) (h : ∀ i, Tensor.InBounds s i → 0 < W.get i) : ElementWeights s W (some (W.map .fin))
  | absent : ElementWeights s ⟨s, fun _ => 1⟩ none

theorem ElementWeights.shape {s : List ℕ} {W : Tensor ℝ} {w : Option (Tensor (XF ℝ))} (h : ElementWeights s W w) : W.shape = s := by
  cases h with
  | given _ hs _ => exact hs
  | absent => rfl

theorem ElementWeights.pos {s : List ℕ} {W : Tensor ℝ} {w : Option (Tensor (XF ℝ))} (h : ElementWeights s W w) :
    ∀ i, Tensor.InBounds s i → 0 < W.get i := by
  cases h with
  | given _ _ h => exact h
  | absent => exact fun _ _ => one_pos

/-- the cell (weight, a, b) at an index -/
def cellAt (W : Tensor ℝ) (A B : Tensor (Option ℝ)) (i : List ℕ) : ℝ × Option ℝ × Option ℝ := (W.get i, A.get i, B.get i)

theorem lift_some {x : ℝ × Option ℝ × Option ℝ} (h : (cellVal x).isSome = true) :
    lift cellVal (·.2.1) x = toX x.2.1 ∧ lift cellVal (·.2.2) x = toX x.2.2 ∧ lift cellVal (·.1) x = .fin x.1 := by
  obtain ⟨w, a, b⟩ := x
  cases a <;> cases b <;> simp_all [cellVal, lift, toX]

theorem lift_masked (x : ℝ × Option ℝ × Option ℝ) :
    (if ((toX x.2.1).isNaN || (toX x.2.2).isNaN) = true then XF.nan else toX x.2.1) = lift cellVal (·.2.1) x ∧
    (if ((toX x.2.1).isNaN || (toX x.2.2).isNaN) = true then XF.nan else toX x.2.2) = lift cellVal (·.2.2) x ∧
    (if ((toX x.2.1).isNaN || (toX x.2.2).isNaN) = true then XF.nan else XF.fin x.1) = lift cellVal (·.1) x := by
  obtain ⟨w, a, b⟩ := x
  cases a <;> cases b <;> simp [cellVal, lift, toX]

/-- after `_match_nans` an element is NaN in all arrays where it is missing in one -/
theorem matched (A B : Tensor (Option ℝ)) (hB : B.shape = A.shape) (W : Tensor ℝ) (w : Option (Tensor (XF ℝ))) (hw : ElementWeights A.shape W w)
    (skipna : Bool) (hs : skipna = true ∨ ∀ i, Tensor.InBounds A.shape i → A.get i ≠ none ∧ B.get i ≠ none) :
    ∃ a b w', (if skipna then matchNansNd (A.map toX) (B.map toX) w else pure (A.map toX, B.map toX, w)) = .ok (a, b, w') ∧
      TIs a A.shape (fun i => lift cellVal (·.2.1) (cellAt W A B i)) ∧ TIs b A.shape (fun i => lift cellVal (·.2.2) (cellAt W A B i)) ∧
      (w = none ∧ w' = none ∨ ∃ z, w' = some z ∧ TIs z A.shape (fun i => lift cellVal (·.1) (cellAt W A B i))) := by
  -- without missing values nothing changes
  have plain : (∀ i, Tensor.InBounds A.shape i → A.get i ≠ none ∧ B.get i ≠ none) →
      TIs (A.map toX) A.shape (fun i => lift cellVal (·.2.1) (cellAt W A B i)) ∧ TIs (B.map toX) A.shape (fun i => lift cellVal (·.2.2) (cellAt W A B i)) ∧
      (w = none ∧ w = none ∨ ∃ z, w = some z ∧ TIs z A.shape (fun i => lift cellVal (·.1) (cellAt W A B i))) := by
    intro h
    have hsome : ∀ i, Tensor.InBounds A.shape i → (cellVal (cellAt W A B i)).isSome = true := by
      intro i hi
      obtain ⟨h1, h2⟩ := h i hi
      obtain ⟨x, hx⟩ := Option.ne_none_iff_exists'.mp h1
      obtain ⟨y, hy⟩ := Option.ne_none_iff_exists'.mp h2
      simp [cellVal, cellAt, hx, hy]
    refine ⟨⟨rfl, fun i hi => ((lift_some (hsome i hi)).1).symm⟩, ⟨hB, fun i hi => ((lift_some (hsome i hi)).2.1).symm⟩, ?_⟩
    cases hw with
    | given _ hs' _ => exact Or.inr ⟨_, rfl, hs', fun i hi => ((lift_some (hsome i hi)).2.2).symm⟩
    | absent => exact Or.inl ⟨rfl, rfl⟩
  cases skipna with
  | false =>
    have h : ∀ i, Tensor.InBounds A.shape i → A.get i ≠ none ∧ B.get i ≠ none := by
      rcases hs with h | h
      · cases h
      · exact h
    obtain ⟨h1, h2, h3⟩ := plain h
    exact ⟨_, _, _, rfl, h1, h2, h3⟩
  | true =>
    simp only [if_true]
    unfold matchNansNd
    by_cases hany : ((A.map toX).values.any XF.isNaN || (B.map toX).values.any XF.isNaN) = true
    · rw [if_pos hany]
      obtain ⟨idx, e1, h1⟩ := tis_zip (fun x y : XF ℝ => x.isNaN || y.isNaN) (x := A.map toX) (y := B.map toX) (s := A.shape)
        (g := fun i => toX (A.get i)) (h := fun i => toX (B.get i)) ⟨rfl, fun _ _ => rfl⟩ ⟨hB, fun _ _ => rfl⟩
      have ea : setNaNNd (A.map toX) idx = .ok ⟨A.shape, fun i => if idx.get i then .nan else toX (A.get i)⟩ := by
        unfold setNaNNd
        exact if_pos h1.1.symm
      have eb : setNaNNd (B.map toX) idx = .ok ⟨B.shape, fun i => if idx.get i then .nan else toX (B.get i)⟩ := by
        unfold setNaNNd
        exact if_pos (hB.trans h1.1.symm)
      have ta : TIs (⟨A.shape, fun i => if idx.get i then .nan else toX (A.get i)⟩ : Tensor (XF ℝ)) A.shape
          (fun i => lift cellVal (·.2.1) (cellAt W A B i)) := by
        refine ⟨rfl, fun i hi => ?_⟩
        simp only [h1.2 i hi]
        exact (lift_masked (cellAt W A B i)).1
      have tb : TIs (⟨B.shape, fun i => if idx.get i then .nan else toX (B.get i)⟩ : Tensor (XF ℝ)) A.shape
          (fun i => lift cellVal (·.2.2) (cellAt W A B i)) := by
        refine ⟨hB, fun i hi => ?_⟩
        simp only [h1.2 i hi]
        exact (lift_masked (cellAt W A B i)).2.1
      cases hw with
      | given _ hs' _ =>
        have ew : setNaNNd (W.map .fin) idx = .ok ⟨W.shape, fun i => if idx.get i then .nan else .fin (W.get i)⟩ := by
          unfold setNaNNd
          exact if_pos (hs'.trans h1.1.symm)
        refine ⟨_, _, some ⟨W.shape, fun i => if idx.get i then .nan else .fin (W.get i)⟩, ?_, ta, tb, Or.inr ⟨_, rfl, hs', fun i hi => ?_⟩⟩
        · simp only [e1, ea, eb, ew, bind, Except.bind, pure, Except.pure]
        simp only [h1.2 i hi]
        exact (lift_masked (cellAt W A B i)).2.2
      | absent =>
        exact ⟨_, _, none, by simp only [e1, ea, eb, bind, Except.bind, pure, Except.pure], ta, tb, Or.inl ⟨rfl, rfl⟩⟩
    · rw [if_neg hany]
      have h : ∀ i, Tensor.InBounds A.shape i → A.get i ≠ none ∧ B.get i ≠ none := by
        simp only [Bool.or_eq_true, List.any_eq_true, not_or, not_exists, not_and] at hany
        intro i hi
        constructor
        · intro hn
          exact hany.1 .nan (Tensor.mem_values.mpr ⟨i, hi, by simp [Tensor.map, hn, toX]⟩) rfl
        · intro hn
          exact hany.2 .nan (Tensor.mem_values.mpr ⟨i, by simpa [Tensor.map, hB] using hi, by simp [Tensor.map, hn, toX]⟩) rfl
      obtain ⟨h1, h2, h3⟩ := plain h
      exact ⟨_, _, _, rfl, h1, h2, h3⟩

/-- the cells of the series are the cells of the arrays along the axis -/
theorem series_cells (A B : Tensor (Option ℝ)) (hB : B.shape = A.shape) (W : Tensor ℝ) (hW : W.shape = A.shape) (k : ℕ) (j : List ℕ) :
    validCells (axisSeries W k j) (axisSeries A k j) (axisSeries B k j) =
      (List.range (A.shape.getD k 0)).filterMap (fun t => cellVal (cellAt W A B (j.insertIdx k t))) := by
  rw [validCells_cellVal]
  unfold axisSeries
  rw [hB, hW, List.zip_eq_zipWith, List.zip_eq_zipWith, zipWith_maps, zipWith_maps, List.filterMap_map]
  rfl

/-- `C190`: for arrays of the same shape (missing values allowed with `skipna`) and an axis, without weights or with a positive weight for
every element, the result has the other axes, and its value at each position is the weighted correlation coefficient of the two series
along the axis at that position, or NaN if either is constant there.
Missing: weights given once for the axis, see the counterexample. -/
theorem C190_partial (A B : Tensor (Option ℝ)) (hB : B.shape = A.shape) (W : Tensor ℝ) (w : Option (Tensor (XF ℝ))) (hw : ElementWeights A.shape W w)
    (axis : ℤ) (k : ℕ) (hk : k < A.shape.length) (hax : axis = k ∨ axis = (k : ℤ) - A.shape.length) (skipna : Bool)
    (hs : skipna = true ∨ ∀ i, Tensor.InBounds A.shape i → A.get i ≠ none ∧ B.get i ≠ none) :
    ∃ r, pearsonRNd (A.map toX) (B.map toX) w axis skipna = .ok (some r) ∧ r.shape = A.shape.eraseIdx k ∧
      ∀ j, Tensor.InBounds r.shape j → IsPearson (validCells (axisSeries W k j) (axisSeries A k j) (axisSeries B k j)) (r.get j) := by
  have hn : normAxis A.shape.length axis = .ok k := normAxis_ok.mpr ⟨hk, hax⟩
  obtain ⟨a, b, w', hm, ha, hb, hw'⟩ := matched A B hB W w hw skipna hs
  set c : List ℕ → ℕ → ℝ × Option ℝ × Option ℝ := fun j t => cellAt W A B (j.insertIdx k t) with hc
  set n := A.shape.getD k 0 with hnn
  obtain ⟨a', ea, ta⟩ := tis_roll ha hn hk
  obtain ⟨b', eb, tb⟩ := tis_roll hb hn hk
  -- the cells along the axis at a position
  have hpos : ∀ j, Tensor.InBounds (A.shape.eraseIdx k) j → ∀ y ∈ (List.range n).filterMap (fun t => cellVal (c j t)), 0 < y.1 := by
    intro j hj y hy
    obtain ⟨t, ht, h⟩ := List.mem_filterMap.mp hy
    have h' := val_w _ y h
    injection h' with h'
    rw [← h']
    exact hw.pos _ (inBounds_insert hk hj (List.mem_range.mp ht))
  have hall : ∀ j, Tensor.InBounds (A.shape.eraseIdx k) j → (skipna = true ∨ ∀ t ∈ List.range n, (cellVal (c j t)).isSome = true) := by
    intro j hj
    refine hs.imp_right fun h t ht => ?_
    obtain ⟨h1, h2⟩ := h _ (inBounds_insert hk hj (List.mem_range.mp ht))
    obtain ⟨x, hx⟩ := Option.ne_none_iff_exists'.mp h1
    obtain ⟨y, hy⟩ := Option.ne_none_iff_exists'.mp h2
    simp [cellVal, cellAt, hc, hx, hy]
  suffices h : ∃ r, pearsonTailNd a b w' axis skipna = .ok r ∧ r.shape = A.shape.eraseIdx k ∧
      ∀ j, Tensor.InBounds (A.shape.eraseIdx k) j → r.get j = corrX ((List.range n).filterMap (fun t => cellVal (c j t))) by
    obtain ⟨r, h1, h2, h3⟩ := h
    refine ⟨r, ?_, h2, fun j hj => ?_⟩
    · unfold pearsonRNd pearsonCoreNd
      cases skipna with
      | true =>
        simp only [if_true] at hm ⊢
        simp only [hm, bind, Except.bind, h1, swallowValueError]
      | false =>
        simp only [Bool.false_eq_true, if_false] at hm ⊢
        simp only [hm, bind, Except.bind, h1, swallowValueError]
    · rw [h2] at hj
      rw [series_cells A B hB W hw.shape, h3 j hj]
      exact corrX_isPearson _ (hpos j hj)
  unfold pearsonTailNd
  simp only [ea, eb, bind, Except.bind]
  rcases hw' with ⟨h0, rfl⟩ | ⟨z, rfl, hz⟩
  · obtain ⟨r, er, tr⟩ := unweightedNd_at ta tb skipna
    refine ⟨r, er, tr.1, fun j hj => ?_⟩
    rw [tr.2 j hj]
    refine uform_value skipna (List.range n) (fun t => cellVal (c j t)) (hall j hj) ?_
    intro y hy
    obtain ⟨t, ht, h⟩ := List.mem_filterMap.mp hy
    have h' := val_w _ y h
    injection h' with h'
    rw [← h']
    subst h0
    cases hw
    rfl
  · unfold checkWeightsNd
    by_cases hnan : z.values.all XF.isNaN = true
    · simp only [hnan, if_true]
      obtain ⟨r, er, tr⟩ := unweightedNd_at ta tb skipna
      refine ⟨r, er, tr.1, fun j hj => ?_⟩
      rw [tr.2 j hj]
      -- every element is missing
      have hmiss : ∀ t ∈ List.range n, cellVal (c j t) = none := by
        intro t ht
        have hi := inBounds_insert hk hj (List.mem_range.mp ht)
        have := List.all_eq_true.mp hnan _ (Tensor.mem_values.mpr ⟨_, hz.1.symm ▸ hi, rfl⟩)
        rw [hz.2 _ hi] at this
        simp only [lift] at this
        cases h : cellVal (c j t) with
        | none => rfl
        | some y =>
          rw [show cellVal (cellAt W A B (j.insertIdx k t)) = some y from h] at this
          cases this
      refine uform_value skipna (List.range n) (fun t => cellVal (c j t)) (hall j hj) ?_
      intro y hy
      obtain ⟨t, ht, h⟩ := List.mem_filterMap.mp hy
      rw [hmiss t ht] at h
      cases h
    · simp only [hnan, Bool.false_eq_true, if_false]
      obtain ⟨z', ez, tz⟩ := tis_roll hz hn hk
      simp only [ez]
      obtain ⟨r, er, tr⟩ := weightedNd_at ta tb tz skipna
      refine ⟨r, er, tr.1, fun j hj => ?_⟩
      rw [tr.2 j hj]
      exact wform_value skipna (List.range n) (fun t => cellVal (c j t)) (hall j hj) (hpos j hj)

/-- `C190`: the value at each position is what the function returns for the two series there -/
theorem C190_each_series {X : Type} (xs : StatArg X → StatArg X → Option (List (XF ℝ)) → Bool → Except PyErr X)
    (A B : Tensor (Option ℝ)) (hB : B.shape = A.shape) (W : Tensor ℝ) (hW : W.shape = A.shape) (hpos : ∀ i, Tensor.InBounds A.shape i → 0 < W.get i)
    (axis : ℤ) (k : ℕ) (hk : k < A.shape.length) (hax : axis = k ∨ axis = (k : ℤ) - A.shape.length) (hn : 0 < A.shape.getD k 0) (skipna : Bool)
    (hs : skipna = true ∨ ∀ i, Tensor.InBounds A.shape i → A.get i ≠ none ∧ B.get i ≠ none) :
    ∃ r, pearsonRNd (A.map toX) (B.map toX) (some (W.map .fin)) axis skipna = .ok (some r) ∧ r.shape = A.shape.eraseIdx k ∧
      ∀ j, Tensor.InBounds r.shape j →
        pearsonR xs (.array (axisSeries (A.map toX) k j)) (.array (axisSeries (B.map toX) k j)) (some (axisSeries (W.map .fin) k j)) skipna =
          .ok (some (.number (r.get j))) := by
  obtain ⟨r, h1, h2, h3⟩ := C190_partial A B hB W _ (.given W hW hpos) axis k hk hax skipna hs
  refine ⟨r, h1, h2, fun j hj => ?_⟩
  have hi : ∀ t < A.shape.getD k 0, Tensor.InBounds A.shape (j.insertIdx k t) := fun t ht => inBounds_insert hk (h2 ▸ hj) ht
  have hwa : WeightsArg (axisSeries W k j) (some ((axisSeries W k j).map .fin)) := by
    refine .given _ fun x hx => ?_
    obtain ⟨t, ht, rfl⟩ := List.mem_map.mp hx
    exact hpos _ (hi t (by rw [← hW]; exact List.mem_range.mp ht))
  have hlen : ∀ (β : Type) (x : Tensor β), (axisSeries x k j).length = x.shape.getD k 0 := by simp [axisSeries]
  obtain ⟨s, e, hp⟩ := C64_value xs (axisSeries W k j) _ hwa (axisSeries A k j) (axisSeries B k j) (by rw [hlen, hlen, hW]) (by rw [hlen, hlen, hW, hB])
    (by intro h; have := congrArg List.length h; rw [hlen, hW] at this; simp at this; simp at hn; omega) skipna (by
      refine hs.imp_right fun h => ⟨?_, ?_⟩
      · intro hm
        obtain ⟨t, ht, e⟩ := List.mem_map.mp hm
        exact (h _ (hi t (List.mem_range.mp ht))).1 e
      · intro hm
        obtain ⟨t, ht, e⟩ := List.mem_map.mp hm
        exact (h _ (hi t (by rw [← hB]; exact List.mem_range.mp ht))).2 e)
  rw [(h3 j hj).unique hp]
  have hmap : ∀ (β γ : Type) (f : β → γ) (x : Tensor β), axisSeries (x.map f) k j = (axisSeries x k j).map f := by
    intro β γ f x
    simp [axisSeries, Tensor.map, Function.comp_def]
  rw [hmap, hmap, hmap]
  exact e

/-- `C190`: an axis the arrays do not have is not an error: nothing is returned -/
theorem C190_bad_axis (A B : Tensor (XF ℝ)) (axis : ℤ) (h : ¬ (-(A.shape.length : ℤ) ≤ axis ∧ axis < A.shape.length)) :
    pearsonRNd A B none axis false = .ok none := by
  have e : normAxis A.shape.length axis = .error .axisError := by
    refine normAxis_error fun k hk => h ?_
    obtain ⟨h1, h2⟩ := normAxis_ok.mp hk
    omega
  simp only [pearsonRNd, pearsonCoreNd, Bool.false_eq_true, if_false, pure, Except.pure, bind, Except.bind, pearsonTailNd, rollaxis, e, swallowValueError]

/-- `C190`: one-dimensional weights are of no use for any axis but the first: nothing is returned -/
theorem C190_axis_weights (A B : Tensor (XF ℝ)) (hB : B.shape = A.shape) (n : ℕ) (ws : List ℕ → ℝ) (hn : 0 < n) (axis : ℤ) (h1 : 1 ≤ axis) :
    pearsonRNd A B (some ⟨[n], fun i => .fin (ws i)⟩) axis false = .ok none := by
  have e1 : normAxis 1 axis = .error .axisError := by
    refine normAxis_error fun k hk => ?_
    obtain ⟨h1, h2⟩ := normAxis_ok.mp hk
    omega
  have hc : checkWeightsNd (some ⟨[n], fun i => .fin (ws i)⟩) = some ⟨[n], fun i => .fin (ws i)⟩ := by
    unfold checkWeightsNd
    refine if_neg fun h => ?_
    have := List.all_eq_true.mp h _ (Tensor.mem_values.mpr ⟨[0], List.Forall₂.cons hn List.Forall₂.nil, rfl⟩)
    cases this
  simp only [pearsonRNd, pearsonCoreNd, Bool.false_eq_true, if_false, pure, Except.pure, bind, Except.bind, pearsonTailNd, hc]
  by_cases hk : ∃ k, normAxis A.shape.length axis = .ok k
  · obtain ⟨k, hk⟩ := hk
    simp only [rollaxis, hB, hk, bind, Except.bind, pure, Except.pure, List.length_cons, List.length_nil, Nat.zero_add, e1, swallowValueError]
  · have e : normAxis A.shape.length axis = .error .axisError := normAxis_error (fun k h => hk ⟨k, h⟩)
    simp only [rollaxis, e, bind, Except.bind, swallowValueError]

/-- for a square array and the first axis, one-dimensional weights are accepted, but they are spread over the other axis: the weight of
the position, not of the sample, multiplies each term -/
theorem square_weights (n : ℕ) (hn : 0 < n) (a b : ℕ → ℕ → ℝ) (ws : ℕ → ℝ) :
    ∃ r, pearsonRNd ⟨[n, n], fun i => .fin (a (i.getD 0 0) (i.getD 1 0))⟩ ⟨[n, n], fun i => .fin (b (i.getD 0 0) (i.getD 1 0))⟩
        (some ⟨[n], fun i => .fin (ws (i.getD 0 0))⟩) 0 false = .ok (some r) ∧ r.shape = [n] ∧
      ∀ j < n,
        let ma := xSum ((List.range n).map (fun t => XF.fin (a t j) * XF.fin (ws j))) / xSum ((List.range n).map (fun t => XF.fin (ws t)))
        let mb := xSum ((List.range n).map (fun t => XF.fin (b t j) * XF.fin (ws j))) / xSum ((List.range n).map (fun t => XF.fin (ws t)))
        r.get [j] = clipUnit (xSum ((List.range n).map (fun t => XF.fin (ws j) * (.fin (a t j) - ma) * (.fin (b t j) - mb))) /
          xSqrt (xSum ((List.range n).map (fun t => XF.fin (ws j) * (.fin (a t j) - ma) * (.fin (a t j) - ma))) *
            xSum ((List.range n).map (fun t => XF.fin (ws j) * (.fin (b t j) - mb) * (.fin (b t j) - mb))))) := by
  set A : Tensor (XF ℝ) := ⟨[n, n], fun i => .fin (a (i.getD 0 0) (i.getD 1 0))⟩ with hA
  set B : Tensor (XF ℝ) := ⟨[n, n], fun i => .fin (b (i.getD 0 0) (i.getD 1 0))⟩ with hBdef
  set w : Tensor (XF ℝ) := ⟨[n], fun i => .fin (ws (i.getD 0 0))⟩ with hw
  have hc : checkWeightsNd (some w) = some w := by
    unfold checkWeightsNd
    refine if_neg fun h => ?_
    have := List.all_eq_true.mp h _ (Tensor.mem_values.mpr ⟨[0], List.Forall₂.cons hn List.Forall₂.nil, rfl⟩)
    cases this
  have n2 : normAxis 2 0 = .ok 0 := by decide
  have n1 : normAxis 1 0 = .ok 0 := by decide
  obtain ⟨A', ea, ha⟩ := tis_roll (x := A) (s := [n, n]) ⟨rfl, fun _ _ => rfl⟩ n2 (by simp)
  obtain ⟨B', eb, hb⟩ := tis_roll (x := B) (s := [n, n]) ⟨rfl, fun _ _ => rfl⟩ n2 (by simp)
  obtain ⟨w', ew, hw'⟩ := tis_roll (x := w) (s := [n]) ⟨rfl, fun _ _ => rfl⟩ n1 (by simp)
  simp only [List.getD_cons_zero, List.eraseIdx_cons_zero] at ha hb hw'
  obtain ⟨aw, e1, h1⟩ := tis_zip_tail (· * ·) ha hw'
  obtain ⟨ma, e2, h2⟩ := tis_zip_tail (· / ·) (tis_reduce (sumFunc false) h1) (tis_reduce (sumFunc false) hw')
  obtain ⟨bw, e3, h3⟩ := tis_zip_tail (· * ·) hb hw'
  obtain ⟨mb, e4, h4⟩ := tis_zip_tail (· / ·) (tis_reduce (sumFunc false) h3) (tis_reduce (sumFunc false) hw')
  obtain ⟨am, e5, h5⟩ := tis_zip_tail (· - ·) ha h2
  obtain ⟨bm, e6, h6⟩ := tis_zip_tail (· - ·) hb h4
  obtain ⟨wa, e7, h7⟩ := tis_zip_tail_left (· * ·) hw' h5
  obtain ⟨wab, e8, h8⟩ := tis_zip (· * ·) h7 h6
  obtain ⟨waa, e9, h9⟩ := tis_zip (· * ·) h7 h5
  obtain ⟨wb, e10, h10⟩ := tis_zip_tail_left (· * ·) hw' h6
  obtain ⟨wbb, e11, h11⟩ := tis_zip (· * ·) h10 h6
  obtain ⟨den, e12, h12⟩ := tis_zip (fun x y => xSqrt (x * y)) (tis_reduce (sumFunc false) h9) (tis_reduce (sumFunc false) h11)
  obtain ⟨r, e13, h13⟩ := tis_zip (fun x y => clipUnit (x / y)) (tis_reduce (sumFunc false) h8) h12
  refine ⟨r, ?_, h13.1, fun j hj => ?_⟩
  · simp only [pearsonRNd, pearsonCoreNd, Bool.false_eq_true, if_false, pure, Except.pure, bind, Except.bind, pearsonTailNd, hc, ea, eb, ew]
    simp only [weightedNd, e1, e2, e3, e4, e5, e6, e7, e8, e9, e10, e11, e12, e13, bind, Except.bind, swallowValueError]
  · rw [h13.2 [j] (List.Forall₂.cons hj List.Forall₂.nil)]
    rfl

/-- two samples of two variables: the correlation at each position is -1 whatever the weights of the samples, and the function returns -3/5
for the first when it is given the weights 1 and 3 of the samples -/
theorem C190_counterexample :
    ∃ r, pearsonRNd ⟨[2, 2], fun i => .fin (if i.getD 0 0 = 0 then 0 else 4)⟩ ⟨[2, 2], fun i => .fin (if i.getD 0 0 = 0 then 4 else 0)⟩
        (some ⟨[2], fun i => .fin (if i.getD 0 0 = 0 then 1 else 3)⟩) 0 false = .ok (some r) ∧ r.get [0] = .fin (-3 / 5) ∧
      correlation [(1, 0, 4), (3, 4, 0)] = -1 := by
  obtain ⟨r, h1, h2, h3⟩ := square_weights 2 (by norm_num) (fun t _ => if t = 0 then 0 else 4) (fun t _ => if t = 0 then 4 else 0)
    (fun t => if t = 0 then 1 else 3)
  refine ⟨r, h1, ?_, ?_⟩
  · rw [h3 0 (by norm_num)]
    have hs : Real.sqrt 100 = 10 := by
      rw [show (100 : ℝ) = 10 ^ 2 by norm_num, Real.sqrt_sq (by norm_num)]
    have h4 : (XF.fin (4 : ℝ)) / .fin 4 = .fin 1 := by rw [XF.fin_div _ _ (by norm_num)]; norm_num
    have e4 : (1 + 3 : ℝ) = 4 := by norm_num
    simp only [show List.range 2 = [0, 1] from rfl, List.map_cons, List.map_nil, xSum, List.foldr_cons, List.foldr_nil, if_true, one_ne_zero, if_false,
      XF.fin_mul, XF.fin_add, zero_mul, mul_one, zero_add, add_zero, e4, h4, XF.fin_sub]
    rw [show xSqrt _ = XF.fin 10 by
      simp only [xSqrt]
      rw [if_neg (by norm_num), show ((1 : ℝ) * (0 - 1) * (0 - 1) + 1 * (4 - 1) * (4 - 1)) * (1 * (4 - 1) * (4 - 1) + 1 * (0 - 1) * (0 - 1)) = 100 by norm_num, hs],
      XF.fin_div _ _ (by norm_num), clipUnit]
    norm_num
  · unfold correlation wMean
    norm_num
    rw [show (144 : ℝ) = 12 ^ 2 by norm_num, Real.sqrt_sq (by norm_num)]
    norm_num

-- the hypotheses are met: two 2x3 arrays with a missing value, correlated along the last axis
example : ∃ r, pearsonRNd (Tensor.map toX ⟨[2, 3], fun i => if i = [0, 1] then none else some (i.getD 1 0 : ℝ)⟩)
    (Tensor.map toX ⟨[2, 3], fun i => some ((i.getD 0 0 : ℝ) + 2 * (i.getD 1 0 : ℝ))⟩) none (-1) true = .ok (some r) ∧ r.shape = [2] ∧
    r.get [0] = .fin (correlation [(1, 0, 0), (1, 2, 4)]) := by
  obtain ⟨r, h1, h2, h3⟩ := C190_partial ⟨[2, 3], fun i => if i = [0, 1] then none else some (i.getD 1 0 : ℝ)⟩
    ⟨[2, 3], fun i => some ((i.getD 0 0 : ℝ) + 2 * (i.getD 1 0 : ℝ))⟩ rfl _ none .absent (-1) 1 (by simp) (Or.inr (by norm_num)) true (Or.inl rfl)
  refine ⟨r, h1, h2, ?_⟩
  have h := h3 [0] (by rw [h2]; exact List.Forall₂.cons (by norm_num) List.Forall₂.nil)
  have e : validCells (axisSeries (⟨[2, 3], fun _ => 1⟩ : Tensor ℝ) 1 [0])
      (axisSeries ⟨[2, 3], fun i => if i = [0, 1] then none else some (i.getD 1 0 : ℝ)⟩ 1 [0])
      (axisSeries ⟨[2, 3], fun i => some ((i.getD 0 0 : ℝ) + 2 * (i.getD 1 0 : ℝ))⟩ 1 [0]) = [(1, 0, 0), (1, 2, 4)] := by
    simp only [axisSeries, show List.range (([2, 3] : List ℕ).getD 1 0) = [0, 1, 2] from rfl, List.map_cons, List.map_nil,
      show ([0] : List ℕ).insertIdx 1 0 = [0, 0] from rfl, show ([0] : List ℕ).insertIdx 1 1 = [0, 1] from rfl, show ([0] : List ℕ).insertIdx 1 2 = [0, 2] from rfl]
    norm_num [validCells]
    rfl
  rw [e] at h
  refine h.1 ⟨⟨(1, 0, 0), by simp, (1, 2, 4), by simp, by norm_num⟩, ⟨(1, 0, 0), by simp, (1, 2, 4), by simp, by norm_num⟩⟩

end Verif.Props
