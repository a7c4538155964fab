import Verif.Props.HybridInterp2

/-
C83, the exact order of the values for requested levels in no particular order.
-/

set_option linter.unusedSectionVars false

namespace Verif.Props
open Model Spec Lemmas XF

/-- the result depends on the requested levels only through the interpolation of single columns -/
theorem dispatch_congr (g : ℝ → ℝ) (lev : String) (x x' : List ℝ) (hl : x.length = x'.length)
    (h : ∀ xp v, interpolate1d (x.map g) xp v = interpolate1d (x'.map g) xp v) (chunks : Option (String → List ℕ)) (others : Bool)
    (P : LArr ℝ) (data : LArr (XF ℝ)) : dispatch g lev x chunks others P data = dispatch g lev x' chunks others P data := by
  have hA : ∀ P D, interpAlong g lev x P D = interpAlong g lev x' P D := by
    intro P D
    unfold interpAlong
    simp only [h, hl]
  unfold dispatch
  cases chunks with
  | none => simp only [hA]
  | some c =>
    unfold interpChunked
    simp only [hA, hl]

theorem insertionSort_map (g : ℝ → ℝ) (x : List ℝ) (hg : ∀ a ∈ x, ∀ b ∈ x, a ≤ b → g a ≤ g b) :
    (x.map g).insertionSort (· ≤ ·) = (x.insertionSort (· ≤ ·)).map g := by
  have hp := List.perm_insertionSort (· ≤ ·) x
  refine List.Perm.eq_of_pairwise' (r := (· ≤ ·)) (List.pairwise_insertionSort _ _) ?_ ((List.perm_insertionSort _ _).trans (hp.map g).symm)
  rw [List.pairwise_map]
  exact (List.pairwise_insertionSort (· ≤ ·) x).imp_of_mem (fun ha hb hab => hg _ (hp.mem_iff.mp ha) _ (hp.mem_iff.mp hb) hab)

theorem servedOrder_perm (x : List ℝ) : (servedOrder x).Perm x := by
  unfold servedOrder
  split_ifs
  · exact (List.reverse_perm _).trans (List.perm_insertionSort _ _)
  · exact List.perm_insertionSort _ _

theorem servedOrder_map (g : ℝ → ℝ) (x : List ℝ) (hx : x ≠ []) (hg : ∀ a ∈ x, ∀ b ∈ x, a < b → g a < g b) :
    servedOrder (x.map g) = (servedOrder x).map g := by
  have hle : ∀ a ∈ x, ∀ b ∈ x, a ≤ b → g a ≤ g b := by
    intro a ha b hb hab
    rcases eq_or_lt_of_le hab with rfl | h
    · exact le_refl _
    · exact (hg a ha b hb h).le
  have h1 : (x.map g).headD 0 = g (x.headD 0) ∧ x.headD 0 ∈ x := by
    obtain ⟨c, l', rfl⟩ := List.exists_cons_of_ne_nil hx
    simp
  have h2 : (x.map g).getLastD 0 = g (x.getLastD 0) ∧ x.getLastD 0 ∈ x := by
    rw [List.getLastD_eq_getLast?, List.getLastD_eq_getLast?, List.getLast?_map, List.getLast?_eq_some_getLast hx]
    exact ⟨rfl, List.getLast_mem hx⟩
  have hiff : g (x.getLastD 0) < g (x.headD 0) ↔ x.getLastD 0 < x.headD 0 :=
    ⟨fun h => not_le.mp fun hc => absurd (hle _ h1.2 _ h2.2 hc) (not_le.mpr h), fun h => hg _ h2.2 _ h1.2 h⟩
  unfold servedOrder
  simp only [h1.1, h2.1, hiff, insertionSort_map g x hle]
  split_ifs
  · rw [List.map_reverse]
  · rfl

theorem servedOrder_sorted (x : List ℝ) : Sorted (servedOrder x) := by
  unfold servedOrder
  split_ifs
  · exact Or.inr (List.pairwise_reverse.mpr (List.pairwise_insertionSort (· ≤ ·) x))
  · exact Or.inl (List.pairwise_insertionSort (· ≤ ·) x)

/-- `C83`, exactly: for requested levels `x` in any order the values come out in increasing order of the pressure (in decreasing order if
the first requested level is larger than the last), while the labels stay in the order of the request. So position `k` of the result,
labelled `x[k]`, holds the value interpolated at the `k`-th level in that sorted order. -/
theorem C83_exact (o : HybridOpts) (lev e : String) (n : ℕ) (a b : ℕ → ℝ) (p0 : ℝ) (x : List ℝ) (ps : LArr ℝ)
    (data : LArr (XF ℝ)) (hacc : Accepted o lev) (hgrid : LevelData lev n ps data) (hne : x ≠ [])
    (hdist : ∀ i, AtPoint ps i → Distinct n (levelPressure a b p0 ps i))
    (hpos : o.method = "log" → (∀ y ∈ x, 0 < y) ∧ ∀ i, AtPoint ps i → ∀ k < n, 0 < levelPressure a b p0 ps i k)
    (hx : o.extrapolate = false) (chunks : Option (String → List ℕ)) (others : Bool) (hv : ValidChunks data chunks others) (labels : List ℝ)
    (tBot phi : LArr (XF ℝ)) :
    ∃ (out : LArr (XF ℝ)) (order : List ℝ), order.Perm x ∧
      (if x.getLastD 0 < x.headD 0 then order.Pairwise (fun p q => q ≤ p) else order.Pairwise (fun p q => p ≤ q)) ∧
      interpHybridToPressure o p0 x chunks others labels data ps (vec lev n a) (vec e n b) tBot phi = .ok out ∧
      ∀ i, AtPoint ps i → ∀ y, order[i "plev"]? = some y →
        InterpAt n (fun k => coordOf o.method (levelPressure a b p0 ps i k)) (levelValue lev data i) (coordOf o.method y) (out.get i) := by
  have hperm := servedOrder_perm x
  have hne' : servedOrder x ≠ [] := fun h => hne (by rw [h] at hperm; exact hperm.nil_eq.symm)
  have hgood : GoodCall o lev n a b p0 (servedOrder x) ps data :=
    ⟨hacc, hgrid, hne', servedOrder_sorted x, hdist, fun hl => ⟨fun y hy => (hpos hl).1 y (hperm.mem_iff.mp hy), (hpos hl).2⟩⟩
  obtain ⟨out, h1, h2⟩ := call_spec o lev e n a b p0 (servedOrder x) ps data hgood hx chunks others hv labels tBot phi
  have hmono : ∀ u ∈ x, ∀ v ∈ x, u < v → coordOf o.method u < coordOf o.method v := by
    intro u hu v hv huv
    unfold coordOf
    split_ifs with hl
    · exact Real.log_lt_log ((hpos hl).1 u hu) huv
    · exact huv
  have heq : ∀ xp v, interpolate1d (x.map (coordOf o.method)) xp v = interpolate1d ((servedOrder x).map (coordOf o.method)) xp v := by
    intro xp v
    rw [interpolate1d_served _ (by simpa using hne), servedOrder_map _ x hne hmono]
  refine ⟨out, servedOrder x, hperm, ?_, ?_, h2.value⟩
  · unfold servedOrder
    split_ifs
    · exact List.pairwise_reverse.mpr (List.pairwise_insertionSort (· ≤ ·) x)
    · exact List.pairwise_insertionSort (· ≤ ·) x
  · rw [call_eq o lev hacc, hx] at h1 ⊢
    obtain ⟨P, -, -, -, h4⟩ := core_pressure lev e n ps data hgrid a b p0
    rw [h4] at h1 ⊢
    rw [dispatch_congr _ lev x (servedOrder x) hperm.length_eq.symm heq]
    exact h1

/-- three levels in no particular order, on the demonstration grid -/
example : ∃ (out : LArr (XF ℝ)) (order : List ℝ), order.Perm [50000, 100000, 75000] ∧ order.Pairwise (fun p q => p ≤ q) ∧
    interpHybridToPressure (demoOpts "linear" false none) 100000 [50000, 100000, 75000] none false [1, 2] demoData demoPs
        (vec "lev" 2 (fun _ => 0)) (vec "lev" 2 demoB) demoData demoData = .ok out := by
  have hg := demo_good "linear" (Or.inl rfl) false [50000, 75000, 100000] (by simp) (Or.inl (by simp; norm_num)) (by simp)
  obtain ⟨out, order, h1, h2, h3, -⟩ := C83_exact (demoOpts "linear" false none) "lev" "lev" 2 (fun _ => 0) demoB 100000 [50000, 100000, 75000] demoPs demoData
    ⟨rfl, Or.inl rfl, Or.inl rfl, Or.inl ⟨rfl, rfl⟩⟩ hg.grid (by simp) hg.distinct (by simp [demoOpts]) rfl none false rfl [1, 2] demoData demoData
  refine ⟨out, order, h1, ?_, h3⟩
  rwa [if_neg (by simp; norm_num)] at h2

/-- `C17`, exactly, for any labels of the level coordinate: the code takes the level `low` with the largest label for the lowest one. Where
the requested pressure is at most the pressure of that level the result is that without extrapolation, elsewhere it is the
extrapolated value computed from that level. -/
theorem C17_exact (o : HybridOpts) (lev e : String) (n : ℕ) (a b : ℕ → ℝ) (p0 : ℝ) (x : List ℝ) (ps : LArr ℝ)
    (data : LArr (XF ℝ)) (h : GoodCall o lev n a b p0 x ps data) (hx : o.extrapolate = true) (chunks : Option (String → List ℕ))
    (others : Bool) (hv : ValidChunks data chunks others) (lab : ℕ → ℝ) (tBot phi : LArr (XF ℝ)) :
    ∃ out out' low, interpHybridToPressure { o with extrapolate := false } p0 x chunks others (column n lab) data ps (vec lev n a)
        (vec e n b) tBot phi = .ok out ∧
      interpHybridToPressure o p0 x chunks others (column n lab) data ps (vec lev n a) (vec e n b) tBot phi = .ok out' ∧
      out'.dims = out.dims ∧ out'.size = out.size ∧ low < n ∧ (∀ k < n, lab k ≤ lab low) ∧
      ∀ i, ∀ y, x[i "plev"]? = some y →
        (y ≤ levelPressure a b p0 ps i low → out'.get i = out.get i) ∧
        (levelPressure a b p0 ps i low < y →
          (o.variable' = some "other" → out'.get i = levelValue lev data i low) ∧
          (o.variable' = some "temperature" → out'.get i =
            tempExtrapolate (tBot.get i) (.fin y) (.fin (levelPressure a b p0 ps i low)) (.fin (ps.get i)) (phi.get i)) ∧
          (o.variable' = some "geopotential" → out'.get i =
            geoHeightExtrapolate (tBot.get i) (.fin y) (.fin (levelPressure a b p0 ps i low)) (.fin (ps.get i)) (phi.get i))) := by
  have hacc : Accepted { o with extrapolate := false } lev := by
    obtain ⟨h1, h2, h3, h4⟩ := h.accepted
    refine ⟨h1, h2, h3, ?_⟩
    rcases h4 with h4 | h4 | h4
    · exact Or.inl ⟨h4.1, rfl⟩
    · exact Or.inr (Or.inl h4)
    · exact Or.inr (Or.inr h4)
  have hg : GoodCall { o with extrapolate := false } lev n a b p0 x ps data :=
    { accepted := hacc, grid := h.grid, nonempty := h.nonempty, sorted := h.sorted, distinct := h.distinct, positive := h.positive }
  obtain ⟨out, ho, -⟩ := call_spec _ lev e n a b p0 x ps data hg rfl chunks others hv (column n lab) tBot phi
  have ho2 := ho
  rw [call_eq _ lev hacc] at ho2
  simp only [Bool.false_eq_true, if_false] at ho2
  obtain ⟨out', h1, h2, h3, h4⟩ := core_below _ lev e n ps data h.grid a b p0 x chunks others (column n lab)
    (belowGround o.variable' lev (argmax (column n lab)) data ps tBot phi) out ho2
  obtain ⟨m1, m2⟩ := argmax_spec n (by have := h.grid.two; omega) lab
  refine ⟨out, out', argmax (column n lab), ho, ?_, h2, h3, m1, m2, fun i y hy => ⟨?_, ?_⟩⟩
  · rw [call_eq o lev h.accepted, hx]
    exact h1
  · intro hle
    have hg' : x.getD (i "plev") 0 = y := by simp [List.getD, hy]
    rw [h4, hg', if_pos hle]
  · intro hbelow
    have hg' : x.getD (i "plev") 0 = y := by simp [List.getD, hy]
    rw [h4, hg', if_neg (not_le.mpr hbelow)]
    refine ⟨?_, ?_, ?_⟩
    · intro hv'; simp [belowGround, hv', levelValue]
    · intro hv'; simp [belowGround, hv']
    · intro hv'; simp [belowGround, hv']

/-- the demonstration call, with levels numbered upwards from the ground -/
example : GoodCall (demoOpts "linear" true (some "other")) "lev" 2 (fun _ => 0) demoB 100000 [100000] demoPs demoData ∧
    column 2 (fun k => (k : ℝ) + 1) = [1, 2] := by
  refine ⟨demo_good "linear" (Or.inl rfl) true [100000] (by simp) (Or.inl (by simp)) (by simp), ?_⟩
  simp [column, List.range_succ]
  norm_num

end Verif.Props
