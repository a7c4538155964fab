import Verif.Props.HybridInterp

/-
Properties C15–C17 and C83: chunking, independence of columns, extrapolation, order of the requested levels.
-/

set_option linter.unusedSectionVars false
namespace Verif.Props
open Model Spec Lemmas

/-! ### a concrete call -/

/-- surface pressure on two latitudes -/
def demoPs : LArr ℝ := ⟨["lat"], fun _ => 2, fun i => 100000 + 1000 * (i "lat" : ℝ)⟩
/-- data on (latitude, level) -/
def demoData : LArr (XF ℝ) := ⟨["lat", "lev"], fun _ => 2, fun i => .fin (10 * ((i "lev" : ℝ) + 1))⟩
/-- level 0 at the ground, level 1 at half the surface pressure -/
noncomputable def demoB : ℕ → ℝ := fun k => if k = 0 then 1 else 1 / 2
def demoOpts (method : String) (extrapolate : Bool) (v : Option String) : HybridOpts :=
  { types := [.dataArray, .dataArray, .dataArray, .dataArray], levDim := some "lev", method := method, extrapolate := extrapolate,
    variable' := v, hasTBot := true, hasPhi := true }

theorem demo_grid : LevelData "lev" 2 demoPs demoData where
  two := le_refl _
  levNew := by simp [demoPs]
  plevNew := by simp [demoPs]
  perm := by simp only [demoPs, demoData]; decide
  sizeLev := rfl
  sizes := by intro d _; simp [demoPs, demoData]
  wf := by
    intro i j h
    simp only [demoPs, List.mem_singleton, forall_eq] at h ⊢
    rw [h]

theorem demo_pressure (i : String → ℕ) (k : ℕ) : levelPressure (fun _ => 0) demoB 100000 demoPs i k =
    (if k = 0 then 1 else 1 / 2) * (100000 + 1000 * (i "lat" : ℝ)) := by
  simp [levelPressure, demoB, demoPs]

theorem demo_good (method : String) (hm : method = "linear" ∨ method = "log") (extrapolate : Bool) (x : List ℝ) (hx : x ≠ [])
    (hs : Sorted x) (hpos : ∀ y ∈ x, 0 < y) :
    GoodCall (demoOpts method extrapolate (some "other")) "lev" 2 (fun _ => 0) demoB 100000 x demoPs demoData where
  accepted := ⟨rfl, Or.inl rfl, hm, Or.inr (Or.inl rfl)⟩
  grid := demo_grid
  nonempty := hx
  sorted := hs
  distinct := by
    intro i _ k hk l hl h
    rw [demo_pressure, demo_pressure] at h
    have : (0 : ℝ) < 100000 + 1000 * (i "lat" : ℝ) := by positivity
    have h' := mul_right_cancel₀ this.ne' h
    rcases (by omega : k = 0 ∨ k = 1) with rfl | rfl <;> rcases (by omega : l = 0 ∨ l = 1) with rfl | rfl <;> first | rfl | norm_num at h'
  positive := by
    intro _
    refine ⟨hpos, fun i _ k _ => ?_⟩
    rw [demo_pressure]
    have : (0 : ℝ) < 100000 + 1000 * (i "lat" : ℝ) := by positivity
    split_ifs
    · linarith
    · linarith

theorem demo_full (i : String → ℕ) : FullColumn "lev" 2 demoData i := fun k _ => ⟨10 * ((k : ℝ) + 1), by simp [levelValue, demoData]⟩

/-- the hypotheses of C12–C14 and C84 are met: at 100000 Pa over the first latitude the result is the value of level 0 -/
example : ∃ out, interpHybridToPressure (demoOpts "log" false (some "other")) 100000 [50000, 100000] none false [1, 2] demoData demoPs
    (vec "lev" 2 (fun _ => 0)) (vec "lev" 2 demoB) demoData demoData = .ok out ∧
    out.get (fun d => if d = "plev" then 1 else 0) = .fin 10 := by
  have hg := demo_good "log" (Or.inr rfl) false [50000, 100000] (by simp) (Or.inl (by simp; norm_num)) (by simp)
  obtain ⟨out, h1, h2⟩ := C12_nodes _ "lev" "lev" 2 _ _ _ _ _ _ hg rfl none false rfl [1, 2] demoData demoData
  refine ⟨out, h1, ?_⟩
  rw [h2 (fun d => if d = "plev" then 1 else 0) (by intro d hd; simp [demoPs] at hd ⊢; simp [hd]) (demo_full _) 0 (by norm_num)
    (by rw [demo_pressure]; simp)]
  simp [levelValue, demoData]

/-! ### C15 -/

/-- C15: for chunked `data` the outcome - result or error - is the same as for eager input, whatever the division into chunks
along any dimension (the level dimension included), for every choice of options, requested levels and extrapolation. -/
theorem C15_chunking_partial (o : HybridOpts) (lev e : String) (hl : o.levDim = some lev ∨ o.levDim = none ∧ o.cfVertical = some lev)
    (n : ℕ) (a b : ℕ → ℝ) (p0 : ℝ) (x : List ℝ) (ps : LArr ℝ)
    (data : LArr (XF ℝ)) (h : LevelData lev n ps data) (c : String → List ℕ)
    (hc : ∀ d ∈ data.dims, (c d).sum = data.size d ∧ ∀ m ∈ c d, 0 < m) (others : Bool) (labels : List ℝ) (tBot phi : LArr (XF ℝ)) :
    match interpHybridToPressure o p0 x none false labels data ps (vec lev n a) (vec e n b) tBot phi,
      interpHybridToPressure o p0 x (some c) others labels data ps (vec lev n a) (vec e n b) tBot phi with
    | .ok eager, .ok chunked => eager.dims = chunked.dims ∧ eager.size = chunked.size ∧
        ∀ i, AtPoint ps i → eager.get i = chunked.get i
    | .error err, .error err' => err = err'
    | _, _ => False := by
  have key : SameOutcome (AtPoint ps) (interpHybridToPressure o p0 x none false labels data ps (vec lev n a) (vec e n b) tBot phi)
      (interpHybridToPressure o p0 x (some c) others labels data ps (vec lev n a) (vec e n b) tBot phi) := by
    unfold interpHybridToPressure
    cases hr : hybridChecks Real.log o with
    | error err => rfl
    | ok lg =>
      obtain ⟨l, g⟩ := lg
      have : l = lev := by
        have hv := C20_validation o
        simp only at hv
        by_contra hne
        rcases Classical.em (o.types ≠ [] ∧ ∀ t ∈ o.types, t = .dataArray) with ht | ht
        · by_cases hbad : (o.extrapolate = true ∧ o.variable' = none) ∨
              ((o.variable' = some "temperature" ∨ o.variable' = some "geopotential") ∧ (o.hasTBot = false ∨ o.hasPhi = false)) ∨
              (∃ v, o.variable' = some v ∧ v ∉ ["temperature", "geopotential", "other"]) ∨
              (o.levDim = none ∧ o.cfVertical = none) ∨ o.method ∉ ["linear", "log"]
          · have := hv.2.1 (not_not.mpr ht) hbad
            rw [hr] at this
            cases this
          · obtain ⟨l', hl', he⟩ := hv.2.2 (not_not.mpr ht) hbad
            rw [hr] at he
            cases he
            apply hne
            rcases hl with h1 | ⟨h1, h2⟩ <;> rcases hl' with h3 | ⟨h3, h4⟩ <;> simp_all
        · have := hv.1 ht
          rw [hr] at this
          cases this
      subst this
      exact core_chunks g l e n ps data h a b p0 x c hc others labels _
  revert key
  generalize interpHybridToPressure o p0 x none false labels data ps (vec lev n a) (vec e n b) tBot phi = r
  generalize interpHybridToPressure o p0 x (some c) others labels data ps (vec lev n a) (vec e n b) tBot phi = s
  intro key
  cases r <;> cases s <;> exact key

/-- C15 is false when `data` is eager but another array (here the surface pressure) is chunked: TypeError. -/
theorem C15_counterexample :
    (∃ out, interpHybridToPressure (demoOpts "linear" false none) 100000 [75000] none false [1, 2] demoData demoPs
      (vec "lev" 2 (fun _ => 0)) (vec "lev" 2 demoB) demoData demoData = .ok out) ∧
    interpHybridToPressure (demoOpts "linear" false none) 100000 [75000] none true [1, 2] demoData demoPs
      (vec "lev" 2 (fun _ => 0)) (vec "lev" 2 demoB) demoData demoData = .error .typeError := by
  have hacc : Accepted (demoOpts "linear" false none) "lev" := ⟨rfl, Or.inl rfl, Or.inl rfl, Or.inl ⟨rfl, rfl⟩⟩
  constructor
  · have hg := demo_good "linear" (Or.inl rfl) false [75000] (by simp) (Or.inl (by simp)) (by simp)
    have hg' : GoodCall (demoOpts "linear" false none) "lev" 2 (fun _ => 0) demoB 100000 [75000] demoPs demoData :=
      { hg with accepted := hacc, positive := hg.positive }
    obtain ⟨out, h1, -⟩ := call_spec _ "lev" "lev" 2 _ _ _ _ _ _ hg' rfl none false rfl [1, 2] demoData demoData
    exact ⟨out, h1⟩
  · rw [call_eq _ "lev" hacc]
    obtain ⟨P, -, -, -, h4⟩ := core_pressure "lev" "lev" 2 demoPs demoData demo_grid (fun _ => 0) demoB 100000
    rw [h4]
    rfl

example : ∀ d ∈ demoData.dims, ((fun _ => [1, 1]) d : List ℕ).sum = demoData.size d ∧ ∀ m ∈ ((fun _ => [1, 1]) d : List ℕ), 0 < m := by
  intro d _; simp [demoData]

/-! ### C16 -/

/-- C16: two successful calls (same options, coefficients, requested levels and level labels; the data, surface pressure, bottom
temperature and surface geopotential may differ, even in shape and chunking) agree at a grid point as soon as the data column,
the surface pressure and the bottom fields agree there. -/
theorem C16_columns_independent (o : HybridOpts) (lev e e' : String) (ha : Accepted o lev) (n : ℕ) (a b : ℕ → ℝ) (p0 : ℝ) (x : List ℝ)
    (labels : List ℝ) (hlab : argmax labels < n) (ps ps' : LArr ℝ) (data data' tBot tBot' phi phi' : LArr (XF ℝ))
    (h : LevelData lev n ps data) (h' : LevelData lev n ps' data')
    (chunks chunks' : Option (String → List ℕ)) (others others' : Bool) (hv : ValidChunks data chunks others)
    (hv' : ValidChunks data' chunks' others') (out out' : LArr (XF ℝ))
    (hout : interpHybridToPressure o p0 x chunks others labels data ps (vec lev n a) (vec e n b) tBot phi = .ok out)
    (hout' : interpHybridToPressure o p0 x chunks' others' labels data' ps' (vec lev n a) (vec e' n b) tBot' phi' = .ok out')
    (i : String → ℕ) (hi : AtPoint ps i) (hi' : AtPoint ps' i) (hps : ps.get i = ps'.get i)
    (hdata : ∀ k < n, levelValue lev data i k = levelValue lev data' i k) (ht : tBot.get i = tBot'.get i) (hphi : phi.get i = phi'.get i) :
    out.get i = out'.get i := by
  rw [call_eq o lev ha] at hout hout'
  have g1 := core_get _ lev e n ps data h a b p0 x chunks others hv labels _ out hout i hi
  have g2 := core_get _ lev e' n ps' data' h' a b p0 x chunks' others' hv' labels _ out' hout' i hi'
  simp only at g1 g2
  rw [g1, g2]
  have hp : levelPressure a b p0 ps i = levelPressure a b p0 ps' i := by
    funext k; simp [levelPressure, hps]
  have hc : column n (levelValue lev data i) = column n (levelValue lev data' i) := column_congr n _ _ hdata
  rw [hp, hc, hps]
  cases o.extrapolate with
  | false => rfl
  | true =>
    simp only [if_true, finish, belowGround, ht, hphi, hps]
    have := hdata _ hlab
    simp only [levelValue] at this
    rw [this]

example : argmax ([1, 2] : List ℝ) < 2 := by simp [argmax, argmaxFrom]

/-! ### C17 -/

theorem argmaxFrom_spec (l : List ℝ) : ∀ (pos best : ℕ) (m : ℝ) (pre : List ℝ), pre.length = pos → pre[best]? = some m →
    (∀ y ∈ pre, y ≤ m) → ∃ v, (pre ++ l)[argmaxFrom pos best m l]? = some v ∧ ∀ y ∈ pre ++ l, y ≤ v := by
  induction l with
  | nil =>
    intro pos best m pre hp hb hm
    exact ⟨m, by simpa [argmaxFrom] using hb, by simpa using hm⟩
  | cons c l ih =>
    intro pos best m pre hp hb hm
    have happ : pre ++ c :: l = (pre ++ [c]) ++ l := by simp
    unfold argmaxFrom
    split_ifs with hlt
    · rw [happ]
      refine ih (pos + 1) pos c (pre ++ [c]) (by simp [hp]) (by simp [← hp]) ?_
      intro y hy
      simp only [List.mem_append, List.mem_singleton] at hy
      rcases hy with hy | rfl
      · exact (hm y hy).trans hlt.le
      · exact le_refl _
    · rw [happ]
      refine ih (pos + 1) best m (pre ++ [c]) (by simp [hp]) ?_ ?_
      · rw [List.getElem?_append_left (by
          by_contra hge
          rw [List.getElem?_eq_none (not_lt.mp hge)] at hb
          cases hb)]
        exact hb
      · intro y hy
        simp only [List.mem_append, List.mem_singleton] at hy
        rcases hy with hy | rfl
        · exact hm y hy
        · exact not_lt.mp hlt

theorem argmax_spec (n : ℕ) (hn : 0 < n) (lab : ℕ → ℝ) : argmax (column n lab) < n ∧ ∀ k < n, lab k ≤ lab (argmax (column n lab)) := by
  obtain ⟨m, rfl⟩ : ∃ m, n = m + 1 := ⟨n - 1, by omega⟩
  obtain ⟨v, h1, h2⟩ : ∃ v, (column (m + 1) lab)[argmax (column (m + 1) lab)]? = some v ∧ ∀ y ∈ column (m + 1) lab, y ≤ v := by
    cases hc : column (m + 1) lab with
    | nil => simp [column] at hc
    | cons y ys =>
      have := argmaxFrom_spec ys 1 0 y [y] rfl rfl (by simp)
      simpa [argmax] using this
  have hlt : argmax (column (m + 1) lab) < m + 1 := by
    by_contra hge
    rw [List.getElem?_eq_none (by simpa using not_lt.mp hge)] at h1
    cases h1
  rw [column_getElem? _ _ _ hlt] at h1
  refine ⟨hlt, fun k hk => ?_⟩
  cases h1
  exact h2 _ (by simp only [column, List.mem_map, List.mem_range]; exact ⟨k, hk, rfl⟩)

/-- C17, when the labels of the level coordinate are in the order of the pressures (as for the usual hybrid coefficients): where
the requested pressure is at most the pressure of the lowest level (the level of largest pressure) the result is that without
extrapolation; below it, it is the lowest level's value for "other" and the ECMWF formulas (C18, C19) evaluated with that
level's pressure for "temperature" and "geopotential". -/
theorem C17_extrapolation_partial (o : HybridOpts) (lev e : String) (n : ℕ) (a b : ℕ → ℝ) (p0 : ℝ) (x : List ℝ) (ps : LArr ℝ)
    (data : LArr (XF ℝ)) (h : GoodCall o lev n a b p0 x ps data) (hx : o.extrapolate = true) (chunks : Option (String → List ℕ))
    (others : Bool) (hv : ValidChunks data chunks others) (lab : ℕ → ℝ) (tBot phi : LArr (XF ℝ))
    (hlab : ∀ i, AtPoint ps i → ∀ k < n, ∀ l < n, lab k ≤ lab l → levelPressure a b p0 ps i k ≤ levelPressure a b p0 ps i l) :
    ∃ out out' low, interpHybridToPressure { o with extrapolate := false } p0 x chunks others (column n lab) data ps (vec lev n a)
        (vec e n b) tBot phi = .ok out ∧
      interpHybridToPressure o p0 x chunks others (column n lab) data ps (vec lev n a) (vec e n b) tBot phi = .ok out' ∧
      out'.dims = out.dims ∧ out'.size = out.size ∧ low < n ∧
      ∀ i, AtPoint ps i → (∀ k < n, levelPressure a b p0 ps i k ≤ levelPressure a b p0 ps i low) ∧
        ∀ y, x[i "plev"]? = some y →
        ((∃ k < n, y ≤ levelPressure a b p0 ps i k) → out'.get i = out.get i) ∧
        ((∀ k < n, levelPressure a b p0 ps i k < y) →
          (o.variable' = some "other" → out'.get i = levelValue lev data i low) ∧
          (o.variable' = some "temperature" → out'.get i =
            tempExtrapolate (tBot.get i) (.fin y) (.fin (levelPressure a b p0 ps i low)) (.fin (ps.get i)) (phi.get i)) ∧
          (o.variable' = some "geopotential" → out'.get i =
            geoHeightExtrapolate (tBot.get i) (.fin y) (.fin (levelPressure a b p0 ps i low)) (.fin (ps.get i)) (phi.get i))) := by
  have hacc : Accepted { o with extrapolate := false } lev := by
    obtain ⟨h1, h2, h3, h4⟩ := h.accepted
    refine ⟨h1, h2, h3, ?_⟩
    rcases h4 with h4 | h4 | h4
    · exact Or.inl ⟨h4.1, rfl⟩
    · exact Or.inr (Or.inl h4)
    · exact Or.inr (Or.inr h4)
  have hg : GoodCall { o with extrapolate := false } lev n a b p0 x ps data :=
    { accepted := hacc, grid := h.grid, nonempty := h.nonempty, sorted := h.sorted, distinct := h.distinct, positive := h.positive }
  obtain ⟨out, ho, -⟩ := call_spec _ lev e n a b p0 x ps data hg rfl chunks others hv (column n lab) tBot phi
  have ho2 := ho
  rw [call_eq _ lev hacc] at ho2
  simp only [Bool.false_eq_true, if_false] at ho2
  obtain ⟨out', h1, h2, h3, h4⟩ := core_below _ lev e n ps data h.grid a b p0 x chunks others (column n lab)
    (belowGround o.variable' lev (argmax (column n lab)) data ps tBot phi) out ho2
  obtain ⟨m1, m2⟩ := argmax_spec n (by have := h.grid.two; omega) lab
  refine ⟨out, out', argmax (column n lab), ho, ?_, h2, h3, m1, fun i hi => ⟨fun k hk => ?_, fun y hy => ⟨?_, ?_⟩⟩⟩
  · rw [call_eq o lev h.accepted, hx]
    exact h1
  · exact hlab i hi k hk _ m1 (m2 k hk)
  · rintro ⟨k, hk, hyk⟩
    have hg' : x.getD (i "plev") 0 = y := by simp [List.getD, hy]
    rw [h4, hg', if_pos (hyk.trans (hlab i hi k hk _ m1 (m2 k hk)))]
  · intro hbelow
    have hg' : x.getD (i "plev") 0 = y := by simp [List.getD, hy]
    have := hbelow _ m1
    rw [h4, hg', if_neg (not_le.mpr this)]
    refine ⟨?_, ?_, ?_⟩
    · intro hv'; simp [belowGround, hv', levelValue]
    · intro hv'; simp [belowGround, hv']
    · intro hv'; simp [belowGround, hv']

/-- C17 is false in general: the "lowest" level is chosen by the largest label of the level coordinate, not by pressure. With
levels numbered upwards from the ground (labels 1, 2) the value at the pressure of the lowest level itself is replaced by the
value of the top level. -/
theorem C17_counterexample :
    ∃ out out', interpHybridToPressure (demoOpts "linear" false (some "other")) 100000 [100000] none false [1, 2] demoData demoPs
        (vec "lev" 2 (fun _ => 0)) (vec "lev" 2 demoB) demoData demoData = .ok out ∧
      interpHybridToPressure (demoOpts "linear" true (some "other")) 100000 [100000] none false [1, 2] demoData demoPs
        (vec "lev" 2 (fun _ => 0)) (vec "lev" 2 demoB) demoData demoData = .ok out' ∧
      -- grid point 0, requested pressure 100000 = pressure of the lowest level
      levelPressure (fun _ => 0) demoB 100000 demoPs (fun _ => 0) 0 = 100000 ∧
      out.get (fun _ => 0) = .fin 10 ∧ out'.get (fun _ => 0) = .fin 20 := by
  have hg := demo_good "linear" (Or.inl rfl) false [100000] (by simp) (Or.inl (by simp)) (by simp)
  have hg' := demo_good "linear" (Or.inl rfl) true [100000] (by simp) (Or.inl (by simp)) (by simp)
  obtain ⟨out, h1, h2⟩ := C12_nodes _ "lev" "lev" 2 _ _ _ _ _ _ hg rfl none false rfl [1, 2] demoData demoData
  have h1' := h1
  rw [call_eq _ "lev" hg.accepted] at h1'
  simp only [demoOpts, Bool.false_eq_true, if_false] at h1'
  obtain ⟨out', h3, -, -, h4⟩ := core_below _ "lev" "lev" 2 demoPs demoData demo_grid (fun _ => 0) demoB 100000 [100000] none false [1, 2]
    (belowGround (some "other") "lev" (argmax ([1, 2] : List ℝ)) demoData demoPs demoData demoData) out h1'
  have harg : argmax ([1, 2] : List ℝ) = 1 := by simp [argmax, argmaxFrom]
  refine ⟨out, out', h1, ?_, ?_, ?_, ?_⟩
  · rw [call_eq _ "lev" hg'.accepted]
    simp only [demoOpts, if_true]
    exact h3
  · rw [demo_pressure]; simp
  · rw [h2 (fun _ => 0) (by intro d hd; simp [demoPs]) (demo_full _) 0 (by norm_num) (by rw [demo_pressure]; simp)]
    simp [levelValue, demoData]
  · rw [h4, harg, demo_pressure]
    simp [belowGround, demoData]
    norm_num

/-! ### C83 -/

/-- the order in which the interpolated values come out: sorted like the requested levels if these are in order -/
noncomputable def servedOrder (x : List ℝ) : List ℝ :=
  if x.getLastD 0 < x.headD 0 then (x.insertionSort (· ≤ ·)).reverse else x.insertionSort (· ≤ ·)

theorem interpolate1d_served (x : List ℝ) (hx : x ≠ []) (xp : List ℝ) (v : List (XF ℝ)) :
    interpolate1d x xp v = interpolate1d (servedOrder x) xp v := by
  have hperm : (servedOrder x).Perm x := by
    unfold servedOrder
    split_ifs
    · exact (List.reverse_perm _).trans (List.perm_insertionSort _ _)
    · exact List.perm_insertionSort _ _
  have hsort : (servedOrder x).insertionSort (· ≤ ·) = x.insertionSort (· ≤ ·) :=
    List.Perm.eq_of_pairwise' (r := (· ≤ ·)) (List.pairwise_insertionSort _ _) (List.pairwise_insertionSort _ _)
      ((List.perm_insertionSort _ _).trans (hperm.trans (List.perm_insertionSort _ _).symm))
  have hne : servedOrder x ≠ [] := fun h => hx (by rw [h] at hperm; exact hperm.nil_eq.symm)
  have ends : ∀ l : List ℝ, l ≠ [] → Py.index l 0 = .ok (l.headD 0) ∧ Py.index l (-1) = .ok (l.getLastD 0) := by
    intro l hl
    obtain ⟨f, hf⟩ : ∃ f : ℕ → ℝ, l = column l.length f := list_eq_column l
    have hpos : 1 ≤ l.length := List.length_pos_of_ne_nil hl
    have h1 := index_first l.length hpos f
    have h2 := index_last l.length hpos f
    rw [← hf] at h1 h2
    constructor
    · rw [h1]
      congr 1
      rw [List.headD_eq_head?_getD, List.head?_eq_getElem?, hf, column_getElem? _ _ _ hpos]
      rfl
    · rw [h2]
      congr 1
      rw [List.getLastD_eq_getLast?, List.getLast?_eq_getElem?, hf, column_length, column_getElem? _ _ _ (by omega)]
      rfl
  have hiff : ((servedOrder x).getLastD 0 < (servedOrder x).headD 0) ↔ x.getLastD 0 < x.headD 0 := by
    have hlast : ∀ l : List ℝ, l ≠ [] → l.getLastD 0 ∈ l ∧ l.headD 0 ∈ l := by
      intro l hl
      refine ⟨?_, ?_⟩
      · rw [List.getLastD_eq_getLast?, List.getLast?_eq_some_getLast hl]; exact List.getLast_mem hl
      · obtain ⟨c, l', rfl⟩ := List.exists_cons_of_ne_nil hl; simp
    have hb : ∀ l : List ℝ, l ≠ [] → l.Pairwise (· ≤ ·) → ∀ y ∈ l, l.headD 0 ≤ y ∧ y ≤ l.getLastD 0 := by
      intro l hl hp y hy
      constructor
      · obtain ⟨c, l', rfl⟩ := List.exists_cons_of_ne_nil hl
        rcases List.mem_cons.mp hy with rfl | hy
        · exact le_refl _
        · exact (List.pairwise_cons.mp hp).1 y hy
      · rw [List.getLastD_eq_getLast?, List.getLast?_eq_some_getLast hl]
        obtain ⟨l', c, rfl⟩ := List.eq_nil_or_concat' l |>.resolve_left hl
        simp only [List.getLast_append_singleton, Option.getD_some]
        rcases List.mem_append.mp hy with hy | hy
        · exact (List.pairwise_append.mp hp).2.2 y hy c (by simp)
        · simp at hy; exact hy.le
    have hsne : x.insertionSort (· ≤ ·) ≠ [] := fun h => hx (by
      have := List.perm_insertionSort (· ≤ ·) x; rw [h] at this; exact this.nil_eq.symm)
    have hB := hb _ hsne (List.pairwise_insertionSort (· ≤ ·) x)
    have hm := List.perm_insertionSort (· ≤ ·) x
    obtain ⟨l1, l2⟩ := hlast x hx
    have q1 := hB _ (hm.mem_iff.mpr l1)
    have q2 := hB _ (hm.mem_iff.mpr l2)
    unfold servedOrder
    split_ifs with hlt
    · have e1 : ((x.insertionSort (· ≤ ·)).reverse).getLastD 0 = (x.insertionSort (· ≤ ·)).headD 0 := by
        rw [List.getLastD_eq_getLast?, List.getLast?_reverse, List.headD_eq_head?_getD]
      have e2 : ((x.insertionSort (· ≤ ·)).reverse).headD 0 = (x.insertionSort (· ≤ ·)).getLastD 0 := by
        rw [List.headD_eq_head?_getD, List.head?_reverse, List.getLastD_eq_getLast?]
      rw [e1, e2]
      refine iff_of_true ?_ hlt
      linarith [q1.1, q2.2]
    · refine iff_of_false ?_ hlt
      exact not_lt.mpr (q1.1.trans q1.2)
  have he1 : x.isEmpty = false := by simpa using hx
  have he2 : (servedOrder x).isEmpty = false := by simpa using hne
  unfold interpolate1d
  rw [hsort, (ends x hx).1, (ends x hx).2, (ends _ hne).1, (ends _ hne).2, he1, he2]
  simp only [bind, Except.bind, hiff]

/-- C83 for requested levels in increasing or decreasing order: the value stored under the label `y` of the output coordinate
is the interpolated value at `y`. -/
theorem C83_labels_partial (o : HybridOpts) (lev e : String) (n : ℕ) (a b : ℕ → ℝ) (p0 : ℝ) (x : List ℝ) (ps : LArr ℝ)
    (data : LArr (XF ℝ)) (h : GoodCall o lev n a b p0 x ps data) (hx : o.extrapolate = false) (chunks : Option (String → List ℕ))
    (others : Bool) (hv : ValidChunks data chunks others) (labels : List ℝ) (tBot phi : LArr (XF ℝ)) :
    ∃ out, interpHybridToPressure o p0 x chunks others labels data ps (vec lev n a) (vec e n b) tBot phi = .ok out ∧
      ∀ i, AtPoint ps i → ∀ y, x[i "plev"]? = some y →
        InterpAt n (fun k => coordOf o.method (levelPressure a b p0 ps i k)) (levelValue lev data i) (coordOf o.method y) (out.get i) := by
  obtain ⟨out, h1, h2⟩ := call_spec o lev e n a b p0 x ps data h hx chunks others hv labels tBot phi
  exact ⟨out, h1, h2.value⟩

/-- C83 is false for requested levels in no particular order: asked for 50000, 100000 and 75000 Pa, the value stored under
100000 Pa is not the value of the level at 100000 Pa but the one interpolated at 75000 Pa. -/
theorem C83_counterexample :
    ∃ out, interpHybridToPressure (demoOpts "linear" false none) 100000 [50000, 100000, 75000] none false [1, 2] demoData demoPs
        (vec "lev" 2 (fun _ => 0)) (vec "lev" 2 demoB) demoData demoData = .ok out ∧
      levelPressure (fun _ => 0) demoB 100000 demoPs (fun d => if d = "plev" then 1 else 0) 0 = 100000 ∧
      levelValue "lev" demoData (fun d => if d = "plev" then 1 else 0) 0 = .fin 10 ∧
      out.get (fun d => if d = "plev" then 1 else 0) = .fin 15 := by
  have hacc : Accepted (demoOpts "linear" false none) "lev" := ⟨rfl, Or.inl rfl, Or.inl rfl, Or.inl ⟨rfl, rfl⟩⟩
  have hserved : servedOrder [50000, 100000, 75000] = [50000, 75000, 100000] := by
    unfold servedOrder
    simp [List.insertionSort, List.orderedInsert]
    norm_num
  have hcoord : coordOf "linear" = id := by simp [coordOf]
  set pt : String → ℕ := fun d => if d = "plev" then 1 else 0 with hpt
  have hat : AtPoint demoPs pt := by intro d hd; simp [demoPs] at hd; simp [demoPs, hd, hpt]
  -- the same call with sorted levels
  have hg := demo_good "linear" (Or.inl rfl) false [50000, 75000, 100000] (by simp) (Or.inl (by simp; norm_num)) (by simp)
  have hg' : GoodCall (demoOpts "linear" false none) "lev" 2 (fun _ => 0) demoB 100000 [50000, 75000, 100000] demoPs demoData :=
    { hg with accepted := hacc, positive := hg.positive }
  obtain ⟨out2, ho2, hdims, hval⟩ := C13_linear _ "lev" "lev" 2 _ _ _ _ _ _ hg' rfl none false rfl [1, 2] demoData demoData
  obtain ⟨k, l, hb, hv⟩ := hval pt hat 75000 (by simp [hpt]) (by
    rintro (h | h)
    · have := h 1 (by norm_num); rw [demo_pressure] at this; simp [hpt] at this; norm_num at this
    · have := h 0 (by norm_num); rw [demo_pressure] at this; simp [hpt] at this; norm_num at this)
  have hb2 := hb
  unfold Spec.Bracket at hb2
  simp only [demo_pressure] at hb2
  have hkl : k = 1 ∧ l = 0 := by
    obtain ⟨h1, h2, h3, -⟩ := hb2
    rcases (by omega : k = 0 ∨ k = 1) with rfl | rfl <;> rcases (by omega : l = 0 ∨ l = 1) with rfl | rfl <;>
      simp [hpt] at h3 ⊢
    norm_num at h3
  obtain ⟨rfl, rfl⟩ := hkl
  have hv1 := hv 20 10 (by simp [levelValue, demoData]; norm_num) (by simp [levelValue, demoData])
  have ho2' := ho2
  rw [call_eq _ "lev" hacc] at ho2'
  simp only [demoOpts, Bool.false_eq_true, if_false] at ho2'
  have hg2 := core_get _ "lev" "lev" 2 demoPs demoData demo_grid (fun _ => 0) demoB 100000 [50000, 75000, 100000] none false rfl [1, 2] _
    out2 ho2' pt hat
  -- the unsorted call succeeds
  obtain ⟨P, -, p2, p3, h4⟩ := core_pressure "lev" "lev" 2 demoPs demoData demo_grid (fun _ => 0) demoB 100000
  have hcols : ∀ i, colRes id "lev" [50000, 100000, 75000] P demoData i = colRes id "lev" [50000, 75000, 100000] P demoData i := by
    intro i
    unfold colRes
    rw [List.map_id, List.map_id, List.map_id, interpolate1d_served [50000, 100000, 75000] (by simp), hserved]
  have hok : ∃ out, interpAlong id "lev" [50000, 100000, 75000] P demoData = .ok out := by
    refine ⟨_, interpAlong_ok _ _ _ _ _ (indicesOf_ne_nil _ _ (LevelData.pos demo_grid)) fun i hi => ?_⟩
    rw [hcols i]
    rw [h4, hcoord] at ho2'
    rcases interpAlong_cases id "lev" [50000, 75000, 100000] P demoData (by rw [p2]; rfl)
      (indicesOf_ne_nil _ _ (LevelData.pos demo_grid)) with ⟨h, -⟩ | ⟨-, h⟩
    · exact h i hi
    · simp [dispatch, h, Except.map, demoOpts] at ho2'
  obtain ⟨out, ho⟩ := hok
  have hcall : interpHybridCore (coordOf "linear") "lev" 100000 [50000, 100000, 75000] none false [1, 2] demoData demoPs
        (vec "lev" 2 (fun _ => 0)) (vec "lev" 2 demoB) none = .ok out := by
    rw [h4, hcoord]
    simp [dispatch, ho, Except.map]
  refine ⟨out, ?_, ?_, ?_, ?_⟩
  · rw [call_eq _ "lev" hacc]
    exact hcall
  · rw [demo_pressure]; simp
  · simp [levelValue, demoData, hpt]
  · have hg1 := core_get _ "lev" "lev" 2 demoPs demoData demo_grid (fun _ => 0) demoB 100000 [50000, 100000, 75000] none false rfl [1, 2] none
      out hcall pt hat
    simp only [finish, hcoord, List.map_id] at hg1
    rw [interpolate1d_served [50000, 100000, 75000] (by simp), hserved] at hg1
    simp only [finish, demoOpts, Bool.false_eq_true, if_false, hcoord, List.map_id] at hg2
    rw [hg1, ← hg2, hv1]
    have hid : (if (demoOpts "linear" false none).method = "log" then Real.log else id) = (id : ℝ → ℝ) := if_neg (by decide)
    simp only [hid, demo_pressure, hpt, id]
    norm_num

end Verif.Props
