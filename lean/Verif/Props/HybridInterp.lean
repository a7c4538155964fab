import Verif.Lemmas.HybridCall

/-
Properties C12–C17, C20, C83, C84: interp_hybrid_to_pressure.
-/

set_option linter.unusedSectionVars false
namespace Verif.Props
open Model Spec Lemmas

/-! ### C20 -/

/-- C20: exactly which calls are rejected, in the order of the checks: TypeError unless the four arrays are all DataArrays;
ValueError if `extrapolate` is set without `variable`, if `variable` is temperature or geopotential without both `t_bot` and
`phi_sfc`, if `variable` is anything else than these, "other" or None, if no level dimension is given or found, if the method is
unknown. `extrapolate = False` does not switch the checks off. All other calls pass, with the level dimension given or found
and the logarithm exactly for "log". -/
theorem C20_validation (o : HybridOpts) :
    let notArrays := ¬ (o.types ≠ [] ∧ ∀ t ∈ o.types, t = .dataArray)
    let bad := (o.extrapolate = true ∧ o.variable' = none) ∨
      ((o.variable' = some "temperature" ∨ o.variable' = some "geopotential") ∧ (o.hasTBot = false ∨ o.hasPhi = false)) ∨
      (∃ v, o.variable' = some v ∧ v ∉ ["temperature", "geopotential", "other"]) ∨
      (o.levDim = none ∧ o.cfVertical = none) ∨ o.method ∉ ["linear", "log"]
    (notArrays → hybridChecks Real.log o = .error .typeError) ∧
    (¬ notArrays → bad → hybridChecks Real.log o = .error .valueError) ∧
    (¬ notArrays → ¬ bad → ∃ lev, (o.levDim = some lev ∨ (o.levDim = none ∧ o.cfVertical = some lev)) ∧
      hybridChecks Real.log o = .ok (lev, if o.method = "log" then Real.log else id)) := by
  have htypes : (o.types.dedup.length = 1 ∧ o.types.head? = some .dataArray) ↔ (o.types ≠ [] ∧ ∀ t ∈ o.types, t = .dataArray) := by
    constructor
    · rintro ⟨h1, h2⟩
      obtain ⟨c, hc⟩ := List.length_eq_one_iff.mp h1
      have hall : ∀ t ∈ o.types, t = c := fun t ht => by
        have := List.mem_dedup.mpr ht
        rw [hc] at this
        simpa using this
      have hd := hall .dataArray (List.mem_of_mem_head? h2)
      exact ⟨fun h => by simp [h] at h2, fun t ht => by rw [hall t ht, hd]⟩
    · rintro ⟨h1, h2⟩
      obtain ⟨t, ts, hts⟩ := List.exists_cons_of_ne_nil h1
      have ht : t = .dataArray := h2 t (by simp [hts])
      refine ⟨?_, by simp [hts, ht]⟩
      have : o.types = List.replicate o.types.length .dataArray := List.eq_replicate_of_mem h2
      rw [this, List.replicate_dedup (by simp [h1])]
      rfl
  intro notArrays bad
  unfold hybridChecks
  refine ⟨fun h => ?_, fun h hb => ?_, fun h hb => ?_⟩
  · have h' : ¬ (o.types.dedup.length = 1 ∧ o.types.head? = some .dataArray) := fun hh => h (htypes.mp hh)
    rw [if_pos h']
    rfl
  · have h' : o.types.dedup.length = 1 ∧ o.types.head? = some .dataArray := htypes.mpr (not_not.mp h)
    rw [if_neg (not_not.mpr h')]
    simp only [pure, Except.pure, bind, Except.bind]
    by_cases c1 : o.extrapolate = true ∧ o.variable' = none
    · rw [if_pos c1]; rfl
    rw [if_neg c1]
    by_cases c2 : (o.variable' = some "geopotential" ∨ o.variable' = some "temperature") ∧ (¬ o.hasTBot = true ∨ ¬ o.hasPhi = true)
    · rw [if_pos c2]; rfl
    rw [if_neg c2]
    by_cases c3 : o.variable' = some "geopotential" ∨ o.variable' = some "temperature" ∨ o.variable' = some "other" ∨ o.variable' = none
    · rw [if_neg (not_not.mpr c3)]
      rcases hb with hb | hb | ⟨v, hv, hb⟩ | hb | hb
      · exact absurd hb c1
      · exfalso
        apply c2
        refine ⟨hb.1.symm, ?_⟩
        rcases hb.2 with h | h <;> simp [h]
      · exfalso
        simp only [hv, Option.some.injEq, reduceCtorEq, or_false] at c3
        simp only [List.mem_cons, List.not_mem_nil, or_false, not_or] at hb
        tauto
      · simp only [hb.1, hb.2]
        rfl
      · simp only [List.mem_cons, List.not_mem_nil, or_false, not_or] at hb
        simp only [funcInterpolate, hb.1, hb.2, if_false]
        cases o.levDim <;> cases o.cfVertical <;> rfl
    · rw [if_pos c3]; rfl
  · have h' : o.types.dedup.length = 1 ∧ o.types.head? = some .dataArray := htypes.mpr (not_not.mp h)
    rw [if_neg (not_not.mpr h')]
    simp only [bad, not_or] at hb
    obtain ⟨b1, b2, b3, b4, b5⟩ := hb
    have c2 : ¬ ((o.variable' = some "geopotential" ∨ o.variable' = some "temperature") ∧ (¬ o.hasTBot = true ∨ ¬ o.hasPhi = true)) := by
      rintro ⟨h1, h2⟩
      apply b2
      refine ⟨h1.symm, ?_⟩
      simpa using h2
    have c3 : o.variable' = some "geopotential" ∨ o.variable' = some "temperature" ∨ o.variable' = some "other" ∨ o.variable' = none := by
      cases hv : o.variable' with
      | none => simp
      | some v =>
        have := not_exists.mp b3 v
        simp only [hv, true_and, not_not, List.mem_cons, List.not_mem_nil, or_false] at this
        rcases this with h | h | h <;> simp [h]
    rw [if_neg b1, if_neg c2, if_neg (not_not.mpr c3)]
    have hm : funcInterpolate Real.log o.method = .ok (if o.method = "log" then Real.log else id) := by
      simp only [not_not, List.mem_cons, List.not_mem_nil, or_false] at b5
      rcases b5 with h | h <;> simp [funcInterpolate, h]
    simp only [hm, pure, Except.pure, bind, Except.bind]
    cases hl : o.levDim with
    | some d => exact ⟨d, Or.inl rfl, rfl⟩
    | none =>
      cases hc : o.cfVertical with
      | some d => exact ⟨d, Or.inr ⟨rfl, rfl⟩, rfl⟩
      | none => exact absurd ⟨hl, hc⟩ b4

example : hybridChecks Real.log { types := [.dataArray, .dataArray, .dataArray, .dataArray], levDim := some "lev", method := "cubic" } =
    .error .valueError :=
  (C20_validation { types := [.dataArray, .dataArray, .dataArray, .dataArray], levDim := some "lev", method := "cubic" }).2.1
    (by simp) (by simp)

/-! ### the call -/

/-- the vertical coordinate in which the interpolation is linear: pressure, or its logarithm for method "log" -/
noncomputable def coordOf (method : String) : ℝ → ℝ := if method = "log" then Real.log else id

/-- the options are accepted, with level dimension `lev` -/
def Accepted (o : HybridOpts) (lev : String) : Prop :=
  o.types = [.dataArray, .dataArray, .dataArray, .dataArray] ∧
  (o.levDim = some lev ∨ (o.levDim = none ∧ o.cfVertical = some lev)) ∧
  (o.method = "linear" ∨ o.method = "log") ∧
  (o.variable' = none ∧ o.extrapolate = false ∨ o.variable' = some "other" ∨
    (o.variable' = some "temperature" ∨ o.variable' = some "geopotential") ∧ o.hasTBot = true ∧ o.hasPhi = true)

/-- a well-formed call: data on `n ≥ 2` levels `lev` over the grid of `ps`, level pressures pairwise different in every
column, requested pressures in increasing or decreasing order, and everything positive for method "log" -/
structure GoodCall (o : HybridOpts) (lev : String) (n : ℕ) (a b : ℕ → ℝ) (p0 : ℝ) (x : List ℝ) (ps : LArr ℝ)
    (data : LArr (XF ℝ)) : Prop where
  accepted : Accepted o lev
  grid : LevelData lev n ps data
  nonempty : x ≠ []
  sorted : Sorted x
  distinct : ∀ i, AtPoint ps i → Distinct n (levelPressure a b p0 ps i)
  positive : o.method = "log" → (∀ y ∈ x, 0 < y) ∧ ∀ i, AtPoint ps i → ∀ k < n, 0 < levelPressure a b p0 ps i k

theorem checks_of_accepted (o : HybridOpts) (lev : String) (h : Accepted o lev) :
    hybridChecks Real.log o = .ok (lev, coordOf o.method) := by
  obtain ⟨h1, h2, h3, h4⟩ := h
  obtain ⟨l, hl, he⟩ := (C20_validation o).2.2 (by simp [h1]) (by
    intro hb
    rcases hb with ⟨hb, hb'⟩ | ⟨hb, hb'⟩ | ⟨v, hv, hb⟩ | ⟨hb, hb'⟩ | hb
    · rcases h4 with ⟨h4, h5⟩ | h4 | ⟨h4 | h4, h5, h6⟩ <;> simp_all
    · rcases h4 with ⟨h4, h5⟩ | h4 | ⟨h4 | h4, h5, h6⟩ <;> simp_all
    · rcases h4 with ⟨h4, h5⟩ | h4 | ⟨h4 | h4, h5, h6⟩ <;> simp_all
    · rcases h2 with h2 | ⟨h2, h2'⟩ <;> simp_all
    · rcases h3 with h3 | h3 <;> simp_all)
  have : l = lev := by
    rcases h2 with h2 | ⟨h2, h2'⟩ <;> rcases hl with hl | ⟨hl, hl'⟩ <;> simp_all
  rw [he, this]
  rfl

/-- the positive numbers for "log", all numbers for "linear" -/
def domainOf (method : String) : Set ℝ := if method = "log" then Set.Ioi 0 else Set.univ

theorem coordOf_mono (method : String) : StrictMonoOn (coordOf method) (domainOf method) := by
  unfold coordOf domainOf
  split_ifs
  · exact Real.strictMonoOn_log
  · exact strictMonoOn_id

theorem GoodCall.mem_x {o : HybridOpts} {lev : String} {n : ℕ} {a b : ℕ → ℝ} {p0 : ℝ} {x : List ℝ} {ps : LArr ℝ}
    {data : LArr (XF ℝ)} (h : GoodCall o lev n a b p0 x ps data) (y : ℝ) (hy : y ∈ x) : y ∈ domainOf o.method := by
  unfold domainOf
  split_ifs with hm
  · exact (h.positive hm).1 y hy
  · trivial

theorem GoodCall.mem_p {o : HybridOpts} {lev : String} {n : ℕ} {a b : ℕ → ℝ} {p0 : ℝ} {x : List ℝ} {ps : LArr ℝ}
    {data : LArr (XF ℝ)} (h : GoodCall o lev n a b p0 x ps data) (i : String → ℕ) (hi : AtPoint ps i) (k : ℕ) (hk : k < n) :
    levelPressure a b p0 ps i k ∈ domainOf o.method := by
  unfold domainOf
  split_ifs with hm
  · exact (h.positive hm).2 i hi k hk
  · trivial

theorem call_eq (o : HybridOpts) (lev : String) (h : Accepted o lev) (p0 : ℝ) (x : List ℝ) (chunks : Option (String → List ℕ))
    (others : Bool) (labels : List ℝ) (data : LArr (XF ℝ)) (ps hyam hybm : LArr ℝ) (tBot phi : LArr (XF ℝ)) :
    interpHybridToPressure o p0 x chunks others labels data ps hyam hybm tBot phi =
      interpHybridCore (coordOf o.method) lev p0 x chunks others labels data ps hyam hybm
        (if o.extrapolate then some (belowGround o.variable' lev (argmax labels) data ps tBot phi) else none) := by
  unfold interpHybridToPressure
  rw [checks_of_accepted o lev h]
  rfl

/-- without extrapolation a well-formed call succeeds and its result is the interpolation of every column -/
theorem call_spec (o : HybridOpts) (lev e : String) (n : ℕ) (a b : ℕ → ℝ) (p0 : ℝ) (x : List ℝ) (ps : LArr ℝ) (data : LArr (XF ℝ))
    (h : GoodCall o lev n a b p0 x ps data) (hx : o.extrapolate = false) (chunks : Option (String → List ℕ)) (others : Bool)
    (hv : ValidChunks data chunks others) (labels : List ℝ) (tBot phi : LArr (XF ℝ)) :
    ∃ out, interpHybridToPressure o p0 x chunks others labels data ps (vec lev n a) (vec e n b) tBot phi = .ok out ∧
      IsInterpolated (coordOf o.method) lev n a b p0 x ps data out := by
  rw [call_eq o lev h.accepted, hx]
  exact core_spec (coordOf o.method) (domainOf o.method) (coordOf_mono _) lev e n ps data h.grid a b p0 x h.nonempty h.sorted
    (h.mem_x) h.distinct (h.mem_p) chunks others hv labels

/-- no data value of the column at `i` is missing -/
def FullColumn (lev : String) (n : ℕ) (data : LArr (XF ℝ)) (i : String → ℕ) : Prop :=
  ∀ k < n, ∃ v : ℝ, levelValue lev data i k = .fin v

/-- C12: at a requested pressure equal to the pressure of level `k`, the result is the value of level `k` (column without
missing values, either method, any chunking, any order of dimensions). -/
theorem C12_nodes (o : HybridOpts) (lev e : String) (n : ℕ) (a b : ℕ → ℝ) (p0 : ℝ) (x : List ℝ) (ps : LArr ℝ) (data : LArr (XF ℝ))
    (h : GoodCall o lev n a b p0 x ps data) (hx : o.extrapolate = false) (chunks : Option (String → List ℕ)) (others : Bool)
    (hv : ValidChunks data chunks others) (labels : List ℝ) (tBot phi : LArr (XF ℝ)) :
    ∃ out, interpHybridToPressure o p0 x chunks others labels data ps (vec lev n a) (vec e n b) tBot phi = .ok out ∧
      ∀ i, AtPoint ps i → FullColumn lev n data i → ∀ k < n, x[i "plev"]? = some (levelPressure a b p0 ps i k) →
        out.get i = levelValue lev data i k := by
  obtain ⟨out, ho, hi⟩ := call_spec o lev e n a b p0 x ps data h hx chunks others hv labels tBot phi
  refine ⟨out, ho, fun i hpt hfull k hk hy => ?_⟩
  have hdom := h.mem_p i hpt k hk
  rcases hi.value i hpt _ hy with ⟨hout, -⟩ | ⟨-, l, r, hb, hval⟩
  · rw [outside_transform _ _ (coordOf_mono _) n _ (h.mem_p i hpt) _ hdom] at hout
    rcases hout with h' | h'
    · exact absurd (h' k hk) (lt_irrefl _)
    · exact absurd (h' k hk) (lt_irrefl _)
  · have hb' := (bracket_transform _ _ (coordOf_mono _) n _ (h.mem_p i hpt) _ hdom l r).mp hb
    obtain ⟨vl, hvl⟩ := hfull l hb.1
    obtain ⟨vr, hvr⟩ := hfull r hb.2.1
    obtain ⟨y, hy', -, -, e1, e2⟩ := lineValue_fin (coordOf o.method (levelPressure a b p0 ps i l))
      (coordOf o.method (levelPressure a b p0 ps i r)) vl vr (coordOf o.method (levelPressure a b p0 ps i k)) hb.2.2.1 hb.2.2.2.1 hb.2.2.2.2.1
    rw [hval, hvl, hvr, hy']
    have hk' : k = l ∨ k = r := by
      by_contra hne
      push Not at hne
      have d1 := fun hh => hne.1 (h.distinct i hpt k hk l hb.1 hh)
      have d2 := fun hh => hne.2 (h.distinct i hpt k hk r hb.2.1 hh)
      exact hb'.2.2.2.2.2 k hk ⟨lt_of_le_of_ne hb'.2.2.2.1 (Ne.symm d1), lt_of_le_of_ne hb'.2.2.2.2.1 d2⟩
    rcases hk' with rfl | rfl
    · rw [hvl, e1 rfl]
    · rw [hvr, e2 rfl]

/-- C13: every non-missing result lies between the values of the two neighbouring levels around the requested pressure. -/
theorem C13_no_overshoot (o : HybridOpts) (lev e : String) (n : ℕ) (a b : ℕ → ℝ) (p0 : ℝ) (x : List ℝ) (ps : LArr ℝ)
    (data : LArr (XF ℝ)) (h : GoodCall o lev n a b p0 x ps data) (hx : o.extrapolate = false) (chunks : Option (String → List ℕ))
    (others : Bool) (hv : ValidChunks data chunks others) (labels : List ℝ) (tBot phi : LArr (XF ℝ)) :
    ∃ out, interpHybridToPressure o p0 x chunks others labels data ps (vec lev n a) (vec e n b) tBot phi = .ok out ∧
      ∀ i, AtPoint ps i → FullColumn lev n data i → ∀ y, x[i "plev"]? = some y → ¬ Outside n (levelPressure a b p0 ps i) y →
        ∃ k l vk vl v, Spec.Bracket n (levelPressure a b p0 ps i) y k l ∧ levelValue lev data i k = .fin vk ∧
          levelValue lev data i l = .fin vl ∧ out.get i = .fin v ∧ min vk vl ≤ v ∧ v ≤ max vk vl := by
  obtain ⟨out, ho, hi⟩ := call_spec o lev e n a b p0 x ps data h hx chunks others hv labels tBot phi
  refine ⟨out, ho, fun i hpt hfull y hy hnout => ?_⟩
  have hdom := h.mem_x y (List.mem_of_getElem? hy)
  rcases hi.value i hpt _ hy with ⟨hout, -⟩ | ⟨-, l, r, hb, hval⟩
  · rw [outside_transform _ _ (coordOf_mono _) n _ (h.mem_p i hpt) _ hdom] at hout
    exact absurd hout hnout
  · have hb' := (bracket_transform _ _ (coordOf_mono _) n _ (h.mem_p i hpt) _ hdom l r).mp hb
    obtain ⟨vl, hvl⟩ := hfull l hb.1
    obtain ⟨vr, hvr⟩ := hfull r hb.2.1
    obtain ⟨v, hv', h1, h2, -, -⟩ := lineValue_fin (coordOf o.method (levelPressure a b p0 ps i l))
      (coordOf o.method (levelPressure a b p0 ps i r)) vl vr (coordOf o.method y) hb.2.2.1 hb.2.2.2.1 hb.2.2.2.2.1
    exact ⟨l, r, vl, vr, v, hb', hvl, hvr, by rw [hval, hvl, hvr, hv'], h1, h2⟩

/-- C13, the value itself: linear in the coordinate of the method between the two neighbouring levels. -/
theorem C13_linear (o : HybridOpts) (lev e : String) (n : ℕ) (a b : ℕ → ℝ) (p0 : ℝ) (x : List ℝ) (ps : LArr ℝ)
    (data : LArr (XF ℝ)) (h : GoodCall o lev n a b p0 x ps data) (hx : o.extrapolate = false) (chunks : Option (String → List ℕ))
    (others : Bool) (hv : ValidChunks data chunks others) (labels : List ℝ) (tBot phi : LArr (XF ℝ)) :
    ∃ out, interpHybridToPressure o p0 x chunks others labels data ps (vec lev n a) (vec e n b) tBot phi = .ok out ∧
      out.dims = data.dims.map (fun d => if d = lev then "plev" else d) ∧
      ∀ i, AtPoint ps i → ∀ y, x[i "plev"]? = some y → ¬ Outside n (levelPressure a b p0 ps i) y →
        ∃ k l, Spec.Bracket n (levelPressure a b p0 ps i) y k l ∧
          ∀ vk vl, levelValue lev data i k = .fin vk → levelValue lev data i l = .fin vl →
            let t : ℝ → ℝ := if o.method = "log" then Real.log else id
            let pk := levelPressure a b p0 ps i k
            let pl := levelPressure a b p0 ps i l
            out.get i = .fin (vk + (vl - vk) * ((t y - t pk) / (t pl - t pk))) := by
  obtain ⟨out, ho, hi⟩ := call_spec o lev e n a b p0 x ps data h hx chunks others hv labels tBot phi
  refine ⟨out, ho, hi.dims, fun i hpt y hy hnout => ?_⟩
  have hdom := h.mem_x y (List.mem_of_getElem? hy)
  rcases hi.value i hpt _ hy with ⟨hout, -⟩ | ⟨-, l, r, hb, hval⟩
  · rw [outside_transform _ _ (coordOf_mono _) n _ (h.mem_p i hpt) _ hdom] at hout
    exact absurd hout hnout
  · refine ⟨l, r, (bracket_transform _ _ (coordOf_mono _) n _ (h.mem_p i hpt) _ hdom l r).mp hb, fun vk vl hk hl => ?_⟩
    rw [hval, hk, hl]
    simp [lineValue, coordOf]

/-- C14: outside the column the result is missing; inside a column without missing values it is not. -/
theorem C14_outside_missing (o : HybridOpts) (lev e : String) (n : ℕ) (a b : ℕ → ℝ) (p0 : ℝ) (x : List ℝ) (ps : LArr ℝ)
    (data : LArr (XF ℝ)) (h : GoodCall o lev n a b p0 x ps data) (hx : o.extrapolate = false) (chunks : Option (String → List ℕ))
    (others : Bool) (hv : ValidChunks data chunks others) (labels : List ℝ) (tBot phi : LArr (XF ℝ)) :
    ∃ out, interpHybridToPressure o p0 x chunks others labels data ps (vec lev n a) (vec e n b) tBot phi = .ok out ∧
      ∀ i, AtPoint ps i → ∀ y, x[i "plev"]? = some y →
        (((∀ k < n, y < levelPressure a b p0 ps i k) ∨ (∀ k < n, levelPressure a b p0 ps i k < y)) → out.get i = .nan) ∧
        (¬ ((∀ k < n, y < levelPressure a b p0 ps i k) ∨ (∀ k < n, levelPressure a b p0 ps i k < y)) → FullColumn lev n data i →
          ∃ v : ℝ, out.get i = .fin v) := by
  obtain ⟨out, ho, hi⟩ := call_spec o lev e n a b p0 x ps data h hx chunks others hv labels tBot phi
  refine ⟨out, ho, fun i hpt y hy => ?_⟩
  have hdom := h.mem_x y (List.mem_of_getElem? hy)
  have htr := outside_transform _ _ (coordOf_mono o.method) n _ (h.mem_p i hpt) _ hdom
  rcases hi.value i hpt _ hy with ⟨hout, hnan⟩ | ⟨hout, l, r, hb, hval⟩
  · rw [htr] at hout
    exact ⟨fun _ => hnan, fun hno => absurd hout hno⟩
  · rw [htr] at hout
    refine ⟨fun hh => absurd hh hout, fun _ hfull => ?_⟩
    obtain ⟨vl, hvl⟩ := hfull l hb.1
    obtain ⟨vr, hvr⟩ := hfull r hb.2.1
    obtain ⟨v, hv', -⟩ := lineValue_fin (coordOf o.method (levelPressure a b p0 ps i l))
      (coordOf o.method (levelPressure a b p0 ps i r)) vl vr (coordOf o.method y) hb.2.2.1 hb.2.2.2.1 hb.2.2.2.2.1
    exact ⟨v, by rw [hval, hvl, hvr, hv']⟩

/-- C84: strictly between two neighbouring levels one of which is missing, the result is missing. -/
theorem C84_missing_neighbour (o : HybridOpts) (lev e : String) (n : ℕ) (a b : ℕ → ℝ) (p0 : ℝ) (x : List ℝ) (ps : LArr ℝ)
    (data : LArr (XF ℝ)) (h : GoodCall o lev n a b p0 x ps data) (hx : o.extrapolate = false) (chunks : Option (String → List ℕ))
    (others : Bool) (hv : ValidChunks data chunks others) (labels : List ℝ) (tBot phi : LArr (XF ℝ)) :
    ∃ out, interpHybridToPressure o p0 x chunks others labels data ps (vec lev n a) (vec e n b) tBot phi = .ok out ∧
      ∀ i, AtPoint ps i → ∀ y, x[i "plev"]? = some y → ∀ k l, Spec.Bracket n (levelPressure a b p0 ps i) y k l →
        levelPressure a b p0 ps i k < y → y < levelPressure a b p0 ps i l →
        (levelValue lev data i k = .nan ∨ levelValue lev data i l = .nan) → out.get i = .nan := by
  obtain ⟨out, ho, hi⟩ := call_spec o lev e n a b p0 x ps data h hx chunks others hv labels tBot phi
  refine ⟨out, ho, fun i hpt y hy k l hkl hk hl hnan => ?_⟩
  have hdom := h.mem_x y (List.mem_of_getElem? hy)
  rcases hi.value i hpt _ hy with ⟨hout, hnan⟩ | ⟨hout, k', l', hb, hval⟩
  · exact hnan
  · have hb' := (bracket_transform _ _ (coordOf_mono _) n _ (h.mem_p i hpt) _ hdom k' l').mp hb
    have hkk : k' = k := by
      by_contra hne
      have hd := fun hh => hne (h.distinct i hpt k' hb'.1 k hkl.1 hh)
      rcases lt_or_gt_of_ne hd with hlt | hgt
      · exact hb'.2.2.2.2.2 k hkl.1 ⟨hlt, lt_of_lt_of_le hk hb'.2.2.2.2.1⟩
      · exact hkl.2.2.2.2.2 k' hb'.1 ⟨hgt, lt_of_le_of_lt hb'.2.2.2.1 hl⟩
    have hll : l' = l := by
      by_contra hne
      have hd := fun hh => hne (h.distinct i hpt l' hb'.2.1 l hkl.2.1 hh)
      rcases lt_or_gt_of_ne hd with hlt | hgt
      · exact hkl.2.2.2.2.2 l' hb'.2.1 ⟨lt_of_lt_of_le hk hb'.2.2.2.2.1, hlt⟩
      · exact hb'.2.2.2.2.2 l hkl.2.1 ⟨lt_of_le_of_lt hb'.2.2.2.1 hl, hgt⟩
    subst hkk hll
    rw [hval]
    rcases hnan with hnan | hnan
    · rw [hnan]; simp [lineValue]
    · rw [hnan]; simp [lineValue]

end Verif.Props
