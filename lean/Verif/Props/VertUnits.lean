import Verif.Props.HybridInterp2
import Verif.Props.Sigma

/-
Property C135: the vertical interpolations do not depend on the unit of pressure.
-/

set_option linter.unusedSectionVars false
namespace Verif.Props
open Model Spec Lemmas

section
variable {K : Type _} [Field K] [LinearOrder K] [IsStrictOrderedRing K]

theorem index_map {α β : Type _} (f : α → β) (l : List α) (i : ℤ) : Py.index (l.map f) i = (Py.index l i).map f := by
  unfold Py.index
  simp only [List.length_map, List.getElem?_map]
  generalize (if i < 0 then i + (l.length : ℤ) else i) = j
  by_cases hj : j < 0
  · rw [if_pos hj, if_pos hj]; rfl
  · rw [if_neg hj, if_neg hj]
    cases l[j.toNat]? <;> rfl

/-- quotient of two differences in other units -/
theorem div_units (m : K) (hm : 0 < m) (u w : K) : (.fin (m * u) / .fin (m * w) : XF K) = .fin u / .fin w := by
  by_cases hw : w = 0
  · subst hw
    rw [mul_zero, XF.fin_div_zero, XF.fin_div_zero]
    unfold XF.signInf
    simp only [mul_pos_iff_of_pos_left hm]
    have : m * u < 0 ↔ u < 0 := by
      constructor
      · intro h; by_contra hu; exact absurd h (not_lt.mpr (mul_nonneg hm.le (not_lt.mp hu)))
      · intro h; exact mul_neg_of_pos_of_neg hm h
    simp only [this]
  · rw [XF.fin_div _ _ (mul_ne_zero hm.ne' hw), XF.fin_div _ _ hw, mul_div_mul_left _ _ hm.ne']

theorem affine_lt (m c : K) (hm : 0 < m) (u w : K) : m * u + c < m * w + c ↔ u < w := by
  rw [add_lt_add_iff_right, mul_lt_mul_iff_right₀ hm]

theorem affine_le (m c : K) (hm : 0 < m) (u w : K) : m * u + c ≤ m * w + c ↔ u ≤ w := by
  rw [add_le_add_iff_right, mul_le_mul_iff_right₀ hm]

theorem interpPoint_units (m c : K) (hm : 0 < m) (xp : List K) (v : List (XF K)) (x : K) :
    interpPoint (xp.map (fun t => m * t + c)) v (m * x + c) = interpPoint xp v x := by
  have hs : searchLeft (xp.map (fun t => m * t + c)) (m * x + c) = searchLeft xp x := by
    unfold searchLeft
    rw [List.takeWhile_map, List.length_map]
    congr 2
    funext t
    simp only [Function.comp_apply, affine_lt m c hm]
  unfold interpPoint
  simp only [hs, List.length_map, index_map, bind, Except.bind]
  generalize (if searchLeft xp x = 0 then (1 : ℤ) else if searchLeft xp x = xp.length then (xp.length : ℤ) - 1 else (searchLeft xp x : ℤ)) = m2
  cases Py.index xp m2 with
  | error e => rfl
  | ok xa =>
    cases Py.index xp (m2 - 1) with
    | error e => rfl
    | ok xb =>
      simp only [Except.map, affine_lt m c hm]
      rw [show m * x + c - (m * xb + c) = m * (x - xb) by ring, show m * xa + c - (m * xb + c) = m * (xa - xb) by ring, div_units m hm]

/-- `interpolate_1d` with the coordinates in other units -/
theorem interpolate1d_units (m c : K) (hm : 0 < m) (x xp : List K) (v : List (XF K)) :
    interpolate1d (x.map (fun t => m * t + c)) (xp.map (fun t => m * t + c)) v = interpolate1d x xp v := by
  have hsort : sortPairs (xp.map (fun t => m * t + c)) v = (sortPairs xp v).map (fun p => (m * p.1 + c, p.2)) := by
    unfold sortPairs
    rw [List.map_insertionSort (fun a b : K × XF K => a.1 ≤ b.1) (fun a b : K × XF K => a.1 ≤ b.1) (fun p : K × XF K => (m * p.1 + c, p.2))]
    · congr 1
      rw [List.zip_map_left]
      rfl
    · intro a _ b _
      exact (affine_le m c hm a.1 b.1).symm
  have hx : (x.map (fun t => m * t + c)).insertionSort (· ≤ ·) = (x.insertionSort (· ≤ ·)).map (fun t => m * t + c) := by
    rw [List.map_insertionSort (· ≤ ·) (· ≤ ·) (fun t => m * t + c)]
    intro a _ b _
    exact (affine_le m c hm a b).symm
  have h1 : ((sortPairs xp v).map (fun p => (m * p.1 + c, p.2))).map (·.1) = ((sortPairs xp v).map (·.1)).map (fun t => m * t + c) := by
    rw [List.map_map, List.map_map]; rfl
  have h2 : ((sortPairs xp v).map (fun p => (m * p.1 + c, p.2))).map (·.2) = (sortPairs xp v).map (·.2) := by
    rw [List.map_map]; rfl
  have hr : ∀ l : List K, (l.map (fun t => m * t + c)).mapM (interpPoint (((sortPairs xp v).map (·.1)).map (fun t => m * t + c)) ((sortPairs xp v).map (·.2))) =
      l.mapM (interpPoint ((sortPairs xp v).map (·.1)) ((sortPairs xp v).map (·.2))) := by
    intro l
    induction l with
    | nil => rfl
    | cons a t ih => rw [List.map_cons, List.mapM_cons, List.mapM_cons, ih, interpPoint_units m c hm]
  unfold interpolate1d
  simp only [List.length_map, List.isEmpty_map, hsort, hx, h1, h2, hr, index_map, bind, Except.bind]
  split
  · rfl
  · split
    · rfl
    · generalize (List.mapM _ _ : Except PyErr (List (XF K))) = r
      cases r with
      | error e => rfl
      | ok r =>
        cases Py.index x 0 with
        | error e => rfl
        | ok first =>
          cases Py.index x (-1) with
          | error e => rfl
          | ok last => simp only [Except.map, affine_lt m c hm]

/-- a coordinate transformation under which a change of units is a positive affine map on the values in `A` -/
def UnitFree (g : K → K) (r : K) (A : K → Prop) : Prop := ∃ m c, 0 < m ∧ ∀ t, A t → g (r * t) = m * g t + c

theorem interpAlong_units (g : K → K) (r : K) (A : K → Prop) (hg : UnitFree g r A) (lev : String) (x : List K) (hx : ∀ t ∈ x, A t) (P : LArr K)
    (hP : ∀ i, A (P.get i)) (D : LArr (XF K)) :
    interpAlong g lev (x.map (r * ·)) (P.map (r * ·)) D = interpAlong g lev x P D := by
  obtain ⟨m, c, hm, hg⟩ := hg
  have hx' : (x.map (r * ·)).map g = (x.map g).map (fun t => m * t + c) := by
    rw [List.map_map, List.map_map]
    exact List.map_congr_left fun t ht => hg t (hx t ht)
  have hl : ∀ i, ((P.map (r * ·)).line lev i).map g = ((P.line lev i).map g).map (fun t => m * t + c) := by
    intro i
    unfold LArr.line LArr.map
    rw [List.map_map, List.map_map, List.map_map]
    exact List.map_congr_left fun k _ => hg _ (hP _)
  unfold interpAlong
  simp only [hx', hl, interpolate1d_units m c hm, List.length_map]

theorem interpChunked_units (g : K → K) (r : K) (A : K → Prop) (hg : UnitFree g r A) (lev : String) (x : List K) (hx : ∀ t ∈ x, A t)
    (chunks : String → List ℕ) (P : LArr K) (hP : ∀ i, A (P.get i)) (D : LArr (XF K)) :
    interpChunked g lev (x.map (r * ·)) chunks (P.map (r * ·)) D = interpChunked g lev x chunks P D := by
  have h : ∀ b, interpAlong g lev (x.map (r * ·)) (block lev (chunks lev) b (P.map (r * ·))) (block lev (chunks lev) b D) =
      interpAlong g lev x (block lev (chunks lev) b P) (block lev (chunks lev) b D) := fun b =>
    interpAlong_units g r A hg lev x hx (block lev (chunks lev) b P) (fun i => hP _) _
  unfold interpChunked
  simp only [h, List.length_map]

/-- C135, `pressure_at_hybrid_levels`: reference and surface pressure in other units give the pressures in those units, or the same error. -/
theorem C135_pressure (psfc hya hyb : LArr K) (p0 r : K) :
    pressureXr (psfc.map (r * ·)) hya hyb (r * p0) = (pressureXr psfc hya hyb p0).map (fun P => P.map (r * ·)) := by
  unfold pressureXr
  simp only [bind, Except.bind]
  by_cases hs : hya.shape ≠ hyb.shape
  · rw [if_pos hs, if_pos hs]; rfl
  · rw [if_neg hs, if_neg hs]
    generalize (if hya.dims ≠ hyb.dims then hyb.rename (hyb.dims.zip hya.dims) else hyb) = hyb'
    have hz : LArr.zip (fun x y => x * y) hyb' (psfc.map (r * ·)) = (LArr.zip (fun x y => x * y) hyb' psfc).map (fun P => P.map (r * ·)) := by
      unfold LArr.zip
      have hd : (psfc.map (r * ·)).dims = psfc.dims := rfl
      have hsz : (psfc.map (r * ·)).size = psfc.size := rfl
      rw [hd, hsz]
      split
      · simp only [Except.map, Except.ok.injEq, LArr.map, LArr.mk.injEq, true_and]
        funext i
        ring
      · rfl
    rw [hz]
    cases LArr.zip (fun x y => x * y) hyb' psfc with
    | error e => rfl
    | ok B =>
      simp only [Except.map]
      unfold LArr.zip
      by_cases hc : (hya.dims.all fun d => !B.dims.contains d || hya.size d == B.size d) = true
      · rw [if_pos (by exact hc), if_pos (by exact hc)]
        simp only [LArr.map, Except.ok.injEq, LArr.mk.injEq, true_and]
        refine ⟨rfl, ?_⟩
        funext i
        ring
      · rw [if_neg (by exact hc), if_neg (by exact hc)]

/-- C135, `interp_sigma_to_hybrid`: the sigma levels have no unit; reference and surface pressure in other units give the same result. -/
theorem C135_sigma (lg : K → K) (levDim cf : Option String) (method : String) (p0 r : K) (hr : r ≠ 0) (sig : List K) (data : LArr (XF K))
    (ps hyam hybm : LArr K) :
    interpSigmaToHybrid lg levDim cf method (r * p0) sig data (ps.map (r * ·)) hyam hybm =
      interpSigmaToHybrid lg levDim cf method p0 sig data ps hyam hybm := by
  have h : sigmaFromHybridXr (ps.map (r * ·)) hyam hybm (r * p0) = sigmaFromHybridXr ps hyam hybm p0 := by
    unfold sigmaFromHybridXr
    have : LArr.zip (fun x y => x / y) (hyam.map (fun x => x * (r * p0))) (ps.map (r * ·)) =
        LArr.zip (fun x y => x / y) (hyam.map (fun x => x * p0)) ps := by
      unfold LArr.zip
      by_cases hc : (hyam.dims.all fun d => !ps.dims.contains d || hyam.size d == ps.size d) = true
      · rw [if_pos (by exact hc), if_pos (by exact hc)]
        simp only [LArr.map, Except.ok.injEq, LArr.mk.injEq, true_and]
        refine ⟨rfl, ?_⟩
        funext i
        rw [show hyam.get i * (r * p0) = r * (hyam.get i * p0) by ring, mul_div_mul_left _ _ hr]
      · rw [if_neg (by exact hc), if_neg (by exact hc)]
    rw [this]
  unfold interpSigmaToHybrid
  rw [h]

end

/-! ### hybrid to pressure -/

theorem tStar_units (r : ℝ) (hr : 0 < r) (t : XF ℝ) (p ps : ℝ) : tStar t (.fin (r * p)) (.fin (r * ps)) = tStar t (.fin p) (.fin ps) := by
  unfold tStar
  rw [div_units r hr]

theorem belowGround_units (r : ℝ) (hr : 0 < r) (v : Option String) (lev : String) (sfc : ℕ) (data : LArr (XF ℝ)) (ps : LArr ℝ)
    (tBot phi : LArr (XF ℝ)) (plev psfc : ℝ) (i : String → ℕ) :
    belowGround v lev sfc data (ps.map (r * ·)) tBot phi (r * plev) (r * psfc) i = belowGround v lev sfc data ps tBot phi plev psfc i := by
  unfold belowGround tempExtrapolate geoHeightExtrapolate LArr.map
  simp only [tStar_units r hr, div_units r hr]

theorem remapExtrap_units (r : ℝ) (hr : 0 < r) (lev : String) (x labels : List ℝ) (P : LArr ℝ) (f f' : ℝ → ℝ → (String → ℕ) → XF ℝ)
    (hf : ∀ p q i, f' (r * p) (r * q) i = f p q i) (out : LArr (XF ℝ)) :
    remapExtrap lev (x.map (r * ·)) labels (P.map (r * ·)) f' out = remapExtrap lev x labels P f out := by
  unfold remapExtrap
  simp only [LArr.mk.injEq, true_and]
  funext i
  have h : (x.map (r * ·)).getD (i "plev") 0 = r * x.getD (i "plev") 0 := by
    rw [List.getD_eq_getElem?_getD, List.getD_eq_getElem?_getD, List.getElem?_map]
    cases x[i "plev"]? with
    | none => simp
    | some t => rfl
  rw [h]
  simp only [LArr.map, hf, mul_le_mul_iff_right₀ hr]

theorem core_units (g : ℝ → ℝ) (r : ℝ) (hr : 0 < r) (A : ℝ → Prop) (hg : UnitFree g r A) (lev : String) (p0 : ℝ) (x : List ℝ) (hx : ∀ t ∈ x, A t)
    (chunks : Option (String → List ℕ)) (others : Bool) (labels : List ℝ) (data : LArr (XF ℝ)) (ps hyam hybm : LArr ℝ)
    (hP : ∀ P, pressureXr ps hyam hybm p0 = .ok P → ∀ i, A (P.get i)) (f f' : Option (ℝ → ℝ → (String → ℕ) → XF ℝ))
    (hf : f = none ∧ f' = none ∨ ∃ b b', f = some b ∧ f' = some b' ∧ ∀ p q i, b' (r * p) (r * q) i = b p q i) :
    interpHybridCore g lev (r * p0) (x.map (r * ·)) chunks others labels data (ps.map (r * ·)) hyam hybm f' =
      interpHybridCore g lev p0 x chunks others labels data ps hyam hybm f := by
  unfold interpHybridCore
  rw [C135_pressure]
  simp only [bind, Except.bind]
  split
  · rfl
  · cases hPc : pressureXr ps hyam hybm p0 with
    | error e => rfl
    | ok P =>
      simp only [Except.map]
      have hdims : (P.map (r * ·)).dims = P.dims := rfl
      have hsize : (P.map (r * ·)).size = P.size := rfl
      rw [hdims, hsize]
      split
      · rfl
      · split
        · rfl
        · simp only [interpAlong_units g r A hg lev x hx P (hP P hPc) data, interpChunked_units g r A hg lev x hx _ P (hP P hPc) data]
          rcases hf with ⟨rfl, rfl⟩ | ⟨b, b', rfl, rfl, hb⟩
          · rfl
          · simp only [remapExtrap_units r hr lev x labels P b b' hb]

/-- C135, `interp_hybrid_to_pressure`: giving reference pressure, surface pressure and the requested levels in another unit (all
multiplied by `r`) does not change the result - nor the error -, with or without extrapolation; for method "log" the pressures have
to be positive. -/
theorem C135_hybrid (o : HybridOpts) (p0 r : ℝ) (hr : 0 < r) (x : List ℝ) (chunks : Option (String → List ℕ)) (others : Bool) (labels : List ℝ)
    (data : LArr (XF ℝ)) (ps hyam hybm : LArr ℝ) (tBot phi : LArr (XF ℝ))
    (hpos : o.method = "log" → (∀ t ∈ x, 0 < t) ∧ ∀ P, pressureXr ps hyam hybm p0 = .ok P → ∀ i, 0 < P.get i) :
    interpHybridToPressure o (r * p0) (x.map (r * ·)) chunks others labels data (ps.map (r * ·)) hyam hybm tBot phi =
      interpHybridToPressure o p0 x chunks others labels data ps hyam hybm tBot phi := by
  unfold interpHybridToPressure
  cases hc : hybridChecks Real.log o with
  | error e => rfl
  | ok q =>
    obtain ⟨lev, g⟩ := q
    simp only [bind, Except.bind]
    have hf : (if o.extrapolate = true then some (belowGround o.variable' lev (argmax labels) data ps tBot phi) else none) = none ∧
        (if o.extrapolate = true then some (belowGround o.variable' lev (argmax labels) data (ps.map (r * ·)) tBot phi) else none) = none ∨
        ∃ b b', (if o.extrapolate = true then some (belowGround o.variable' lev (argmax labels) data ps tBot phi) else none) = some b ∧
          (if o.extrapolate = true then some (belowGround o.variable' lev (argmax labels) data (ps.map (r * ·)) tBot phi) else none) = some b' ∧
          ∀ p q i, b' (r * p) (r * q) i = b p q i := by
      by_cases he : o.extrapolate = true
      · exact Or.inr ⟨_, _, by rw [if_pos he], by rw [if_pos he], fun p q i => belowGround_units r hr _ _ _ _ _ _ _ _ _ _⟩
      · exact Or.inl ⟨by rw [if_neg he], by rw [if_neg he]⟩
    have hg : (o.method = "linear" ∧ g = id) ∨ (o.method = "log" ∧ g = Real.log) := by
      unfold hybridChecks at hc
      simp only [bind, Except.bind] at hc
      repeat' (split at hc)
      all_goals try (cases hc; done)
      all_goals
        simp only [pure, Except.pure, Except.ok.injEq, Prod.mk.injEq] at hc
        obtain ⟨-, rfl⟩ := hc
        rename_i hfi
        unfold funcInterpolate at hfi
        split at hfi
        · rename_i hm
          injection hfi with hfi
          exact Or.inl ⟨hm, hfi.symm⟩
        · split at hfi
          · rename_i hm
            injection hfi with hfi
            exact Or.inr ⟨hm, hfi.symm⟩
          · cases hfi
    rcases hg with ⟨hm, rfl⟩ | ⟨hm, rfl⟩
    · exact core_units id r hr (fun _ => True) ⟨r, 0, hr, fun t _ => by simp⟩ lev p0 x (fun _ _ => trivial) chunks others labels data ps hyam hybm
        (fun _ _ _ => trivial) _ _ hf
    · obtain ⟨h1, h2⟩ := hpos hm
      exact core_units Real.log r hr (fun t => 0 < t) ⟨1, Real.log r, one_pos, fun t ht => by
        rw [Real.log_mul hr.ne' ht.ne']; ring⟩ lev p0 x h1 chunks others labels data ps hyam hybm h2 _ _ hf

/-- a call with extrapolation in the logarithm of pressure, in Pa and in hPa -/
example : interpHybridToPressure (demoOpts "log" true (some "temperature")) ((1 / 100) * 100000) ([60000, 120000].map ((1 / 100) * ·)) none false [1, 2]
    demoData (demoPs.map ((1 / 100) * ·)) (vec "lev" 2 (fun _ => 0)) (vec "lev" 2 demoB) demoData demoData =
    interpHybridToPressure (demoOpts "log" true (some "temperature")) 100000 [60000, 120000] none false [1, 2] demoData demoPs
      (vec "lev" 2 (fun _ => 0)) (vec "lev" 2 demoB) demoData demoData := by
  refine C135_hybrid _ 100000 (1 / 100) (by norm_num) _ none false [1, 2] _ _ _ _ _ _ fun _ => ⟨by simp, fun P hP i => ?_⟩
  obtain ⟨P', hP', -, -, -, hv⟩ := C08_xarray demoPs "lev" "lev" 2 (fun _ => 0) demoB 100000 (by simp [demoPs]) demo_grid.wf
  rw [hP'] at hP
  injection hP with hP
  subst hP
  rw [hv]
  have hb : 0 < demoB (i "lev") := by unfold demoB; split <;> norm_num
  have : 0 < demoPs.get i := by simp only [demoPs]; positivity
  have := mul_pos hb this
  linarith

end Verif.Props
