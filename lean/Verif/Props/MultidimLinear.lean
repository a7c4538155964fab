import Verif.Props.Multidim3

/-
Property C138: interp_multidim is linear in the data, and keeps inequalities between two sets of data.
-/

set_option linter.unusedSectionVars false
namespace Verif.Lemmas
open Model Spec Props
variable {K : Type _} [Field K] [LinearOrder K] [IsStrictOrderedRing K]

/-- one axis, as a function of the values on it: the fill value, one of the values, or the line through two neighbours -/
theorem interpAxis_form (m : GridMethod) (fill : Option (XF K)) (n : ℕ) (hn : 2 ≤ n) (x : ℕ → K) (h : IncAxis n x) (q : K) :
    (∃ f, fill = some f ∧ ∀ y, interpAxis m fill (column n x) (column n y) q = f) ∨
    (∃ k < n, ∀ y, interpAxis m fill (column n x) (column n y) q = y k) ∨
    (∃ k, k + 1 < n ∧ (fill ≠ none → x k ≤ q ∧ q ≤ x (k + 1)) ∧
      ∀ y, interpAxis m fill (column n x) (column n y) q = seg (x k) (x (k + 1)) (y k) (y (k + 1)) q) := by
  by_cases hout : (q < x 0 ∨ x (n - 1) < q) ∧ fill ≠ none
  · obtain ⟨ho, hf⟩ := hout
    cases fill with
    | none => exact absurd rfl hf
    | some f => exact Or.inl ⟨f, rfl, fun y => interpAxis_outside m f n (by omega) x y h q ho⟩
  · right
    -- the value before the fill value is considered
    have hval : ∀ y, interpAxis m fill (column n x) (column n y) q =
        match m with
        | .linear => scipyLinear (column n x) (column n y) q
        | .nearest => scipyNearest (column n x) (column n y) q := by
      intro y
      obtain ⟨e1, e2⟩ := sortPairs_inc n x y h
      unfold interpAxis
      simp only [e1, e2]
      cases fill with
      | none => rfl
      | some f =>
        simp only
        rw [column_headD n x 0 (by omega), column_getLastD n x 0 (by omega), if_neg (fun hc => hout ⟨hc, by simp⟩)]
        cases m <;> rfl
    cases m with
    | nearest =>
      left
      refine ⟨min (searchLeft (List.zipWith (fun a b => b / 2 + a / 2) (column n x) (column n x).tail) q) (n - 1), by omega, fun y => ?_⟩
      rw [hval y]
      simp only [scipyNearest, column_length]
      rw [column_getD n y _ _ (by omega)]
    | linear =>
      right
      by_cases h0 : q < x 0
      · refine ⟨0, by omega, fun hf => absurd ⟨Or.inl h0, hf⟩ hout, fun y => ?_⟩
        rw [hval y]
        exact scipyLinear_cell n x y h q 0 (by omega) (Or.inl rfl) (Or.inr (by have := h 0 1 (by omega) (by omega); simp only [Nat.zero_add]; linarith))
      · by_cases h1 : x (n - 1) < q
        · refine ⟨n - 2, by omega, fun hf => absurd ⟨Or.inr h1, hf⟩ hout, fun y => ?_⟩
          rw [hval y]
          exact scipyLinear_cell n x y h q (n - 2) (by omega) (Or.inr (by have := h (n - 2) (n - 1) (by omega) (by omega); linarith)) (Or.inl (by omega))
        · obtain ⟨k, k1, k2, k3⟩ := exists_cell n hn x h q (not_lt.mp h0) (not_lt.mp h1)
          refine ⟨k, k1, fun _ => ⟨?_, k3⟩, fun y => ?_⟩
          · rcases k2 with hh | ⟨rfl, hh⟩ <;> [exact hh.le; exact hh]
          · exact interpAxis_cell fill n x y h q k k1 k2 k3

end Verif.Lemmas

namespace Verif.Props
open Model Spec Lemmas
variable {K : Type _} [Field K] [LinearOrder K] [IsStrictOrderedRing K]

/-- a number or NaN -/
def NumOrNan (v : XF K) : Prop := v = .nan ∨ ∃ r, v = .fin r

/-- `w = a u + b v`, missing where one of them is missing -/
def Combined (a b : K) (u v w : XF K) : Prop := NumOrNan u ∧ NumOrNan v ∧ w = .fin a * u + .fin b * v

/-- not above, where both are numbers -/
def Below (u v : XF K) : Prop := NumOrNan u ∧ NumOrNan v ∧ ∀ r s, u = .fin r → v = .fin s → r ≤ s

theorem seg_numOrNan (x0 x1 : K) (h : x0 < x1) (y0 y1 : XF K) (q : K) (h0 : NumOrNan y0) (h1 : NumOrNan y1) : NumOrNan (seg x0 x1 y0 y1 q) := by
  rcases h0 with rfl | ⟨r, rfl⟩
  · exact Or.inl (seg_nan _ _ _ _ _ (Or.inl rfl))
  · rcases h1 with rfl | ⟨s, rfl⟩
    · exact Or.inl (seg_nan _ _ _ _ _ (Or.inr rfl))
    · exact Or.inr ⟨_, seg_fin _ _ _ _ _ h⟩

theorem seg_combined (a b x0 x1 : K) (h : x0 < x1) (u0 v0 w0 u1 v1 w1 : XF K) (q : K) (h0 : Combined a b u0 v0 w0) (h1 : Combined a b u1 v1 w1) :
    Combined a b (seg x0 x1 u0 u1 q) (seg x0 x1 v0 v1 q) (seg x0 x1 w0 w1 q) := by
  obtain ⟨hu0, hv0, rfl⟩ := h0
  obtain ⟨hu1, hv1, rfl⟩ := h1
  refine ⟨seg_numOrNan _ _ h _ _ _ hu0 hu1, seg_numOrNan _ _ h _ _ _ hv0 hv1, ?_⟩
  rcases hu0 with rfl | ⟨r0, rfl⟩
  · rw [seg_nan _ _ _ _ _ (Or.inl (by simp)), seg_nan _ _ .nan _ _ (Or.inl rfl)]; simp
  rcases hu1 with rfl | ⟨r1, rfl⟩
  · rw [seg_nan _ _ _ _ _ (Or.inr (by simp)), seg_nan _ _ _ .nan _ (Or.inr rfl)]; simp
  rcases hv0 with rfl | ⟨s0, rfl⟩
  · rw [seg_nan _ _ _ _ _ (Or.inl (by simp)), seg_nan _ _ .nan _ _ (Or.inl rfl)]; simp
  rcases hv1 with rfl | ⟨s1, rfl⟩
  · rw [seg_nan _ _ _ _ _ (Or.inr (by simp)), seg_nan _ _ _ .nan _ (Or.inr rfl)]; simp
  simp only [XF.fin_mul, XF.fin_add, seg_fin _ _ _ _ _ h, XF.fin.injEq]
  ring

theorem seg_below (x0 x1 : K) (h : x0 < x1) (u0 v0 u1 v1 : XF K) (q : K) (hq0 : x0 ≤ q) (hq1 : q ≤ x1) (h0 : Below u0 v0) (h1 : Below u1 v1) :
    Below (seg x0 x1 u0 u1 q) (seg x0 x1 v0 v1 q) := by
  obtain ⟨hu0, hv0, l0⟩ := h0
  obtain ⟨hu1, hv1, l1⟩ := h1
  refine ⟨seg_numOrNan _ _ h _ _ _ hu0 hu1, seg_numOrNan _ _ h _ _ _ hv0 hv1, fun r s hr hs => ?_⟩
  rcases hu0 with rfl | ⟨r0, rfl⟩
  · rw [seg_nan _ _ _ _ _ (Or.inl rfl)] at hr; cases hr
  rcases hu1 with rfl | ⟨r1, rfl⟩
  · rw [seg_nan _ _ _ _ _ (Or.inr rfl)] at hr; cases hr
  rcases hv0 with rfl | ⟨s0, rfl⟩
  · rw [seg_nan _ _ _ _ _ (Or.inl rfl)] at hs; cases hs
  rcases hv1 with rfl | ⟨s1, rfl⟩
  · rw [seg_nan _ _ _ _ _ (Or.inr rfl)] at hs; cases hs
  rw [seg_fin _ _ _ _ _ h, XF.fin.injEq] at hr hs
  have a0 := l0 r0 s0 rfl rfl
  have a1 := l1 r1 s1 rfl rfl
  have hd : 0 < x1 - x0 := sub_pos.mpr h
  have f0 : 0 ≤ (q - x0) / (x1 - x0) := div_nonneg (by linarith) hd.le
  have f1 : (q - x0) / (x1 - x0) ≤ 1 := (div_le_one hd).mpr (by linarith)
  rw [← hr, ← hs]
  have := mul_le_mul_of_nonneg_left a0 (sub_nonneg.mpr f1)
  have := mul_le_mul_of_nonneg_left a1 f0
  linarith

theorem axis_combined (a b : K) (m : GridMethod) (fill : Option (XF K)) (hfill : fill = none ∨ fill = some .nan) (n : ℕ) (hn : 2 ≤ n)
    (x : ℕ → K) (h : IncAxis n x) (q : K) (u v w : ℕ → XF K) (hc : ∀ k < n, Combined a b (u k) (v k) (w k)) :
    Combined a b (interpAxis m fill (column n x) (column n u) q) (interpAxis m fill (column n x) (column n v) q)
      (interpAxis m fill (column n x) (column n w) q) := by
  rcases interpAxis_form m fill n hn x h q with ⟨f, hf, hv⟩ | ⟨k, hk, hv⟩ | ⟨k, hk, -, hv⟩
  · rw [hv, hv, hv]
    rcases hfill with rfl | rfl
    · cases hf
    · cases hf
      exact ⟨Or.inl rfl, Or.inl rfl, by simp⟩
  · rw [hv, hv, hv]; exact hc k hk
  · rw [hv, hv, hv]
    exact seg_combined a b _ _ (h k (k + 1) (by omega) hk) _ _ _ _ _ _ q (hc k (by omega)) (hc (k + 1) hk)

theorem axis_below (m : GridMethod) (n : ℕ) (hn : 2 ≤ n) (x : ℕ → K) (h : IncAxis n x) (q : K) (u v : ℕ → XF K) (hc : ∀ k < n, Below (u k) (v k)) :
    Below (interpAxis m (some .nan) (column n x) (column n u) q) (interpAxis m (some .nan) (column n x) (column n v) q) := by
  rcases interpAxis_form m (some .nan) n hn x h q with ⟨f, hf, hv⟩ | ⟨k, hk, hv⟩ | ⟨k, hk, hin, hv⟩
  · cases hf
    rw [hv, hv]
    refine ⟨Or.inl rfl, Or.inl rfl, fun r s hr _ => ?_⟩
    cases hr
  · rw [hv, hv]; exact hc k hk
  · rw [hv, hv]
    obtain ⟨i0, i1⟩ := hin (by simp)
    exact seg_below _ _ (h k (k + 1) (by omega) hk) _ _ _ _ q i0 i1 (hc k (by omega)) (hc (k + 1) hk)

/-- the longitudes of the grid fit the call: at least two of them, or a two-dimensional cyclic grid spanning less than 360 degrees -/
def LonFits (cyclic : Bool) (g : GeoGrid K) (x : ℕ → K) : Prop :=
  if cyclic then g.lead = 0 ∧ x (g.nlon - 1) - x 0 < 360 else 2 ≤ g.nlon

theorem paddedCol_lt (n k : ℕ) (hn : 1 ≤ n) (hk : k < n + 2) : paddedCol n k < n := by
  unfold paddedCol
  split_ifs <;> omega

/-- the result as a function of the data: two successive interpolations along fixed axes -/
theorem result_form (cyclic : Bool) (g : GeoGrid K) (y x : ℕ → K) (h : OnAxes g y x) (hl : LonFits cyclic g x) (latOut lonOut : List K)
    (m : GridMethod) (fill : Option (XF K)) :
    ∃ (N : ℕ) (X : ℕ → K) (col : ℕ → ℕ), 2 ≤ N ∧ IncAxis N X ∧ (∀ c < N, col c < g.nlon) ∧ ∀ g' : GeoGrid K, g'.nlat = g.nlat → g'.nlon = g.nlon → g'.lead = g.lead →
      OnAxes g' y x → ∃ out, interpMultidim (.xr g') latOut lonOut cyclic none m fill = .ok (.dataArray, out) ∧
      ∀ t i j p q, latOut[i]? = some p → lonOut[j]? = some q → out.get t i j =
        interpAxis m fill (column g.nlat y) (column g.nlat (rowAt m fill N X (fun r c => g'.get t r (col c)) q)) p := by
  cases cyclic with
  | false =>
    refine ⟨g.nlon, x, id, by simpa [LonFits] using hl, h.incLon, fun c hc => hc, fun g' h1 h2 h3 h' => ?_⟩
    obtain ⟨out, o1, -, -, -, -, -, o2⟩ := plain_eq g' y x h' latOut lonOut none m fill
    refine ⟨out, o1, fun t i j p q hp hq => ?_⟩
    have := o2 t i j p q hp hq
    rw [h1, h2] at this
    exact this
  | true =>
    obtain ⟨hl1, hl2⟩ : g.lead = 0 ∧ x (g.nlon - 1) - x 0 < 360 := by simpa [LonFits] using hl
    refine ⟨g.nlon + 2, paddedLon g.nlon x, paddedCol g.nlon, by omega, paddedLon_inc _ h.posLon x h.incLon hl2,
      fun c hc => paddedCol_lt _ _ h.posLon hc, fun g' h1 h2 h3 h' => ?_⟩
    obtain ⟨out, o1, o2⟩ := cyclic_eq g' y x h' (by rw [h3, hl1]) latOut lonOut none m fill
    refine ⟨out, o1, fun t i j p q hp hq => ?_⟩
    have := o2 t i j p q hp hq
    rw [h1, h2] at this
    exact this

/-- **C138, linear.** On one grid, for data of numbers and NaNs: interpolating the combination `a U + b V` gives `a` times the
result for `U` plus `b` times the result for `V`, at every location, missing where one of them is missing; for both methods, with and
without `cyclic=True`, with extrapolation or with the default fill value. -/
theorem C138_linear (gu gv gw : GeoGrid K) (y x : ℕ → K) (hu : OnAxes gu y x) (hv : OnAxes gv y x) (hw : OnAxes gw y x)
    (hsv : gv.nlat = gu.nlat ∧ gv.nlon = gu.nlon ∧ gv.lead = gu.lead) (hsw : gw.nlat = gu.nlat ∧ gw.nlon = gu.nlon ∧ gw.lead = gu.lead)
    (cyclic : Bool) (hl : LonFits cyclic gu x) (a b : K)
    (hc : ∀ t i j, i < gu.nlat → j < gu.nlon → NumOrNan (gu.get t i j) ∧ NumOrNan (gv.get t i j) ∧
      gw.get t i j = .fin a * gu.get t i j + .fin b * gv.get t i j)
    (latOut lonOut : List K) (m : GridMethod) (fill : Option (XF K)) (hfill : fill = none ∨ fill = some .nan) :
    ∃ ou ov ow, interpMultidim (.xr gu) latOut lonOut cyclic none m fill = .ok (.dataArray, ou) ∧
      interpMultidim (.xr gv) latOut lonOut cyclic none m fill = .ok (.dataArray, ov) ∧
      interpMultidim (.xr gw) latOut lonOut cyclic none m fill = .ok (.dataArray, ow) ∧
      ∀ t i j, i < latOut.length → j < lonOut.length → ow.get t i j = .fin a * ou.get t i j + .fin b * ov.get t i j := by
  obtain ⟨N, X, col, hN, hX, hcol, hall⟩ := result_form cyclic gu y x hu hl latOut lonOut m fill
  obtain ⟨ou, u1, u2⟩ := hall gu rfl rfl rfl hu
  obtain ⟨ov, v1, v2⟩ := hall gv hsv.1 hsv.2.1 hsv.2.2 hv
  obtain ⟨ow, w1, w2⟩ := hall gw hsw.1 hsw.2.1 hsw.2.2 hw
  refine ⟨ou, ov, ow, u1, v1, w1, fun t i j hi hj => ?_⟩
  have hp := List.getElem?_eq_getElem hi
  have hq := List.getElem?_eq_getElem hj
  rw [u2 t i j _ _ hp hq, v2 t i j _ _ hp hq, w2 t i j _ _ hp hq]
  refine (axis_combined a b m fill hfill gu.nlat hu.twoLat y hu.incLat _ _ _ _ fun r hr => ?_).2.2
  exact axis_combined a b m fill hfill N hN X hX _ _ _ _ fun c hc' => hc t r (col c) hr (hcol c hc')

/-- **C138, order.** If data `U` lie nowhere above data `V` on the same grid, then with the default fill value no result for `U`
lies above the result for `V`, wherever both are numbers. -/
theorem C138_order (gu gv : GeoGrid K) (y x : ℕ → K) (hu : OnAxes gu y x) (hv : OnAxes gv y x)
    (hsv : gv.nlat = gu.nlat ∧ gv.nlon = gu.nlon ∧ gv.lead = gu.lead) (cyclic : Bool) (hl : LonFits cyclic gu x)
    (hc : ∀ t i j, i < gu.nlat → j < gu.nlon → Below (gu.get t i j) (gv.get t i j)) (latOut lonOut : List K) (m : GridMethod) :
    ∃ ou ov, interpMultidim (.xr gu) latOut lonOut cyclic none m (some .nan) = .ok (.dataArray, ou) ∧
      interpMultidim (.xr gv) latOut lonOut cyclic none m (some .nan) = .ok (.dataArray, ov) ∧
      ∀ t i j, i < latOut.length → j < lonOut.length → ∀ r s, ou.get t i j = .fin r → ov.get t i j = .fin s → r ≤ s := by
  obtain ⟨N, X, col, hN, hX, hcol, hall⟩ := result_form cyclic gu y x hu hl latOut lonOut m (some .nan)
  obtain ⟨ou, u1, u2⟩ := hall gu rfl rfl rfl hu
  obtain ⟨ov, v1, v2⟩ := hall gv hsv.1 hsv.2.1 hsv.2.2 hv
  refine ⟨ou, ov, u1, v1, fun t i j hi hj => ?_⟩
  have hp := List.getElem?_eq_getElem hi
  have hq := List.getElem?_eq_getElem hj
  rw [u2 t i j _ _ hp hq, v2 t i j _ _ hp hq]
  refine (axis_below m gu.nlat hu.twoLat y hu.incLat _ _ _ fun r hr => ?_).2.2
  exact axis_below m N hN X hX _ _ _ fun c hc' => hc t r (col c) hr (hcol c hc')

/-- two rows of four longitudes, one NaN -/
def quarterGrid (f : ℕ → ℕ → XF ℚ) : GeoGrid ℚ where
  lead := 0
  nlat := 2
  nlon := 4
  lat := [0, 1]
  lon := [0, 90, 180, 270]
  get := fun _ i j => f i j

theorem quarterGrid_axes (f : ℕ → ℕ → XF ℚ) : OnAxes (quarterGrid f) (fun k => (k : ℚ)) (fun k => 90 * (k : ℚ)) := by
  refine ⟨show ([0, 1] : List ℚ) = column 2 _ by decide +kernel, show ([0, 90, 180, 270] : List ℚ) = column 4 _ by decide +kernel, ?_, ?_,
    by simp [quarterGrid], by simp [quarterGrid]⟩
  iterate 2
    intro i j hij _
    have : (i : ℚ) < j := by exact_mod_cast hij
    simp only
    linarith

/-- a case with a missing value: `U` has a NaN, `V` lies above `U`, `W = 2 U - V` -/
example :
    let U := quarterGrid (fun i j => if i = 1 ∧ j = 2 then .nan else .fin (i + j))
    let V := quarterGrid (fun i j => .fin (i + 3 * j + 1))
    let W := quarterGrid (fun i j => if i = 1 ∧ j = 2 then .nan else .fin (i - j - 1))
    OnAxes U (fun k => (k : ℚ)) (fun k => 90 * (k : ℚ)) ∧ LonFits true U (fun k => 90 * (k : ℚ)) ∧ LonFits false U (fun k => 90 * (k : ℚ)) ∧
      (∀ t i j, NumOrNan (U.get t i j) ∧ NumOrNan (V.get t i j) ∧ W.get t i j = .fin 2 * U.get t i j + .fin (-1) * V.get t i j) ∧
      (∀ t i j, Below (U.get t i j) (V.get t i j)) := by
  refine ⟨quarterGrid_axes _, ⟨rfl, by norm_num [quarterGrid]⟩, by norm_num [LonFits, quarterGrid], fun t i j => ?_, fun t i j => ?_⟩
  · simp only [quarterGrid]
    split_ifs with hh
    · exact ⟨Or.inl rfl, Or.inr ⟨_, rfl⟩, by simp⟩
    · refine ⟨Or.inr ⟨_, rfl⟩, Or.inr ⟨_, rfl⟩, ?_⟩
      simp only [XF.fin_mul, XF.fin_add, XF.fin.injEq]; ring
  · simp only [quarterGrid]
    split_ifs with hh
    · exact ⟨Or.inl rfl, Or.inr ⟨_, rfl⟩, fun r s hr _ => by cases hr⟩
    · refine ⟨Or.inr ⟨_, rfl⟩, Or.inr ⟨_, rfl⟩, fun r s hr hs => ?_⟩
      rw [XF.fin.injEq] at hr hs
      rw [← hr, ← hs]
      have : (0 : ℚ) ≤ j := Nat.cast_nonneg j
      linarith

end Verif.Props
