import Verif.Props.Multidim2

/-
C24 at the ends of the padded axis and for `method="nearest"`.
-/

set_option linter.unusedSectionVars false
namespace Verif.Props
open Model Spec Lemmas
variable {K : Type _} [Field K] [LinearOrder K] [IsStrictOrderedRing K]

/-- which point `nearest` takes within a cell: the upper one exactly beyond the middle -/
theorem interpAxis_nearest_cell (fill : Option (XF K)) (n : ℕ) (x : ℕ → K) (h : IncAxis n x) (q : K) (k : ℕ) (hk : k + 1 < n)
    (hl : x k ≤ q) (hr : q ≤ x (k + 1)) (y : ℕ → XF K) :
    interpAxis .nearest fill (column n x) (column n y) q = if (x k + x (k + 1)) / 2 < q then y (k + 1) else y k := by
  set b : ℕ → K := fun k => x (k + 1) / 2 + x k / 2 with hb
  have hinc : IncAxis (n - 1) b := by
    intro i j hij hj
    have h1 := h i j hij (by omega)
    have h2 := h (i + 1) (j + 1) (by omega) (by omega)
    simp only [hb]
    linarith
  obtain ⟨hs1, hs2⟩ := searchLeft_column (n - 1) b hinc q
  set s := searchLeft (column (n - 1) b) q with hs
  have hmono : ∀ i j, i ≤ j → j < n → x i ≤ x j := by
    intro i j hij hj
    rcases eq_or_lt_of_le hij with rfl | hl
    · exact le_refl _
    · exact (h i j hl hj).le
  have hbk : b k = (x k + x (k + 1)) / 2 := by simp only [hb]; ring
  have hsk : s = if (x k + x (k + 1)) / 2 < q then k + 1 else k := by
    have lo : ∀ j < k, b j < q := by
      intro j hj
      have h1 := h j (j + 1) (by omega) (by omega)
      have h2 := hmono (j + 1) k (by omega) (by omega)
      simp only [hb]
      linarith
    have hi : ∀ j, k < j → j < n - 1 → q ≤ b j := by
      intro j hj hjn
      have h1 := h j (j + 1) (by omega) (by omega)
      have h2 := hmono (k + 1) j (by omega) (by omega)
      simp only [hb]
      linarith
    have l1 : k ≤ s := by
      rcases Nat.eq_zero_or_pos k with h0 | h0
      · omega
      · have := (hs2 (k - 1) (by omega)).mp (lo (k - 1) (by omega)); omega
    have l2 : s ≤ k + 1 := by
      by_contra hc
      have := (hs2 (k + 1) (by omega)).mpr (by omega)
      exact absurd (hi (k + 1) (by omega) (by omega)) (not_le.mpr this)
    split_ifs with hm
    · rw [← hbk] at hm
      have := (hs2 k (by omega)).mp hm
      omega
    · rw [← hbk] at hm
      have : ¬ k < s := fun hc => hm ((hs2 k (by omega)).mpr hc)
      omega
  obtain ⟨e1, e2⟩ := sortPairs_inc n x y h
  have hsn : s < n := by rw [hsk]; split_ifs <;> omega
  have hv : scipyNearest (column n x) (column n y) q = y s := by
    unfold scipyNearest
    simp only [mids_column, column_length]
    rw [← hb, ← hs, min_eq_left (by omega), column_getD n y _ s hsn]
  have hys : y s = if (x k + x (k + 1)) / 2 < q then y (k + 1) else y k := by
    rw [hsk]; split_ifs <;> rfl
  unfold interpAxis
  simp only [e1, e2, hv]
  cases fill with
  | none => exact hys
  | some f =>
    simp only
    rw [column_headD n x 0 (by omega), column_getLastD n x 0 (by omega), if_neg]
    · exact hys
    · push Not
      exact ⟨le_trans (hmono 0 k (by omega) (by omega)) hl, le_trans hr (hmono (k + 1) (n - 1) (by omega) (by omega))⟩

/-- **C24, nearest neighbour.** With `cyclic=True` and `method="nearest"` the results at `q` and `q + 360` agree whenever both lie on the
padded axis, missing values included. -/
theorem C24_nearest (g : GeoGrid K) (y x : ℕ → K) (h : OnAxes g y x) (h2d : g.lead = 0) (hspan : x (g.nlon - 1) - x 0 < 360)
    (latOut lonOut : List K) (missing : Option (XF K)) (fill : Option (XF K)) :
    ∃ out, interpMultidim (.xr g) latOut lonOut true missing .nearest fill = .ok (.dataArray, out) ∧
      ∀ t i j j' p q, latOut[i]? = some p → lonOut[j]? = some q → lonOut[j']? = some (q + 360) →
        x (g.nlon - 1) - 360 ≤ q → q + 360 ≤ x 0 + 360 → out.get t i j = out.get t i j' := by
  obtain ⟨out, h1, h2⟩ := cyclic_eq g y x h h2d latOut lonOut missing .nearest fill
  refine ⟨out, h1, fun t i j j' p q hp hq hq' hl hr => ?_⟩
  rw [h2 t i j p q hp hq, h2 t i j' p (q + 360) hp hq']
  congr 2
  unfold column
  refine List.map_congr_left fun r _ => ?_
  have hn := h.posLon
  have hinc := paddedLon_inc g.nlon hn x h.incLon hspan
  have p0 : paddedLon g.nlon x 0 = x (g.nlon - 1) - 360 := by simp [paddedLon]
  have p1 : paddedLon g.nlon x (0 + 1) = x 0 := by simp [paddedLon, show (1 : ℕ) ≠ g.nlon + 1 by omega]; intro hh; omega
  have pn : paddedLon g.nlon x g.nlon = x (g.nlon - 1) := by simp [paddedLon, show g.nlon ≠ 0 by omega]
  have pn1 : paddedLon g.nlon x (g.nlon + 1) = x 0 + 360 := by simp [paddedLon]
  have c0 : paddedCol g.nlon 0 = g.nlon - 1 := by simp [paddedCol]
  have c1 : paddedCol g.nlon (0 + 1) = 0 := by simp [paddedCol, show (1 : ℕ) ≠ g.nlon + 1 by omega]
  have cn : paddedCol g.nlon g.nlon = g.nlon - 1 := by simp [paddedCol, show g.nlon ≠ 0 by omega]
  have cn1 : paddedCol g.nlon (g.nlon + 1) = 0 := by simp [paddedCol]
  unfold rowAt
  rw [interpAxis_nearest_cell fill _ _ hinc q 0 (by omega) (by rw [p0]; exact hl) (by rw [p1]; linarith),
    interpAxis_nearest_cell fill _ _ hinc (q + 360) g.nlon (by omega) (by rw [pn]; linarith) (by rw [pn1]; exact hr), p0, p1, pn, pn1]
  simp only [c0, c1, cn, cn1]
  refine if_congr ?_ rfl rfl
  constructor <;> intro hh <;> linarith

/-- **C24, left end** (partial). At the first point of the padded axis, 360 degrees before the last longitude, the result agrees with that
at the last longitude if no value is missing. Missing: rows with missing values (`C24_counterexample`). -/
theorem C24_end_partial (g : GeoGrid K) (y x : ℕ → K) (h : OnAxes g y x) (h2d : g.lead = 0) (hspan : x (g.nlon - 1) - x 0 < 360)
    (latOut lonOut : List K) (missing : Option (XF K)) (fill : Option (XF K)) :
    ∃ out, interpMultidim (.xr g) latOut lonOut true missing .linear fill = .ok (.dataArray, out) ∧
      ∀ t i j j' p, latOut[i]? = some p → lonOut[j]? = some (x (g.nlon - 1) - 360) → lonOut[j']? = some (x (g.nlon - 1)) →
        ∀ v : ℕ → ℕ → K, (∀ r < g.nlat, ∀ c < g.nlon, IsNumber missing (g.get t r c) (v r c)) → out.get t i j = out.get t i j' := by
  obtain ⟨out, h1, h2⟩ := cyclic_eq g y x h h2d latOut lonOut missing .linear fill
  refine ⟨out, h1, fun t i j j' p hp hq hq' v hv => ?_⟩
  rw [h2 t i j p _ hp hq, h2 t i j' p _ hp hq']
  congr 2
  unfold column
  refine List.map_congr_left fun r hr => ?_
  have hr : r < g.nlat := by simpa using hr
  have hn := h.posLon
  have hinc := paddedLon_inc g.nlon hn x h.incLon hspan
  have p0 : paddedLon g.nlon x 0 = x (g.nlon - 1) - 360 := by simp [paddedLon]
  have pn : paddedLon g.nlon x (g.nlon - 1 + 1) = x (g.nlon - 1) := by
    rw [Nat.sub_add_cancel hn]; simp [paddedLon, show g.nlon ≠ 0 by omega]
  have hcol : ∀ c < g.nlon + 2, paddedCol g.nlon c < g.nlon := by
    intro c hc
    unfold paddedCol
    split_ifs <;> omega
  have c0 : paddedCol g.nlon 0 = g.nlon - 1 := by simp [paddedCol]
  have cn : paddedCol g.nlon (g.nlon - 1 + 1) = g.nlon - 1 := by
    rw [Nat.sub_add_cancel hn]; simp [paddedCol, show g.nlon ≠ 0 by omega]
  have hm : ∀ c < g.nlon + 2, maskVal missing (g.get t r (paddedCol g.nlon c)) = .fin (v r (paddedCol g.nlon c)) := fun c hc =>
    (hv r hr _ (hcol c hc)).mask
  unfold rowAt
  have hlt0 := hinc 0 (0 + 1) (by omega) (by omega)
  have hltn := hinc (g.nlon - 1) (g.nlon - 1 + 1) (by omega) (by omega)
  rw [interpAxis_cell fill _ _ _ hinc _ 0 (by omega) (Or.inr ⟨rfl, by rw [p0]⟩) (by rw [← p0]; exact hlt0.le),
    interpAxis_cell fill _ _ _ hinc _ (g.nlon - 1) (by omega) (Or.inl (by rw [← pn]; exact hltn)) (by rw [pn])]
  beta_reduce
  rw [hm 0 (by omega), hm (0 + 1) (by omega), hm (g.nlon - 1) (by omega), hm (g.nlon - 1 + 1) (by omega),
    seg_fin _ _ _ _ _ hlt0, seg_fin _ _ _ _ _ hltn, p0, pn, c0, cn]
  rw [pn] at hltn
  rw [p0] at hlt0
  have e : (x (g.nlon - 1) - paddedLon g.nlon x (g.nlon - 1)) / (x (g.nlon - 1) - paddedLon g.nlon x (g.nlon - 1)) = 1 :=
    div_self (by linarith)
  rw [e]
  simp

/-- three longitudes with a missing value in the first column -/
def gapGrid : GeoGrid ℚ where
  lead := 0
  nlat := 2
  nlon := 3
  lat := [0, 1]
  lon := [0, 120, 240]
  get := fun _ _ j => if j = 0 then .nan else .fin 1

/-- **C24** is false at the left end of the padded axis: with a missing value in the first column the result at -120 is missing, the one
at 240, an intact grid point, is not. -/
theorem C24_counterexample :
    ∃ out, interpMultidim (.xr gapGrid) [0] [-120, 240] true none .linear none = .ok (.dataArray, out) ∧
      out.get [] 0 0 = .nan ∧ out.get [] 0 1 = .fin 1 := by
  have h : (interpMultidim (.xr gapGrid) [0] [-120, 240] true none .linear none).toOption.map
      (fun r => (match r.1 with | .dataArray => true | _ => false, r.2.get [] 0 0, r.2.get [] 0 1)) = some (true, .nan, .fin 1) := by
    decide +kernel
  cases hc : interpMultidim (.xr gapGrid) [0] [-120, 240] true none .linear none with
  | error e => rw [hc] at h; cases h
  | ok r =>
    obtain ⟨c, out⟩ := r
    rw [hc] at h
    simp only [Except.toOption, Option.map_some, Option.some.injEq, Prod.mk.injEq] at h
    obtain ⟨h0, h1, h2⟩ := h
    cases c <;> first | (exact ⟨out, rfl, h1, h2⟩) | cases h0

example : OnAxes gapGrid (fun k => (k : ℚ)) (fun k => 120 * (k : ℚ)) ∧ (120 * ((gapGrid.nlon - 1 : ℕ) : ℚ)) - 120 * ((0 : ℕ) : ℚ) < 360 := by
  refine ⟨⟨?_, ?_, ?_, ?_, ?_, ?_⟩, ?_⟩ <;> first
    | decide +kernel
    | (intro i j hij hj; simp only; norm_cast <;> omega)

end Verif.Props
