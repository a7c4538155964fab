import Verif.Props.Multidim

/-
Properties C24, C26, C86, C88, C89: interp_multidim (cyclic grids, types, order of the grid, nearest neighbour, linear fields).
-/

set_option linter.unusedSectionVars false
namespace Verif.Props
open Model Spec Lemmas
variable {K : Type _} [Field K] [LinearOrder K] [IsStrictOrderedRing K]

/-! ### C24 -/

/-- the longitudes with one point added on each side -/
def paddedLon (n : ℕ) (x : ℕ → K) (k : ℕ) : K :=
  if k = 0 then x (n - 1) - 360 else if k = n + 1 then x 0 + 360 else x (k - 1)

theorem paddedLon_inc (n : ℕ) (hn : 1 ≤ n) (x : ℕ → K) (h : IncAxis n x) (hspan : x (n - 1) - x 0 < 360) : IncAxis (n + 2) (paddedLon n x) := by
  have hmono : ∀ i j, i ≤ j → j < n → x i ≤ x j := by
    intro i j hij hj
    rcases eq_or_lt_of_le hij with rfl | hl
    · exact le_refl _
    · exact (h i j hl hj).le
  intro i j hij hj
  unfold paddedLon
  rcases Nat.eq_zero_or_pos i with rfl | hi
  · rw [if_pos rfl, if_neg (by omega)]
    split_ifs with hjn
    · have := hmono 0 (n - 1) (by omega) (by omega); linarith
    · have := hmono 0 (j - 1) (by omega) (by omega); linarith
  · rw [if_neg (by omega), if_neg (by omega), if_neg (by omega)]
    split_ifs with hjn
    · have := hmono (i - 1) (n - 1) (by omega) (by omega); linarith
    · exact h (i - 1) (j - 1) (by omega) (by omega)

theorem padWrap_column {α : Type _} (n : ℕ) (hn : 1 ≤ n) (f : ℕ → α) :
    padWrap (column n f) = f (n - 1) :: column n f ++ [f 0] := by
  obtain ⟨m, rfl⟩ := Nat.exists_eq_succ_of_ne_zero (show n ≠ 0 by omega)
  have h1 : (column (m + 1) f).head? = some (f 0) := by simp [column, List.range_succ_eq_map]
  have h2 : (column (m + 1) f).getLast? = some (f m) := by simp [column, List.range_succ]
  simp only [padWrap, Nat.succ_eq_add_one, h1, h2, Nat.add_sub_cancel]

theorem padded_axis (n : ℕ) (hn : 1 ≤ n) (x : ℕ → K) :
    (do
      let p ← Py.setIndex (padWrap (column n x)) 0 ((padWrap (column n x)).headD 0 - 360)
      Py.setIndex p (-1) (p.getLastD 0 + 360) : Except PyErr (List K)) = .ok (column (n + 2) (paddedLon n x)) := by
  have hlen : (x (n - 1) :: column n x ++ [x 0]).length = n + 2 := by simp [column]
  have s1 : Py.setIndex (padWrap (column n x)) 0 ((padWrap (column n x)).headD 0 - 360) =
      .ok ((x (n - 1) - 360) :: column n x ++ [x 0]) := by
    rw [padWrap_column n hn x]
    unfold Py.setIndex
    simp only [lt_irrefl, if_false, List.cons_append, List.headD_cons]
    rw [if_pos ⟨le_refl _, by simp only [List.length_cons]; push_cast; omega⟩]
    rfl
  rw [s1]
  simp only [bind, Except.bind]
  have hl : ((x (n - 1) - 360) :: column n x ++ [x 0]).length = n + 2 := by simp [column]
  have hlast : ((x (n - 1) - 360) :: column n x ++ [x 0]).getLastD 0 = x 0 := by
    rw [List.getLastD_eq_getLast?, List.getLast?_append]
    simp
  unfold Py.setIndex
  simp only [hl, hlast]
  have hj : (if (-1 : Int) < 0 then (-1 : Int) + ((n + 2 : ℕ) : Int) else -1) = (n + 1 : ℕ) := by
    rw [if_pos (by norm_num)]; push_cast; ring
  rw [hj, if_pos ⟨by omega, by push_cast; omega⟩]
  congr 1
  apply List.ext_getElem?
  intro k
  have e1 : ((n + 1 : ℕ) : Int).toNat = n + 1 := by simp
  rw [e1]
  rcases lt_trichotomy k (n + 1) with hk | rfl | hk
  · rw [List.getElem?_set_ne (by omega), column_getElem? _ _ _ (by omega)]
    rcases Nat.eq_zero_or_pos k with rfl | hp
    · simp [paddedLon]
    · obtain ⟨j, rfl⟩ := Nat.exists_eq_succ_of_ne_zero hp.ne'
      have : j < n := by omega
      simp only [Nat.succ_eq_add_one, List.cons_append, List.getElem?_cons_succ]
      rw [List.getElem?_append_left (by simpa [column] using this), column_getElem? _ _ _ this]
      simp [paddedLon, show j ≠ n by omega]
  · rw [List.getElem?_set_self (by omega), column_getElem? _ _ _ (by omega)]
    simp [paddedLon]
  · rw [List.getElem?_eq_none (by simp [column]; omega), List.getElem?_eq_none (by simp [column]; omega)]

/-- column of the input behind column `k` of the padded grid -/
def paddedCol (n k : ℕ) : ℕ := if k = 0 then n - 1 else if k = n + 1 then 0 else k - 1

theorem paddedCol_eq (n k : ℕ) (hn : 1 ≤ n) (hk : k < n + 2) : (k + n - 1) % n = paddedCol n k := by
  unfold paddedCol
  split_ifs with h1 h2
  · subst h1; rw [Nat.zero_add, Nat.mod_eq_of_lt (by omega)]
  · subst h2
    rw [show n + 1 + n - 1 = n + n by omega]; simp
  · rw [show k + n - 1 = (k - 1) + n by omega, Nat.add_mod_right, Nat.mod_eq_of_lt (by omega)]

theorem cyclic_form (g : GeoGrid K) (y x : ℕ → K) (hpos : 1 ≤ g.nlon) (hglat : g.lat = column g.nlat y) (hglon : g.lon = column g.nlon x) (h2d : g.lead = 0) (latOut lonOut : List K) (missing : Option (XF K))
    (m : GridMethod) (fill : Option (XF K)) :
    ∃ out, interpMultidim (.xr g) latOut lonOut true missing m fill = .ok (.dataArray, out) ∧
      ∀ t i j p q, latOut[i]? = some p → lonOut[j]? = some q → out.get t i j = markVal missing
        (interpAxis m fill (column g.nlat y) (column g.nlat (rowAt m fill (g.nlon + 2) (paddedLon g.nlon x)
          (fun r c => maskVal missing (g.get t r (paddedCol g.nlon c))) q)) p) := by
  have hax := padded_axis g.nlon hpos x
  rw [← hglon] at hax
  have hz : ¬ (g.lead ≠ 0 ∨ g.nlon = 0) := by have := hpos; omega
  have hpre : preInterp true missing g = .ok { g with lon := column (g.nlon + 2) (paddedLon g.nlon x), nlon := g.nlon + 2, get := fun t i j => maskVal missing (g.get t i ((j + g.nlon - 1) % g.nlon)) } := by
    cases hs1 : Py.setIndex (padWrap g.lon) 0 ((padWrap g.lon).headD 0 - 360) with
    | error e => rw [hs1] at hax; cases hax
    | ok p1 =>
      rw [hs1] at hax
      simp only [bind, Except.bind] at hax
      cases missing with
      | none => simp only [preInterp, hz, hs1, hax, bind, Except.bind, pure, Except.pure, not_true_eq_false, if_false, maskVal]
      | some c => simp only [preInterp, hz, hs1, hax, bind, Except.bind, pure, Except.pure, not_true_eq_false, if_false, maskVal]
  have hcols : ∀ (f : ℕ → XF K), (List.range (g.nlon + 2)).map (fun c => f ((c + g.nlon - 1) % g.nlon)) =
      column (g.nlon + 2) (fun c => f (paddedCol g.nlon c)) := by
    intro f
    unfold column
    refine List.map_congr_left fun c hc => ?_
    rw [paddedCol_eq g.nlon c hpos (by simpa using hc)]
  have hcall : interpMultidim (.xr g) latOut lonOut true missing m fill =
      .ok (.dataArray, postInterp missing (xrInterp m fill { g with lon := column (g.nlon + 2) (paddedLon g.nlon x), nlon := g.nlon + 2, get := fun t i j => maskVal missing (g.get t i ((j + g.nlon - 1) % g.nlon)) } latOut lonOut)) := by
    simp only [interpMultidim, bind, Except.bind, pure, Except.pure, hpre]
  refine ⟨_, hcall, fun t i j p q hp hq => ?_⟩
  have hout : ∀ o : GeoGrid K, (postInterp missing o).get t i j = markVal missing (o.get t i j) := by
    intro o; cases missing <;> rfl
  rw [hout]
  congr 1
  simp only [xrInterp, hglat, List.getD_eq_getElem?_getD, hp, hq, Option.getD_some]
  congr 1
  refine List.map_congr_left fun r _ => ?_
  rw [hcols (fun c => maskVal missing (g.get t r c))]
  rfl

theorem cyclic_eq (g : GeoGrid K) (y x : ℕ → K) (h : OnAxes g y x) (h2d : g.lead = 0) (latOut lonOut : List K) (missing : Option (XF K))
    (m : GridMethod) (fill : Option (XF K)) :
    ∃ out, interpMultidim (.xr g) latOut lonOut true missing m fill = .ok (.dataArray, out) ∧
      ∀ t i j p q, latOut[i]? = some p → lonOut[j]? = some q → out.get t i j = markVal missing
        (interpAxis m fill (column g.nlat y) (column g.nlat (rowAt m fill (g.nlon + 2) (paddedLon g.nlon x)
          (fun r c => maskVal missing (g.get t r (paddedCol g.nlon c))) q)) p) :=
  cyclic_form g y x h.posLon h.lat h.lon h2d latOut lonOut missing m fill

/-- C24, axis: adding the cyclic points to strictly increasing longitudes spanning less than 360 degrees gives a strictly
increasing axis with two more points, from 360 degrees before the last longitude to 360 degrees after the first. -/
theorem C24_axis (g : GeoGrid K) (y x : ℕ → K) (h : OnAxes g y x) (h2d : g.lead = 0) (hspan : x (g.nlon - 1) - x 0 < 360)
    (missing : Option (XF K)) :
    ∃ g' x', preInterp true missing g = .ok g' ∧ g'.lon = column (g.nlon + 2) x' ∧ IncAxis (g.nlon + 2) x' ∧
      x' 0 = x (g.nlon - 1) - 360 ∧ (∀ k < g.nlon, x' (k + 1) = x k) ∧ x' (g.nlon + 1) = x 0 + 360 := by
  have hax := padded_axis g.nlon h.posLon x
  rw [← h.lon] at hax
  have hz : ¬ (g.lead ≠ 0 ∨ g.nlon = 0) := by have := h.posLon; omega
  refine ⟨{ g with lon := column (g.nlon + 2) (paddedLon g.nlon x), nlon := g.nlon + 2, get := fun t i j => maskVal missing (g.get t i ((j + g.nlon - 1) % g.nlon)) },
    paddedLon g.nlon x, ?_, rfl, paddedLon_inc _ h.posLon x h.incLon hspan, by simp [paddedLon], ?_, by simp [paddedLon]⟩
  · cases hs1 : Py.setIndex (padWrap g.lon) 0 ((padWrap g.lon).headD 0 - 360) with
    | error e => rw [hs1] at hax; cases hax
    | ok p1 =>
      rw [hs1] at hax
      simp only [bind, Except.bind] at hax
      cases missing with
      | none => simp only [preInterp, hz, hs1, hax, bind, Except.bind, pure, Except.pure, not_true_eq_false, if_false, maskVal]
      | some c => simp only [preInterp, hz, hs1, hax, bind, Except.bind, pure, Except.pure, not_true_eq_false, if_false, maskVal]
  · intro k hk
    simp [paddedLon, show k ≠ g.nlon by omega]

theorem seg_shift (x0 x1 : K) (y0 y1 : XF K) (q : K) : seg (x0 - 360) x1 y0 y1 q = seg x0 (x1 + 360) y0 y1 (q + 360) := by
  unfold seg
  rw [show x1 - (x0 - 360) = x1 + 360 - x0 by ring, show q - (x0 - 360) = q + 360 - x0 by ring]

/-- a row of the padded grid in the gap before the first longitude -/
theorem row_gap (fill : Option (XF K)) (n : ℕ) (hn : 1 ≤ n) (x : ℕ → K) (h : IncAxis n x) (hspan : x (n - 1) - x 0 < 360) (f : ℕ → ℕ → XF K)
    (q : K) (h0 : x (n - 1) - 360 < q) (h1 : q ≤ x 0) (r : ℕ) :
    rowAt .linear fill (n + 2) (paddedLon n x) (fun r c => f r (paddedCol n c)) q r = seg (x (n - 1)) (x 0 + 360) (f r (n - 1)) (f r 0) (q + 360) ∧
    rowAt .linear fill (n + 2) (paddedLon n x) (fun r c => f r (paddedCol n c)) (q + 360) r = seg (x (n - 1)) (x 0 + 360) (f r (n - 1)) (f r 0) (q + 360) := by
  have hinc := paddedLon_inc n hn x h hspan
  have p0 : paddedLon n x 0 = x (n - 1) - 360 := by simp [paddedLon]
  have p1 : paddedLon n x (0 + 1) = x 0 := by simp [paddedLon, show (1 : ℕ) ≠ n + 1 by omega]; intro hh; omega
  have pn : paddedLon n x n = x (n - 1) := by simp [paddedLon, show n ≠ 0 by omega]
  have pn1 : paddedLon n x (n + 1) = x 0 + 360 := by simp [paddedLon]
  have c0 : paddedCol n 0 = n - 1 := by simp [paddedCol]
  have c1 : paddedCol n (0 + 1) = 0 := by simp [paddedCol, show (1 : ℕ) ≠ n + 1 by omega]
  have cn : paddedCol n n = n - 1 := by simp [paddedCol, show n ≠ 0 by omega]
  have cn1 : paddedCol n (n + 1) = 0 := by simp [paddedCol]
  unfold rowAt
  constructor
  · rw [interpAxis_cell fill _ _ _ hinc q 0 (by omega) (Or.inl (by rw [p0]; exact h0)) (by rw [p1]; exact h1), p0, p1, seg_shift]
    simp only [c0, c1]
  · rw [interpAxis_cell fill _ _ _ hinc (q + 360) n (by omega) (Or.inl (by rw [pn]; linarith)) (by rw [pn1]; linarith), pn, pn1]
    simp only [cn, cn1]

/-- C24, periodic: with `cyclic=True` the results at a longitude `q` in the gap before the first grid longitude and at `q + 360` in
the gap after the last one are the same, for every latitude and all data, missing values included. -/
theorem C24_periodic (g : GeoGrid K) (y x : ℕ → K) (h : OnAxes g y x) (h2d : g.lead = 0) (hspan : x (g.nlon - 1) - x 0 < 360)
    (latOut lonOut : List K) (missing : Option (XF K)) (fill : Option (XF K)) :
    ∃ out, interpMultidim (.xr g) latOut lonOut true missing .linear fill = .ok (.dataArray, out) ∧
      ∀ t i j j' p q, latOut[i]? = some p → lonOut[j]? = some q → lonOut[j']? = some (q + 360) →
        x (g.nlon - 1) - 360 < q → q ≤ x 0 → out.get t i j = out.get t i j' := by
  obtain ⟨out, h1, h2⟩ := cyclic_eq g y x h h2d latOut lonOut missing .linear fill
  refine ⟨out, h1, fun t i j j' p q hp hq hq' hl hr => ?_⟩
  rw [h2 t i j p q hp hq, h2 t i j' p (q + 360) hp hq']
  congr 2
  unfold column
  refine List.map_congr_left fun r _ => ?_
  obtain ⟨e1, e2⟩ := row_gap fill g.nlon h.posLon x h.incLon hspan (fun r c => maskVal missing (g.get t r c)) q hl hr r
  rw [e1, e2]

/-- C24, gap: in the gap the result is the bilinear mean of the values of the last and the first column, with the distance
across the gap, `x 0 + 360 - x (n-1)`, as the cell width. -/
theorem C24_gap (g : GeoGrid K) (y x : ℕ → K) (h : OnAxes g y x) (h2d : g.lead = 0) (hspan : x (g.nlon - 1) - x 0 < 360)
    (latOut lonOut : List K) (missing : Option (XF K)) (fill : Option (XF K)) :
    ∃ out, interpMultidim (.xr g) latOut lonOut true missing .linear fill = .ok (.dataArray, out) ∧
      ∀ t i j p q, latOut[i]? = some p → lonOut[j]? = some q → x (g.nlon - 1) < q → q ≤ x 0 + 360 →
        ∀ v w : ℕ → K, (∀ k a, InCell g.nlat y p k → (a = k ∨ a = k + 1) →
          IsNumber missing (g.get t a (g.nlon - 1)) (v a) ∧ IsNumber missing (g.get t a 0) (w a)) →
        ∀ k, InCell g.nlat y p k →
          out.get t i j = .fin (bilinear (v k) (w k) (v (k + 1)) (w (k + 1)) (frac y p k)
            ((q - x (g.nlon - 1)) / (x 0 + 360 - x (g.nlon - 1)))) := by
  obtain ⟨out, h1, h2⟩ := cyclic_eq g y x h h2d latOut lonOut missing .linear fill
  refine ⟨out, h1, fun t i j p q hp hq hl hr v w hvw k hk => ?_⟩
  rw [h2 t i j p q hp hq]
  set s := (q - x (g.nlon - 1)) / (x 0 + 360 - x (g.nlon - 1)) with hs
  have hrow : ∀ a, (∃ k', InCell g.nlat y p k' ∧ (a = k' ∨ a = k' + 1)) →
      rowAt .linear fill (g.nlon + 2) (paddedLon g.nlon x) (fun r c => maskVal missing (g.get t r (paddedCol g.nlon c))) q a =
        .fin ((1 - s) * v a + s * w a) := by
    rintro a ⟨k', hk', ha⟩
    have e2 := (row_gap fill g.nlon h.posLon x h.incLon hspan (fun r c => maskVal missing (g.get t r c)) (q - 360) (by linarith) (by linarith) a).2
    rw [sub_add_cancel] at e2
    rw [e2, (hvw k' a hk' ha).1.mask, (hvw k' a hk' ha).2.mask, seg_fin _ _ _ _ _ (by linarith)]
  rw [interpAxis_fin fill g.nlat y _ (fun a => (1 - s) * v a + s * w a) h.incLat p k hk
    (fun k' hk' => ⟨hrow k' ⟨k', hk', Or.inl rfl⟩, hrow (k' + 1) ⟨k', hk', Or.inr rfl⟩⟩), markVal_fin]
  rfl

/-- C24, interior: between the first and the last longitude the cyclic points change nothing. -/
theorem C24_interior (g : GeoGrid K) (y x : ℕ → K) (h : OnAxes g y x) (h2d : g.lead = 0) (hspan : x (g.nlon - 1) - x 0 < 360)
    (latOut lonOut : List K) (missing : Option (XF K)) (fill : Option (XF K)) :
    ∃ out out', interpMultidim (.xr g) latOut lonOut true missing .linear fill = .ok (.dataArray, out) ∧
      interpMultidim (.xr g) latOut lonOut false missing .linear fill = .ok (.dataArray, out') ∧
      ∀ t i j p q, latOut[i]? = some p → lonOut[j]? = some q → x 0 < q → q ≤ x (g.nlon - 1) → out.get t i j = out'.get t i j := by
  obtain ⟨out, h1, h2⟩ := cyclic_eq g y x h h2d latOut lonOut missing .linear fill
  obtain ⟨out', h1', -, -, -, -, -, h2'⟩ := plain_eq g y x h latOut lonOut missing .linear fill
  refine ⟨out, out', h1, h1', fun t i j p q hp hq hl hr => ?_⟩
  rw [h2 t i j p q hp hq, h2' t i j p q hp hq]
  congr 2
  unfold column
  refine List.map_congr_left fun r _ => ?_
  have hn2 : 2 ≤ g.nlon := by
    by_contra hc
    have := h.posLon
    have : g.nlon = 1 := by omega
    rw [this] at hr
    exact absurd (lt_of_lt_of_le hl hr) (lt_irrefl _)
  obtain ⟨k, hk1, hk2, hk3⟩ := exists_cell g.nlon hn2 x h.incLon q hl.le hr
  have hk2' : x k < q := by
    rcases hk2 with hk2 | ⟨rfl, -⟩
    · exact hk2
    · exact hl
  have e1 : paddedLon g.nlon x (k + 1) = x k := by simp [paddedLon, show k ≠ g.nlon by omega]
  have e2 : paddedLon g.nlon x (k + 1 + 1) = x (k + 1) := by simp [paddedLon, show k + 1 ≠ g.nlon by omega]
  have c1 : paddedCol g.nlon (k + 1) = k := by simp [paddedCol, show k ≠ g.nlon by omega]
  have c2 : paddedCol g.nlon (k + 1 + 1) = k + 1 := by simp [paddedCol, show k + 1 ≠ g.nlon by omega]
  unfold rowAt
  rw [interpAxis_cell fill _ _ _ (paddedLon_inc g.nlon h.posLon x h.incLon hspan) q (k + 1) (by omega) (Or.inl (by rw [e1]; exact hk2'))
    (by rw [e2]; exact hk3), interpAxis_cell fill _ _ _ h.incLon q k hk1 hk2 hk3, e1, e2]
  simp only [c1, c2]

/-! ### C26 -/

/-- C26, part: a DataArray gives a DataArray; without `cyclic` every rank is accepted, the leading dimensions are kept and the last
two become those requested. -/
theorem C26_xarray_partial (g : GeoGrid K) (latOut lonOut : List K) (missing : Option (XF K)) (m : GridMethod) (fill : Option (XF K)) :
    ∃ out, interpMultidim (.xr g) latOut lonOut false missing m fill = .ok (.dataArray, out) ∧ out.lead = g.lead ∧
      out.nlat = latOut.length ∧ out.nlon = lonOut.length ∧ out.lat = latOut ∧ out.lon = lonOut := by
  cases missing <;> exact ⟨_, rfl, rfl, rfl, rfl, rfl, rfl⟩

/-- C26 is false: numpy input never gives a numpy array, numpy input of rank other than 2 fails, and `cyclic=True` fails for every
DataArray of rank other than 2. -/
theorem C26_counterexample :
    (∀ (a : GridArr K) lat lon latOut lonOut cyclic missing m fill ty out,
      interpMultidim (.np a lat lon) latOut lonOut cyclic missing m fill = .ok (ty, out) → ty = .dataArray) ∧
    (∀ (a : GridArr K) lat lon latOut lonOut cyclic missing m fill, a.lead ≠ 0 →
      interpMultidim (.np a lat lon) latOut lonOut cyclic missing m fill = .error .valueError) ∧
    (∀ (g : GeoGrid K) latOut lonOut missing m fill, g.lead ≠ 0 →
      interpMultidim (.xr g) latOut lonOut true missing m fill = .error .valueError) := by
  refine ⟨?_, ?_, ?_⟩
  · intro a lat lon latOut lonOut cyclic missing m fill ty out hcall
    have key : ∀ e : Except PyErr (GeoGrid K), (do
        let g ← e
        let g ← preInterp cyclic missing g
        return (PyType.dataArray, postInterp missing (xrInterp m fill g latOut lonOut))) = Except.ok (ty, out) → ty = .dataArray := by
      intro e he
      cases e with
      | error _ => cases he
      | ok g =>
        simp only [bind, Except.bind] at he
        cases hp : preInterp cyclic missing g with
        | error _ => rw [hp] at he; cases he
        | ok g' =>
          rw [hp] at he
          injection he with he
          exact (Prod.mk.inj he).1.symm
    cases lat with
    | none => exact key (.error .valueError) hcall
    | some lat =>
      cases lon with
      | none => exact key (.error .valueError) hcall
      | some lon =>
        unfold interpMultidim at hcall
        by_cases hc : a.lead ≠ 0 ∨ lat.length ≠ a.nlat ∨ lon.length ≠ a.nlon
        · simp only [if_pos hc] at hcall
          exact key (.error .valueError) hcall
        · simp only [if_neg hc] at hcall
          exact key (.ok { a with lat := lat, lon := lon }) hcall
  · intro a lat lon latOut lonOut cyclic missing m fill hl
    cases lat with
    | none => rfl
    | some lat =>
      cases lon with
      | none => rfl
      | some lon => simp [interpMultidim, hl, bind, Except.bind, throw, throwThe, MonadExceptOf.throw]
  · intro g latOut lonOut missing m fill hl
    cases missing <;> simp [interpMultidim, preInterp, hl, bind, Except.bind, pure, Except.pure, throw, throwThe, MonadExceptOf.throw]

/-! ### C86 -/

theorem sortPairs_perm (n : ℕ) (x : ℕ → K) (y : ℕ → XF K) (hd : Distinct n x) (σ : ℕ → ℕ)
    (hσ : ((List.range n).map σ).Perm (List.range n)) :
    sortPairs (column n (fun k => x (σ k))) (column n (fun k => y (σ k))) = sortPairs (column n x) (column n y) := by
  have hz : ∀ (x : ℕ → K) (y : ℕ → XF K), (column n x).zip (column n y) = (List.range n).map (fun k => (x k, y k)) := by
    intro x y
    simp [column, List.zip, List.zipWith_map, List.zipWith_self]
  unfold sortPairs
  rw [hz, hz]
  haveI : Std.Total (fun a b : K × XF K => a.1 ≤ b.1) := ⟨fun a b => le_total a.1 b.1⟩
  haveI : IsTrans (K × XF K) (fun a b => a.1 ≤ b.1) := ⟨fun a b c => le_trans⟩
  set l := (List.range n).map (fun k => (x k, y k)) with hl
  have hperm : ((List.range n).map (fun k => (x (σ k), y (σ k)))).Perm l := by
    have := hσ.map (fun k => (x k, y k))
    rwa [List.map_map] at this
  have m1 := (List.perm_insertionSort (fun a b : K × XF K => a.1 ≤ b.1) ((List.range n).map (fun k => (x (σ k), y (σ k))))).trans hperm
  have m2 := List.perm_insertionSort (fun a b : K × XF K => a.1 ≤ b.1) l
  refine List.Perm.eq_of_pairwise (le := fun a b : K × XF K => a.1 ≤ b.1) ?_ (List.pairwise_insertionSort _ _) (List.pairwise_insertionSort _ _)
    (m1.trans m2.symm)
  intro a b ha hb h1 h2
  have ha' := m1.mem_iff.mp ha
  have hb' := m2.mem_iff.mp hb
  simp only [hl, List.mem_map, List.mem_range] at ha' hb'
  obtain ⟨i, hi, rfl⟩ := ha'
  obtain ⟨j, hj, rfl⟩ := hb'
  have := hd i hi j hj (le_antisymm h1 h2)
  rw [this]

/-- the grid with its rows and columns (and their coordinates) stored in another order -/
def reorder (g : GeoGrid K) (y x : ℕ → K) (σ τ : ℕ → ℕ) : GeoGrid K :=
  { g with lat := column g.nlat (fun i => y (σ i)), lon := column g.nlon (fun j => x (τ j)), get := fun t i j => g.get t (σ i) (τ j) }

/-- C86, part: without `cyclic` the result does not depend on the order in which latitudes and longitudes are stored (for instance
north to south). Missing: `cyclic=True`, where it fails (`C86_counterexample`). -/
theorem C86_order_partial (g : GeoGrid K) (y x : ℕ → K) (hlat : g.lat = column g.nlat y) (hlon : g.lon = column g.nlon x)
    (hy : Distinct g.nlat y) (hx : Distinct g.nlon x) (σ τ : ℕ → ℕ) (hσ : ((List.range g.nlat).map σ).Perm (List.range g.nlat))
    (hτ : ((List.range g.nlon).map τ).Perm (List.range g.nlon)) (latOut lonOut : List K) (missing : Option (XF K)) (m : GridMethod)
    (fill : Option (XF K)) :
    ∃ out out', interpMultidim (.xr g) latOut lonOut false missing m fill = .ok (.dataArray, out) ∧
      interpMultidim (.xr (reorder g y x σ τ)) latOut lonOut false missing m fill = .ok (.dataArray, out') ∧
      ∀ t i j, out'.get t i j = out.get t i j := by
  have hax : ∀ (n : ℕ) (z : ℕ → K) (w : ℕ → XF K) (ρ : ℕ → ℕ) (q : K), Distinct n z → ((List.range n).map ρ).Perm (List.range n) →
      interpAxis m fill (column n (fun k => z (ρ k))) (column n (fun k => w (ρ k))) q = interpAxis m fill (column n z) (column n w) q := by
    intro n z w ρ q hz hρ
    unfold interpAxis
    rw [sortPairs_perm n z w hz ρ hρ]
  have main : ∀ (f : List ℕ → ℕ → ℕ → XF K) (t : List ℕ) (p q : K),
      interpAxis m fill (column g.nlat (fun i => y (σ i))) ((List.range g.nlat).map fun r =>
        interpAxis m fill (column g.nlon (fun j => x (τ j))) ((List.range g.nlon).map fun c => f t (σ r) (τ c)) q) p =
      interpAxis m fill g.lat ((List.range g.nlat).map fun r => interpAxis m fill g.lon ((List.range g.nlon).map fun c => f t r c) q) p := by
    intro f t p q
    rw [hlat, hlon]
    have h1 : ∀ r, interpAxis m fill (column g.nlon (fun j => x (τ j))) ((List.range g.nlon).map fun c => f t (σ r) (τ c)) q =
        interpAxis m fill (column g.nlon x) ((List.range g.nlon).map fun c => f t (σ r) c) q := fun r => hax g.nlon x (f t (σ r)) τ q hx hτ
    simp only [h1]
    exact hax g.nlat y (fun r => interpAxis m fill (column g.nlon x) ((List.range g.nlon).map fun c => f t r c) q) σ p hy hσ
  cases missing with
  | none =>
    refine ⟨_, _, rfl, rfl, fun t i j => ?_⟩
    simp only [postInterp, xrInterp, reorder]
    exact main g.get t _ _
  | some c =>
    refine ⟨_, _, rfl, rfl, fun t i j => ?_⟩
    simp only [postInterp, xrInterp, reorder]
    exact congrArg (fun v : XF K => if v.isNaN then c else v) (main (fun t i j => if (g.get t i j).eqb c then .nan else g.get t i j) t _ _)

/-- an order of `n` columns, extended to the columns with one more on each side -/
def padOrder (n : ℕ) (τ : ℕ → ℕ) (k : ℕ) : ℕ := if k = 0 then 0 else if k = n + 1 then n + 1 else τ (k - 1) + 1

/-- C86, part, with `cyclic=True`: the rows may be stored in any order, and so may the columns as long as the first and the last of the increasing longitudes stay
in their places (the cyclic points are made from them). Missing: other orders of the columns, where it fails (`C86_counterexample`). -/
theorem C86_cyclic_partial (g : GeoGrid K) (y x : ℕ → K) (h : OnAxes g y x) (h2d : g.lead = 0) (hspan : x (g.nlon - 1) - x 0 < 360) (σ τ : ℕ → ℕ)
    (hσ : ((List.range g.nlat).map σ).Perm (List.range g.nlat)) (hτ : ((List.range g.nlon).map τ).Perm (List.range g.nlon))
    (h0 : τ 0 = 0) (h1 : τ (g.nlon - 1) = g.nlon - 1) (latOut lonOut : List K) (missing : Option (XF K)) (m : GridMethod) (fill : Option (XF K)) :
    ∃ out out', interpMultidim (.xr g) latOut lonOut true missing m fill = .ok (.dataArray, out) ∧
      interpMultidim (.xr (reorder g y x σ τ)) latOut lonOut true missing m fill = .ok (.dataArray, out') ∧
      ∀ t i j, i < latOut.length → j < lonOut.length → out'.get t i j = out.get t i j := by
  obtain ⟨out, a1, a2⟩ := cyclic_eq g y x h h2d latOut lonOut missing m fill
  obtain ⟨out', b1, b2⟩ := cyclic_form (reorder g y x σ τ) (fun i => y (σ i)) (fun j => x (τ j)) h.posLon rfl rfl h2d latOut lonOut missing m fill
  refine ⟨out, out', a1, b1, fun t i j hi hj => ?_⟩
  rw [a2 t i j _ _ (List.getElem?_eq_getElem hi) (List.getElem?_eq_getElem hj), b2 t i j _ _ (List.getElem?_eq_getElem hi) (List.getElem?_eq_getElem hj)]
  congr 1
  have hn := h.posLon
  have hdist : ∀ (n : ℕ) (z : ℕ → K), IncAxis n z → Distinct n z := by
    intro n z hz a ha b hb hab
    rcases lt_trichotomy a b with hl | he | hl
    · exact absurd hab (hz a b hl hb).ne
    · exact he
    · exact absurd hab (hz b a hl ha).ne'
  have hax : ∀ (n : ℕ) (z : ℕ → K) (w : ℕ → XF K) (ρ : ℕ → ℕ) (q : K), Distinct n z → ((List.range n).map ρ).Perm (List.range n) →
      interpAxis m fill (column n (fun k => z (ρ k))) (column n (fun k => w (ρ k))) q = interpAxis m fill (column n z) (column n w) q := by
    intro n z w ρ q hz hρ
    unfold interpAxis
    rw [sortPairs_perm n z w hz ρ hρ]
  have hlt : ∀ k, k < g.nlon → τ k < g.nlon := fun k hk => by
    have := hτ.mem_iff.mp (List.mem_map_of_mem (f := τ) (List.mem_range.mpr hk))
    exact List.mem_range.mp this
  have hperm : ((List.range (g.nlon + 2)).map (padOrder g.nlon τ)).Perm (List.range (g.nlon + 2)) := by
    have hmid : (List.range g.nlon).map (fun k => padOrder g.nlon τ (k + 1)) = ((List.range g.nlon).map τ).map (· + 1) := by
      rw [List.map_map]
      refine List.map_congr_left fun k hk => ?_
      have hk' := List.mem_range.mp hk
      simp only [padOrder, Function.comp]
      rw [if_neg (by omega), if_neg (by omega)]
      rfl
    have hsplit : ∀ f : ℕ → ℕ, (List.range (g.nlon + 2)).map f = f 0 :: ((List.range g.nlon).map (fun k => f (k + 1)) ++ [f (g.nlon + 1)]) := by
      intro f
      rw [List.range_succ, List.range_succ_eq_map]
      simp
    have hid := hsplit id
    rw [List.map_id] at hid
    rw [hsplit, hid, hmid]
    have e0 : padOrder g.nlon τ 0 = 0 := rfl
    have e1 : padOrder g.nlon τ (g.nlon + 1) = g.nlon + 1 := by simp [padOrder]
    rw [e0, e1]
    exact ((hτ.map (· + 1)).append_right _).cons _
  have hcol : ∀ k, k < g.nlon + 2 → paddedLon g.nlon (fun j => x (τ j)) k = paddedLon g.nlon x (padOrder g.nlon τ k) ∧
      τ (paddedCol g.nlon k) = paddedCol g.nlon (padOrder g.nlon τ k) := by
    intro k hk
    by_cases k0 : k = 0
    · subst k0
      simp [paddedLon, paddedCol, padOrder, h1]
    · by_cases kn : k = g.nlon + 1
      · subst kn
        simp [paddedLon, paddedCol, padOrder, h0]
      · have := hlt (k - 1) (by omega)
        have e : padOrder g.nlon τ k = τ (k - 1) + 1 := by simp [padOrder, k0, kn]
        rw [e]
        unfold paddedLon paddedCol
        rw [if_neg k0, if_neg kn, if_neg k0, if_neg kn, if_neg (by omega), if_neg (by omega), if_neg (by omega), if_neg (by omega)]
        simp
  have hrow : ∀ r, rowAt m fill (g.nlon + 2) (paddedLon g.nlon (fun j => x (τ j)))
      (fun r c => maskVal missing (g.get t (σ r) (τ (paddedCol g.nlon c)))) lonOut[j] r =
      rowAt m fill (g.nlon + 2) (paddedLon g.nlon x) (fun r c => maskVal missing (g.get t r (paddedCol g.nlon c))) lonOut[j] (σ r) := by
    intro r
    unfold rowAt
    rw [← hax (g.nlon + 2) (paddedLon g.nlon x) _ (padOrder g.nlon τ) lonOut[j] (hdist _ _ (paddedLon_inc g.nlon hn x h.incLon hspan)) hperm]
    congr 1
    · exact List.map_congr_left fun k hk => (hcol k (by simpa using hk)).1
    · refine List.map_congr_left fun k hk => ?_
      beta_reduce
      rw [(hcol k (by simpa using hk)).2]
  show interpAxis m fill (column g.nlat fun i => y (σ i)) (column g.nlat fun r => rowAt m fill (g.nlon + 2) (paddedLon g.nlon (fun j => x (τ j)))
      (fun r c => maskVal missing (g.get t (σ r) (τ (paddedCol g.nlon c)))) lonOut[j] r) latOut[i] = _
  simp only [hrow]
  exact hax g.nlat y _ σ latOut[i] (hdist _ _ h.incLat) hσ

/-- the hypotheses of `C86_cyclic_partial` are met by a grid of two rows and four columns, rows exchanged and the two inner columns exchanged -/
example : ∃ (g : GeoGrid ℚ) (y x : ℕ → ℚ) (σ τ : ℕ → ℕ), OnAxes g y x ∧ g.lead = 0 ∧ x (g.nlon - 1) - x 0 < 360 ∧
    ((List.range g.nlat).map σ).Perm (List.range g.nlat) ∧ ((List.range g.nlon).map τ).Perm (List.range g.nlon) ∧ τ 0 = 0 ∧ τ (g.nlon - 1) = g.nlon - 1 ∧
    σ 0 ≠ 0 ∧ τ 1 ≠ 1 := by
  refine ⟨{ lead := 0, nlat := 2, nlon := 4, get := fun _ i j => .fin (i + 3 * j), lat := column 2 (fun i : ℕ => (10 * i : ℚ)), lon := column 4 (fun j : ℕ => (90 * j : ℚ)) },
    fun i => 10 * i, fun j => 90 * j, fun i => 1 - i, fun j => if j = 1 then 2 else if j = 2 then 1 else j,
    ⟨rfl, rfl, ?_, ?_, by decide, by decide⟩, rfl, by norm_num, by decide, by decide, rfl, rfl, by decide, by decide⟩
  · intro i j hij _
    have : (i : ℚ) < j := by exact_mod_cast hij
    linarith
  · intro i j hij _
    have : (i : ℚ) < j := by exact_mod_cast hij
    linarith

/-- value of the first cell of the result, if there is one -/
def firstCell (r : Except PyErr (PyType × GeoGrid ℚ)) : Option (XF ℚ) :=
  match r with
  | .ok r => some (r.2.get [] 0 0)
  | .error _ => none

/-- C86 is false with `cyclic=True`: longitudes 0, 180 with values 0, 1 give 1/2 at 270; stored in the order 180, 0 the same grid
gives 1. -/
theorem C86_counterexample :
    let g : GeoGrid ℚ := { lead := 0, nlat := 2, nlon := 2, get := fun _ _ j => .fin j, lat := [0, 1], lon := [0, 180] }
    let g' : GeoGrid ℚ := { lead := 0, nlat := 2, nlon := 2, get := fun _ _ j => .fin (1 - j), lat := [0, 1], lon := [180, 0] }
    (firstCell (interpMultidim (.xr g) [1/2] [90] false none .linear (some .nan)) = some (.fin (1/2)) ∧
      firstCell (interpMultidim (.xr g') [1/2] [90] false none .linear (some .nan)) = some (.fin (1/2))) ∧
    firstCell (interpMultidim (.xr g) [1/2] [270] true none .linear (some .nan)) = some (.fin (1/2)) ∧
    firstCell (interpMultidim (.xr g') [1/2] [270] true none .linear (some .nan)) = some (.fin 1) := by
  decide +kernel

/-- hypotheses of `C86_order_partial`: rows stored north to south -/
example : Distinct sampleGrid.nlat (fun i => 10 * (i : ℚ)) ∧ Distinct sampleGrid.nlon (fun j => 120 * (j : ℚ)) ∧
    ((List.range sampleGrid.nlat).map (fun i => 1 - i)).Perm (List.range sampleGrid.nlat) ∧
    (reorder sampleGrid (fun i => 10 * (i : ℚ)) (fun j => 120 * (j : ℚ)) (fun i => 1 - i) id).lat = [10, 0] := by
  refine ⟨?_, ?_, by decide, by decide +kernel⟩
  · intro i _ j _ h
    have : (i : ℚ) = j := by linarith
    exact_mod_cast this
  · intro i _ j _ h
    have : (i : ℚ) = j := by linarith
    exact_mod_cast this

/-! ### C88 -/

theorem mids_column (n : ℕ) (x : ℕ → K) :
    List.zipWith (fun a b => b / 2 + a / 2) (column n x) (column n x).tail = column (n - 1) (fun k => x (k + 1) / 2 + x k / 2) := by
  cases n with
  | zero => rfl
  | succ m =>
    have ht : (column (m + 1) x).tail = column m (fun k => x (k + 1)) := by
      simp [column, List.range_succ_eq_map, List.tail_cons, List.map_map, Function.comp_def]
    rw [ht]
    apply List.ext_getElem?
    intro k
    rw [List.getElem?_zipWith]
    by_cases hk : k < m
    · rw [column_getElem? _ _ _ (by omega), column_getElem? _ _ _ hk, Nat.add_sub_cancel, column_getElem? _ _ _ hk]
    · rw [List.getElem?_eq_none (l := column m (fun k => x (k + 1))) (by simp [column]; omega), Nat.add_sub_cancel,
        List.getElem?_eq_none (l := column m (fun k => x (k + 1) / 2 + x k / 2)) (by simp [column]; omega)]
      cases (column (m + 1) x)[k]? <;> rfl

/-- `k` is a point of the axis nearest to `q` -/
def IsNearest (n : ℕ) (x : ℕ → K) (q : K) (k : ℕ) : Prop := k < n ∧ ∀ l < n, |x k - q| ≤ |x l - q|

theorem interpAxis_nearest (fill : Option (XF K)) (n : ℕ) (hn : 1 ≤ n) (x : ℕ → K) (h : IncAxis n x) (q : K)
    (hr : fill = none ∨ x 0 ≤ q ∧ q ≤ x (n - 1)) :
    ∃ k, IsNearest n x q k ∧ ∀ y : ℕ → XF K, interpAxis .nearest fill (column n x) (column n y) q = y k := by
  set b : ℕ → K := fun k => x (k + 1) / 2 + x k / 2 with hb
  have hinc : IncAxis (n - 1) b := by
    intro i j hij hj
    have h1 := h i j hij (by omega)
    have h2 := h (i + 1) (j + 1) (by omega) (by omega)
    simp only [hb]
    linarith
  obtain ⟨hs1, hs2⟩ := searchLeft_column (n - 1) b hinc q
  set s := searchLeft (column (n - 1) b) q with hs
  have hsn : s < n := by omega
  have hmono : ∀ i j, i ≤ j → j < n → x i ≤ x j := by
    intro i j hij hj
    rcases eq_or_lt_of_le hij with rfl | hl
    · exact le_refl _
    · exact (h i j hl hj).le
  refine ⟨s, ⟨hsn, fun l hl => ?_⟩, fun y => ?_⟩
  · rcases lt_trichotomy l s with hlt | rfl | hgt
    · have h1 : b (s - 1) < q := (hs2 (s - 1) (by omega)).mpr (by omega)
      have h2 : x l ≤ x (s - 1) := hmono l (s - 1) (by omega) (by omega)
      have h3 : x (s - 1) < x s := h _ _ (by omega) hsn
      simp only [hb, Nat.sub_add_cancel (show 1 ≤ s by omega)] at h1
      rw [abs_sub_comm (x l), abs_of_nonneg (show 0 ≤ q - x l by linarith), abs_le]
      constructor <;> linarith
    · exact le_refl _
    · have h1 : q ≤ b s := by
        by_contra hc
        push Not at hc
        exact absurd ((hs2 s (by omega)).mp hc) (lt_irrefl _)
      have h2 : x (s + 1) ≤ x l := hmono (s + 1) l (by omega) hl
      have h3 : x s < x (s + 1) := h _ _ (by omega) (by omega)
      simp only [hb] at h1
      rw [abs_of_nonneg (show 0 ≤ x l - q by linarith), abs_le]
      constructor <;> linarith
  · obtain ⟨e1, e2⟩ := sortPairs_inc n x y h
    have hv : scipyNearest (column n x) (column n y) q = y s := by
      unfold scipyNearest
      simp only [mids_column, column_length]
      rw [← hb, ← hs, min_eq_left (by omega), column_getD n y _ s hsn]
    unfold interpAxis
    simp only [e1, e2, hv]
    cases fill with
    | none => rfl
    | some f =>
      simp only [reduceCtorEq, false_or] at hr
      simp only
      rw [column_headD n x 0 (by omega), column_getLastD n x 0 (by omega), if_neg]
      push Not
      exact hr

/-- C88: `method="nearest"` returns the value of a grid point that is nearest in latitude and nearest in longitude - missing if and
only if that point is missing - inside the grid, and everywhere with `fill_value="extrapolate"`. -/
theorem C88_nearest (g : GeoGrid K) (y x : ℕ → K) (h : OnAxes g y x) (latOut lonOut : List K) (missing : Option (XF K)) (fill : Option (XF K)) :
    ∃ out, interpMultidim (.xr g) latOut lonOut false missing .nearest fill = .ok (.dataArray, out) ∧
      ∀ i j p q, latOut[i]? = some p → lonOut[j]? = some q →
        (fill = none ∨ (y 0 ≤ p ∧ p ≤ y (g.nlat - 1) ∧ x 0 ≤ q ∧ q ≤ x (g.nlon - 1))) →
        ∃ k l, IsNearest g.nlat y p k ∧ IsNearest g.nlon x q l ∧ ∀ t,
          (IsMissing missing (g.get t k l) → out.get t i j = missingMark missing) ∧
          (¬ IsMissing missing (g.get t k l) → out.get t i j = g.get t k l) := by
  obtain ⟨out, h1, -, -, -, -, -, h2⟩ := plain_eq g y x h latOut lonOut missing .nearest fill
  refine ⟨out, h1, fun i j p q hp hq hr => ?_⟩
  obtain ⟨k, hk, hkv⟩ := interpAxis_nearest fill g.nlat (by have := h.twoLat; omega) y h.incLat p (hr.imp id (fun hh => ⟨hh.1, hh.2.1⟩))
  obtain ⟨l, hl, hlv⟩ := interpAxis_nearest fill g.nlon h.posLon x h.incLon q (hr.imp id (fun hh => hh.2.2))
  refine ⟨k, l, hk, hl, fun t => ?_⟩
  have hval : out.get t i j = markVal missing (maskVal missing (g.get t k l)) := by
    rw [h2 t i j p q hp hq, hkv]
    unfold rowAt
    rw [hlv]
  constructor
  · intro hm
    rw [hval, maskVal_missing _ _ hm, markVal_nan]
  · intro hm
    rw [hval, maskVal_keep _ _ hm]
    have : g.get t k l ≠ .nan := fun hh => hm (Or.inl hh)
    cases missing with
    | none => rfl
    | some c => cases hg : g.get t k l <;> simp_all [markVal, XF.isNaN]

/-! ### C89 -/

theorem interpAxis_affine (fill : Option (XF K)) (n : ℕ) (hn : 2 ≤ n) (x : ℕ → K) (h : IncAxis n x) (α β q : K)
    (hr : fill = none ∨ x 0 ≤ q ∧ q ≤ x (n - 1)) :
    interpAxis .linear fill (column n x) (column n (fun k => .fin (α + β * x k))) q = .fin (α + β * q) := by
  have hseg : ∀ k, k + 1 < n → seg (x k) (x (k + 1)) (.fin (α + β * x k)) (.fin (α + β * x (k + 1))) q = .fin (α + β * q) := by
    intro k hk
    have hd := h k (k + 1) (by omega) hk
    rw [seg_fin _ _ _ _ _ hd]
    have hne : x (k + 1) - x k ≠ 0 := (sub_pos.mpr hd).ne'
    congr 1
    field_simp
    ring
  obtain ⟨e1, e2⟩ := sortPairs_inc n x (fun k => .fin (α + β * x k)) h
  have hv : scipyLinear (column n x) (column n (fun k => .fin (α + β * x k))) q = .fin (α + β * q) := by
    by_cases h0 : x 0 ≤ q
    · by_cases h1 : q ≤ x (n - 1)
      · obtain ⟨k, hk1, hk2, hk3⟩ := exists_cell n hn x h q h0 h1
        rw [scipyLinear_cell n x _ h q k hk1 (by tauto) (Or.inr hk3), hseg k hk1]
      · push Not at h1
        have : x (n - 2) < q := (h (n - 2) (n - 1) (by omega) (by omega)).trans h1
        rw [scipyLinear_cell n x _ h q (n - 2) (by omega) (Or.inr this) (Or.inl (by omega)), hseg _ (by omega)]
    · push Not at h0
      rw [scipyLinear_cell n x _ h q 0 (by omega) (Or.inl rfl) (Or.inr (h0.le.trans (h 0 1 (by omega) (by omega)).le)), hseg 0 (by omega)]
  unfold interpAxis
  simp only [e1, e2, hv]
  cases fill with
  | none => rfl
  | some f =>
    simp only [reduceCtorEq, false_or] at hr
    simp only
    rw [column_headD n x 0 (by omega), column_getLastD n x 0 (by omega), if_neg]
    push Not
    exact hr

/-- C89: a field that is linear in latitude and in longitude (with a product term) is reproduced exactly - inside the grid, and
everywhere with `fill_value="extrapolate"`. -/
theorem C89_linear_field (g : GeoGrid K) (y x : ℕ → K) (h : OnAxes g y x) (hlon : 2 ≤ g.nlon) (latOut lonOut : List K) (fill : Option (XF K))
    (t : List ℕ) (a b c d : K) (hf : ∀ i j, i < g.nlat → j < g.nlon → g.get t i j = .fin (a + b * y i + c * x j + d * y i * x j)) :
    ∃ out, interpMultidim (.xr g) latOut lonOut false none .linear fill = .ok (.dataArray, out) ∧
      ∀ i j p q, latOut[i]? = some p → lonOut[j]? = some q →
        (fill = none ∨ (y 0 ≤ p ∧ p ≤ y (g.nlat - 1) ∧ x 0 ≤ q ∧ q ≤ x (g.nlon - 1))) →
        out.get t i j = .fin (a + b * p + c * q + d * p * q) := by
  obtain ⟨out, h1, -, -, -, -, -, h2⟩ := plain_eq g y x h latOut lonOut none .linear fill
  refine ⟨out, h1, fun i j p q hp hq hr => ?_⟩
  rw [h2 t i j p q hp hq]
  have hrow : column g.nlat (rowAt .linear fill g.nlon x (fun r c => maskVal none (g.get t r c)) q) =
      column g.nlat (fun r => .fin ((a + c * q) + (b + d * q) * y r)) := by
    unfold column
    refine List.map_congr_left fun r hr' => ?_
    have hr'' : r < g.nlat := by simpa using hr'
    unfold rowAt
    have hc : column g.nlon ((fun r c => maskVal none (g.get t r c)) r) = column g.nlon (fun k => .fin ((a + b * y r) + (c + d * y r) * x k)) := by
      unfold column
      refine List.map_congr_left fun k hk => ?_
      simp only [maskVal]
      rw [hf r k hr'' (by simpa using hk)]
      congr 1
      ring
    rw [hc, interpAxis_affine fill g.nlon hlon x h.incLon _ _ q (hr.imp id (fun hh => hh.2.2))]
    congr 1
    ring
  rw [hrow, interpAxis_affine fill g.nlat h.twoLat y h.incLat _ _ p (hr.imp id (fun hh => ⟨hh.1, hh.2.1⟩))]
  simp only [markVal]
  congr 1
  ring

/-! Examples -/

/-- cyclic: the gap between 240 and 360, and the same place one turn to the west -/
example : (120 * (2 : ℚ)) - 120 * 0 < 360 ∧
    cellOf (interpMultidim (.xr sampleGrid) [5] [-30, 330] true none .linear (some .nan)) 0 0 =
      cellOf (interpMultidim (.xr sampleGrid) [5] [-30, 330] true none .linear (some .nan)) 0 1 ∧
    cellOf (interpMultidim (.xr sampleGrid) [0] [330] true none .linear (some .nan)) 0 0 = some (.fin (3/2)) ∧
    cellOf (interpMultidim (.xr sampleGrid) [0] [180] true none .linear (some .nan)) 0 0 =
      cellOf (interpMultidim (.xr sampleGrid) [0] [180] false none .linear (some .nan)) 0 0 := by
  decide +kernel

/-- nearest, inside and with `fill_value="extrapolate"` outside -/
example : cellOf (interpMultidim (.xr sampleGrid) [4] [170] false none .nearest (some .nan)) 0 0 = some (.fin 3) ∧
    cellOf (interpMultidim (.xr sampleGrid) [-80] [300] false none .nearest none) 0 0 = some (.fin 6) ∧
    IsNearest 3 (fun j => 120 * (j : ℚ)) 170 1 := by
  unfold IsNearest
  decide +kernel

/-- the field lat + 2 lon + lat lon, extrapolated -/
example :
    let g : GeoGrid ℚ := { lead := 0, nlat := 2, nlon := 2, get := fun _ i j => .fin ((i : ℚ) + 2 * j + i * j), lat := [0, 1], lon := [0, 1] }
    (∀ i j, i < g.nlat → j < g.nlon → g.get [] i j = .fin (0 + 1 * (i : ℚ) + 2 * j + 1 * i * j)) ∧
    cellOf (interpMultidim (.xr g) [3] [5] false none .linear none) 0 0 = some (.fin 28) := by
  refine ⟨fun i j _ _ => ?_, by decide +kernel⟩
  simp

end Verif.Props
