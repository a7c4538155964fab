import Verif.Lemmas.FloatGrid
import Verif.Props.Multidim2

/-
Property C154: interp_multidim in floating-point arithmetic.
-/

set_option linter.unusedSectionVars false
namespace Verif.Props
open Model Spec Lemmas
variable {K : Type _} [Field K] [LinearOrder K] [IsStrictOrderedRing K]

/-- **C154** With exact arithmetic the floating-point model is the model of C22-C26 and C86-C89. -/
theorem C154_exact (d : MultiIn K) (latOut lonOut : List K) (cyclic : Bool) (missing : Option (XF K)) (m : GridMethod) (fill : Option (XF K)) :
    interpMultidimFl Rounding.exact d latOut lonOut cyclic missing m fill = interpMultidim d latOut lonOut cyclic missing m fill :=
  interpMultidimFl_exact d latOut lonOut cyclic missing m fill

/-- one row at a longitude -/
def rowAtFl (R : Rounding K) (m : GridMethod) (fill : Option (XF K)) (n : ℕ) (x : ℕ → K) (f : ℕ → ℕ → XF K) (q : K) (r : ℕ) : XF K :=
  interpAxisFl R m fill (column n x) (column n (f r)) q

theorem plainFl_eq (R : Rounding K) (g : GeoGrid K) (y x : ℕ → K) (h : OnAxes g y x) (latOut lonOut : List K) (missing : Option (XF K)) (m : GridMethod)
    (fill : Option (XF K)) :
    ∃ out, interpMultidimFl R (.xr g) latOut lonOut false missing m fill = .ok (.dataArray, out) ∧
      ∀ t i j p q, latOut[i]? = some p → lonOut[j]? = some q → out.get t i j = markVal missing
        (interpAxisFl R m fill (column g.nlat y) (column g.nlat (rowAtFl R m fill g.nlon x (fun r c => maskVal missing (g.get t r c)) q)) p) := by
  cases missing with
  | none =>
    refine ⟨_, rfl, fun t i j p q hp hq => ?_⟩
    simp only [postInterp, xrInterpFl, markVal, h.lat, h.lon, rowAtFl, maskVal, List.getD_eq_getElem?_getD, hp, hq, Option.getD_some]
    rfl
  | some c =>
    refine ⟨_, rfl, fun t i j p q hp hq => ?_⟩
    simp only [postInterp, xrInterpFl, markVal, h.lat, h.lon, rowAtFl, maskVal, List.getD_eq_getElem?_getD, hp, hq, Option.getD_some]
    rfl

/-- the longitudes with the points `a` before and `b` after them -/
def extendedLon (n : ℕ) (x : ℕ → K) (a b : K) (k : ℕ) : K := if k = 0 then a else if k = n + 1 then b else x (k - 1)

theorem extended_axis (R : Rounding K) (n : ℕ) (hn : 1 ≤ n) (x : ℕ → K) :
    (do
      let p ← Py.setIndex (padWrap (column n x)) 0 (R.fl ((padWrap (column n x)).headD 0 - 360))
      Py.setIndex p (-1) (R.fl (p.getLastD 0 + 360)) : Except PyErr (List K)) =
      .ok (column (n + 2) (extendedLon n x (R.fl (x (n - 1) - 360)) (R.fl (x 0 + 360)))) := by
  have s1 : Py.setIndex (padWrap (column n x)) 0 (R.fl ((padWrap (column n x)).headD 0 - 360)) =
      .ok (R.fl (x (n - 1) - 360) :: column n x ++ [x 0]) := by
    rw [padWrap_column n hn x]
    unfold Py.setIndex
    simp only [lt_irrefl, if_false, List.cons_append, List.headD_cons]
    rw [if_pos ⟨le_refl _, by simp only [List.length_cons]; push_cast; omega⟩]
    rfl
  rw [s1]
  simp only [bind, Except.bind]
  have hl : (R.fl (x (n - 1) - 360) :: column n x ++ [x 0]).length = n + 2 := by simp [column]
  have hlast : (R.fl (x (n - 1) - 360) :: column n x ++ [x 0]).getLastD 0 = x 0 := by
    rw [List.getLastD_eq_getLast?, List.getLast?_append]
    simp
  unfold Py.setIndex
  simp only [hl, hlast]
  have hj : (if (-1 : Int) < 0 then (-1 : Int) + ((n + 2 : ℕ) : Int) else -1) = (n + 1 : ℕ) := by
    rw [if_pos (by norm_num)]; push_cast; ring
  rw [hj, if_pos ⟨by omega, by push_cast; omega⟩]
  congr 1
  apply List.ext_getElem?
  intro k
  have e1 : ((n + 1 : ℕ) : Int).toNat = n + 1 := by simp
  rw [e1]
  rcases lt_trichotomy k (n + 1) with hk | rfl | hk
  · rw [List.getElem?_set_ne (by omega), column_getElem? _ _ _ (by omega)]
    rcases Nat.eq_zero_or_pos k with rfl | hp
    · simp [extendedLon]
    · obtain ⟨j, rfl⟩ := Nat.exists_eq_succ_of_ne_zero hp.ne'
      have : j < n := by omega
      simp only [Nat.succ_eq_add_one, List.cons_append, List.getElem?_cons_succ]
      rw [List.getElem?_append_left (by simpa [column] using this), column_getElem? _ _ _ this]
      simp [extendedLon, show j ≠ n by omega]
  · rw [List.getElem?_set_self (by omega), column_getElem? _ _ _ (by omega)]
    simp [extendedLon]
  · rw [List.getElem?_eq_none (by simp [column]; omega), List.getElem?_eq_none (by simp [column]; omega)]

theorem cyclicFl_eq (R : Rounding K) (g : GeoGrid K) (y x : ℕ → K) (h : OnAxes g y x) (h2d : g.lead = 0) (latOut lonOut : List K) (missing : Option (XF K))
    (m : GridMethod) (fill : Option (XF K)) :
    ∃ out, interpMultidimFl R (.xr g) latOut lonOut true missing m fill = .ok (.dataArray, out) ∧
      ∀ t i j p q, latOut[i]? = some p → lonOut[j]? = some q → out.get t i j = markVal missing
        (interpAxisFl R m fill (column g.nlat y) (column g.nlat (rowAtFl R m fill (g.nlon + 2)
          (extendedLon g.nlon x (R.fl (x (g.nlon - 1) - 360)) (R.fl (x 0 + 360)))
          (fun r c => maskVal missing (g.get t r (paddedCol g.nlon c))) q)) p) := by
  have hax := extended_axis R g.nlon h.posLon x
  rw [← h.lon] at hax
  have hz : ¬ (g.lead ≠ 0 ∨ g.nlon = 0) := by have := h.posLon; omega
  set xe := extendedLon g.nlon x (R.fl (x (g.nlon - 1) - 360)) (R.fl (x 0 + 360)) with hxe
  have hpre : preInterpFl R true missing g = .ok { g with lon := column (g.nlon + 2) xe, nlon := g.nlon + 2, get := fun t i j => maskVal missing (g.get t i ((j + g.nlon - 1) % g.nlon)) } := by
    cases hs1 : Py.setIndex (padWrap g.lon) 0 (R.fl ((padWrap g.lon).headD 0 - 360)) with
    | error e => rw [hs1] at hax; cases hax
    | ok p1 =>
      rw [hs1] at hax
      simp only [bind, Except.bind] at hax
      cases missing with
      | none => simp only [preInterpFl, hz, hs1, hax, bind, Except.bind, pure, Except.pure, not_true_eq_false, if_false, maskVal]
      | some c => simp only [preInterpFl, hz, hs1, hax, bind, Except.bind, pure, Except.pure, not_true_eq_false, if_false, maskVal]
  have hcols : ∀ (f : ℕ → XF K), (List.range (g.nlon + 2)).map (fun c => f ((c + g.nlon - 1) % g.nlon)) =
      column (g.nlon + 2) (fun c => f (paddedCol g.nlon c)) := by
    intro f
    unfold column
    refine List.map_congr_left fun c hc => ?_
    rw [paddedCol_eq g.nlon c h.posLon (by simpa using hc)]
  have hcall : interpMultidimFl R (.xr g) latOut lonOut true missing m fill =
      .ok (.dataArray, postInterp missing (xrInterpFl R m fill { g with lon := column (g.nlon + 2) xe, nlon := g.nlon + 2, get := fun t i j => maskVal missing (g.get t i ((j + g.nlon - 1) % g.nlon)) } latOut lonOut)) := by
    simp only [interpMultidimFl, bind, Except.bind, pure, Except.pure, hpre]
  refine ⟨_, hcall, fun t i j p q hp hq => ?_⟩
  have hout : ∀ o : GeoGrid K, (postInterp missing o).get t i j = markVal missing (o.get t i j) := by
    intro o; cases missing <;> rfl
  rw [hout]
  congr 1
  simp only [xrInterpFl, h.lat, List.getD_eq_getElem?_getD, hp, hq, Option.getD_some]
  congr 1
  refine List.map_congr_left fun r _ => ?_
  rw [hcols (fun c => maskVal missing (g.get t r c))]
  rfl

/-- all coordinates are stored in floats -/
structure Stored (R : Rounding K) (g : GeoGrid K) (y x : ℕ → K) : Prop where
  lat : ∀ k < g.nlat, R.rep (y k)
  lon : ∀ k < g.nlon, R.rep (x k)

theorem interpAxisFl_const (R : Rounding K) (fill : Option (XF K)) (n : ℕ) (hn : 2 ≤ n) (x : ℕ → K) (h : IncAxis n x) (hx : ∀ k < n, R.rep (x k))
    (y : ℕ → XF K) (c : K) (hc : R.rep c) (hy : ∀ k < n, y k = .fin c) (q : K) (h0 : x 0 ≤ q) (h1 : q ≤ x (n - 1)) :
    interpAxisFl R .linear fill (column n x) (column n y) q = .fin c := by
  obtain ⟨l, hl1, hl2, hl3⟩ := exists_cell n hn x h q h0 h1
  rw [interpAxisFl_cell R fill n x y h q l hl1 hl2 hl3, hy l (by omega), hy (l + 1) hl1,
    segFl_fin R (hx l (by omega)) (hx (l + 1) hl1) (h l (l + 1) (by omega) hl1)]
  unfold segNum
  rw [sub_self, R.fl_zero, zero_div, R.fl_zero, zero_mul, R.fl_zero, zero_add, R.fl_of_rep _ hc]

theorem extendedLon_inc (R : Rounding K) (n : ℕ) (hn : 1 ≤ n) (x : ℕ → K) (h : IncAxis n x) (hx : ∀ k < n, R.rep (x k)) (h360 : R.rep 360)
    (h0 : 0 ≤ x 0) (h1 : x (n - 1) < 360) :
    IncAxis (n + 2) (extendedLon n x (R.fl (x (n - 1) - 360)) (R.fl (x 0 + 360))) ∧
    (∀ k < n + 2, R.rep (extendedLon n x (R.fl (x (n - 1) - 360)) (R.fl (x 0 + 360)) k)) ∧ R.fl (x (n - 1) - 360) < 0 ∧ 360 ≤ R.fl (x 0 + 360) := by
  have ha : R.fl (x (n - 1) - 360) < 0 := R.sub_neg _ _ (hx _ (by omega)) h360 h1
  have hb : 360 ≤ R.fl (x 0 + 360) := R.le_fl h360 (by linarith)
  have hmono : ∀ i j, i ≤ j → j < n → x i ≤ x j := by
    intro i j hij hj
    rcases eq_or_lt_of_le hij with rfl | hl
    · exact le_refl _
    · exact (h i j hl hj).le
  refine ⟨fun i j hij hj => ?_, fun k hk => ?_, ha, hb⟩
  · unfold extendedLon
    rcases Nat.eq_zero_or_pos i with rfl | hi
    · rw [if_pos rfl, if_neg (by omega)]
      split_ifs with hjn
      · linarith
      · have := hmono 0 (j - 1) (by omega) (by omega); linarith
    · rw [if_neg (by omega), if_neg (by omega), if_neg (by omega)]
      split_ifs with hjn
      · have := hmono (i - 1) (n - 1) (by omega) (by omega); linarith
      · exact h (i - 1) (j - 1) (by omega) (by omega)
  · unfold extendedLon
    split_ifs with h1 h2
    · exact R.rep_fl _
    · exact R.rep_fl _
    · exact hx _ (by omega)

theorem paddedCol_lt (n k : ℕ) (hn : 1 ≤ n) (hk : k < n + 2) : paddedCol n k < n := by
  unfold paddedCol
  split_ifs <;> omega

/-- **C154** A constant field is reproduced bit for bit, at every point of the grid's range; with `cyclic=True` and longitudes from 0 (included)
to 360 (excluded) also in the gap between the last and the first longitude. -/
theorem C154_constant (R : Rounding K) (g : GeoGrid K) (y x : ℕ → K) (h : OnAxes g y x) (hlon : 2 ≤ g.nlon) (hs : Stored R g y x) (latOut lonOut : List K)
    (missing : Option (XF K)) (fill : Option (XF K)) (c : K) (hc : R.rep c) :
    (∃ out, interpMultidimFl R (.xr g) latOut lonOut false missing .linear fill = .ok (.dataArray, out) ∧
      ∀ t i j p q, latOut[i]? = some p → lonOut[j]? = some q → (∀ a < g.nlat, ∀ b < g.nlon, IsNumber missing (g.get t a b) c) →
        y 0 ≤ p → p ≤ y (g.nlat - 1) → x 0 ≤ q → q ≤ x (g.nlon - 1) → out.get t i j = .fin c) ∧
    (g.lead = 0 → R.rep 360 → 0 ≤ x 0 → x (g.nlon - 1) < 360 →
      ∃ out, interpMultidimFl R (.xr g) latOut lonOut true missing .linear fill = .ok (.dataArray, out) ∧
      ∀ t i j p q, latOut[i]? = some p → lonOut[j]? = some q → (∀ a < g.nlat, ∀ b < g.nlon, IsNumber missing (g.get t a b) c) →
        y 0 ≤ p → p ≤ y (g.nlat - 1) → 0 ≤ q → q ≤ 360 → out.get t i j = .fin c) := by
  constructor
  · obtain ⟨out, h1, h2⟩ := plainFl_eq R g y x h latOut lonOut missing .linear fill
    refine ⟨out, h1, fun t i j p q hp hq hv hp0 hp1 hq0 hq1 => ?_⟩
    rw [h2 t i j p q hp hq, interpAxisFl_const R fill g.nlat h.twoLat y h.incLat hs.lat _ c hc _ p hp0 hp1, markVal_fin]
    intro r hr
    exact interpAxisFl_const R fill g.nlon hlon x h.incLon hs.lon _ c hc (fun k hk => (hv r hr k hk).mask) q hq0 hq1
  · intro h2d h360 hx0 hx1
    obtain ⟨hinc, hrep, ha, hb⟩ := extendedLon_inc R g.nlon h.posLon x h.incLon hs.lon h360 hx0 hx1
    obtain ⟨out, h1, h2⟩ := cyclicFl_eq R g y x h h2d latOut lonOut missing .linear fill
    refine ⟨out, h1, fun t i j p q hp hq hv hp0 hp1 hq0 hq1 => ?_⟩
    rw [h2 t i j p q hp hq, interpAxisFl_const R fill g.nlat h.twoLat y h.incLat hs.lat _ c hc _ p hp0 hp1, markVal_fin]
    intro r hr
    refine interpAxisFl_const R fill (g.nlon + 2) (by omega) _ hinc hrep _ c hc (fun k hk => (hv r hr _ (paddedCol_lt _ _ h.posLon hk)).mask) q ?_ ?_
    · simp only [extendedLon, if_true]; linarith
    · simp only [extendedLon, Nat.add_sub_cancel, show g.nlon + 2 - 1 = g.nlon + 1 by omega, if_true, if_neg (Nat.succ_ne_zero _)]; linarith

/-- **C154** With longitudes from 0 (included) to 360 (excluded), `cyclic=True` does not change a bit of the results between the first
(excluded) and the last longitude. -/
theorem C154_cyclic_inside (R : Rounding K) (g : GeoGrid K) (y x : ℕ → K) (h : OnAxes g y x) (hlon : 2 ≤ g.nlon) (hs : Stored R g y x) (h2d : g.lead = 0)
    (h360 : R.rep 360) (hx0 : 0 ≤ x 0) (hx1 : x (g.nlon - 1) < 360) (latOut lonOut : List K) (missing : Option (XF K)) (fill : Option (XF K)) :
    ∃ out out', interpMultidimFl R (.xr g) latOut lonOut false missing .linear fill = .ok (.dataArray, out) ∧
      interpMultidimFl R (.xr g) latOut lonOut true missing .linear fill = .ok (.dataArray, out') ∧
      ∀ (t : List ℕ) i j p q, latOut[i]? = some p → lonOut[j]? = some q → x 0 < q → q ≤ x (g.nlon - 1) → out'.get t i j = out.get t i j := by
  obtain ⟨hinc, hrep, ha, hb⟩ := extendedLon_inc R g.nlon h.posLon x h.incLon hs.lon h360 hx0 hx1
  obtain ⟨out, h1, h2⟩ := plainFl_eq R g y x h latOut lonOut missing .linear fill
  obtain ⟨out', h1', h2'⟩ := cyclicFl_eq R g y x h h2d latOut lonOut missing .linear fill
  refine ⟨out, out', h1, h1', fun t i j p q hp hq hq0 hq1 => ?_⟩
  rw [h2 t i j p q hp hq, h2' t i j p q hp hq]
  congr 2
  unfold column
  refine List.map_congr_left fun r _ => ?_
  obtain ⟨l, hl1, hl2, hl3⟩ := exists_cell g.nlon hlon x h.incLon q hq0.le hq1
  have hl : x l < q := by
    rcases hl2 with hh | ⟨rfl, -⟩ <;> assumption
  have e1 : extendedLon g.nlon x (R.fl (x (g.nlon - 1) - 360)) (R.fl (x 0 + 360)) (l + 1) = x l := by
    simp [extendedLon, show l ≠ g.nlon by omega]
  have e2 : extendedLon g.nlon x (R.fl (x (g.nlon - 1) - 360)) (R.fl (x 0 + 360)) (l + 1 + 1) = x (l + 1) := by
    simp [extendedLon, show l + 1 ≠ g.nlon by omega]
  have c1 : paddedCol g.nlon (l + 1) = l := by simp [paddedCol, show l ≠ g.nlon by omega]
  have c2 : paddedCol g.nlon (l + 1 + 1) = l + 1 := by simp [paddedCol, show l + 1 ≠ g.nlon by omega]
  unfold rowAtFl
  rw [interpAxisFl_cell R fill _ _ _ hinc q (l + 1) (by omega) (Or.inl (by rw [e1]; exact hl)) (by rw [e2]; exact hl3),
    interpAxisFl_cell R fill _ _ _ h.incLon q l hl1 (Or.inl hl) hl3, e1, e2]
  beta_reduce
  rw [c1, c2]

/-- numbers at the corners of every cell containing the point: on one axis -/
theorem interpAxisFl_num (R : Rounding K) (fill : Option (XF K)) (n : ℕ) (x : ℕ → K) (h : IncAxis n x) (hx : ∀ k < n, R.rep (x k))
    (y : ℕ → XF K) (v : ℕ → K) (q : K) (k : ℕ) (hk : InCell n x q k)
    (hy : ∀ l, InCell n x q l → y l = .fin (v l) ∧ y (l + 1) = .fin (v (l + 1))) :
    ∃ l, InCell n x q l ∧ interpAxisFl R .linear fill (column n x) (column n y) q = .fin (segNum R (x l) (x (l + 1)) (v l) (v (l + 1)) q) ∧
      (1 - frac x q l) * v l + frac x q l * v (l + 1) = (1 - frac x q k) * v k + frac x q k * v (k + 1) := by
  have hex := interpAxis_fin (K := K) none n x y v h q k hk hy
  obtain ⟨hk1, hk2, hk3⟩ := hk
  have h0 : x 0 ≤ q := by
    rcases Nat.eq_zero_or_pos k with rfl | hp
    · exact hk2
    · exact (h 0 k hp (by omega)).le.trans hk2
  have h1 : q ≤ x (n - 1) := by
    rcases eq_or_lt_of_le (show k + 1 ≤ n - 1 by omega) with he | hl
    · rw [← he]; exact hk3
    · exact hk3.trans (h _ _ hl (by omega)).le
  obtain ⟨l, hl1, hl2, hl3⟩ := exists_cell n (by omega) x h q h0 h1
  have hl2' : x l ≤ q := by rcases hl2 with hh | ⟨rfl, hh⟩ <;> [exact hh.le; exact hh]
  have hcell : InCell n x q l := ⟨hl1, hl2', hl3⟩
  refine ⟨l, hcell, ?_, ?_⟩
  · rw [interpAxisFl_cell R fill n x y h q l hl1 hl2 hl3, (hy l hcell).1, (hy l hcell).2,
      segFl_fin R (hx l (by omega)) (hx (l + 1) hl1) (h l (l + 1) (by omega) hl1)]
  · have := interpAxis_fin (K := K) none n x y v h q l hcell hy
    rw [this] at hex
    exact XF.fin.inj hex

/-- the number, 0 if there is none -/
def numOf : XF K → K
  | .fin z => z
  | _ => 0

theorem frac_range (n : ℕ) (x : ℕ → K) (h : IncAxis n x) (q : K) (l : ℕ) (hl : InCell n x q l) : 0 ≤ frac x q l ∧ frac x q l ≤ 1 := by
  obtain ⟨h1, h2, h3⟩ := hl
  have hd : 0 < x (l + 1) - x l := sub_pos.mpr (h l (l + 1) (by omega) h1)
  unfold frac
  exact ⟨div_nonneg (by linarith) hd.le, by rw [div_le_one hd]; linarith⟩

theorem cell_width (n : ℕ) (x : ℕ → K) (h : IncAxis n x) (l : ℕ) (hl : l + 1 < n) : x (l + 1) - x l ≤ x (n - 1) - x 0 := by
  have a : x 0 ≤ x l := by
    rcases Nat.eq_zero_or_pos l with rfl | hp
    · exact le_refl _
    · exact (h 0 l hp (by omega)).le
  have b : x (l + 1) ≤ x (n - 1) := by
    rcases eq_or_lt_of_le (show l + 1 ≤ n - 1 by omega) with he | hl'
    · rw [he]
    · exact (h _ _ hl' (by omega)).le
  linarith

theorem convex_abs {f a b M : K} (h0 : 0 ≤ f) (h1 : f ≤ 1) (ha : |a| ≤ M) (hb : |b| ≤ M) : |(1 - f) * a + f * b| ≤ M := by
  have t := abs_add_le ((1 - f) * a) (f * b)
  rw [abs_mul, abs_mul, abs_of_nonneg h0, abs_of_nonneg (sub_nonneg.mpr h1)] at t
  have b1 : (1 - f) * |a| ≤ (1 - f) * M := mul_le_mul_of_nonneg_left ha (sub_nonneg.mpr h1)
  have b2 : f * |b| ≤ f * M := mul_le_mul_of_nonneg_left hb h0
  linarith

/-- one axis: error of the computed value -/
theorem axis_error {R : Rounding K} {u η : K} (A : R.Accurate u η) (hu : u ≤ 1 / 16) (fill : Option (XF K)) (n : ℕ) (x : ℕ → K) (h : IncAxis n x)
    (hx : ∀ k < n, R.rep (x k)) (y : ℕ → XF K) (v : ℕ → K) (q : K) (hq : R.rep q) (k : ℕ) (hk : InCell n x q k) (M : K)
    (hy : ∀ l, InCell n x q l → (y l = .fin (v l) ∧ R.rep (v l) ∧ |v l| ≤ M) ∧ (y (l + 1) = .fin (v (l + 1)) ∧ R.rep (v (l + 1)) ∧ |v (l + 1)| ≤ M)) :
    ∃ b, interpAxisFl R .linear fill (column n x) (column n y) q = .fin b ∧ R.rep b ∧
      |b - ((1 - frac x q k) * v k + frac x q k * v (k + 1))| ≤ 16 * u * M + 2 * η * (x (n - 1) - x 0 + 1) := by
  obtain ⟨l, hl, h1, h2⟩ := interpAxisFl_num R fill n x h hx y v q k hk (fun l hl => ⟨(hy l hl).1.1, (hy l hl).2.1⟩)
  refine ⟨_, h1, R.rep_fl _, ?_⟩
  rw [← h2]
  obtain ⟨⟨-, a1, a2⟩, ⟨-, b1, b2⟩⟩ := hy l hl
  have e := segNum_error A hu (hx l (by have := hl.1; omega)) (hx (l + 1) hl.1) hq a1 b1 (h l (l + 1) (by omega) hl.1) hl.2.1 hl.2.2 a2 b2
  have w := cell_width n x h l hl.1
  have := mul_le_mul_of_nonneg_left (add_le_add_left w 1) (mul_nonneg (by norm_num : (0 : K) ≤ 2) A.eta_nonneg)
  exact e.trans (by linarith)

theorem grid_error {R : Rounding K} {u η : K} (A : R.Accurate u η) (hu : u ≤ 1 / 256) (g : GeoGrid K) (y x : ℕ → K) (h : OnAxes g y x) (hs : Stored R g y x)
    (latOut lonOut : List K) (missing : Option (XF K)) (fill : Option (XF K)) :
    ∃ out, interpMultidimFl R (.xr g) latOut lonOut false missing .linear fill = .ok (.dataArray, out) ∧
      ∀ t i j p q, latOut[i]? = some p → lonOut[j]? = some q → R.rep p → R.rep q → ∀ (v : ℕ → ℕ → K) (M : K),
        (∀ k l a b, InCell g.nlat y p k → InCell g.nlon x q l → (a = k ∨ a = k + 1) → (b = l ∨ b = l + 1) →
          IsNumber missing (g.get t a b) (v a b) ∧ R.rep (v a b) ∧ |v a b| ≤ M) →
        ∀ k l, InCell g.nlat y p k → InCell g.nlon x q l → ∃ b, out.get t i j = .fin b ∧
          |b - bilinear (v k l) (v k (l + 1)) (v (k + 1) l) (v (k + 1) (l + 1)) (frac y p k) (frac x q l)|
            ≤ 64 * u * M + 8 * η * ((y (g.nlat - 1) - y 0) + (x (g.nlon - 1) - x 0) + 1) := by
  obtain ⟨out, h1, h2⟩ := plainFl_eq R g y x h latOut lonOut missing .linear fill
  refine ⟨out, h1, fun t i j p q hp hq hrp hrq v M hv k l hk hl => ?_⟩
  have hu0 := A.u_nonneg
  have he0 := A.eta_nonneg
  have hM : 0 ≤ M := (abs_nonneg _).trans (hv k l k l hk hl (Or.inl rfl) (Or.inl rfl)).2.2
  set Lx := x (g.nlon - 1) - x 0 with hLx
  set Ly := y (g.nlat - 1) - y 0 with hLy
  have wx : 0 ≤ Lx := (sub_pos.mpr (h.incLon l (l + 1) (by omega) hl.1)).le.trans (cell_width _ _ h.incLon l hl.1)
  have wy : 0 ≤ Ly := (sub_pos.mpr (h.incLat k (k + 1) (by omega) hk.1)).le.trans (cell_width _ _ h.incLat k hk.1)
  set E := 16 * u * M + 2 * η * (Lx + 1) with hE
  have rows : ∀ k' a, InCell g.nlat y p k' → (a = k' ∨ a = k' + 1) →
      ∃ b, rowAtFl R .linear fill g.nlon x (fun r c => maskVal missing (g.get t r c)) q a = .fin b ∧ R.rep b ∧
        |b - ((1 - frac x q l) * v a l + frac x q l * v a (l + 1))| ≤ E := by
    intro k' a hk' ha
    exact axis_error A (by linarith) fill g.nlon x h.incLon hs.lon _ (v a) q hrq l hl M (fun l' hl' =>
      ⟨⟨(hv k' l' a l' hk' hl' ha (Or.inl rfl)).1.mask, (hv k' l' a l' hk' hl' ha (Or.inl rfl)).2⟩,
       ⟨(hv k' l' a (l' + 1) hk' hl' ha (Or.inr rfl)).1.mask, (hv k' l' a (l' + 1) hk' hl' ha (Or.inr rfl)).2⟩⟩)
  obtain ⟨f0, f1⟩ := frac_range _ _ h.incLon q l hl
  obtain ⟨s0, s1⟩ := frac_range _ _ h.incLat p k hk
  have num : ∀ k' a, InCell g.nlat y p k' → (a = k' ∨ a = k' + 1) →
      rowAtFl R .linear fill g.nlon x (fun r c => maskVal missing (g.get t r c)) q a =
        .fin (numOf (rowAtFl R .linear fill g.nlon x (fun r c => maskVal missing (g.get t r c)) q a)) ∧
      R.rep (numOf (rowAtFl R .linear fill g.nlon x (fun r c => maskVal missing (g.get t r c)) q a)) ∧
      |numOf (rowAtFl R .linear fill g.nlon x (fun r c => maskVal missing (g.get t r c)) q a)
        - ((1 - frac x q l) * v a l + frac x q l * v a (l + 1))| ≤ E ∧
      |numOf (rowAtFl R .linear fill g.nlon x (fun r c => maskVal missing (g.get t r c)) q a)| ≤ M + E := by
    intro k' a hk' ha
    obtain ⟨b, b1, b2, b3⟩ := rows k' a hk' ha
    rw [b1]
    refine ⟨rfl, b2, b3, ?_⟩
    have c := convex_abs f0 f1 (hv k' l a l hk' hl ha (Or.inl rfl)).2.2 (hv k' l a (l + 1) hk' hl ha (Or.inr rfl)).2.2
    have d := abs_add_le ((1 - frac x q l) * v a l + frac x q l * v a (l + 1)) (b - ((1 - frac x q l) * v a l + frac x q l * v a (l + 1)))
    rw [add_sub_cancel] at d
    change |b| ≤ M + E
    linarith
  generalize hw : rowAtFl R .linear fill g.nlon x (fun r c => maskVal missing (g.get t r c)) q = w at num rows
  obtain ⟨b, b1, -, b3⟩ := axis_error A (by linarith) fill g.nlat y h.incLat hs.lat w (fun a => numOf (w a)) p hrp k hk (M + E) (fun k' hk' =>
    ⟨⟨(num k' k' hk' (Or.inl rfl)).1, (num k' k' hk' (Or.inl rfl)).2.1, (num k' k' hk' (Or.inl rfl)).2.2.2⟩,
     ⟨(num k' (k' + 1) hk' (Or.inr rfl)).1, (num k' (k' + 1) hk' (Or.inr rfl)).2.1, (num k' (k' + 1) hk' (Or.inr rfl)).2.2.2⟩⟩)
  refine ⟨b, by rw [h2 t i j p q hp hq, hw, b1, markVal_fin], ?_⟩
  have n1 := (num k k hk (Or.inl rfl)).2.2.1
  have n2 := (num k (k + 1) hk (Or.inr rfl)).2.2.1
  beta_reduce at b3
  set s := frac y p k
  set f := frac x q l
  have e : b - bilinear (v k l) (v k (l + 1)) (v (k + 1) l) (v (k + 1) (l + 1)) s f =
      (b - ((1 - s) * numOf (w k) + s * numOf (w (k + 1)))) +
      ((1 - s) * (numOf (w k) - ((1 - f) * v k l + f * v k (l + 1))) + s * (numOf (w (k + 1)) - ((1 - f) * v (k + 1) l + f * v (k + 1) (l + 1)))) := by
    unfold bilinear; ring
  rw [e]
  have c := convex_abs s0 s1 n1 n2
  have d := abs_add_le (b - ((1 - s) * numOf (w k) + s * numOf (w (k + 1)))) ((1 - s) * (numOf (w k) - ((1 - f) * v k l + f * v k (l + 1))) + s * (numOf (w (k + 1)) - ((1 - f) * v (k + 1) l + f * v (k + 1) (l + 1))))
  have uM : 0 ≤ u * M := mul_nonneg hu0 hM
  have ex : 0 ≤ η * Lx := mul_nonneg he0 wx
  have ey : 0 ≤ η * Ly := mul_nonneg he0 wy
  have E0 : 0 ≤ E := (abs_nonneg _).trans n1
  have uE : u * E ≤ 1 / 256 * E := mul_le_mul_of_nonneg_right hu E0
  have t1 : 16 * u * (M + E) = 16 * (u * M) + 16 * (u * E) := by ring
  have t2 : 2 * η * (Ly + 1) = 2 * (η * Ly) + 2 * η := by ring
  have t3 : E = 16 * (u * M) + 2 * (η * Lx) + 2 * η := by rw [hE]; ring
  have t4 : 64 * u * M + 8 * η * (Ly + Lx + 1) = 64 * (u * M) + 8 * (η * Ly) + 8 * (η * Lx) + 8 * η := by ring
  rw [t4]
  rw [t1, ← hLy, t2] at b3
  linarith

/-- **C154** Accuracy in float64: where the values at the corners of the cell are numbers of absolute value at most `M`, the result differs from
bilinear interpolation in exact arithmetic by at most `2^-47 M`, up to underflow. -/
theorem C154_accuracy [FloorRing K] (g : GeoGrid K) (y x : ℕ → K) (h : OnAxes g y x) (hs : Stored float64 g y x) (latOut lonOut : List K)
    (missing : Option (XF K)) (fill : Option (XF K)) :
    ∃ out, interpMultidimFl float64 (.xr g) latOut lonOut false missing .linear fill = .ok (.dataArray, out) ∧
      ∀ t i j p q, latOut[i]? = some p → lonOut[j]? = some q → (float64 : Rounding K).rep p → (float64 : Rounding K).rep q → ∀ (v : ℕ → ℕ → K) (M : K),
        (∀ k l a b, InCell g.nlat y p k → InCell g.nlon x q l → (a = k ∨ a = k + 1) → (b = l ∨ b = l + 1) →
          IsNumber missing (g.get t a b) (v a b) ∧ (float64 : Rounding K).rep (v a b) ∧ |v a b| ≤ M) →
        ∀ k l, InCell g.nlat y p k → InCell g.nlon x q l → ∃ b, out.get t i j = .fin b ∧
          |b - bilinear (v k l) (v k (l + 1)) (v (k + 1) l) (v (k + 1) (l + 1)) (frac y p k) (frac x q l)|
            ≤ 2 ^ (-47 : ℤ) * M + 2 ^ (-1072 : ℤ) * ((y (g.nlat - 1) - y 0) + (x (g.nlon - 1) - x 0) + 1) := by
  obtain ⟨out, h1, h2⟩ := grid_error float64_accurate (by norm_num) g y x h hs latOut lonOut missing fill
  refine ⟨out, h1, fun t i j p q hp hq hrp hrq v M hv k l hk hl => ?_⟩
  obtain ⟨b, b1, b2⟩ := h2 t i j p q hp hq hrp hrq v M hv k l hk hl
  refine ⟨b, b1, b2.trans (le_of_eq ?_)⟩
  congr 2
  · rw [show (64 : K) = 2 ^ (6 : ℤ) by norm_num, ← zpow_add₀ (by norm_num)]; norm_num
  · rw [show (8 : K) = 2 ^ (3 : ℤ) by norm_num, ← zpow_add₀ (by norm_num)]; norm_num

/-- no axis point is nearer to `q` than point `k` by more than `e` -/
def IsNearestUpTo (e : K) (n : ℕ) (x : ℕ → K) (q : K) (k : ℕ) : Prop := k < n ∧ ∀ b < n, |q - x k| ≤ |q - x b| + e

/-- the computed midpoint of two neighbouring axis points -/
def midFl (R : Rounding K) (x : ℕ → K) (k : ℕ) : K := R.fl (R.fl (x (k + 1) / 2) + R.fl (x k / 2))

theorem midFl_list (R : Rounding K) (n : ℕ) (x : ℕ → K) :
    List.zipWith (fun a b => R.fl (R.fl (b / 2) + R.fl (a / 2))) (column n x) (column n x).tail = column (n - 1) (midFl R x) := by
  apply List.ext_getElem?
  intro k
  rw [List.getElem?_zipWith, List.getElem?_tail]
  rcases lt_or_ge k (n - 1) with hk | hk
  · rw [column_getElem? _ _ _ (by omega), column_getElem? _ _ _ (by omega), column_getElem? _ _ _ hk]
    rfl
  · have : (column n x)[k + 1]? = none := List.getElem?_eq_none (by simp [column]; omega)
    rw [this, List.getElem?_eq_none (l := column (n - 1) (midFl R x)) (by simp [column]; omega)]
    cases (column n x)[k]? <;> rfl

theorem scipyNearestFl_spec (R : Rounding K) (n : ℕ) (hn : 1 ≤ n) (x : ℕ → K) (h : IncAxis n x) (e : K)
    (he : ∀ k, k + 1 < n → |midFl R x k - (x k + x (k + 1)) / 2| ≤ e) (he0 : 0 ≤ e) (q : K) :
    ∃ l, IsNearestUpTo (2 * e) n x q l ∧ ∀ y : ℕ → XF K, scipyNearestFl R (column n x) (column n y) q = y l := by
  obtain ⟨h1, h2, h3⟩ := takeWhile_length_spec (fun a => decide (a < q)) (column (n - 1) (midFl R x))
  rw [column_length] at h3
  have hs : searchLeft (column (n - 1) (midFl R x)) q = ((column (n - 1) (midFl R x)).takeWhile (fun a => decide (a < q))).length := rfl
  rw [← hs] at h1 h2 h3
  set s := searchLeft (column (n - 1) (midFl R x)) q with hsd
  have hmono : ∀ i j, i ≤ j → j < n → x i ≤ x j := by
    intro i j hij hj
    rcases eq_or_lt_of_le hij with rfl | hl
    · exact le_refl _
    · exact (h i j hl hj).le
  refine ⟨s, ⟨by omega, fun b hb => ?_⟩, fun y => ?_⟩
  · rcases lt_trichotomy b s with hlt | rfl | hgt
    · -- a point on the left
      have m1 : midFl R x (s - 1) < q := by
        have := h1 (s - 1) (midFl R x (s - 1)) (column_getElem? _ _ _ (by omega)) (by omega)
        simpa using this
      have m2 := (abs_le.mp (he (s - 1) (by omega))).1
      rw [show s - 1 + 1 = s by omega] at m2
      have m3 : x b ≤ x (s - 1) := hmono _ _ (by omega) (by omega)
      have m4 : x (s - 1) ≤ x s := hmono _ _ (by omega) (by omega)
      rcases le_total (x s) q with hq | hq
      · rw [abs_of_nonneg (by linarith), abs_of_nonneg (by linarith)]; linarith
      · rw [abs_of_nonpos (by linarith)]
        have := le_abs_self (q - x b)
        linarith
    · linarith
    · have m1 : q ≤ midFl R x s := by
        have := h2 (midFl R x s) (column_getElem? _ _ _ (by omega))
        simpa using this
      have m2 := (abs_le.mp (he s (by omega))).2
      have m3 : x (s + 1) ≤ x b := hmono _ _ (by omega) (by omega)
      have m4 : x s ≤ x (s + 1) := hmono _ _ (by omega) (by omega)
      rcases le_total q (x s) with hq | hq
      · rw [abs_of_nonpos (by linarith), abs_of_nonpos (by linarith)]; linarith
      · rw [abs_of_nonneg (by linarith)]
        have := neg_le_abs (q - x b)
        linarith
  · unfold scipyNearestFl
    simp only [midFl_list, column_length, ← hsd]
    rw [min_eq_left h3, column_getD n y _ _ (by omega)]

theorem interpAxisFl_nearest (R : Rounding K) (fill : Option (XF K)) (n : ℕ) (hn : 1 ≤ n) (x : ℕ → K) (h : IncAxis n x) (e : K)
    (he : ∀ k, k + 1 < n → |midFl R x k - (x k + x (k + 1)) / 2| ≤ e) (he0 : 0 ≤ e) (q : K) (hr : fill = none ∨ (x 0 ≤ q ∧ q ≤ x (n - 1))) :
    ∃ l, IsNearestUpTo (2 * e) n x q l ∧ ∀ y : ℕ → XF K, interpAxisFl R .nearest fill (column n x) (column n y) q = y l := by
  obtain ⟨l, h1, h2⟩ := scipyNearestFl_spec R n hn x h e he he0 q
  refine ⟨l, h1, fun y => ?_⟩
  obtain ⟨hs1, hs2⟩ := sortPairs_inc n x y h
  unfold interpAxisFl
  simp only [hs1, hs2, h2]
  cases fill with
  | none => rfl
  | some f =>
    simp only
    rcases hr with hr | ⟨a, b⟩
    · cases hr
    · rw [column_headD n x 0 hn, column_getLastD n x 0 hn, if_neg]
      push Not
      exact ⟨a, b⟩

theorem midFl_error {R : Rounding K} {u η : K} (A : R.Accurate u η) (hu : u ≤ 1 / 16) (n : ℕ) (x : ℕ → K) (X : K) (hX : ∀ k < n, |x k| ≤ X) (k : ℕ)
    (hk : k + 1 < n) : |midFl R x k - (x k + x (k + 1)) / 2| ≤ 4 * u * X + 4 * η := by
  have e1 := A.err (x (k + 1) / 2)
  have e2 := A.err (x k / 2)
  have e3 := A.add _ _ (R.rep_fl (x (k + 1) / 2)) (R.rep_fl (x k / 2))
  have b1 := hX (k + 1) hk
  have b2 := hX k (by omega)
  have hu0 := A.u_nonneg
  have he0 := A.eta_nonneg
  unfold midFl
  rw [abs_div, abs_two] at e1 e2
  set a := R.fl (x (k + 1) / 2)
  set b := R.fl (x k / 2)
  have hX0 : 0 ≤ X := (abs_nonneg _).trans b2
  have c1 : u * (|x (k + 1)| / 2) ≤ u * (X / 2) := mul_le_mul_of_nonneg_left (by linarith) hu0
  have c2 : u * (|x k| / 2) ≤ u * (X / 2) := mul_le_mul_of_nonneg_left (by linarith) hu0
  have t1 : |a + b| ≤ X + |a - x (k + 1) / 2| + |b - x k / 2| := by
    have e : a + b = (a - x (k + 1) / 2) + (b - x k / 2) + (x (k + 1) / 2 + x k / 2) := by ring
    have p1 := abs_add_le ((a - x (k + 1) / 2) + (b - x k / 2)) (x (k + 1) / 2 + x k / 2)
    have p2 := abs_add_le (a - x (k + 1) / 2) (b - x k / 2)
    have p3 := abs_add_le (x (k + 1) / 2) (x k / 2)
    rw [abs_div, abs_div, abs_two] at p3
    rw [e]
    linarith
  have t2 : u * |a + b| ≤ u * X + (1 / 16) * (|a - x (k + 1) / 2| + |b - x k / 2|) := by
    have p := mul_le_mul_of_nonneg_left t1 hu0
    have p' : u * (|a - x (k + 1) / 2| + |b - x k / 2|) ≤ (1 / 16) * (|a - x (k + 1) / 2| + |b - x k / 2|) :=
      mul_le_mul_of_nonneg_right hu (by positivity)
    linarith
  have t3 : |R.fl (a + b) - (x k + x (k + 1)) / 2| ≤ |R.fl (a + b) - (a + b)| + (|a - x (k + 1) / 2| + |b - x k / 2|) := by
    have e : R.fl (a + b) - (x k + x (k + 1)) / 2 = (R.fl (a + b) - (a + b)) + ((a - x (k + 1) / 2) + (b - x k / 2)) := by ring
    rw [e]
    have p1 := abs_add_le (R.fl (a + b) - (a + b)) ((a - x (k + 1) / 2) + (b - x k / 2))
    have p2 := abs_add_le (a - x (k + 1) / 2) (b - x k / 2)
    linarith
  have uX : 0 ≤ u * X := mul_nonneg hu0 hX0
  linarith

/-- **C154** `method="nearest"` in float64: the result is, bit for bit, the value of one grid point, and no other row or column of the grid is nearer
by more than `2^-50` times the largest coordinate; missing if and only if that point is missing. -/
theorem C154_nearest [FloorRing K] (g : GeoGrid K) (y x : ℕ → K) (h : OnAxes g y x) (Y X : K) (hY : ∀ k < g.nlat, |y k| ≤ Y)
    (hX : ∀ k < g.nlon, |x k| ≤ X) (latOut lonOut : List K) (missing : Option (XF K)) (fill : Option (XF K)) :
    ∃ out, interpMultidimFl float64 (.xr g) latOut lonOut false missing .nearest fill = .ok (.dataArray, out) ∧
      ∀ i j p q, latOut[i]? = some p → lonOut[j]? = some q →
        (fill = none ∨ (y 0 ≤ p ∧ p ≤ y (g.nlat - 1) ∧ x 0 ≤ q ∧ q ≤ x (g.nlon - 1))) →
        ∃ k l, IsNearestUpTo (2 ^ (-50 : ℤ) * Y + 2 ^ (-1072 : ℤ)) g.nlat y p k ∧ IsNearestUpTo (2 ^ (-50 : ℤ) * X + 2 ^ (-1072 : ℤ)) g.nlon x q l ∧ ∀ t,
          (IsMissing missing (g.get t k l) → out.get t i j = missingMark missing) ∧
          (¬ IsMissing missing (g.get t k l) → out.get t i j = g.get t k l) := by
  have e : ∀ Z : K, 2 * (4 * 2 ^ (-53 : ℤ) * Z + 4 * 2 ^ (-1075 : ℤ)) = 2 ^ (-50 : ℤ) * Z + 2 ^ (-1072 : ℤ) := by
    intro Z
    rw [show (-50 : ℤ) = 3 + -53 by norm_num, show (-1072 : ℤ) = 3 + -1075 by norm_num, zpow_add₀ (by norm_num), zpow_add₀ (by norm_num)]
    norm_num
    ring
  have nn : ∀ (n : ℕ) (z : ℕ → K) (Z : K), 1 ≤ n → (∀ k < n, |z k| ≤ Z) → 0 ≤ 4 * 2 ^ (-53 : ℤ) * Z + 4 * 2 ^ (-1075 : ℤ) := by
    intro n z Z hn hz
    have := (abs_nonneg _).trans (hz 0 hn)
    positivity
  obtain ⟨out, h1, h2⟩ := plainFl_eq float64 g y x h latOut lonOut missing .nearest fill
  refine ⟨out, h1, fun i j p q hp hq hr => ?_⟩
  obtain ⟨k, hk, hkv⟩ := interpAxisFl_nearest float64 fill g.nlat (by have := h.twoLat; omega) y h.incLat _
    (midFl_error float64_accurate (by norm_num) g.nlat y Y hY) (nn _ _ _ (by have := h.twoLat; omega) hY) p (hr.imp id (fun hh => ⟨hh.1, hh.2.1⟩))
  obtain ⟨l, hl, hlv⟩ := interpAxisFl_nearest float64 fill g.nlon h.posLon x h.incLon _
    (midFl_error float64_accurate (by norm_num) g.nlon x X hX) (nn _ _ _ h.posLon hX) q (hr.imp id (fun hh => hh.2.2))
  rw [e] at hk hl
  refine ⟨k, l, hk, hl, fun t => ?_⟩
  have hval : out.get t i j = markVal missing (maskVal missing (g.get t k l)) := by
    rw [h2 t i j p q hp hq, hkv]
    unfold rowAtFl
    rw [hlv]
  constructor
  · intro hm
    rw [hval, maskVal_missing _ _ hm, markVal_nan]
  · intro hm
    rw [hval, maskVal_keep _ _ hm]
    have : g.get t k l ≠ .nan := fun hh => hm (Or.inl hh)
    cases missing with
    | none => rfl
    | some c => cases hg : g.get t k l <;> simp_all [markVal, XF.isNaN]

-- the axes of the sample grid are stored exactly
example : Stored (float64 : Rounding ℚ) sampleGrid (fun i => 10 * (i : ℚ)) (fun j => 120 * (j : ℚ)) where
  lat := by
    intro k hk
    have : k = 0 ∨ k = 1 := by have : sampleGrid.nlat = 2 := rfl; omega
    rcases this with rfl | rfl
    · exact ⟨0, 0, by norm_num, by norm_num, by norm_num⟩
    · exact ⟨10, 0, by norm_num, by norm_num, by norm_num⟩
  lon := by
    intro k hk
    have : k = 0 ∨ k = 1 ∨ k = 2 := by have : sampleGrid.nlon = 3 := rfl; omega
    rcases this with rfl | rfl | rfl
    · exact ⟨0, 0, by norm_num, by norm_num, by norm_num⟩
    · exact ⟨120, 0, by norm_num, by norm_num, by norm_num⟩
    · exact ⟨240, 0, by norm_num, by norm_num, by norm_num⟩

example : (float64 : Rounding ℚ).rep 360 := ⟨360, 0, by norm_num, by norm_num, by norm_num⟩

-- a third of the way from 1 to 4, in float64
example : cellOf (interpMultidimFl float64 (.xr sampleGrid) [10] [40] false none .linear (some .nan)) 0 0 = some (.fin 2) := by decide +kernel

-- without exact reproduction at grid points: 1 next to 2^-60 gives 0
example : cellOf (interpMultidimFl float64 (.xr { sampleGrid with get := fun _ _ j => if j = 0 then .fin 1 else .fin (1 / 2 ^ 60) }) [0] [120] false none
    .linear (some .nan)) 0 0 = some (.fin 0) := by decide +kernel

end Verif.Props
