import Verif.Lemmas.Multidim

/-
Properties C22-C26, C86-C89: interp_multidim.
-/

set_option linter.unusedSectionVars false
namespace Verif.Props
open Model Spec Lemmas
variable {K : Type _} [Field K] [LinearOrder K] [IsStrictOrderedRing K]

/-! ### C22 -/

/-- the input with every cell equal to the code `c` replaced by NaN -/
def recodeArr (c : XF K) (a : GridArr K) : GridArr K :=
  { a with get := fun t i j => if c ≠ .nan ∧ a.get t i j = c then .nan else a.get t i j }

def recode (c : XF K) : MultiIn K → MultiIn K
  | .xr g => .xr { recodeArr c g.toGridArr with lat := g.lat, lon := g.lon }
  | .np a lat lon => .np (recodeArr c a) lat lon

/-- C22: a call with `missing_val = c` gives what the call without `missing_val` gives for the input in which `c` is replaced
by NaN, with NaN replaced by `c` in the result (and fails with the same error if that fails). So no cell equal to `c` enters
the interpolation as a number. -/
theorem C22_code_is_nan (d : MultiIn K) (latOut lonOut : List K) (cyclic : Bool) (c : XF K) (m : GridMethod) (fill : Option (XF K)) :
    interpMultidim d latOut lonOut cyclic (some c) m fill =
      (interpMultidim (recode c d) latOut lonOut cyclic none m fill).map
        (fun r => (r.1, { r.2 with get := fun t i j => if r.2.get t i j = .nan then c else r.2.get t i j })) := by
  have he : ∀ v : XF K, (if v.eqb c = true then XF.nan else v) = if c ≠ .nan ∧ v = c then .nan else v := by
    intro v
    by_cases h : c ≠ .nan ∧ v = c
    · rw [if_pos h, if_pos ((eqb_iff v c).mpr h)]
    · rw [if_neg h, if_neg (fun hh => h ((eqb_iff v c).mp hh))]
  have hn : ∀ v : XF K, (if v.isNaN = true then c else v) = if v = .nan then c else v := by
    intro v; cases v <;> simp [XF.isNaN]
  have key : ∀ g : GeoGrid K, (do
      let g ← preInterp cyclic (some c) g
      let out := xrInterp m fill g latOut lonOut
      return (PyType.dataArray, postInterp (some c) out) : Except PyErr (PyType × GeoGrid K)) = (do
      let g ← preInterp cyclic none { recodeArr c g.toGridArr with lat := g.lat, lon := g.lon }
      let out := xrInterp m fill g latOut lonOut
      return (PyType.dataArray, postInterp none out) : Except PyErr (PyType × GeoGrid K)).map
        (fun r => (r.1, { r.2 with get := fun t i j => if r.2.get t i j = .nan then c else r.2.get t i j })) := by
    intro g
    cases cyclic with
    | false =>
      simp only [preInterp, he, recodeArr, postInterp, hn, bind, Except.bind, pure, Except.pure, Except.map, Bool.false_eq_true,
        not_false_eq_true, if_true]
    | true =>
      simp only [preInterp, he, recodeArr, postInterp, hn, bind, Except.bind, pure, Except.pure, Except.map, not_true_eq_false, if_false]
      by_cases hz : g.lead ≠ 0 ∨ g.nlon = 0
      · simp [hz, throw, throwThe, MonadExceptOf.throw]
      · simp only [hz, if_false]
        cases Py.setIndex (padWrap g.lon) 0 ((padWrap g.lon).headD 0 - 360) with
        | error e => rfl
        | ok p1 =>
          simp only
          cases Py.setIndex p1 (-1) (p1.getLastD 0 + 360) with
          | error e => rfl
          | ok p2 => rfl
  cases d with
  | xr g => exact key g
  | np a lat lon =>
    cases lat with
    | none => rfl
    | some lat =>
      cases lon with
      | none => rfl
      | some lon =>
        by_cases hz : a.lead ≠ 0 ∨ lat.length ≠ a.nlat ∨ lon.length ≠ a.nlon
        · simp [interpMultidim, recode, recodeArr, hz, bind, Except.bind, throw, throwThe, MonadExceptOf.throw, Except.map]
        · have := key { a with lat := lat, lon := lon }
          simp only [interpMultidim, recode, recodeArr, hz, if_false, bind, Except.bind, pure, Except.pure] at this ⊢
          exact this

/-- C22: with a `missing_val` (other than NaN) no cell of the result is NaN. -/
theorem C22_no_nan (d : MultiIn K) (latOut lonOut : List K) (cyclic : Bool) (c : XF K) (hc : c ≠ .nan) (m : GridMethod)
    (fill : Option (XF K)) (ty : PyType) (out : GeoGrid K)
    (h : interpMultidim d latOut lonOut cyclic (some c) m fill = .ok (ty, out)) (t : List ℕ) (i j : ℕ) : out.get t i j ≠ .nan := by
  rw [C22_code_is_nan] at h
  cases hr : interpMultidim (recode c d) latOut lonOut cyclic none m fill with
  | error e => rw [hr] at h; cases h
  | ok r =>
    rw [hr] at h
    simp only [Except.map, Except.ok.injEq, Prod.mk.injEq] at h
    obtain ⟨-, rfl⟩ := h
    simp only
    split_ifs with hh
    · exact hc
    · exact hh

/-! ### the result on a grid with increasing axes -/

/-- a DataArray with strictly increasing latitudes `y` and longitudes `x` -/
structure OnAxes (g : GeoGrid K) (y x : ℕ → K) : Prop where
  lat : g.lat = column g.nlat y
  lon : g.lon = column g.nlon x
  incLat : IncAxis g.nlat y
  incLon : IncAxis g.nlon x
  twoLat : 2 ≤ g.nlat
  posLon : 1 ≤ g.nlon

/-- sample: 2 latitudes, 3 longitudes, one code -999 at (1, 2) -/
def sampleGrid : GeoGrid ℚ :=
  { lead := 0, nlat := 2, nlon := 3, get := fun _ i j => if i = 1 ∧ j = 2 then .fin (-999) else .fin (i + 3 * j),
    lat := [0, 10], lon := [0, 120, 240] }

/-- the sample's axes are increasing -/
theorem sampleGrid_onAxes : OnAxes sampleGrid (fun i => 10 * (i : ℚ)) (fun j => 120 * (j : ℚ)) where
  lat := by decide +kernel
  lon := by decide +kernel
  incLat := by
    intro i j hij _
    have : (i : ℚ) < j := by exact_mod_cast hij
    linarith
  incLon := by
    intro i j hij _
    have : (i : ℚ) < j := by exact_mod_cast hij
    linarith
  twoLat := by decide
  posLon := by decide

/-- value of a cell of the result, if there is one -/
def cellOf (r : Except PyErr (PyType × GeoGrid ℚ)) (i j : ℕ) : Option (XF ℚ) :=
  match r with
  | .ok r => some (r.2.get [] i j)
  | .error _ => none

/-- cell value with the missing code as NaN -/
def maskVal (missing : Option (XF K)) (v : XF K) : XF K :=
  match missing with
  | none => v
  | some c => if v.eqb c then .nan else v

/-- result value with NaN as the missing code -/
def markVal (missing : Option (XF K)) (v : XF K) : XF K :=
  match missing with
  | none => v
  | some c => if v.isNaN then c else v

theorem maskVal_missing (missing : Option (XF K)) (v : XF K) (h : IsMissing missing v) : maskVal missing v = .nan := by
  rcases h with rfl | ⟨m, rfl, hm, rfl⟩
  · unfold maskVal; split <;> simp
  · simp only [maskVal]
    rw [if_pos ((eqb_iff v v).mpr ⟨hm, rfl⟩)]

theorem maskVal_keep (missing : Option (XF K)) (v : XF K) (h : ¬ IsMissing missing v) : maskVal missing v = v := by
  cases missing with
  | none => rfl
  | some m =>
    simp only [maskVal]
    rw [if_neg]
    intro hh
    obtain ⟨h1, h2⟩ := (eqb_iff v m).mp hh
    exact h (Or.inr ⟨m, rfl, h1, h2⟩)

theorem markVal_nan (missing : Option (XF K)) : markVal missing .nan = missingMark missing := by
  cases missing <;> rfl

theorem markVal_fin (missing : Option (XF K)) (v : K) : markVal missing (.fin v) = .fin v := by
  cases missing <;> rfl

/-- one row at a longitude -/
def rowAt (m : GridMethod) (fill : Option (XF K)) (n : ℕ) (x : ℕ → K) (f : ℕ → ℕ → XF K) (q : K) (r : ℕ) : XF K :=
  interpAxis m fill (column n x) (column n (f r)) q

theorem plain_eq (g : GeoGrid K) (y x : ℕ → K) (h : OnAxes g y x) (latOut lonOut : List K) (missing : Option (XF K)) (m : GridMethod)
    (fill : Option (XF K)) :
    ∃ out, interpMultidim (.xr g) latOut lonOut false missing m fill = .ok (.dataArray, out) ∧
      out.lat = latOut ∧ out.lon = lonOut ∧ out.nlat = latOut.length ∧ out.nlon = lonOut.length ∧ out.lead = g.lead ∧
      ∀ t i j p q, latOut[i]? = some p → lonOut[j]? = some q → out.get t i j = markVal missing
        (interpAxis m fill (column g.nlat y) (column g.nlat (rowAt m fill g.nlon x (fun r c => maskVal missing (g.get t r c)) q)) p) := by
  have hv : ∀ v : XF K, (match missing with
      | none => v
      | some c => if v.eqb c then .nan else v) = maskVal missing v := fun v => rfl
  cases missing with
  | none =>
    refine ⟨_, rfl, rfl, rfl, rfl, rfl, rfl, fun t i j p q hp hq => ?_⟩
    simp only [postInterp, xrInterp, markVal, h.lat, h.lon, rowAt, maskVal, List.getD_eq_getElem?_getD, hp, hq, Option.getD_some]
    rfl
  | some c =>
    refine ⟨_, rfl, rfl, rfl, rfl, rfl, rfl, fun t i j p q hp hq => ?_⟩
    simp only [postInterp, xrInterp, markVal, h.lat, h.lon, rowAt, maskVal, List.getD_eq_getElem?_getD, hp, hq, Option.getD_some]
    rfl

/-- one axis, all values around the point finite -/
theorem interpAxis_fin (fill : Option (XF K)) (n : ℕ) (x : ℕ → K) (y : ℕ → XF K) (v : ℕ → K) (h : IncAxis n x) (q : K) (k : ℕ)
    (hk : InCell n x q k) (hy : ∀ l, InCell n x q l → y l = .fin (v l) ∧ y (l + 1) = .fin (v (l + 1))) :
    interpAxis .linear fill (column n x) (column n y) q = .fin ((1 - frac x q k) * v k + frac x q k * v (k + 1)) := by
  obtain ⟨hk1, hk2, hk3⟩ := hk
  have h0 : x 0 ≤ q := by
    rcases Nat.eq_zero_or_pos k with rfl | hp
    · exact hk2
    · exact (h 0 k hp (by omega)).le.trans hk2
  have h1 : q ≤ x (n - 1) := by
    rcases eq_or_lt_of_le (show k + 1 ≤ n - 1 by omega) with he | hl
    · rw [← he]; exact hk3
    · exact hk3.trans (h _ _ hl (by omega)).le
  obtain ⟨l, hl1, hl2, hl3⟩ := exists_cell n (by omega) x h q h0 h1
  have hl2' : x l ≤ q := by rcases hl2 with hh | ⟨rfl, hh⟩ <;> [exact hh.le; exact hh]
  have hcell : InCell n x q l := ⟨hl1, hl2', hl3⟩
  rw [interpAxis_cell fill n x y h q l hl1 hl2 hl3, (hy l hcell).1, (hy l hcell).2, seg_fin _ _ _ _ _ (h l (l + 1) (by omega) hl1)]
  congr 1
  rcases lt_trichotomy l k with hlt | rfl | hgt
  · -- the point is the common end
    have hle : x (l + 1) ≤ x k := by
      rcases eq_or_lt_of_le (show l + 1 ≤ k from hlt) with he | hl'
      · rw [he]
      · exact (h _ _ hl' (by omega)).le
    have hlk : l + 1 = k := by
      by_contra hne
      have := h (l + 1) k (by omega) (by omega)
      linarith
    subst hlk
    have hq : q = x (l + 1) := le_antisymm hl3 hk2
    have hd : x (l + 1) - x l ≠ 0 := (sub_pos.mpr (h l (l + 1) (by omega) hl1)).ne'
    have e1 : (q - x l) / (x (l + 1) - x l) = 1 := by rw [hq, div_self hd]
    have e2 : frac x q (l + 1) = 0 := by unfold frac; rw [hq, sub_self, zero_div]
    rw [e1, e2]; ring
  · rfl
  · exfalso
    have hle : x (k + 1) ≤ x l := by
      rcases eq_or_lt_of_le (show k + 1 ≤ l from hgt) with he | hl'
      · rw [he]
      · exact (h _ _ hl' (by omega)).le
    rcases hl2 with hh | ⟨rfl, -⟩
    · linarith
    · omega

/-- the cell value is a number, not missing -/
def IsNumber (missing : Option (XF K)) (a : XF K) (v : K) : Prop := a = .fin v ∧ ¬ IsMissing missing a

theorem IsNumber.mask {missing : Option (XF K)} {a : XF K} {v : K} (h : IsNumber missing a v) : maskVal missing a = .fin v := by
  rw [maskVal_keep _ _ h.2, h.1]

/-! ### C23 -/

/-- C23: strictly inside a grid cell of which a corner is missing, the result is missing. -/
theorem C23_missing_corner (g : GeoGrid K) (y x : ℕ → K) (h : OnAxes g y x) (latOut lonOut : List K) (missing : Option (XF K))
    (fill : Option (XF K)) :
    ∃ out, interpMultidim (.xr g) latOut lonOut false missing .linear fill = .ok (.dataArray, out) ∧
      ∀ t i j p q, latOut[i]? = some p → lonOut[j]? = some q → ∀ k l, InsideCell g.nlat y p k → InsideCell g.nlon x q l →
        (∃ a b, (a = k ∨ a = k + 1) ∧ (b = l ∨ b = l + 1) ∧ IsMissing missing (g.get t a b)) →
        out.get t i j = missingMark missing := by
  obtain ⟨out, h1, -, -, -, -, -, h2⟩ := plain_eq g y x h latOut lonOut missing .linear fill
  refine ⟨out, h1, fun t i j p q hp hq k l hk hl hmiss => ?_⟩
  obtain ⟨a, b, ha, hb, hm⟩ := hmiss
  rw [h2 t i j p q hp hq, interpAxis_cell fill _ y _ h.incLat p k hk.1 (Or.inl hk.2.1) hk.2.2.le]
  have hrow : rowAt .linear fill g.nlon x (fun r c => maskVal missing (g.get t r c)) q a = .nan := by
    unfold rowAt
    rw [interpAxis_cell fill _ x _ h.incLon q l hl.1 (Or.inl hl.2.1) hl.2.2.le]
    refine seg_nan _ _ _ _ _ ?_
    rcases hb with rfl | rfl
    · exact Or.inl (maskVal_missing _ _ hm)
    · exact Or.inr (maskVal_missing _ _ hm)
  rw [seg_nan, markVal_nan]
  rcases ha with rfl | rfl
  · exact Or.inl hrow
  · exact Or.inr hrow

/-- C23: if no corner of a grid cell containing the location is missing, the result is the bilinear mean of the four corner
values of the cell (of any cell containing the location, if it lies on a grid line), hence a number within their range. -/
theorem C23_number_in_range (g : GeoGrid K) (y x : ℕ → K) (h : OnAxes g y x) (latOut lonOut : List K) (missing : Option (XF K))
    (fill : Option (XF K)) :
    ∃ out, interpMultidim (.xr g) latOut lonOut false missing .linear fill = .ok (.dataArray, out) ∧
      ∀ t i j p q, latOut[i]? = some p → lonOut[j]? = some q → ∀ v : ℕ → ℕ → K,
        (∀ k l a b, InCell g.nlat y p k → InCell g.nlon x q l → (a = k ∨ a = k + 1) → (b = l ∨ b = l + 1) →
          IsNumber missing (g.get t a b) (v a b)) →
        ∀ k l, InCell g.nlat y p k → InCell g.nlon x q l →
          ∃ r, out.get t i j = .fin r ∧
            r = bilinear (v k l) (v k (l + 1)) (v (k + 1) l) (v (k + 1) (l + 1)) (frac y p k) (frac x q l) ∧
            ∀ lo hi, (∀ a b, (a = k ∨ a = k + 1) → (b = l ∨ b = l + 1) → lo ≤ v a b ∧ v a b ≤ hi) → lo ≤ r ∧ r ≤ hi := by
  obtain ⟨out, h1, -, -, -, -, -, h2⟩ := plain_eq g y x h latOut lonOut missing .linear fill
  refine ⟨out, h1, fun t i j p q hp hq v hv k l hk hl => ?_⟩
  have hrow : ∀ a, (∃ k', InCell g.nlat y p k' ∧ (a = k' ∨ a = k' + 1)) →
      rowAt .linear fill g.nlon x (fun r c => maskVal missing (g.get t r c)) q a =
        .fin ((1 - frac x q l) * v a l + frac x q l * v a (l + 1)) := by
    rintro a ⟨k', hk', ha⟩
    unfold rowAt
    refine interpAxis_fin fill _ x _ (v a) h.incLon q l hl fun l' hl' => ⟨?_, ?_⟩
    · exact (hv k' l' a l' hk' hl' ha (Or.inl rfl)).mask
    · exact (hv k' l' a (l' + 1) hk' hl' ha (Or.inr rfl)).mask
  have hval := interpAxis_fin fill g.nlat y (rowAt .linear fill g.nlon x (fun r c => maskVal missing (g.get t r c)) q)
    (fun a => (1 - frac x q l) * v a l + frac x q l * v a (l + 1)) h.incLat p k hk
    (fun k' hk' => ⟨hrow k' ⟨k', hk', Or.inl rfl⟩, hrow (k' + 1) ⟨k', hk', Or.inr rfl⟩⟩)
  refine ⟨_, by rw [h2 t i j p q hp hq, hval, markVal_fin]; rfl, rfl, fun lo hi hb => ?_⟩
  have hfrac : ∀ (n : ℕ) (z : ℕ → K) (w : K) (s : ℕ), IncAxis n z → InCell n z w s → 0 ≤ frac z w s ∧ frac z w s ≤ 1 := by
    intro n z w s hz hs
    have hd : 0 < z (s + 1) - z s := sub_pos.mpr (hz s (s + 1) (by omega) hs.1)
    unfold frac
    exact ⟨div_nonneg (sub_nonneg.mpr hs.2.1) hd.le, (div_le_one hd).mpr (by linarith [hs.2.2])⟩
  obtain ⟨s0, s1⟩ := hfrac _ y p k h.incLat hk
  obtain ⟨t0, t1⟩ := hfrac _ x q l h.incLon hl
  have mix : ∀ (s a b : K), 0 ≤ s → s ≤ 1 → lo ≤ a → lo ≤ b → a ≤ hi → b ≤ hi → lo ≤ (1 - s) * a + s * b ∧ (1 - s) * a + s * b ≤ hi := by
    intro s a b hs0 hs1 ha hb' ha' hb''
    constructor <;> nlinarith
  have r0 := mix _ _ _ t0 t1 (hb k l (Or.inl rfl) (Or.inl rfl)).1 (hb k (l + 1) (Or.inl rfl) (Or.inr rfl)).1
    (hb k l (Or.inl rfl) (Or.inl rfl)).2 (hb k (l + 1) (Or.inl rfl) (Or.inr rfl)).2
  have r1 := mix _ _ _ t0 t1 (hb (k + 1) l (Or.inr rfl) (Or.inl rfl)).1 (hb (k + 1) (l + 1) (Or.inr rfl) (Or.inr rfl)).1
    (hb (k + 1) l (Or.inr rfl) (Or.inl rfl)).2 (hb (k + 1) (l + 1) (Or.inr rfl) (Or.inr rfl)).2
  exact mix _ _ _ s0 s1 r0.1 r1.1 r0.2 r1.2

/-! ### C25 -/

/-- C25: at a grid point around which no value is missing, the result is the input value. -/
theorem C25_nodes (g : GeoGrid K) (y x : ℕ → K) (h : OnAxes g y x) (hlon : 2 ≤ g.nlon) (latOut lonOut : List K)
    (missing : Option (XF K)) (fill : Option (XF K)) :
    ∃ out, interpMultidim (.xr g) latOut lonOut false missing .linear fill = .ok (.dataArray, out) ∧
      ∀ t i j k l, k < g.nlat → l < g.nlon → latOut[i]? = some (y k) → lonOut[j]? = some (x l) →
        (∀ a b, a < g.nlat → b < g.nlon → (a ≤ k + 1 ∧ k ≤ a + 1) → (b ≤ l + 1 ∧ l ≤ b + 1) → ∃ v, IsNumber missing (g.get t a b) v) →
        out.get t i j = g.get t k l := by
  obtain ⟨out, h1, h2⟩ := C23_number_in_range g y x h latOut lonOut missing fill
  refine ⟨out, h1, fun t i j k l hk hl hp hq hfin => ?_⟩
  -- cells containing a node are next to it
  have next : ∀ (n : ℕ) (z : ℕ → K) (k k' : ℕ), IncAxis n z → k < n → InCell n z (z k) k' → k' = k ∨ k' + 1 = k := by
    intro n z k k' hz hk hc
    rcases lt_trichotomy k' k with hlt | he | hgt
    · right
      by_contra hne
      have := hz (k' + 1) k (by omega) hk
      exact absurd hc.2.2 (not_le.mpr this)
    · exact Or.inl he
    · exact absurd hc.2.1 (not_le.mpr (hz k k' hgt (by have := hc.1; omega)))
  -- a cell at the node, with the fraction telling the end
  have cell : ∀ (n : ℕ) (z : ℕ → K) (k : ℕ), 2 ≤ n → IncAxis n z → k < n →
      ∃ k', InCell n z (z k) k' ∧ ((k' = k ∧ frac z (z k) k' = 0) ∨ (k' + 1 = k ∧ frac z (z k) k' = 1)) := by
    intro n z k hn hz hk
    by_cases hlast : k + 1 < n
    · exact ⟨k, ⟨hlast, le_refl _, (hz k (k + 1) (by omega) hlast).le⟩, Or.inl ⟨rfl, by simp [frac]⟩⟩
    · obtain ⟨k', rfl⟩ := Nat.exists_eq_succ_of_ne_zero (show k ≠ 0 by omega)
      refine ⟨k', ⟨hk, (hz k' (k' + 1) (by omega) hk).le, le_refl _⟩, Or.inr ⟨rfl, ?_⟩⟩
      unfold frac
      exact div_self (sub_pos.mpr (hz k' (k' + 1) (by omega) hk)).ne'
  have hex : ∃ v : ℕ → ℕ → K, ∀ a b, a < g.nlat → b < g.nlon → (a ≤ k + 1 ∧ k ≤ a + 1) → (b ≤ l + 1 ∧ l ≤ b + 1) →
      IsNumber missing (g.get t a b) (v a b) := by
    classical
    refine ⟨fun a b => if hc : ∃ v, IsNumber missing (g.get t a b) v then hc.choose else 0, fun a b ha hb ha' hb' => ?_⟩
    have hc := hfin a b ha hb ha' hb'
    simp only [dif_pos hc]
    exact hc.choose_spec
  obtain ⟨v, hv⟩ := hex
  obtain ⟨k', hk', hke⟩ := cell g.nlat y k h.twoLat h.incLat hk
  obtain ⟨l', hl', hle⟩ := cell g.nlon x l hlon h.incLon hl
  obtain ⟨r, hr, hrv, -⟩ := h2 t i j (y k) (x l) hp hq v (by
    intro a b a' b' ha hb ha' hb'
    have n1 := next _ y k a h.incLat hk ha
    have n2 := next _ x l b h.incLon hl hb
    have b1 := ha.1
    have b2 := hb.1
    refine hv a' b' (by omega) (by omega) (by omega) (by omega)) k' l' hk' hl'
  rw [hr, (hv k l hk hl (by omega) (by omega)).1, hrv]
  congr 1
  unfold bilinear
  rcases hke with ⟨rfl, e1⟩ | ⟨rfl, e1⟩ <;> rcases hle with ⟨rfl, e2⟩ | ⟨rfl, e2⟩ <;> rw [e1, e2] <;> ring

/-! ### C87 -/

theorem getD_all_nan (y : List (XF K)) (h : ∀ v ∈ y, v = .nan) (k : ℕ) : y.getD k .nan = .nan := by
  rw [List.getD_eq_getElem?_getD]
  cases hk : y[k]? with
  | none => rfl
  | some v => exact h v (List.mem_of_getElem? hk)

/-- an axis without any number gives no number -/
theorem interpAxis_all_nan (m : GridMethod) (x : List K) (y : List (XF K)) (h : ∀ v ∈ y, v = .nan) (q : K) :
    interpAxis m (some .nan) x y q = .nan := by
  have hs : ∀ v ∈ (sortPairs x y).map (·.2), v = .nan := by
    intro v hv
    obtain ⟨e, he, rfl⟩ := List.mem_map.mp hv
    have := (List.perm_insertionSort (fun a b : K × XF K => a.1 ≤ b.1) (x.zip y)).mem_iff.mp he
    exact h e.2 (List.of_mem_zip this).2
  have hg := getD_all_nan _ hs
  unfold interpAxis
  cases m with
  | linear => simp only [scipyLinear, hg, XF.add_nan, ite_self]
  | nearest => simp only [scipyNearest, hg, ite_self]

/-- C87: without extrapolation (the default), a location outside the grid gives a missing result, for both methods. -/
theorem C87_outside_missing (g : GeoGrid K) (y x : ℕ → K) (h : OnAxes g y x) (latOut lonOut : List K) (missing : Option (XF K)) (m : GridMethod) :
    ∃ out, interpMultidim (.xr g) latOut lonOut false missing m (some .nan) = .ok (.dataArray, out) ∧
      ∀ t i j p q, latOut[i]? = some p → lonOut[j]? = some q →
        (p < y 0 ∨ y (g.nlat - 1) < p ∨ q < x 0 ∨ x (g.nlon - 1) < q) → out.get t i j = missingMark missing := by
  obtain ⟨out, h1, -, -, -, -, -, h2⟩ := plain_eq g y x h latOut lonOut missing m (some .nan)
  refine ⟨out, h1, fun t i j p q hp hq hc => ?_⟩
  rw [h2 t i j p q hp hq, ← markVal_nan]
  congr 1
  rcases or_assoc.mpr hc with hc | hc
  · exact interpAxis_outside m .nan g.nlat (by have := h.twoLat; omega) y _ h.incLat p hc
  · refine interpAxis_all_nan m _ _ (fun v hv => ?_) p
    simp only [column, List.mem_map] at hv
    obtain ⟨r, -, rfl⟩ := hv
    exact interpAxis_outside m .nan g.nlon (by have := h.posLon; omega) x _ h.incLon q hc

/-! Examples: the hypotheses are met, and what the calls return. -/

example : recode (.fin (-999)) (.xr sampleGrid) ≠ .xr sampleGrid := by
  intro h
  have : (fun d : MultiIn ℚ => match d with | .xr g => g.get [] 1 2 | .np _ _ _ => .nan) (recode (.fin (-999)) (.xr sampleGrid)) =
    (fun d : MultiIn ℚ => match d with | .xr g => g.get [] 1 2 | .np _ _ _ => .nan) (.xr sampleGrid) := by rw [h]
  revert this
  decide +kernel

example : InsideCell sampleGrid.nlat (fun i => 10 * (i : ℚ)) 5 0 ∧ InsideCell sampleGrid.nlon (fun j => 120 * (j : ℚ)) 180 1 ∧
    IsMissing (some (.fin (-999))) (sampleGrid.get [] (0 + 1) (1 + 1)) ∧
    cellOf (interpMultidim (.xr sampleGrid) [5] [180] false (some (.fin (-999))) .linear (some .nan)) 0 0 = some (.fin (-999)) :=
  ⟨by unfold InsideCell; decide +kernel, by unfold InsideCell; decide +kernel, Or.inr ⟨_, rfl, by simp, by decide +kernel⟩, by decide +kernel⟩

example : InCell sampleGrid.nlat (fun i => 10 * (i : ℚ)) 5 0 ∧ InCell sampleGrid.nlon (fun j => 120 * (j : ℚ)) 60 0 ∧
    (∀ a b, a < 2 → b < 2 → IsNumber (some (.fin (-999))) (sampleGrid.get [] a b) (a + 3 * b)) ∧
    cellOf (interpMultidim (.xr sampleGrid) [5] [60] false (some (.fin (-999))) .linear (some .nan)) 0 0 = some (.fin 2) := by
  refine ⟨by unfold InCell; decide +kernel, by unfold InCell; decide +kernel, ?_, by decide +kernel⟩
  intro a b ha hb
  have hab : ¬ (a = 1 ∧ b = 2) := by omega
  have ha0 : (0 : ℚ) ≤ a := Nat.cast_nonneg a
  have hb0 : (0 : ℚ) ≤ b := Nat.cast_nonneg b
  refine ⟨by simp [sampleGrid, hab], ?_⟩
  simp only [IsMissing, sampleGrid, hab, if_false, reduceCtorEq, false_or, Option.some.injEq, not_exists, not_and]
  rintro m rfl - h
  injection h with h
  linarith

/-- a node, and a point outside -/
example : cellOf (interpMultidim (.xr sampleGrid) [0, 11] [120] false (some (.fin (-999))) .linear (some .nan)) 0 0 = some (.fin 3) ∧
    cellOf (interpMultidim (.xr sampleGrid) [0, 11] [120] false (some (.fin (-999))) .linear (some .nan)) 1 0 = some (.fin (-999)) := by
  decide +kernel

end Verif.Props
