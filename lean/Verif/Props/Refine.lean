import Verif.Props.Multidim2

/-
Property C196: interp_multidim by way of a finer grid.
-/

set_option linter.unusedSectionVars false
namespace Verif.Props
open Model Spec Lemmas
variable {K : Type} [Field K] [LinearOrder K] [IsStrictOrderedRing K]

/-- the axis of `n'` points contains the points of the axis of `n` points and goes no further -/
structure Refines (n : ℕ) (y : ℕ → K) (n' : ℕ) (y' : ℕ → K) : Prop where
  inc : IncAxis n' y'
  nodes : ∀ k < n, ∃ a < n', y' a = y k
  range : ∀ a < n', y 0 ≤ y' a ∧ y' a ≤ y (n - 1)

theorem axis_le {n : ℕ} {y : ℕ → K} (h : IncAxis n y) {i j : ℕ} (hij : i ≤ j) (hj : j < n) : y i ≤ y j := by
  rcases hij.eq_or_lt with rfl | hlt
  · exact le_rfl
  · exact (h i j hlt hj).le

/-- a point of the range lies in a cell -/
theorem cell_of {n : ℕ} {y : ℕ → K} (h : IncAxis n y) (hn : 2 ≤ n) {p : K} (h0 : y 0 ≤ p) (h1 : p ≤ y (n - 1)) : ∃ k, InCell n y p k := by
  obtain ⟨l, hl1, hl2, hl3⟩ := exists_cell n hn y h p h0 h1
  exact ⟨l, hl1, by rcases hl2 with hh | ⟨rfl, hh⟩ <;> [exact hh.le; exact hh], hl3⟩

/-- every cell of the finer axis lies in a cell of the coarser one -/
theorem coarse_cell {n n' : ℕ} {y y' : ℕ → K} (h : IncAxis n y) (hn : 2 ≤ n) (hr : Refines n y n' y') (k' : ℕ) (hk' : k' + 1 < n') :
    ∃ k, k + 1 < n ∧ y k ≤ y' k' ∧ y' (k' + 1) ≤ y (k + 1) := by
  have hlt := hr.inc k' (k' + 1) (by omega) hk'
  obtain ⟨k, hk, a1, a2⟩ := cell_of h hn (p := (y' k' + y' (k' + 1)) / 2) (by linarith [(hr.range k' (by omega)).1]) (by linarith [(hr.range (k' + 1) hk').2])
  refine ⟨k, hk, ?_, ?_⟩
  · obtain ⟨a, ha, e⟩ := hr.nodes k (by omega)
    have : a ≤ k' := by
      by_contra hc
      have := axis_le hr.inc (show k' + 1 ≤ a by omega) ha
      linarith
    rw [← e]
    exact axis_le hr.inc this (by omega)
  · obtain ⟨a, ha, e⟩ := hr.nodes (k + 1) hk
    have : k' + 1 ≤ a := by
      by_contra hc
      have := axis_le hr.inc (show a ≤ k' by omega) (by omega)
      linarith
    rw [← e]
    exact axis_le hr.inc this ha

theorem refines_two {n n' : ℕ} {y y' : ℕ → K} (h : IncAxis n y) (hn : 2 ≤ n) (hr : Refines n y n' y') : 2 ≤ n' := by
  obtain ⟨a, ha, e⟩ := hr.nodes 0 (by omega)
  obtain ⟨b, hb, f⟩ := hr.nodes 1 (by omega)
  have := h 0 1 (by omega) (by omega)
  have : a ≠ b := fun he => by
    subst he
    rw [e] at f
    linarith
  omega

/-- the ends of the two axes are the same -/
theorem refines_ends {n n' : ℕ} {y y' : ℕ → K} (hn : 2 ≤ n) (hr : Refines n y n' y') : y' 0 ≤ y 0 ∧ y (n - 1) ≤ y' (n' - 1) := by
  obtain ⟨a, ha, e⟩ := hr.nodes 0 (by omega)
  obtain ⟨b, hb, f⟩ := hr.nodes (n - 1) (by omega)
  exact ⟨by rw [← e]; exact axis_le hr.inc (Nat.zero_le _) ha, by rw [← f]; exact axis_le hr.inc (by omega) (by omega)⟩

/-- a fraction of the coarse cell from the fractions of the fine cell -/
theorem frac_refine (y y' : ℕ → K) (p : K) (k k' : ℕ) (h : y k < y (k + 1)) (h' : y' k' < y' (k' + 1)) :
    frac y p k = (1 - frac y' p k') * frac y (y' k') k + frac y' p k' * frac y (y' (k' + 1)) k := by
  have h1 : y (k + 1) - y k ≠ 0 := (sub_pos.mpr h).ne'
  have h2 : y' (k' + 1) - y' k' ≠ 0 := (sub_pos.mpr h').ne'
  unfold frac
  field_simp
  ring

theorem isNumber_none {a : XF K} {v : K} (h : a = .fin v) : IsNumber none a v := by
  refine ⟨h, ?_⟩
  rintro (h' | ⟨m, hm, -⟩)
  · rw [h] at h'
    cases h'
  · cases hm

/-- **C196.** Let the finer grid contain all latitudes and longitudes of the data's grid and go no further. Interpolating first to the finer grid and from there
to any points gives the same as interpolating the data to these points directly. -/
theorem C196_through_finer (g : GeoGrid K) (y x : ℕ → K) (h : OnAxes g y x) (hlon : 2 ≤ g.nlon) (n' m' : ℕ) (y' x' : ℕ → K) (hy : Refines g.nlat y n' y')
    (hx : Refines g.nlon x m' x') (latOut lonOut : List K) (fill fill' : Option (XF K)) :
    ∃ mid out direct, interpMultidim (.xr g) (column n' y') (column m' x') false none .linear fill = .ok (.dataArray, mid) ∧
      interpMultidim (.xr mid) latOut lonOut false none .linear fill' = .ok (.dataArray, out) ∧
      interpMultidim (.xr g) latOut lonOut false none .linear fill = .ok (.dataArray, direct) ∧
      ∀ t, (∀ a b, a < g.nlat → b < g.nlon → ∃ v, g.get t a b = .fin v) →
        ∀ i j p q, latOut[i]? = some p → lonOut[j]? = some q → y 0 ≤ p → p ≤ y (g.nlat - 1) → x 0 ≤ q → q ≤ x (g.nlon - 1) →
          ∃ r, out.get t i j = .fin r ∧ direct.get t i j = .fin r := by
  obtain ⟨mid, e1, mlat, mlon, mn, mm, -, -⟩ := plain_eq g y x h (column n' y') (column m' x') none .linear fill
  have hnn : mid.nlat = n' := by rw [mn]; simp [column]
  have hmm : mid.nlon = m' := by rw [mm]; simp [column]
  have n2 := refines_two h.incLat h.twoLat hy
  have m2 := refines_two h.incLon hlon hx
  have hm : OnAxes mid y' x' := ⟨by rw [mlat, hnn], by rw [mlon, hmm], by rw [hnn]; exact hy.inc, by rw [hmm]; exact hx.inc, by rw [hnn]; exact n2,
    by rw [hmm]; omega⟩
  obtain ⟨mid', e1', val1⟩ := C23_number_in_range g y x h (column n' y') (column m' x') none fill
  rw [e1] at e1'
  cases e1'
  obtain ⟨out, e2, val2⟩ := C23_number_in_range mid y' x' hm latOut lonOut none fill'
  obtain ⟨direct, e3, val3⟩ := C23_number_in_range g y x h latOut lonOut none fill
  refine ⟨mid, out, direct, e1, e2, e3, fun t hfin i j p q hp hq p0 p1 q0 q1 => ?_⟩
  rw [hnn, hmm] at val2
  choose! v hv using hfin
  have hnum : ∀ (p q : K) k l a b, InCell g.nlat y p k → InCell g.nlon x q l → (a = k ∨ a = k + 1) → (b = l ∨ b = l + 1) →
      IsNumber none (g.get t a b) (v a b) := by
    intro p q k l a b hk hl ha hb
    refine isNumber_none (hv a b ?_ ?_)
    · have := hk.1
      omega
    · have := hl.1
      omega
  -- the value at a point of the finer grid, from any cell of the coarse grid that contains it
  have hmid : ∀ a b k l, a < n' → b < m' → InCell g.nlat y (y' a) k → InCell g.nlon x (x' b) l → mid.get t a b =
      .fin (bilinear (v k l) (v k (l + 1)) (v (k + 1) l) (v (k + 1) (l + 1)) (frac y (y' a) k) (frac x (x' b) l)) := by
    intro a b k l ha hb hk hl
    obtain ⟨r, r1, r2, -⟩ := val1 t a b (y' a) (x' b) (by simp [column, ha]) (by simp [column, hb]) v (hnum _ _) k l hk hl
    rw [r1, r2]
  have hfine : ∀ a b, a < n' → b < m' → ∃ w, mid.get t a b = .fin w := by
    intro a b ha hb
    obtain ⟨k, hk⟩ := cell_of h.incLat h.twoLat (hy.range a ha).1 (hy.range a ha).2
    obtain ⟨l, hl⟩ := cell_of h.incLon hlon (hx.range b hb).1 (hx.range b hb).2
    exact ⟨_, hmid a b k l ha hb hk hl⟩
  choose! w hw using hfine
  obtain ⟨k', c1, c2, c3⟩ := cell_of hy.inc n2 ((refines_ends h.twoLat hy).1.trans p0) (p1.trans (refines_ends h.twoLat hy).2)
  obtain ⟨l', d1, d2, d3⟩ := cell_of hx.inc m2 ((refines_ends hlon hx).1.trans q0) (q1.trans (refines_ends hlon hx).2)
  obtain ⟨k, f1, f2, f3⟩ := coarse_cell h.incLat h.twoLat hy k' c1
  obtain ⟨l, g1, g2, g3⟩ := coarse_cell h.incLon hlon hx l' d1
  have ylt := hy.inc k' (k' + 1) (by omega) c1
  have xlt := hx.inc l' (l' + 1) (by omega) d1
  obtain ⟨r, r1, r2, -⟩ := val2 t i j p q hp hq w (fun a' b' a b ha hb h1 h2 => isNumber_none (hw a b (by have := ha.1; omega) (by have := hb.1; omega)))
    k' l' ⟨c1, c2, c3⟩ ⟨d1, d2, d3⟩
  obtain ⟨s, s1, s2, -⟩ := val3 t i j p q hp hq v (hnum p q) k l ⟨f1, f2.trans c2, c3.trans f3⟩ ⟨g1, g2.trans d2, d3.trans g3⟩
  have corner : ∀ a b, (a = k' ∨ a = k' + 1) → (b = l' ∨ b = l' + 1) → w a b =
      bilinear (v k l) (v k (l + 1)) (v (k + 1) l) (v (k + 1) (l + 1)) (frac y (y' a) k) (frac x (x' b) l) := by
    intro a b ha hb
    have ha' : a < n' := by omega
    have hb' : b < m' := by omega
    have e := hw a b ha' hb'
    rw [hmid a b k l ha' hb' ⟨f1, ?_, ?_⟩ ⟨g1, ?_, ?_⟩] at e
    · injection e with e
      exact e.symm
    · rcases ha with rfl | rfl <;> linarith
    · rcases ha with rfl | rfl <;> linarith
    · rcases hb with rfl | rfl <;> linarith
    · rcases hb with rfl | rfl <;> linarith
  refine ⟨s, ?_, s1⟩
  rw [r1]
  congr 1
  rw [r2, s2, corner k' l' (Or.inl rfl) (Or.inl rfl), corner k' (l' + 1) (Or.inl rfl) (Or.inr rfl), corner (k' + 1) l' (Or.inr rfl) (Or.inl rfl),
    corner (k' + 1) (l' + 1) (Or.inr rfl) (Or.inr rfl), frac_refine y y' p k k' (h.incLat k (k + 1) (by omega) f1) ylt,
    frac_refine x x' q l l' (h.incLon l (l + 1) (by omega) g1) xlt]
  unfold bilinear
  ring

/-- **C196, there and back.** From the finer grid back to the data's own latitudes and longitudes: the data. -/
theorem C196_there_and_back (g : GeoGrid K) (y x : ℕ → K) (h : OnAxes g y x) (hlon : 2 ≤ g.nlon) (n' m' : ℕ) (y' x' : ℕ → K) (hy : Refines g.nlat y n' y')
    (hx : Refines g.nlon x m' x') (fill fill' : Option (XF K)) :
    ∃ mid out, interpMultidim (.xr g) (column n' y') (column m' x') false none .linear fill = .ok (.dataArray, mid) ∧
      interpMultidim (.xr mid) g.lat g.lon false none .linear fill' = .ok (.dataArray, out) ∧
      ∀ t, (∀ a b, a < g.nlat → b < g.nlon → ∃ v, g.get t a b = .fin v) → ∀ i j, i < g.nlat → j < g.nlon → out.get t i j = g.get t i j := by
  obtain ⟨mid, out, direct, e1, e2, e3, hval⟩ := C196_through_finer g y x h hlon n' m' y' x' hy hx g.lat g.lon fill fill'
  obtain ⟨direct', e3', hnode⟩ := C25_nodes g y x h hlon g.lat g.lon none fill
  rw [e3] at e3'
  cases e3'
  refine ⟨mid, out, e1, e2, fun t hfin i j hi hj => ?_⟩
  have hp : g.lat[i]? = some (y i) := by rw [h.lat]; simp [column, hi]
  have hq : g.lon[j]? = some (x j) := by rw [h.lon]; simp [column, hj]
  obtain ⟨r, r1, r2⟩ := hval t hfin i j (y i) (x j) hp hq (axis_le h.incLat (Nat.zero_le _) hi) (axis_le h.incLat (by omega) (by have := h.twoLat; omega))
    (axis_le h.incLon (Nat.zero_le _) hj) (axis_le h.incLon (by omega) (by omega))
  rw [r1, ← r2]
  refine hnode t i j i j hi hj hp hq fun a b ha hb _ _ => ?_
  obtain ⟨v, hv⟩ := hfin a b ha hb
  exact ⟨v, isNumber_none hv⟩

/-! ### a case -/

/-- two latitudes, two longitudes -/
def refineGrid : GeoGrid ℚ := { lead := 0, nlat := 2, nlon := 2, get := fun _ i j => .fin (i + 3 * j), lat := [0, 10], lon := [0, 20] }

theorem refine_onAxes : OnAxes refineGrid (fun i => 10 * (i : ℚ)) (fun j => 20 * (j : ℚ)) where
  lat := by decide +kernel
  lon := by decide +kernel
  incLat := fun i j hij _ => by
    have : (i : ℚ) < j := by exact_mod_cast hij
    linarith
  incLon := fun i j hij _ => by
    have : (i : ℚ) < j := by exact_mod_cast hij
    linarith
  twoLat := le_rfl
  posLon := by decide

theorem refine_axis (c : ℚ) (hc : 0 < c) : Refines 2 (fun i => 2 * c * (i : ℚ)) 3 (fun i => c * (i : ℚ)) where
  inc := fun i j hij _ => mul_lt_mul_of_pos_left (by exact_mod_cast hij) hc
  nodes := fun k hk => ⟨2 * k, by omega, by push_cast; ring⟩
  range := fun a ha => by
    have h2 : (a : ℚ) ≤ 2 := by exact_mod_cast (by omega : a ≤ 2)
    have h0 : (0 : ℚ) ≤ a := by positivity
    norm_num
    constructor
    · positivity
    · nlinarith

/-- by way of latitudes 0, 5, 10 and longitudes 0, 10, 20 and back -/
example : ∃ mid out, interpMultidim (.xr refineGrid) (column 3 (fun i => 5 * (i : ℚ))) (column 3 (fun i => 10 * (i : ℚ))) false none .linear none =
      .ok (.dataArray, mid) ∧ interpMultidim (.xr mid) refineGrid.lat refineGrid.lon false none .linear none = .ok (.dataArray, out) ∧
      ∀ t, (∀ a b, a < 2 → b < 2 → ∃ v, refineGrid.get t a b = .fin v) → ∀ i j, i < 2 → j < 2 → out.get t i j = refineGrid.get t i j :=
  C196_there_and_back refineGrid _ _ refine_onAxes le_rfl 3 3 _ _
    (by have := refine_axis 5 (by norm_num); norm_num at this; exact this) (by have := refine_axis 10 (by norm_num); norm_num at this; exact this) none none

end Verif.Props
