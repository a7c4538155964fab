import Verif.Props.Multidim3
import Verif.Spec.Globe

/-
Property C137: with `cyclic=True` it does not matter where the longitudes of the grid start.
-/

set_option linter.unusedSectionVars false
namespace Verif.Lemmas
open Model Spec Props
variable {K : Type _} [Field K] [LinearOrder K] [IsStrictOrderedRing K]

theorem around_add (n : ℕ) (hn : 1 ≤ n) (x : ℕ → K) (j m : ℤ) : around n x (j + n * m) = around n x j + 360 * (m : K) := by
  have h0 : (n : ℤ) ≠ 0 := by omega
  unfold around
  rw [Int.add_mul_emod_self_left, Int.add_mul_ediv_left _ _ h0]
  push_cast
  ring

theorem around_nat (n : ℕ) (x : ℕ → K) (j : ℕ) (h : j < n) : around n x j = x j := by
  unfold around
  rw [Int.emod_eq_of_lt (by omega) (by omega), Int.ediv_eq_zero_of_lt (by omega) (by omega)]
  simp

theorem around_strictMono (n : ℕ) (hn : 1 ≤ n) (x : ℕ → K) (h : IncAxis n x) (hspan : x (n - 1) - x 0 < 360) : StrictMono (around n x) := by
  apply strictMono_int_of_lt_succ
  intro j
  have hd := Int.emod_add_mul_ediv j n
  have h1 := Int.emod_nonneg j (show (n : ℤ) ≠ 0 by omega)
  have h2 := Int.emod_lt_of_pos j (show (0 : ℤ) < n by omega)
  set r := j % (n : ℤ) with hr
  set q := j / (n : ℤ) with hq
  obtain ⟨k, hk⟩ := Int.eq_ofNat_of_zero_le h1
  have e1 : around n x j = x k + 360 * (q : K) := by
    rw [← hd, around_add n hn, hk, around_nat n x k (by omega)]
  rw [e1]
  by_cases hlast : k + 1 < n
  · have e2 : around n x (j + 1) = x (k + 1) + 360 * (q : K) := by
      rw [show j + 1 = ((k + 1 : ℕ) : ℤ) + n * q by push_cast; omega, around_add n hn, around_nat n x (k + 1) hlast]
    rw [e2]
    have := h k (k + 1) (by omega) hlast
    linarith
  · have e2 : around n x (j + 1) = x 0 + 360 * ((q + 1 : ℤ) : K) := by
      rw [show j + 1 = ((0 : ℕ) : ℤ) + n * (q + 1) by push_cast; rw [mul_add]; omega, around_add n hn, around_nat n x 0 (by omega)]
    rw [e2, show k = n - 1 by omega]
    push_cast
    linarith

theorem paddedLon_around (n : ℕ) (hn : 1 ≤ n) (x : ℕ → K) (k : ℕ) (hk : k < n + 2) : paddedLon n x k = around n x ((k : ℤ) - 1) := by
  unfold paddedLon
  split_ifs with h1 h2
  · subst h1
    rw [show (((0 : ℕ) : ℤ) - 1) = ((n - 1 : ℕ) : ℤ) + n * (-1) by push_cast [Nat.cast_sub hn]; ring, around_add n hn, around_nat n x _ (by omega)]
    push_cast; ring
  · subst h2
    rw [show (((n + 1 : ℕ) : ℤ) - 1) = ((0 : ℕ) : ℤ) + n * 1 by push_cast; ring, around_add n hn, around_nat n x _ (by omega)]
    push_cast; ring
  · rw [show ((k : ℤ) - 1) = ((k - 1 : ℕ) : ℤ) by omega, around_nat n x _ (by omega)]

theorem paddedCol_around (n : ℕ) (hn : 1 ≤ n) (k : ℕ) (hk : k < n + 2) : paddedCol n k = (((k : ℤ) - 1) % (n : ℤ)).toNat := by
  unfold paddedCol
  split_ifs with h1 h2
  · subst h1
    rw [show (((0 : ℕ) : ℤ) - 1) = ((n - 1 : ℕ) : ℤ) + n * (-1) by push_cast [Nat.cast_sub hn]; ring, Int.add_mul_emod_self_left,
      Int.emod_eq_of_lt (by omega) (by omega)]
    simp
  · subst h2
    rw [show (((n + 1 : ℕ) : ℤ) - 1) = ((0 : ℕ) : ℤ) + n * 1 by push_cast; ring, Int.add_mul_emod_self_left,
      Int.emod_eq_of_lt (by omega) (by omega)]
    simp
  · rw [show ((k : ℤ) - 1) = ((k - 1 : ℕ) : ℤ) by omega, Int.emod_eq_of_lt (by omega) (by omega)]
    simp

theorem around_roll (n : ℕ) (hn : 1 ≤ n) (x x' : ℕ → K) (d : ℤ) (h : ∀ j < n, x' j = around n x (j + d)) (j : ℤ) :
    around n x' j = around n x (j + d) := by
  have hd := Int.emod_add_mul_ediv j n
  have h1 := Int.emod_nonneg j (show (n : ℤ) ≠ 0 by omega)
  have h2 := Int.emod_lt_of_pos j (show (0 : ℤ) < n by omega)
  obtain ⟨k, hk⟩ := Int.eq_ofNat_of_zero_le h1
  rw [hk] at h2 hd
  have hk' : k < n := by omega
  rw [show j + d = ((k : ℤ) + d) + n * (j / n) by omega, around_add n hn, ← h k hk']
  conv_lhs => rw [← hd]
  rw [around_add n hn, around_nat n x' k hk']

/-- value at `q` between two neighbouring points -/
def cellValue (m : GridMethod) (x0 x1 : K) (y0 y1 : XF K) (q : K) : XF K :=
  match m with
  | .linear => seg x0 x1 y0 y1 q
  | .nearest => if (x0 + x1) / 2 < q then y1 else y0

theorem cellValue_shift (m : GridMethod) (x0 x1 : K) (y0 y1 : XF K) (q s : K) :
    cellValue m (x0 + s) (x1 + s) y0 y1 (q + s) = cellValue m x0 x1 y0 y1 q := by
  cases m with
  | linear =>
    simp only [cellValue, seg]
    rw [show x1 + s - (x0 + s) = x1 - x0 by ring, show q + s - (x0 + s) = q - x0 by ring]
  | nearest =>
    simp only [cellValue]
    refine if_congr ?_ rfl rfl
    constructor <;> intro hh <;> linarith

theorem interpAxis_cellValue (m : GridMethod) (fill : Option (XF K)) (n : ℕ) (x : ℕ → K) (y : ℕ → XF K) (h : IncAxis n x) (q : K) (k : ℕ)
    (hk : k + 1 < n) (hl : x k < q) (hr : q ≤ x (k + 1)) :
    interpAxis m fill (column n x) (column n y) q = cellValue m (x k) (x (k + 1)) (y k) (y (k + 1)) q := by
  cases m with
  | linear => exact interpAxis_cell fill n x y h q k hk (Or.inl hl) hr
  | nearest => exact interpAxis_nearest_cell fill n x h q k hk hl.le hr y

/-- a row of the padded grid at a longitude between two neighbouring points of the globe -/
theorem row_globe (m : GridMethod) (fill : Option (XF K)) (n : ℕ) (hn : 1 ≤ n) (x : ℕ → K) (h : IncAxis n x) (hspan : x (n - 1) - x 0 < 360)
    (f : ℕ → ℕ → XF K) (q : K) (k : ℤ) (hk0 : -1 ≤ k) (hk1 : k < n) (hl : around n x k < q) (hr : q ≤ around n x (k + 1)) (r : ℕ) :
    rowAt m fill (n + 2) (paddedLon n x) (fun r c => f r (paddedCol n c)) q r =
      cellValue m (around n x k) (around n x (k + 1)) (f r (k % (n : ℤ)).toNat) (f r ((k + 1) % (n : ℤ)).toNat) q := by
  have hinc := paddedLon_inc n hn x h hspan
  obtain ⟨l, hl'⟩ := Int.eq_ofNat_of_zero_le (show 0 ≤ k + 1 by omega)
  have hkl : k = (l : ℤ) - 1 := by omega
  have e0 := paddedLon_around n hn x l (by omega)
  have e1 := paddedLon_around n hn x (l + 1) (by omega)
  have c0 := paddedCol_around n hn l (by omega)
  have c1 := paddedCol_around n hn (l + 1) (by omega)
  rw [← hkl] at e0 c0
  rw [show (((l + 1 : ℕ) : ℤ) - 1) = k + 1 by push_cast; omega] at e1 c1
  unfold rowAt
  rw [interpAxis_cellValue m fill _ _ _ hinc q l (by omega) (by rw [e0]; exact hl) (by rw [e1]; exact hr), e0, e1]
  simp only [c0, c1]

end Verif.Lemmas

namespace Verif.Props
open Model Spec Lemmas
variable {K : Type _} [Field K] [LinearOrder K] [IsStrictOrderedRing K]

/-- **C137.** Two grids with the same data on the same globe, the second starting `d` points further east (for instance 0..360 and
-180..180): with `cyclic=True` the results at a longitude of the first and at the same longitude, up to whole turns, of the second agree,
wherever both lie beyond the left end of the padded axis and not beyond its right end; for both methods and all data, missing values
included. -/
theorem C137_seam (g g' : GeoGrid K) (y x x' : ℕ → K) (h : OnAxes g y x) (h' : OnAxes g' y x') (h2d : g.lead = 0) (h2d' : g'.lead = 0)
    (hspan : x (g.nlon - 1) - x 0 < 360) (d : ℤ) (hg : SameGlobe g g' x x' d) (latOut lonOut lonOut' : List K) (missing : Option (XF K))
    (meth : GridMethod) (fill : Option (XF K)) :
    ∃ out out', interpMultidim (.xr g) latOut lonOut true missing meth fill = .ok (.dataArray, out) ∧
      interpMultidim (.xr g') latOut lonOut' true missing meth fill = .ok (.dataArray, out') ∧
      ∀ t i j j' p q (m : ℤ), latOut[i]? = some p → lonOut[j]? = some q → lonOut'[j']? = some (q + 360 * (m : K)) →
        x (g.nlon - 1) - 360 < q → q ≤ x 0 + 360 → x' (g.nlon - 1) - 360 < q + 360 * (m : K) → q + 360 * (m : K) ≤ x' 0 + 360 →
        out.get t i j = out'.get t i j' := by
  obtain ⟨out, h1, h2⟩ := cyclic_eq g y x h h2d latOut lonOut missing meth fill
  obtain ⟨out', h1', h2'⟩ := cyclic_eq g' y x' h' h2d' latOut lonOut' missing meth fill
  refine ⟨out, out', h1, h1', fun t i j j' p q m hp hq hq' a1 a2 b1 b2 => ?_⟩
  rw [h2 t i j p q hp hq, h2' t i j' p _ hp hq', hg.nlat, hg.nlon]
  congr 2
  unfold column
  refine List.map_congr_left fun r _ => ?_
  have hn := h.posLon
  set n := g.nlon with hndef
  have hinc' : IncAxis n x' := by have := h'.incLon; rwa [hg.nlon] at this
  have mono := around_strictMono n hn x h.incLon hspan
  have roll := around_roll n hn x x' d hg.lon
  have hspan' : x' (n - 1) - x' 0 < 360 := by
    have l1 := roll ((n - 1 : ℕ) : ℤ)
    have l2 := roll ((0 : ℕ) : ℤ)
    rw [around_nat n x' _ (by omega)] at l1 l2
    have l3 := mono (show ((n - 1 : ℕ) : ℤ) + d < (((0 : ℕ) : ℤ) + d) + n * 1 by push_cast [Nat.cast_sub hn]; omega)
    rw [around_add n hn] at l3
    push_cast at l3
    rw [l1, l2]
    push_cast
    linarith
  have hpinc := paddedLon_inc n hn x' hinc' hspan'
  have p0 : paddedLon n x' 0 = x' (n - 1) - 360 := by simp [paddedLon]
  have pn1 : paddedLon n x' (n + 2 - 1) = x' 0 + 360 := by simp [paddedLon]
  obtain ⟨l, l1, l2, l3⟩ := exists_cell (n + 2) (by omega) (paddedLon n x') hpinc (q + 360 * (m : K)) (by rw [p0]; exact b1.le) (by rw [pn1]; exact b2)
  have l2 : paddedLon n x' l < q + 360 * (m : K) := by
    rcases l2 with hh | ⟨rfl, -⟩
    · exact hh
    · rw [p0]; exact b1
  rw [paddedLon_around n hn x' l (by omega), roll] at l2
  rw [paddedLon_around n hn x' (l + 1) (by omega), roll] at l3
  set k : ℤ := (l : ℤ) - 1 + d - n * m with hk
  have s0 : around n x ((l : ℤ) - 1 + d) = around n x k + 360 * (m : K) := by
    rw [← around_add n hn]; congr 1; omega
  have s1 : around n x (((l + 1 : ℕ) : ℤ) - 1 + d) = around n x (k + 1) + 360 * (m : K) := by
    rw [← around_add n hn]; congr 1; push_cast; omega
  rw [s0] at l2
  rw [s1] at l3
  have k0 : -1 ≤ k := by
    have e : around n x (-1) = x (n - 1) - 360 := by
      have := paddedLon_around n hn x 0 (by omega)
      simp only [Nat.cast_zero, zero_sub] at this
      rw [← this]; simp [paddedLon]
    have : around n x (-1) < around n x (k + 1) := by rw [e]; linarith
    have := mono.lt_iff_lt.mp this
    omega
  have k1 : k < n := by
    have e : around n x n = x 0 + 360 := by
      have := paddedLon_around n hn x (n + 1) (by omega)
      rw [show (((n + 1 : ℕ) : ℤ) - 1) = n by push_cast; ring] at this
      rw [← this]; simp [paddedLon]
    have : around n x k < around n x n := by rw [e]; linarith
    exact mono.lt_iff_lt.mp this
  rw [row_globe meth fill n hn x h.incLon hspan (fun r c => maskVal missing (g.get t r c)) q k k0 k1 (by linarith) (by linarith) r]
  have hrow := row_globe meth fill n hn x' hinc' hspan' (fun r c => maskVal missing (g'.get t r c)) (q + 360 * (m : K)) ((l : ℤ) - 1) (by omega) (by omega)
    (by rw [roll, s0]; exact l2) (by rw [roll, show (l : ℤ) - 1 + 1 + d = ((l + 1 : ℕ) : ℤ) - 1 + d by push_cast; ring, s1]; exact l3) r
  rw [hrow, roll, roll, s0, show (l : ℤ) - 1 + 1 + d = ((l + 1 : ℕ) : ℤ) - 1 + d by push_cast; ring, s1, cellValue_shift]
  have hcol : ∀ z : ℤ, g'.get t r (z % (n : ℤ)).toNat = g.get t r ((z + d) % (n : ℤ)).toNat := by
    intro z
    have z1 := Int.emod_nonneg z (show (n : ℤ) ≠ 0 by omega)
    have z2 := Int.emod_lt_of_pos z (show (0 : ℤ) < n by omega)
    rw [hg.get t r _ (by omega), Int.toNat_of_nonneg z1, Int.emod_add_emod]
  beta_reduce
  rw [hcol, hcol]
  have m0 : ((l : ℤ) - 1 + d) % (n : ℤ) = k % (n : ℤ) := by
    rw [show (l : ℤ) - 1 + d = k + n * m by omega, Int.add_mul_emod_self_left]
  have m1 : ((l : ℤ) - 1 + 1 + d) % (n : ℤ) = (k + 1) % (n : ℤ) := by
    rw [show (l : ℤ) - 1 + 1 + d = k + 1 + n * m by omega, Int.add_mul_emod_self_left]
  rw [m0, m1]

/-- four longitudes from 0 to 270, and the same grid from -180 to 90 -/
def eastGrid : GeoGrid ℚ where
  lead := 0
  nlat := 2
  nlon := 4
  lat := [0, 1]
  lon := [0, 90, 180, 270]
  get := fun _ i j => .fin (i + 7 * j)

/-- the same grid starting at -180 -/
def westGrid : GeoGrid ℚ where
  lead := 0
  nlat := 2
  nlon := 4
  lat := [0, 1]
  lon := [-180, -90, 0, 90]
  get := fun _ i j => .fin (i + 7 * ((j + 2) % 4 : ℕ))

example : OnAxes eastGrid (fun k => (k : ℚ)) (fun k => 90 * (k : ℚ)) ∧ OnAxes westGrid (fun k => (k : ℚ)) (fun k => 90 * (k : ℚ) - 180) ∧
    (90 * ((eastGrid.nlon - 1 : ℕ) : ℚ)) - 90 * ((0 : ℕ) : ℚ) < 360 ∧
    SameGlobe eastGrid westGrid (fun k => 90 * (k : ℚ)) (fun k => 90 * (k : ℚ) - 180) (-2) ∧
    -- 225 east is 135 west
    (90 * (3 : ℚ) - 360 < 225 ∧ (225 : ℚ) ≤ 0 + 360 ∧ (90 - 360 : ℚ) < 225 + 360 * ((-1 : ℤ) : ℚ) ∧ (225 : ℚ) + 360 * ((-1 : ℤ) : ℚ) ≤ -180 + 360) := by
  refine ⟨⟨by decide +kernel, by decide +kernel, ?_, ?_, by decide, by decide⟩, ⟨by decide +kernel, by decide +kernel, ?_, ?_, by decide, by decide⟩,
    by decide +kernel, ⟨rfl, rfl, ?_, ?_⟩, by norm_num⟩
  iterate 4
    intro i j hij _
    have : (i : ℚ) < j := by exact_mod_cast hij
    simp only
    linarith
  · intro j hj
    have hj : j < 4 := hj
    rcases (by omega : j = 0 ∨ j = 1 ∨ j = 2 ∨ j = 3) with rfl | rfl | rfl | rfl <;> decide +kernel
  · intro t i j hj
    have hj : j < 4 := hj
    rcases (by omega : j = 0 ∨ j = 1 ∨ j = 2 ∨ j = 3) with rfl | rfl | rfl | rfl <;> rfl

end Verif.Props
