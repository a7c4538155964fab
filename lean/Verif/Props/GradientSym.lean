import Verif.Props.Gradient2
import Mathlib.Analysis.Real.Pi.Bounds

/-
Property C140: gradient does not depend on where longitudes are counted from, and treats north and south, east and west alike.
-/

set_option linter.unusedSectionVars false
namespace Verif.Props
open Model.Gradient Spec.Gradient Lemmas.Gradient

theorem arcLon_neg_lat (lon lat : ℝ) : arcLon lon (-lat) = arcLon lon lat := by
  unfold arcLon
  rw [(C74_radius_even_positive lat).1, neg_mul, Real.cos_neg]

theorem arcLon_neg_lon (lon lat : ℝ) : arcLon (-lon) lat = -arcLon lon lat := by
  unfold arcLon
  ring

theorem diffAt_shift (n : ℕ) (f : ℕ → ℝ) (s : ℝ) (i : ℕ) : diffAt halfR n (fun v => f v + s) i = diffAt halfR n f i := by
  unfold diffAt
  split_ifs <;> first | ring | (congr 1; ring)

/-- **C140, origin of longitude** (partial). Counting longitudes from another meridian does not change the gradients, for all data, if the
latitude is the same along each row. Missing: latitudes that change along a row (`C140_counterexample`). -/
theorem C140_origin_partial (data : Data) (hk : data.kind ≠ .dataset) {r c : ℕ} (hr : 2 ≤ r) (hc : 2 ≤ c) (hs : data.val.shape = [r, c])
    (lon : ℕ → ℕ → ℝ) (lat : ℕ → ℝ) (s : ℝ) :
    ∃ a b a' b', gradient data (some (grid r c lon)) (some (grid r c (fun i _ => lat i))) = .ok [a, b] ∧
      gradient data (some (grid r c (fun i j => lon i j + s))) (some (grid r c (fun i _ => lat i))) = .ok [a', b'] ∧
      ∀ i j, i < r → j < c → a'.val.get [i, j] = a.val.get [i, j] ∧ b'.val.get [i, j] = b.val.get [i, j] := by
  obtain ⟨a, b, h, -, -, -, -, hv⟩ := gradient_2d data hk hr hc hs (grid r c lon) (grid r c (fun i _ => lat i)) rfl rfl
  obtain ⟨a', b', h', -, -, -, -, hv'⟩ := gradient_2d data hk hr hc hs (grid r c (fun i j => lon i j + s)) (grid r c (fun i _ => lat i)) rfl rfl
  refine ⟨a, b, a', b', h, h', fun i j hi hj => ⟨?_, ?_⟩⟩
  · rw [(hv i j hi hj).1, (hv' i j hi hj).1]
  · rw [(hv i j hi hj).2, (hv' i j hi hj).2]
    congr 2
    have e : (fun v => arcLon ((grid r c (fun i j => lon i j + s)).get [i, v]) ((grid r c (fun i _ => lat i)).get [i, v])) =
        fun v => arcLon ((grid r c lon).get [i, v]) ((grid r c (fun i _ => lat i)).get [i, v]) + arcLon s (lat i) := by
      funext v
      simp only [grid, List.getD_cons_zero, List.getD_cons_succ, arcLon]
      ring
    rw [e, diffAt_shift]

/-- latitudes that change along the rows -/
noncomputable def slantLat (i j : ℕ) : ℝ := if j = 0 then (i : ℝ) else 60 + i
/-- longitudes 0 and 1, also used as data -/
noncomputable def slantLon (_ j : ℕ) : ℝ := (j : ℝ)

/-- **C140** is false where the latitude changes along a row: the longitudinal distance between two points is computed as the difference of
`longitude * cos(latitude)`, which depends on where longitudes are counted from. -/
theorem C140_counterexample :
    ∃ (f lon lat : ℕ → ℕ → ℝ) (s : ℝ) (a b a' b' : Result),
      gradient (field .numpy 2 2 f) (some (grid 2 2 lon)) (some (grid 2 2 lat)) = .ok [a, b] ∧
      gradient (field .numpy 2 2 f) (some (grid 2 2 (fun i j => lon i j + s))) (some (grid 2 2 lat)) = .ok [a', b'] ∧
      b'.val.get [0, 0] ≠ b.val.get [0, 0] := by
  obtain ⟨a, b, h, -, -, -, -, hv⟩ := gradient_2d (field .numpy 2 2 slantLon) (by simp [field]) (le_refl 2) (le_refl 2) rfl (grid 2 2 slantLon) (grid 2 2 slantLat) rfl rfl
  obtain ⟨a', b', h', -, -, -, -, hv'⟩ := gradient_2d (field .numpy 2 2 slantLon) (by simp [field]) (le_refl 2) (le_refl 2) rfl
    (grid 2 2 (fun i j => slantLon i j + 1)) (grid 2 2 slantLat) rfl rfl
  refine ⟨slantLon, slantLon, slantLat, 1, a, b, a', b', h, h', ?_⟩
  rw [(hv 0 0 (by norm_num) (by norm_num)).2, (hv' 0 0 (by norm_num) (by norm_num)).2]
  have num : diffAt halfX 2 (fun v => (field .numpy 2 2 slantLon).val.get [0, v]) 0 = .fin 1 := by
    simp [diffAt, field, grid, slantLon]
  have d1 : diffAt halfR 2 (fun v => arcLon ((grid 2 2 slantLon).get [0, v]) ((grid 2 2 slantLat).get [0, v])) 0 = arcLon 1 60 := by
    simp [diffAt, grid, slantLon, slantLat, arcLon]
  have d2 : diffAt halfR 2 (fun v => arcLon ((grid 2 2 (fun i j => slantLon i j + 1)).get [0, v]) ((grid 2 2 slantLat).get [0, v])) 0 =
      2 * arcLon 1 60 - arcLon 1 0 := by
    simp [diffAt, grid, slantLon, slantLat, arcLon]; ring
  rw [num, d1, d2]
  have hd : (0 : ℝ) < d2r := by unfold d2r; norm_num
  have x1 : 1 < 60 * d2r := by unfold d2r; norm_num
  have x2 : 60 * d2r < 1.1 := by unfold d2r; norm_num
  have hpi := Real.pi_gt_three
  have hcos : Real.cos (60 * d2r) < 5 / 9 := lt_of_lt_of_le (Real.cos_lt_cos_of_nonneg_of_le_pi (by norm_num) (by linarith) x1) Real.cos_one_le
  have hcos0 : 0 < Real.cos (60 * d2r) := Real.cos_pos_of_mem_Ioo ⟨by linarith, by linarith⟩
  obtain ⟨r1, r2⟩ := (C74_radius_even_positive 60).2 (by norm_num)
  obtain ⟨r3, r4⟩ := (C74_radius_even_positive 0).2 (by norm_num)
  have a60 : arcLon 1 60 < arcLon 1 0 := by
    unfold arcLon
    rw [zero_mul, Real.cos_zero]
    have : radLat 60 * Real.cos (60 * d2r) < radLat 0 := by nlinarith
    nlinarith
  have a60p : 0 < arcLon 1 60 := by
    unfold arcLon
    have : 0 < radLat 60 := by linarith
    positivity
  intro hcon
  rw [XF.fin_div 1 _ a60p.ne'] at hcon
  by_cases hz : 2 * arcLon 1 60 - arcLon 1 0 = 0
  · rw [hz, XF.fin_div_zero] at hcon
    unfold XF.signInf at hcon
    rw [if_pos one_pos] at hcon
    cases hcon
  · rw [XF.fin_div 1 _ hz] at hcon
    have := XF.fin.inj hcon
    rw [div_eq_div_iff hz a60p.ne'] at this
    linarith

/-- **C140, north and south.** Turning all latitudes round the equator changes the sign of the latitudinal gradient and nothing else. -/
theorem C140_south (k : DataKind) (hk : k ≠ .dataset) {r c : ℕ} (hr : 2 ≤ r) (hc : 2 ≤ c) (f lon lat : ℕ → ℕ → ℝ) (hs : Spaced r c lon lat) :
    ∃ x y, Gives (gradient (field k r c f) (some (grid r c lon)) (some (grid r c lat))) r c x y ∧
      Gives (gradient (field k r c f) (some (grid r c lon)) (some (grid r c (fun i j => -lat i j)))) r c (fun i j => -x i j) y := by
  refine ⟨_, _, C75_difference_quotients k hk hr hc f lon lat hs, ?_⟩
  have hs' : Spaced r c lon (fun i j => -lat i j) := by
    intro i j hi hj
    obtain ⟨h1, h2⟩ := hs i j hi hj
    simp only [arcLon_neg_lat, (C74_arc_odd _).1]
    exact ⟨fun hh => h1 (neg_injective hh), h2⟩
  have h := C75_difference_quotients k hk hr hc f lon (fun i j => -lat i j) hs'
  have e1 : ∀ i j, quotient r (fun v => f v j) (fun v => arcLat (-lat v j)) i = -quotient r (fun v => f v j) (fun v => arcLat (lat v j)) i := by
    intro i j
    simp only [quotient, (C74_arc_odd _).1]
    rw [← neg_sub', div_neg]
  simp only [e1, arcLon_neg_lat] at h
  exact h

/-- **C140, east and west.** Turning all longitudes round changes the sign of the longitudinal gradient and nothing else. -/
theorem C140_west (k : DataKind) (hk : k ≠ .dataset) {r c : ℕ} (hr : 2 ≤ r) (hc : 2 ≤ c) (f lon lat : ℕ → ℕ → ℝ) (hs : Spaced r c lon lat) :
    ∃ x y, Gives (gradient (field k r c f) (some (grid r c lon)) (some (grid r c lat))) r c x y ∧
      Gives (gradient (field k r c f) (some (grid r c (fun i j => -lon i j))) (some (grid r c lat))) r c x (fun i j => -y i j) := by
  refine ⟨_, _, C75_difference_quotients k hk hr hc f lon lat hs, ?_⟩
  have hs' : Spaced r c (fun i j => -lon i j) lat := by
    intro i j hi hj
    obtain ⟨h1, h2⟩ := hs i j hi hj
    simp only [arcLon_neg_lon]
    exact ⟨h1, fun hh => h2 (neg_injective hh)⟩
  have h := C75_difference_quotients k hk hr hc f (fun i j => -lon i j) lat hs'
  have e1 : ∀ i j, quotient c (fun v => f i v) (fun v => arcLon (-lon i v) (lat i v)) j = -quotient c (fun v => f i v) (fun v => arcLon (lon i v) (lat i v)) j := by
    intro i j
    simp only [quotient, arcLon_neg_lon]
    rw [← neg_sub', div_neg]
  simp only [e1] at h
  exact h

/-- a 3 by 4 grid around the equator, longitudes counted from 0 and from -180 -/
example : Spaced 3 4 (fun _ j => 90 * (j : ℝ)) (fun i _ => 10 * (i : ℝ) - 10) := by
  apply spaced_of_monotone (by norm_num) (by norm_num) (fun j => 90 * (j : ℝ)) (fun i => 10 * (i : ℝ) - 10)
  · intro i hi
    have : (i : ℝ) ≤ 2 := by exact_mod_cast Nat.lt_succ_iff.mp hi
    constructor <;> linarith [Nat.cast_nonneg (α := ℝ) i]
  · left; intro i i' h _
    have : (i : ℝ) < i' := by exact_mod_cast h
    linarith
  · left; intro i i' h _
    have : (i : ℝ) < i' := by exact_mod_cast h
    linarith

end Verif.Props
