import Verif.Props.MultidimLinear

/-
Property C224: horizontal interpolation does not amplify errors of the data; extrapolation does.
-/

set_option linter.unusedSectionVars false

namespace Verif.Spec
variable {K : Type _} [Field K] [LinearOrder K] [IsStrictOrderedRing K]

/-- both missing, or numbers that differ by at most `ε` -/
def CloseVal (ε : K) (u v : XF K) : Prop := (u = .nan ∧ v = .nan) ∨ ∃ r s, u = .fin r ∧ v = .fin s ∧ |r - s| ≤ ε

end Verif.Spec

namespace Verif.Props
open Model Spec Lemmas
variable {K : Type _} [Field K] [LinearOrder K] [IsStrictOrderedRing K]

namespace MultidimError

theorem seg_close (ε x0 x1 : K) (h : x0 < x1) (u0 v0 u1 v1 : XF K) (q : K) (hq0 : x0 ≤ q) (hq1 : q ≤ x1) (h0 : CloseVal ε u0 v0)
    (h1 : CloseVal ε u1 v1) : CloseVal ε (seg x0 x1 u0 u1 q) (seg x0 x1 v0 v1 q) := by
  rcases h0 with ⟨rfl, rfl⟩ | ⟨r0, s0, rfl, rfl, a0⟩
  · exact Or.inl ⟨seg_nan _ _ _ _ _ (Or.inl rfl), seg_nan _ _ _ _ _ (Or.inl rfl)⟩
  rcases h1 with ⟨rfl, rfl⟩ | ⟨r1, s1, rfl, rfl, a1⟩
  · exact Or.inl ⟨seg_nan _ _ _ _ _ (Or.inr rfl), seg_nan _ _ _ _ _ (Or.inr rfl)⟩
  refine Or.inr ⟨_, _, seg_fin _ _ _ _ _ h, seg_fin _ _ _ _ _ h, ?_⟩
  have hd : 0 < x1 - x0 := sub_pos.mpr h
  have f0 : 0 ≤ (q - x0) / (x1 - x0) := div_nonneg (by linarith) hd.le
  have f1 := sub_nonneg.mpr ((div_le_one hd).mpr (by linarith) : (q - x0) / (x1 - x0) ≤ 1)
  obtain ⟨b0, c0⟩ := abs_le.mp a0
  obtain ⟨b1, c1⟩ := abs_le.mp a1
  have := mul_le_mul_of_nonneg_left b0 f1
  have := mul_le_mul_of_nonneg_left c0 f1
  have := mul_le_mul_of_nonneg_left b1 f0
  have := mul_le_mul_of_nonneg_left c1 f0
  rw [abs_le]
  constructor <;> linarith

theorem axis_close (ε : K) (m : GridMethod) (n : ℕ) (hn : 2 ≤ n) (x : ℕ → K) (h : IncAxis n x) (q : K) (u v : ℕ → XF K)
    (hc : ∀ k < n, CloseVal ε (u k) (v k)) :
    CloseVal ε (interpAxis m (some .nan) (column n x) (column n u) q) (interpAxis m (some .nan) (column n x) (column n v) q) := by
  rcases interpAxis_form m (some .nan) n hn x h q with ⟨f, hf, hv⟩ | ⟨k, hk, hv⟩ | ⟨k, hk, hin, hv⟩
  · cases hf
    rw [hv, hv]
    exact Or.inl ⟨rfl, rfl⟩
  · rw [hv, hv]; exact hc k hk
  · rw [hv, hv]
    obtain ⟨i0, i1⟩ := hin (by simp)
    exact seg_close ε _ _ (h k (k + 1) (by omega) hk) _ _ _ _ q i0 i1 (hc k (by omega)) (hc (k + 1) hk)

end MultidimError

open MultidimError

/-- **C224.** If two sets of data on one grid are missing at the same points and differ by at most `ε` elsewhere, then with the default
fill value the same holds for their results, for both methods, with and without `cyclic=True`. -/
theorem C224_error (gu gv : GeoGrid K) (y x : ℕ → K) (hu : OnAxes gu y x) (hv : OnAxes gv y x)
    (hsv : gv.nlat = gu.nlat ∧ gv.nlon = gu.nlon ∧ gv.lead = gu.lead) (cyclic : Bool) (hl : LonFits cyclic gu x) (ε : K)
    (hc : ∀ t i j, i < gu.nlat → j < gu.nlon → CloseVal ε (gu.get t i j) (gv.get t i j)) (latOut lonOut : List K) (m : GridMethod) :
    ∃ ou ov, interpMultidim (.xr gu) latOut lonOut cyclic none m (some .nan) = .ok (.dataArray, ou) ∧
      interpMultidim (.xr gv) latOut lonOut cyclic none m (some .nan) = .ok (.dataArray, ov) ∧
      ∀ t i j, i < latOut.length → j < lonOut.length → CloseVal ε (ou.get t i j) (ov.get t i j) := by
  obtain ⟨N, X, col, hN, hX, hcol, hall⟩ := result_form cyclic gu y x hu hl latOut lonOut m (some .nan)
  obtain ⟨ou, u1, u2⟩ := hall gu rfl rfl rfl hu
  obtain ⟨ov, v1, v2⟩ := hall gv hsv.1 hsv.2.1 hsv.2.2 hv
  refine ⟨ou, ov, u1, v1, fun t i j hi hj => ?_⟩
  have hp := List.getElem?_eq_getElem hi
  have hq := List.getElem?_eq_getElem hj
  rw [u2 t i j _ _ hp hq, v2 t i j _ _ hp hq]
  refine axis_close ε m gu.nlat hu.twoLat y hu.incLat _ _ _ fun r hr => ?_
  exact axis_close ε m N hN X hX _ _ _ fun c hc' => hc t r (col c) hr (hcol c hc')

/-- the hypotheses of `C224_error` hold for data with a missing value and errors of one half -/
example :
    let U := quarterGrid (fun i j => if i = 1 ∧ j = 2 then .nan else .fin (i + j))
    let V := quarterGrid (fun i j => if i = 1 ∧ j = 2 then .nan else .fin (i + j + (if i = 0 then 1 / 2 else -1 / 2)))
    OnAxes U (fun k => (k : ℚ)) (fun k => 90 * (k : ℚ)) ∧ OnAxes V (fun k => (k : ℚ)) (fun k => 90 * (k : ℚ)) ∧
      LonFits true U (fun k => 90 * (k : ℚ)) ∧ LonFits false U (fun k => 90 * (k : ℚ)) ∧
      ∀ t i j, CloseVal (1 / 2) (U.get t i j) (V.get t i j) := by
  refine ⟨quarterGrid_axes _, quarterGrid_axes _, ⟨rfl, by norm_num [quarterGrid]⟩, by norm_num [LonFits, quarterGrid], fun t i j => ?_⟩
  simp only [quarterGrid]
  by_cases hh : i = 1 ∧ j = 2
  · rw [if_pos hh, if_pos hh]; exact Or.inl ⟨rfl, rfl⟩
  · rw [if_neg hh, if_neg hh]
    refine Or.inr ⟨_, _, rfl, rfl, ?_⟩
    rw [abs_le]
    split_ifs <;> constructor <;> linarith

/-- **C224** is false with `fill_value="extrapolate"`: an error of 1 at the grid points becomes an error of 5 two rows outside. -/
theorem C224_extrapolation_counterexample :
    let U := quarterGrid (fun _ _ => .fin 0)
    let V := quarterGrid (fun i _ => .fin (if i = 0 then -1 else 1))
    (∀ t i j, CloseVal 1 (U.get t i j) (V.get t i j)) ∧
    ∃ ou ov, interpMultidim (.xr U) [3] [90] false none .linear none = .ok (.dataArray, ou) ∧
      interpMultidim (.xr V) [3] [90] false none .linear none = .ok (.dataArray, ov) ∧ ou.get [] 0 0 = .fin 0 ∧ ov.get [] 0 0 = .fin 5 := by
  intro U V
  refine ⟨fun t i j => Or.inr ⟨_, _, rfl, rfl, ?_⟩, ?_⟩
  · rw [abs_le]
    split_ifs <;> constructor <;> norm_num
  · exact ⟨_, _, rfl, rfl, by decide +kernel, by decide +kernel⟩

end Verif.Props
