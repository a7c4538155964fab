import Verif.Props.DeltaPressure
import Verif.Props.HybridCall

/-
Property C201: delta_pressure and delta_pressure_hybrid describe the same layers.
-/

set_option linter.unusedSectionVars false

namespace Verif.Spec
variable {K : Type} [Field K] [LinearOrder K] [IsStrictOrderedRing K]

/-- The interfaces of layers around pressure levels, as hybrid coefficients: the top, the midpoints between neighbouring levels (both pure pressures, in
units of `p0`), and the surface. -/
def ifaceA (n : ℕ) (lev : ℕ → K) (ptop p0 : K) (k : ℕ) : K := if k = 0 then ptop / p0 else if k < n then (lev (k - 1) + lev k) / 2 / p0 else 0
def ifaceB (n k : ℕ) : K := if k < n then 0 else 1

end Verif.Spec

namespace Verif.Props
open Model Spec Lemmas
variable {K : Type} [Field K] [LinearOrder K] [IsStrictOrderedRing K]

theorem incr_le {n : ℕ} {lev : ℕ → K} (hinc : Increasing n lev) {i j : ℕ} (h : i ≤ j) (hj : j < n) : lev i ≤ lev j := by
  rcases Nat.lt_or_ge i j with h' | h'
  · exact (hinc i j h' hj).le
  · rw [show i = j by omega]

section
variable (n : ℕ) (hn : 2 ≤ n) (lev : ℕ → K) (hinc : Increasing n lev) (ptop : Option K) (h0 : 0 ≤ ptop.getD (lev 0))
    (ht : ptop.getD (lev 0) ≤ lev 0) (ps : LArr K) (hw : ps.WF) (hps : ∀ i, (lev 0 + lev 1) / 2 < ps.get i) (d e : String) (hd : d ∉ ps.dims)
    (tp0 : PyType) (htp : tp0 = .float ∨ tp0 = .int) (p0 : K) (hp0 : p0 ≠ 0)
include hn hinc h0 ht hw hps hd htp hp0

/-- **C201.** `delta_pressure` and `delta_pressure_hybrid` with the interfaces of the same layers agree, at every point of the surface pressure, in all
layers that end above the ground, and in the lowest layer where it begins above the ground. -/
theorem C201_same_layers :
    ∃ r, deltaPressureHybrid (.da ps) (.da (vec d (n + 1) (ifaceA n lev (ptop.getD (lev 0)) p0))) (.da (vec e (n + 1) (ifaceB n))) tp0 p0 = .ok (.da r) ∧
      r.dims = d :: ps.dims ∧ r.size d = n ∧
      ∀ i, i d < n → ∃ layers, deltaPressure (column n lev) (.fin (ps.get i)) ptop = .ok layers ∧
        (layers[i d]? = some (.fin (r.get i)) ↔
          if i d + 1 < n then (lev (i d) + lev (i d + 1)) / 2 ≤ ps.get i else (lev (n - 2) + lev (n - 1)) / 2 < ps.get i) := by
  obtain ⟨r, h1, h2, h3, h4⟩ := C120_xarray ps d e (n + 1) (ifaceA n lev (ptop.getD (lev 0)) p0) (ifaceB n) tp0 p0 htp hd hw
  refine ⟨r, h1, h2, h3, fun i hi => ?_⟩
  have hp := hps i
  have h01 := hinc 0 1 (by omega) (by omega)
  refine ⟨_, C03_layer_formula_partial n hn lev hinc (ps.get i) ptop h0 ht hp, ?_⟩
  unfold column
  rw [List.getElem?_map, List.getElem?_range hi, Option.map_some, h4 i]
  generalize hk : i d = k at hi
  have hup : upperIface lev (ptop.getD (lev 0)) k ≤ lev k := by
    unfold upperIface
    split
    · rename_i h
      rw [h]; exact ht
    · have := hinc (k - 1) k (by omega) hi
      linarith
  have eU : levelPressure p0 (ifaceA n lev (ptop.getD (lev 0)) p0) (ifaceB n) (ps.get i) k = upperIface lev (ptop.getD (lev 0)) k := by
    simp only [levelPressure, ifaceA, ifaceB, upperIface, if_pos hi, zero_mul, add_zero]
    split
    · exact div_mul_cancel₀ _ hp0
    · exact div_mul_cancel₀ _ hp0
  rw [eU]
  rcases Nat.lt_or_ge (k + 1) n with hk1 | hk1
  · have hlt := hinc k (k + 1) (by omega) hk1
    have eL : levelPressure p0 (ifaceA n lev (ptop.getD (lev 0)) p0) (ifaceB n) (ps.get i) (k + 1) = (lev k + lev (k + 1)) / 2 := by
      simp only [levelPressure, ifaceA, ifaceB, if_pos hk1, zero_mul, add_zero, Nat.add_eq_zero_iff, one_ne_zero, and_false, if_false, Nat.add_sub_cancel]
      exact div_mul_cancel₀ _ hp0
    rw [eL, if_pos hk1, abs_of_nonneg (by linarith)]
    unfold thickness lowerIface
    rw [if_pos hk1]
    constructor
    · intro h
      have h := Option.some.inj h
      split at h
      · cases h
      · have h := XF.fin.inj h
        have := min_le_left (ps.get i) ((lev k + lev (k + 1)) / 2)
        linarith
    · intro h
      rw [if_neg (by linarith), min_eq_right h]
  · obtain rfl : n = k + 1 := by omega
    have eL : levelPressure p0 (ifaceA (k + 1) lev (ptop.getD (lev 0)) p0) (ifaceB (k + 1)) (ps.get i) (k + 1) = ps.get i := by
      simp only [levelPressure, ifaceA, ifaceB, lt_irrefl, zero_mul, zero_add, one_mul, Nat.add_eq_zero_iff, one_ne_zero, and_false, if_false]
    have eT : upperIface lev (ptop.getD (lev 0)) k = (lev (k + 1 - 2) + lev (k + 1 - 1)) / 2 := by
      unfold upperIface
      rw [if_neg (by omega)]
      rfl
    rw [eL, if_neg (lt_irrefl _), ← eT]
    unfold thickness lowerIface
    rw [if_neg (lt_irrefl _)]
    constructor
    · intro h
      have h := Option.some.inj h
      split at h
      · cases h
      · rename_i h'
        exact not_le.mp h'
    · intro h
      rw [if_neg (not_le.mpr h), abs_of_pos (by linarith)]

/-- **C201**, levels that all lie above the ground (the lowest may be below it as long as its layer begins above): all layers agree. -/
theorem C201_above_ground (hlow : ∀ i, (lev (n - 2) + lev (n - 1)) / 2 < ps.get i) :
    ∃ r, deltaPressureHybrid (.da ps) (.da (vec d (n + 1) (ifaceA n lev (ptop.getD (lev 0)) p0))) (.da (vec e (n + 1) (ifaceB n))) tp0 p0 = .ok (.da r) ∧
      r.dims = d :: ps.dims ∧ r.size d = n ∧
      ∀ i, i d < n → ∃ layers, deltaPressure (column n lev) (.fin (ps.get i)) ptop = .ok layers ∧ layers[i d]? = some (.fin (r.get i)) := by
  obtain ⟨r, h1, h2, h3, h4⟩ := C201_same_layers n hn lev hinc ptop h0 ht ps hw hps d e hd tp0 htp p0 hp0
  refine ⟨r, h1, h2, h3, fun i hi => ?_⟩
  obtain ⟨layers, l1, l2⟩ := h4 i hi
  refine ⟨layers, l1, l2.mpr ?_⟩
  have := hlow i
  split
  · have a1 := incr_le hinc (show i d ≤ n - 2 by omega) (by omega)
    have a2 := incr_le hinc (show i d + 1 ≤ n - 1 by omega) (by omega)
    linarith
  · exact this

end

/-- three levels, 100, 400 and 700, over a surface pressure of 1000 at one point and 600 at the other, where the lowest level is below the ground -/
example : ∃ r, deltaPressureHybrid (.da (vec "x" 2 (fun k => if k = 0 then (1000 : ℚ) else 600)))
    (.da (vec "lev" 4 (ifaceA 3 (fun k => 100 + 300 * (k : ℚ)) 0 1000))) (.da (vec "lev" 4 (ifaceB 3))) .float 1000 = .ok (.da r) ∧
    r.dims = ["lev", "x"] ∧ r.size "lev" = 3 ∧
    ∀ i : String → ℕ, i "lev" < 3 → ∃ layers, deltaPressure (column 3 (fun k => 100 + 300 * (k : ℚ))) (.fin (if i "x" = 0 then (1000 : ℚ) else 600)) (some 0) = .ok layers ∧
      layers[i "lev"]? = some (.fin (r.get i)) := by
  refine C201_above_ground 3 (by decide) (fun k => 100 + 300 * (k : ℚ)) ?_ (some 0) (by simp) (by simp) (vec "x" 2 (fun k => if k = 0 then (1000 : ℚ) else 600)) ?_ ?_
    "lev" "lev" (by decide) .float (.inl rfl) 1000 (by norm_num) ?_
  · intro i j h _
    have : (i : ℚ) < j := by exact_mod_cast h
    simp only
    linarith
  · intro i j h
    have := h "x" (by simp [vec])
    simp only [vec, this]
  · intro i
    simp only [vec]
    split <;> norm_num
  · intro i
    simp only [vec]
    split <;> norm_num

example : deltaPressure (column 3 (fun k => 100 + 300 * (k : ℚ))) (.fin (600 : ℚ)) (some 0) = .ok [.fin 250, .fin 300, .fin 50] := by decide +kernel

end Verif.Props
