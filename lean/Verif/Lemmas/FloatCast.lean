import Verif.Basic.Rounding
import Mathlib.Data.Rat.Floor
import Mathlib.Data.Real.Archimedean

/-! Rounding a rational number does not depend on the field it is taken in. So values over ℝ can be computed over ℚ. -/

namespace Verif.Lemmas

theorem natFloor_ratCast (q : ℚ) : ⌊(q : ℝ)⌋₊ = ⌊q⌋₊ := by
  rw [← Int.floor_toNat, ← Int.floor_toNat, Rat.floor_cast]

theorem natCeil_ratCast (q : ℚ) : ⌈(q : ℝ)⌉₊ = ⌈q⌉₊ := by
  rw [← Int.ceil_toNat, ← Int.ceil_toNat, Rat.ceil_cast]

theorem log_ratCast (q : ℚ) : Int.log 2 (q : ℝ) = Int.log 2 q := by
  unfold Int.log
  have e : ((q : ℝ))⁻¹ = ((q⁻¹ : ℚ) : ℝ) := by push_cast; rfl
  rw [natFloor_ratCast, e, natCeil_ratCast]
  refine if_congr ?_ rfl rfl
  exact_mod_cast Iff.rfl

theorem nearestEven_ratCast (q : ℚ) : nearestEven (q : ℝ) = nearestEven q := by
  unfold nearestEven
  rw [Rat.floor_cast]
  have e1 : ((q : ℝ) - (⌊q⌋ : ℝ) < 1 / 2) ↔ (q - (⌊q⌋ : ℚ) < 1 / 2) := by
    rw [show (q : ℝ) - (⌊q⌋ : ℝ) = ((q - (⌊q⌋ : ℚ) : ℚ) : ℝ) by push_cast; rfl, show (1 / 2 : ℝ) = ((1 / 2 : ℚ) : ℝ) by push_cast; rfl]
    exact Rat.cast_lt
  have e2 : ((1 / 2 : ℝ) < (q : ℝ) - (⌊q⌋ : ℝ)) ↔ (1 / 2 < q - (⌊q⌋ : ℚ)) := by
    rw [show (q : ℝ) - (⌊q⌋ : ℝ) = ((q - (⌊q⌋ : ℚ) : ℚ) : ℝ) by push_cast; rfl, show (1 / 2 : ℝ) = ((1 / 2 : ℚ) : ℝ) by push_cast; rfl]
    exact Rat.cast_lt
  simp only [e1, e2]

theorem roundPos_ratCast (p : ℕ) (emin : ℤ) (q : ℚ) : roundPos p emin (q : ℝ) = ((roundPos p emin q : ℚ) : ℝ) := by
  unfold roundPos lastExp
  rw [log_ratCast]
  have e : (q : ℝ) / 2 ^ max emin (Int.log 2 q + 1 - p) = ((q / 2 ^ max emin (Int.log 2 q + 1 - p) : ℚ) : ℝ) := by push_cast; rfl
  rw [e, nearestEven_ratCast]
  push_cast
  rfl

theorem roundBin_ratCast (p : ℕ) (emin : ℤ) (q : ℚ) : roundBin p emin (q : ℝ) = ((roundBin p emin q : ℚ) : ℝ) := by
  unfold roundBin
  have e : -(q : ℝ) = ((-q : ℚ) : ℝ) := by push_cast; rfl
  rw [roundPos_ratCast, e, roundPos_ratCast]
  by_cases h : q = 0
  · rw [if_pos h, if_pos (by exact_mod_cast h)]; simp
  · rw [if_neg h, if_neg (by exact_mod_cast h)]
    by_cases h2 : 0 < q
    · rw [if_pos h2, if_pos (by exact_mod_cast h2)]
    · rw [if_neg h2, if_neg (by exact_mod_cast h2)]; push_cast; rfl

theorem float64_ratCast (q : ℚ) : (float64 : Rounding ℝ).fl (q : ℝ) = (((float64 : Rounding ℚ).fl q : ℚ) : ℝ) := roundBin_ratCast _ _ _

theorem float64_eq {x y : ℝ} (q r : ℚ) (hx : x = q) (hy : y = r) (h : (float64 : Rounding ℚ).fl q = r) : (float64 : Rounding ℝ).fl x = y := by
  rw [hx, hy, float64_ratCast, h]

end Verif.Lemmas
