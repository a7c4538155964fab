import Verif.Model.Humidity
import Verif.Spec.Humidity
import Mathlib.Tactic.Linarith
import Mathlib.Tactic.IntervalCases

set_option linter.unusedSectionVars false
namespace Verif.Lemmas
open Model XF
noncomputable section

/-! ### piecewise linear interpolation of a sequence -/

/-- linear interpolation of the sequence `f` at `s ≥ 0` -/
def lerp (f : ℕ → ℝ) (s : ℝ) : ℝ := (⌊s⌋₊ + 1 - s) * f ⌊s⌋₊ + (s - ⌊s⌋₊) * f (⌊s⌋₊ + 1)

theorem lerp_between (f : ℕ → ℝ) {s : ℝ} (hs : 0 ≤ s) (h : f ⌊s⌋₊ ≤ f (⌊s⌋₊ + 1)) :
    f ⌊s⌋₊ ≤ lerp f s ∧ lerp f s ≤ f (⌊s⌋₊ + 1) := by
  have h1 := Nat.floor_le hs
  have h2 := Nat.lt_floor_add_one s
  unfold lerp
  constructor <;> nlinarith

theorem lerp_nat (f : ℕ → ℝ) (k : ℕ) : lerp f k = f k := by
  simp [lerp]

theorem lerp_mono (f : ℕ → ℝ) (N : ℕ) (hf : ∀ i j, i ≤ j → j ≤ N → f i ≤ f j) {s s' : ℝ} (hs : 0 ≤ s) (h : s ≤ s')
    (hN : ⌊s'⌋₊ + 1 ≤ N) : lerp f s ≤ lerp f s' := by
  have hs' := hs.trans h
  have hfl : ⌊s⌋₊ ≤ ⌊s'⌋₊ := Nat.floor_mono h
  rcases hfl.eq_or_lt with he | hlt
  · have := hf ⌊s'⌋₊ (⌊s'⌋₊ + 1) (by omega) hN
    unfold lerp
    rw [he]
    nlinarith
  · have a := (lerp_between f hs (hf _ _ (by omega) (by omega))).2
    have b := (lerp_between f hs' (hf _ _ (by omega) (by omega))).1
    have c := hf (⌊s⌋₊ + 1) ⌊s'⌋₊ hlt (by omega)
    linarith

/-! ### the table -/

/-- table entry as a real -/
def tab (k : ℕ) : ℝ := ((relhumTable.getD k 0 : ℚ) : ℝ)

theorem table_length : relhumTable.length = 204 := by decide +kernel

theorem table_step : ∀ k < 203, relhumTable.getD k 0 ≤ relhumTable.getD (k + 1) 0 := by decide +kernel

theorem table_pos0 : 0 < relhumTable.getD 0 0 := by decide +kernel

theorem tab_mono (i j : ℕ) (h : i ≤ j) (hj : j ≤ 203) : tab i ≤ tab j := by
  induction h with
  | refl => exact le_rfl
  | step h ih =>
    refine (ih (by omega)).trans ?_
    unfold tab
    exact_mod_cast table_step _ (by omega)

theorem tab_pos {i : ℕ} (h : i ≤ 203) : 0 < tab i := by
  refine lt_of_lt_of_le ?_ (tab_mono 0 i (by omega) h)
  unfold tab
  exact_mod_cast table_pos0

theorem table_index {k : ℕ} (h : k < 204) : Py.index relhumTable (k : Int) = .ok (relhumTable.getD k 0) := by
  unfold Py.index
  have h0 : ¬ ((k : Int) < 0) := by omega
  have hl : k < relhumTable.length := by rw [table_length]; exact h
  simp only [h0, if_false, Int.toNat_natCast]
  rw [List.getElem?_eq_getElem hl, List.getD_eq_getElem?_getD, List.getElem?_eq_getElem hl]
  rfl

/-! ### saturation vapour pressure -/

/-- clipped temperature minus 173.16 -/
def shiftR (x : ℝ) : ℝ := min (max x 173.16) 375.16 - 173.16

theorem shiftR_nonneg (x : ℝ) : 0 ≤ shiftR x := by
  unfold shiftR
  have : (173.16:ℝ) ≤ min (max x 173.16) 375.16 := le_min (le_max_right _ _) (by norm_num)
  linarith

theorem shiftR_le (x : ℝ) : shiftR x ≤ 202 := by
  unfold shiftR
  have : min (max x 173.16) 375.16 ≤ (375.16:ℝ) := min_le_right _ _
  linarith

theorem shiftR_mono {x y : ℝ} (h : x ≤ y) : shiftR x ≤ shiftR y := by
  unfold shiftR
  have : min (max x (173.16:ℝ)) 375.16 ≤ min (max y 173.16) 375.16 := min_le_min_right _ (max_le_max_right _ h)
  linarith

theorem shiftR_floor (x : ℝ) : ⌊shiftR x⌋₊ ≤ 202 := by
  have := Nat.floor_mono (shiftR_le x)
  simpa using this

/-- the looked-up pressure as a real function -/
def esR (x : ℝ) : ℝ := lerp tab (shiftR x) * 0.1

theorem relhumEs_fin (x : ℝ) : relhumEs (fin x) = .ok (fin (esR x)) := by
  have h0 := shiftR_nonneg x
  have hk := shiftR_floor x
  have hidx : toIndex (clipTemp (fin x) - fin 173.16) = ((⌊shiftR x⌋₊ : ℕ) : Int) := by
    show toIndex (fin _ - fin _) = _
    rw [fin_sub]
    show (if 0 ≤ shiftR x then ⌊shiftR x⌋ else ⌈shiftR x⌉) = _
    rw [if_pos h0, Int.natCast_floor_eq_floor h0]
  unfold relhumEs
  simp only [hidx]
  rw [show ((⌊shiftR x⌋₊ : ℕ) : Int) + 1 = ((⌊shiftR x⌋₊ + 1 : ℕ) : Int) by push_cast; ring,
    table_index (by omega), table_index (by omega)]
  show Except.ok _ = _
  congr 1
  show ((fin 173.16 + fin _ + fin 1 - fin (min (max x 173.16) 375.16)) * fin _ +
    (fin (min (max x 173.16) 375.16) - (fin 173.16 + fin _)) * fin _) * fin 0.1 = _
  simp only [fin_add, fin_sub, fin_mul]
  congr 1
  unfold esR lerp tab shiftR
  push_cast
  ring

theorem esR_pos (x : ℝ) : 0 < esR x := by
  have hk := shiftR_floor x
  have := (lerp_between tab (shiftR_nonneg x) (tab_mono _ _ (by omega) (by omega))).1
  have h2 := tab_pos (i := ⌊shiftR x⌋₊) (by omega)
  unfold esR
  nlinarith

theorem esR_mono {x y : ℝ} (h : x ≤ y) : esR x ≤ esR y := by
  have hk := shiftR_floor y
  have := lerp_mono tab 203 tab_mono (shiftR_nonneg x) (shiftR_mono h) (by omega)
  unfold esR
  nlinarith

/-- relative humidity from vapour pressure as a real function -/
def rhR (es w p : ℝ) : ℝ := max ((w * (p - 0.378 * es) / (0.622 * es)) * 100) 0.0001

theorem relhumOfEs_fin {es : ℝ} (h : 0 < es) (w p : ℝ) : relhumOfEs (fin es) (fin w) (fin p) = fin (rhR es w p) := by
  unfold relhumOfEs rhR
  simp only [fin_mul, fin_sub]
  rw [fin_div _ _ (by positivity)]
  rfl

theorem relhumPoint_fin (t w p : ℝ) : relhumPoint (fin t) (fin w) (fin p) = .ok (fin (rhR (esR t) w p)) := by
  unfold relhumPoint
  rw [relhumEs_fin]
  show Except.ok _ = _
  rw [relhumOfEs_fin (esR_pos t)]

theorem rh_inner {es : ℝ} (h : 0 < es) (w p : ℝ) :
    (w * (p - 0.378 * es) / (0.622 * es)) * 100 = (w * p / es - 0.378 * w) * (100 / 0.622) := by
  field_simp

theorem rhR_anti {es es' w p : ℝ} (h : 0 < es) (hle : es ≤ es') (hw : 0 ≤ w) (hp : 0 ≤ p) :
    rhR es' w p ≤ rhR es w p := by
  unfold rhR
  apply max_le_max_right
  rw [rh_inner h, rh_inner (h.trans_le hle)]
  have : w * p / es' ≤ w * p / es := div_le_div_of_nonneg_left (by positivity) h hle
  nlinarith

theorem rhR_mono_w {es w w' p : ℝ} (h : 0 < es) (hw : 0 ≤ w) (hle : w ≤ w') : rhR es w p ≤ rhR es w' p := by
  unfold rhR
  rcases le_or_gt 0 (p - 0.378 * es) with hd | hd
  · apply max_le_max_right
    apply mul_le_mul_of_nonneg_right _ (by norm_num)
    apply div_le_div_of_nonneg_right _ (by positivity)
    exact mul_le_mul_of_nonneg_right hle hd
  · have : (w * (p - 0.378 * es) / (0.622 * es)) * 100 ≤ 0.0001 := by
      have : w * (p - 0.378 * es) / (0.622 * es) ≤ 0 := by
        apply div_nonpos_of_nonpos_of_nonneg _ (by positivity)
        exact mul_nonpos_of_nonneg_of_nonpos hw hd.le
      linarith
    rw [max_eq_right this]
    exact le_max_right _ _

theorem rhR_mono_p {es w p p' : ℝ} (h : 0 < es) (hw : 0 ≤ w) (hle : p ≤ p') : rhR es w p ≤ rhR es w p' := by
  unfold rhR
  apply max_le_max_right
  apply mul_le_mul_of_nonneg_right _ (by norm_num)
  apply div_le_div_of_nonneg_right _ (by positivity)
  exact mul_le_mul_of_nonneg_left (by linarith) hw

end
end Verif.Lemmas
