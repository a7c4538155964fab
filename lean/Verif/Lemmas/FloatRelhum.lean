import Verif.Model.FloatsRelhum
import Verif.Lemmas.Relhum
import Verif.Lemmas.FloatGrad

namespace Verif.Lemmas
open Verif Model XF Lemmas.Gradient
noncomputable section

/-- a precision in which the numbers of `relhum` can be told apart: at least half precision -/
structure Usable (D : Rounding ℝ) (u η : ℝ) : Prop where
  acc : D.Accurate u η
  u_le : u ≤ 1 / 2048
  eta_le : η ≤ u

/-- clipped temperature -/
def clipD (D : Rounding ℝ) (x : ℝ) : ℝ := min (max x (D.fl 173.16)) (D.fl 375.16)

/-- rounded distance from the coldest tabulated temperature -/
def shiftD (D : Rounding ℝ) (x : ℝ) : ℝ := D.fl (clipD D x - D.fl 173.16)

theorem const_close {D : Rounding ℝ} {u η : ℝ} (U : Usable D u η) {c : ℝ} (hc : 1 ≤ c) : |D.fl c - c| ≤ (c + 1) * u := by
  have h1 := U.acc.err c
  rw [abs_of_pos (by linarith : (0 : ℝ) < c)] at h1
  have := U.eta_le
  linarith

theorem clip_bounds (D : Rounding ℝ) (x : ℝ) : D.fl 173.16 ≤ clipD D x ∧ clipD D x ≤ D.fl 375.16 :=
  ⟨le_min (le_max_right _ _) (D.mono _ _ (by norm_num)), min_le_right _ _⟩

/-- the clipped temperature and the exactly clipped one -/
theorem clip_close {D : Rounding ℝ} {u η : ℝ} (U : Usable D u η) (x : ℝ) : |clipD D x - (shiftR x + 173.16)| ≤ 377 * u := by
  have h1 := const_close U (c := 173.16) (by norm_num)
  have h2 := const_close U (c := 375.16) (by norm_num)
  have h0 := U.acc.u_nonneg
  unfold clipD shiftR
  rw [sub_add_cancel]
  have e1 := abs_min_sub_min_le_max (max x (D.fl 173.16)) (D.fl 375.16) (max x 173.16) 375.16
  have e2 := abs_max_sub_max_le_max x (D.fl 173.16) x 173.16
  refine e1.trans (max_le (e2.trans (max_le ?_ ?_)) ?_)
  · rw [sub_self, abs_zero]; positivity
  · refine h1.trans ?_
    exact mul_le_mul_of_nonneg_right (by norm_num) h0
  · refine h2.trans ?_
    exact mul_le_mul_of_nonneg_right (by norm_num) h0

theorem shift_close {D : Rounding ℝ} {u η : ℝ} (U : Usable D u η) (x : ℝ) : |shiftD D x - shiftR x| ≤ 760 * u := by
  have h0 := U.acc.u_nonneg
  have h1 := const_close U (c := 173.16) (by norm_num)
  have h2 := clip_close U x
  have hη := U.eta_le
  have hu := U.u_le
  have h3 : |clipD D x - D.fl 173.16 - shiftR x| ≤ 552 * u := by
    have : clipD D x - D.fl 173.16 - shiftR x = (clipD D x - (shiftR x + 173.16)) - (D.fl 173.16 - 173.16) := by ring
    rw [this]
    refine (abs_sub _ _).trans ?_
    norm_num at h1 h2 ⊢
    linarith
  have h4 : |shiftR x| ≤ 202 := by rw [abs_of_nonneg (shiftR_nonneg x)]; exact shiftR_le x
  refine (fl_close U.acc h3 h4).trans ?_
  nlinarith

theorem shift_range {D : Rounding ℝ} {u η : ℝ} (U : Usable D u η) (x : ℝ) : 0 ≤ shiftD D x ∧ shiftD D x < 203 := by
  refine ⟨D.fl_nonneg (sub_nonneg.mpr (clip_bounds D x).1), ?_⟩
  have h1 := shift_close U x
  have h2 := shiftR_le x
  have h3 := U.u_le
  have := (abs_le.mp h1).2
  linarith

/-- the index of the table -/
def idx (D : Rounding ℝ) (x : ℝ) : ℕ := ⌊shiftD D x⌋₊

theorem idx_le {D : Rounding ℝ} {u η : ℝ} (U : Usable D u η) (x : ℝ) : idx D x ≤ 202 := by
  have := (Nat.floor_lt (shift_range U x).1).mpr (by exact_mod_cast (shift_range U x).2 : shiftD D x < ((203 : ℕ) : ℝ))
  unfold idx
  omega

/-- the weights of the two table entries -/
def w1 (D R : Rounding ℝ) (x : ℝ) : ℝ := R.fl (R.fl (R.fl (R.fl 173.16 + idx D x) + 1) - clipD D x)
def w2 (D R : Rounding ℝ) (x : ℝ) : ℝ := R.fl (clipD D x - R.fl (R.fl 173.16 + idx D x))

/-- the saturation pressure -/
def esFl (D R : Rounding ℝ) (x : ℝ) : ℝ :=
  R.fl (R.fl (R.fl (w1 D R x * R.fl (tab (idx D x))) + R.fl (w2 D R x * R.fl (tab (idx D x + 1)))) * R.fl 0.1)

theorem relhumEsFl_fin {D : Rounding ℝ} {u η : ℝ} (U : Usable D u η) (R : Rounding ℝ) (x : ℝ) : relhumEsFl D R (fin x) = .ok (fin (esFl D R x)) := by
  have h0 := (shift_range U x).1
  have hk := idx_le U x
  have hidx : toIndex (roundXF D (clipTempFl D (fin x) - fin (D.fl 173.16))) = ((idx D x : ℕ) : Int) := by
    show toIndex (roundXF D (fin _ - fin _)) = _
    rw [fin_sub]
    show (if 0 ≤ shiftD D x then ⌊shiftD D x⌋ else ⌈shiftD D x⌉) = _
    rw [if_pos h0, idx, Int.natCast_floor_eq_floor h0]
  unfold relhumEsFl
  simp only [hidx]
  rw [show ((idx D x : ℕ) : Int) + 1 = ((idx D x + 1 : ℕ) : Int) by push_cast; ring, table_index (by omega), table_index (by omega)]
  show Except.ok _ = _
  congr 1

theorem relhumEsFl_ok {D : Rounding ℝ} {u η : ℝ} (U : Usable D u η) (R : Rounding ℝ) {t : XF ℝ} (h : t ≠ nan) : ∃ e, relhumEsFl D R t = .ok (fin e) := by
  cases t with
  | fin x => exact ⟨_, relhumEsFl_fin U R x⟩
  | nan => exact absurd rfl h
  | pinf =>
    have : relhumEsFl D R pinf = relhumEsFl D R (fin (D.fl 375.16)) := by
      have e : clipTempFl D pinf = clipTempFl D (fin (D.fl 375.16)) := by
        show fin _ = fin _
        rw [max_eq_left (D.mono _ _ (by norm_num)), min_self]
      unfold relhumEsFl
      rw [e]
    rw [this]
    exact ⟨_, relhumEsFl_fin U R _⟩
  | ninf =>
    have : relhumEsFl D R ninf = relhumEsFl D R (fin (D.fl 173.16)) := by
      have e : clipTempFl D ninf = clipTempFl D (fin (D.fl 173.16)) := by
        show fin _ = fin _
        rw [max_self, min_eq_left (D.mono _ _ (by norm_num))]
      unfold relhumEsFl
      rw [e]
    rw [this]
    exact ⟨_, relhumEsFl_fin U R _⟩

/-! ### accuracy -/

theorem table_ratio : ∀ k < 203, relhumTable.getD (k + 1) 0 ≤ 1.26 * relhumTable.getD k 0 := by decide +kernel

theorem tab_ratio {k : ℕ} (h : k ≤ 202) : tab (k + 1) ≤ 1.26 * tab k := by
  unfold tab
  have := table_ratio k (by omega)
  have h2 : ((relhumTable.getD (k + 1) 0 : ℚ) : ℝ) ≤ ((1.26 * relhumTable.getD k 0 : ℚ) : ℝ) := by exact_mod_cast this
  refine h2.trans (le_of_eq ?_)
  push_cast
  norm_num

/-- the straight line through two table entries -/
def tabLine (k : ℕ) (s : ℝ) : ℝ := (k + 1 - s) * tab k + (s - k) * tab (k + 1)

/-- Extending a segment of the table a little beyond its ends does not change the value much. -/
theorem line_close {k : ℕ} (hk : k ≤ 202) {s δ : ℝ} (hs : 0 ≤ s) (hs2 : s ≤ 202) (hδ0 : 0 ≤ δ) (hδ : δ < 1) (h1 : k - δ ≤ s) (h2 : s ≤ k + 1 + δ) :
    |tabLine k s - lerp tab s| ≤ 0.33 * δ * tab k ∧ tab k ≤ 1.26 * lerp tab s := by
  have hp := tab_pos (i := k) (by omega)
  have hm := tab_mono k (k + 1) (by omega) (by omega)
  have hr := tab_ratio hk
  by_cases c1 : s < k
  · -- below
    have hk1 : 1 ≤ k := by
      rcases Nat.eq_zero_or_pos k with h | h
      · subst h; simp at c1; linarith
      · exact h
    obtain ⟨j, rfl⟩ : ∃ j, k = j + 1 := ⟨k - 1, by omega⟩
    push_cast at *
    have hfl : ⌊s⌋₊ = j := by
      rw [Nat.floor_eq_iff hs]; constructor <;> linarith
    have hr' := tab_ratio (k := j) (by omega)
    have hm' := tab_mono j (j + 1) (by omega) (by omega)
    have hp' := tab_pos (i := j) (by omega)
    have e : tabLine (j + 1) s - lerp tab s = (s - (j + 1)) * ((tab (j + 1 + 1) - tab (j + 1)) - (tab (j + 1) - tab j)) := by
      unfold tabLine lerp
      rw [hfl]
      push_cast
      ring
    constructor
    · rw [e, abs_mul]
      have a1 : |s - ((j : ℝ) + 1)| ≤ δ := by rw [abs_le]; constructor <;> linarith
      have a2 : |(tab (j + 1 + 1) - tab (j + 1)) - (tab (j + 1) - tab j)| ≤ 0.33 * tab (j + 1) := by
        rw [abs_le]; constructor <;> norm_num at * <;> linarith
      calc _ ≤ δ * (0.33 * tab (j + 1)) := mul_le_mul a1 a2 (abs_nonneg _) hδ0
        _ = _ := by ring
    · have := (lerp_between tab hs (by rw [hfl]; exact hm')).1
      rw [hfl] at this
      linarith
  · by_cases c2 : s < k + 1
    · have hfl : ⌊s⌋₊ = k := by
        rw [Nat.floor_eq_iff hs]; constructor <;> linarith
      have e : tabLine k s = lerp tab s := by unfold tabLine lerp; rw [hfl]
      rw [e, sub_self, abs_zero]
      refine ⟨by positivity, ?_⟩
      have := (lerp_between tab hs (by rw [hfl]; exact hm)).1
      rw [hfl] at this
      linarith
    · have hk2 : k + 1 ≤ 202 := by
        have : ((k + 1 : ℕ) : ℝ) ≤ 202 := by push_cast; linarith
        exact_mod_cast this
      have hfl : ⌊s⌋₊ = k + 1 := by
        rw [Nat.floor_eq_iff hs]; push_cast; constructor <;> linarith
      have hr' := tab_ratio (k := k + 1) hk2
      have hm' := tab_mono (k + 1) (k + 1 + 1) (by omega) (by omega)
      have e : tabLine k s - lerp tab s = (s - (k + 1)) * ((tab (k + 1) - tab k) - (tab (k + 1 + 1) - tab (k + 1))) := by
        unfold tabLine lerp
        rw [hfl]
        push_cast
        ring
      constructor
      · rw [e, abs_mul]
        have a1 : |s - ((k : ℝ) + 1)| ≤ δ := by rw [abs_le]; constructor <;> linarith
        have a2 : |(tab (k + 1) - tab k) - (tab (k + 1 + 1) - tab (k + 1))| ≤ 0.33 * tab k := by
          rw [abs_le]; constructor <;> norm_num at * <;> linarith
        calc _ ≤ δ * (0.33 * tab k) := mul_le_mul a1 a2 (abs_nonneg _) hδ0
          _ = _ := by ring
      · have := (lerp_between tab hs (by rw [hfl]; exact hm')).1
        rw [hfl] at this
        linarith

/-- roundings of moderate numbers in double precision -/
theorem fine_fl {R : Rounding ℝ} {v ζ : ℝ} (F : FineRounding R v ζ) {x x' α M : ℝ} (h : |x' - x| ≤ α) (hM : |x| ≤ M) (hM0 : 0 ≤ M) :
    |R.fl x' - x| ≤ α + 1.2e-16 * (M + α) + 1e-210 := by
  have hα := (abs_nonneg _).trans h
  have := fl_close F.acc h hM
  have h1 : v * (M + α) ≤ 1.2e-16 * (M + α) := mul_le_mul_of_nonneg_right F.u_le (by linarith)
  have := F.eta_small
  linarith

theorem weights_close {D R : Rounding ℝ} {u η v ζ : ℝ} (U : Usable D u η) (F : FineRounding R v ζ) (x : ℝ) :
    |w1 D R x - (idx D x + 1 - shiftR x)| ≤ 378 * u + 2e-13 ∧ |w2 D R x - (shiftR x - idx D x)| ≤ 378 * u + 2e-13 ∧
      idx D x - 760 * u ≤ shiftR x ∧ shiftR x ≤ idx D x + 1 + 760 * u := by
  have h0 := U.acc.u_nonneg
  have hu := U.u_le
  have hk : ((idx D x : ℕ) : ℝ) ≤ 202 := by exact_mod_cast idx_le U x
  have hk0 : (0 : ℝ) ≤ (idx D x : ℕ) := Nat.cast_nonneg _
  have hs := shift_close U x
  have f1 := Nat.floor_le (shift_range U x).1
  have f2 := Nat.lt_floor_add_one (shiftD D x)
  change ((idx D x : ℕ) : ℝ) ≤ _ at f1
  change _ < ((idx D x : ℕ) : ℝ) + 1 at f2
  have hc := clip_close U x
  obtain ⟨s1, s2⟩ := abs_le.mp hs
  have b1 : idx D x - 760 * u ≤ shiftR x := by linarith
  have b2 : shiftR x ≤ idx D x + 1 + 760 * u := by linarith
  have c1 : |R.fl 173.16 - 173.16| ≤ 2.2e-14 := by
    have := fine_fl F (x := 173.16) (x' := 173.16) (α := 0) (M := 174) (by simp) (by rw [abs_of_pos (by norm_num)]; norm_num) (by norm_num)
    refine this.trans (by norm_num)
  have c2 : |R.fl 173.16 + idx D x - (173.16 + idx D x)| ≤ 2.2e-14 := by
    rw [show R.fl 173.16 + (idx D x : ℝ) - (173.16 + idx D x) = R.fl 173.16 - 173.16 by ring]; exact c1
  have c3 : |R.fl (R.fl 173.16 + idx D x) - (173.16 + idx D x)| ≤ 7e-14 := by
    have := fine_fl F c2 (M := 376) (by rw [abs_of_nonneg (by positivity)]; linarith) (by norm_num)
    refine this.trans (by norm_num)
  have c4 : |R.fl (R.fl 173.16 + idx D x) + 1 - (173.16 + idx D x + 1)| ≤ 7e-14 := by
    rw [show R.fl (R.fl 173.16 + idx D x) + 1 - (173.16 + (idx D x : ℝ) + 1) = R.fl (R.fl 173.16 + idx D x) - (173.16 + idx D x) by ring]; exact c3
  have c5 : |R.fl (R.fl (R.fl 173.16 + idx D x) + 1) - (173.16 + idx D x + 1)| ≤ 1.2e-13 := by
    have := fine_fl F c4 (M := 377) (by rw [abs_of_nonneg (by positivity)]; linarith) (by norm_num)
    refine this.trans (by norm_num)
  refine ⟨?_, ?_, b1, b2⟩
  · have d1 : |R.fl (R.fl (R.fl 173.16 + idx D x) + 1) - clipD D x - (idx D x + 1 - shiftR x)| ≤ 377 * u + 1.2e-13 := by
      have : R.fl (R.fl (R.fl 173.16 + idx D x) + 1) - clipD D x - (idx D x + 1 - shiftR x)
          = (R.fl (R.fl (R.fl 173.16 + idx D x) + 1) - (173.16 + idx D x + 1)) - (clipD D x - (shiftR x + 173.16)) := by ring
      rw [this]
      exact (abs_sub _ _).trans (by linarith)
    have d2 := fine_fl F d1 (M := 2) (by rw [abs_le]; constructor <;> linarith) (by norm_num)
    refine d2.trans ?_
    linarith
  · have d1 : |clipD D x - R.fl (R.fl 173.16 + idx D x) - (shiftR x - idx D x)| ≤ 377 * u + 1.2e-13 := by
      have : clipD D x - R.fl (R.fl 173.16 + idx D x) - (shiftR x - idx D x)
          = (clipD D x - (shiftR x + 173.16)) - (R.fl (R.fl 173.16 + idx D x) - (173.16 + idx D x)) := by ring
      rw [this]
      refine (abs_sub _ _).trans ?_
      linarith
    have d2 := fine_fl F d1 (M := 2) (by rw [abs_le]; constructor <;> linarith) (by norm_num)
    refine d2.trans ?_
    linarith

theorem tab_ge {k : ℕ} (h : k ≤ 203) : (0.01 : ℝ) ≤ tab k := by
  refine le_trans ?_ (tab_mono 0 k (by omega) h)
  unfold tab
  have : (0.01 : ℚ) ≤ relhumTable.getD 0 0 := by decide +kernel
  have h2 : ((0.01 : ℚ) : ℝ) ≤ ((relhumTable.getD 0 0 : ℚ) : ℝ) := by exact_mod_cast this
  refine le_trans (le_of_eq ?_) h2
  norm_num

/-- rounding relative to a positive scale -/
theorem scaled_fl {R : Rounding ℝ} {v ζ : ℝ} (F : FineRounding R v ζ) {x x' α M a : ℝ} (ha : 1e-10 ≤ a) (h : |x' - x| ≤ α * a) (hM : |x| ≤ M * a) (hM1 : M ≤ 10) (hM0 : 0 ≤ M) :
    |R.fl x' - x| ≤ (1.001 * α + 1.3e-15) * a := by
  have hα := (abs_nonneg _).trans h
  have h1 := fine_fl F h hM (by nlinarith)
  refine h1.trans ?_
  have h2 : (1e-210 : ℝ) ≤ 1e-16 * a := by norm_num at ha ⊢; linarith
  have h3 : 1.2e-16 * (M * a) ≤ 1.2e-16 * (10 * a) := mul_le_mul_of_nonneg_left (mul_le_mul_of_nonneg_right hM1 (by linarith)) (by norm_num)
  linarith

theorem esFl_close {D R : Rounding ℝ} {u η v ζ : ℝ} (U : Usable D u η) (F : FineRounding R v ζ) (x : ℝ) :
    |esFl D R x - esR x| ≤ (1600 * u + 1e-12) * esR x := by
  obtain ⟨hw1, hw2, b1, b2⟩ := weights_close U F x
  have hk := idx_le U x
  have h0 := U.acc.u_nonneg
  have hu := U.u_le
  obtain ⟨l1, l2⟩ := line_close hk (shiftR_nonneg x) (shiftR_le x) (by positivity) (by linarith : 760 * u < 1) b1 b2
  have ha := tab_ge (k := idx D x) (by omega)
  have hb := tab_ge (k := idx D x + 1) (by omega)
  have hr := tab_ratio hk
  have hm := tab_mono (idx D x) (idx D x + 1) (by omega) (by omega)
  have hline : tabLine (idx D x) (shiftR x) = (idx D x + 1 - shiftR x) * tab (idx D x) + (shiftR x - idx D x) * tab (idx D x + 1) := rfl
  have w1b : |(idx D x : ℝ) + 1 - shiftR x| ≤ 1.4 := by rw [abs_le]; constructor <;> norm_num <;> linarith
  have w2b : |shiftR x - (idx D x : ℝ)| ≤ 1.4 := by rw [abs_le]; constructor <;> norm_num <;> linarith
  -- the table entries
  have tabfl : ∀ k, k ≤ 203 → |R.fl (tab k) - tab k| ≤ 1.3e-15 * tab k := by
    intro k hk
    have := tab_ge hk
    have h := scaled_fl F (x := tab k) (x' := tab k) (α := 0) (M := 1) (a := tab k) (by linarith) (by simp) (by rw [one_mul, abs_of_nonneg (by linarith)]) (by norm_num) (by norm_num)
    refine h.trans (le_of_eq (by ring))
  have prod : ∀ (w w' a : ℝ), 0.01 ≤ a → |w' - w| ≤ 378 * u + 2e-13 → |w| ≤ 1.4 → |R.fl a - a| ≤ 1.3e-15 * a →
      |R.fl (w' * R.fl a) - w * a| ≤ (1.01 * (378 * u) + 2.1e-13) * a := by
    intro w w' a ha hw hwb hfa
    have hw' : |w'| ≤ 2 := by
      have := abs_sub_abs_le_abs_sub w' w
      linarith
    have m := mul_close hw hfa hw' (le_of_eq (abs_of_nonneg (by linarith)) : |a| ≤ a)
    have m' : |w' * R.fl a - w * a| ≤ (378 * u + 2.03e-13) * a := by
      refine m.trans (le_of_eq_of_le (by ring : _ = (378 * u + 2e-13 + 2.6e-15) * a) ?_)
      exact mul_le_mul_of_nonneg_right (by linarith) (by linarith)
    have s := scaled_fl F (a := a) (by linarith) m' (M := 1.4) (by rw [abs_mul, abs_of_nonneg (by linarith : 0 ≤ a)]; exact mul_le_mul_of_nonneg_right hwb (by linarith)) (by norm_num) (by norm_num)
    refine s.trans (mul_le_mul_of_nonneg_right ?_ (by linarith))
    linarith
  have p1 := prod _ _ _ ha hw1 w1b (tabfl _ (by omega))
  have p2 := prod _ _ _ hb hw2 w2b (tabfl _ (by omega))
  have q1 : |R.fl (w1 D R x * R.fl (tab (idx D x))) + R.fl (w2 D R x * R.fl (tab (idx D x + 1))) - tabLine (idx D x) (shiftR x)|
      ≤ (864 * u + 4.8e-13) * tab (idx D x) := by
    rw [hline]
    have : ∀ a b c d : ℝ, a + b - (c + d) = (a - c) + (b - d) := by intros; ring
    rw [this]
    refine (abs_add_le _ _).trans ?_
    have h3 : (1.01 * (378 * u) + 2.1e-13) * tab (idx D x + 1) ≤ (1.01 * (378 * u) + 2.1e-13) * (1.26 * tab (idx D x)) :=
      mul_le_mul_of_nonneg_left hr (by positivity)
    have h4 : 0 ≤ u * tab (idx D x) := mul_nonneg h0 (by linarith)
    linarith
  have hE : esFl D R x = R.fl (R.fl (R.fl (w1 D R x * R.fl (tab (idx D x))) + R.fl (w2 D R x * R.fl (tab (idx D x + 1)))) * R.fl 0.1) := rfl
  rw [hE]
  generalize R.fl (w1 D R x * R.fl (tab (idx D x))) + R.fl (w2 D R x * R.fl (tab (idx D x + 1))) = S at *
  have hL : (0.01 : ℝ) ≤ lerp tab (shiftR x) := by
    have hf := shiftR_floor x
    exact (tab_ge (k := ⌊shiftR x⌋₊) (by omega)).trans (lerp_between tab (shiftR_nonneg x) (tab_mono _ _ (by omega) (by omega))).1
  have q2 : |S - lerp tab (shiftR x)| ≤ (1405 * u + 6.1e-13) * lerp tab (shiftR x) := by
    refine (abs_sub_le S (tabLine (idx D x) (shiftR x)) _).trans ?_
    have h1 : (1114.8 * u + 4.8e-13) * tab (idx D x) ≤ (1114.8 * u + 4.8e-13) * (1.26 * lerp tab (shiftR x)) := mul_le_mul_of_nonneg_left l2 (by positivity)
    have h2 : 0 ≤ u * lerp tab (shiftR x) := mul_nonneg h0 (by linarith)
    linarith
  unfold esR
  generalize lerp tab (shiftR x) = L at *
  have q3 := scaled_fl F (a := L) (by linarith) q2 (M := 1) (by rw [one_mul, abs_of_nonneg (by linarith)]) (by norm_num) (by norm_num)
  have q3' : |R.fl S - L| ≤ (1407 * u + 6.2e-13) * L :=
    q3.trans (mul_le_mul_of_nonneg_right (by linarith) (by linarith))
  have t1 : |R.fl 0.1 - 0.1| ≤ 1.3e-16 := by
    have := scaled_fl F (x := 0.1) (x' := 0.1) (α := 0) (M := 1) (a := 0.1) (by norm_num) (by simp) (by rw [one_mul, abs_of_nonneg (by norm_num)]) (by norm_num) (by norm_num)
    refine this.trans (by norm_num)
  have hS : |R.fl S| ≤ 2 * L := by
    have h1 := abs_sub_abs_le_abs_sub (R.fl S) L
    rw [abs_of_nonneg (by linarith : 0 ≤ L)] at h1
    have h2 : (1407 * u + 6.2e-13) * L ≤ 1 * L := mul_le_mul_of_nonneg_right (by linarith) (by linarith)
    linarith
  have m := mul_close q3' t1 hS (le_of_eq (abs_of_nonneg (by norm_num)) : |(0.1 : ℝ)| ≤ 0.1)
  have m' : |R.fl S * R.fl 0.1 - L * 0.1| ≤ (1407 * u + 6.3e-13) * (L * 0.1) := by
    refine m.trans ?_
    linarith
  have s := scaled_fl F (a := L * 0.1) (by linarith) m' (M := 1) (by rw [one_mul, abs_of_nonneg (by linarith)]) (by norm_num) (by norm_num)
  refine s.trans (mul_le_mul_of_nonneg_right ?_ (by linarith))
  linarith

end
end Verif.Lemmas
