import Verif.Props.PointApi

/-
C149: the course of the day length through the year, for whole calls of max_daylight.
-/

set_option linter.unusedSectionVars false
namespace Verif.Props
open Model XF Spec Lemmas Tensor

/-- the day of the year on which the sun stands highest in the north, as a real number (21 June) -/
noncomputable def juneSolstice : ℝ := 365 / 4 + 365 * 1.39 / (2 * Real.pi)

/-- C149. The solstice falls on day 172 of the year. -/
theorem C149_solstice_day : 171.9 < juneSolstice ∧ juneSolstice < 172.1 := by
  unfold juneSolstice
  have h1 := Real.pi_gt_d4
  have h2 := Real.pi_lt_d4
  have hp : 0 < 2 * Real.pi := by positivity
  constructor
  · have : 171.9 - 365 / 4 < 365 * 1.39 / (2 * Real.pi) := by rw [lt_div_iff₀ hp]; norm_num at *; linarith
    linarith
  · have : 365 * 1.39 / (2 * Real.pi) < 172.1 - 365 / 4 := by rw [div_lt_iff₀ hp]; norm_num at *; linarith
    linarith

theorem declination_solstice (x : ℝ) : decR (juneSolstice + x) = 0.409 * Real.cos (2 * Real.pi / 365 * x) := by
  unfold decR juneSolstice
  have hpi := Real.pi_ne_zero
  have : 2 * Real.pi / 365 * (365 / 4 + 365 * 1.39 / (2 * Real.pi) + x) - 1.39 = 2 * Real.pi / 365 * x + Real.pi / 2 := by
    field_simp
    ring
  rw [this, Real.sin_add_pi_div_two]

theorem declination_at (d : ℝ) : decR d = 0.409 * Real.cos (2 * Real.pi / 365 * (d - juneSolstice)) := by
  rw [← declination_solstice]; congr 1; ring

theorem hours_eq_of_dec {d d' : ℝ} (l : ℝ) (h : decR d = decR d') : hourArg d l = hourArg d' l := by
  unfold hourArg; rw [h]

/-- a day nearer to the June solstice (within half a year of it) has the larger declination -/
theorem declination_lt {x y : ℝ} (hx : 0 ≤ x) (hxy : x < y) (hy : y ≤ 182.5) :
    decR (juneSolstice + y) < decR (juneSolstice + x) := by
  rw [declination_solstice, declination_solstice]
  have hp := Real.pi_pos
  have : Real.cos (2 * Real.pi / 365 * y) < Real.cos (2 * Real.pi / 365 * x) := by
    apply Real.cos_lt_cos_of_nonneg_of_le_pi
    · positivity
    · have : 2 * Real.pi / 365 * y ≤ 2 * Real.pi / 365 * 182.5 := mul_le_mul_of_nonneg_left hy (by positivity)
      have e : 2 * Real.pi / 365 * 182.5 = Real.pi := by ring
      linarith
    · exact mul_lt_mul_of_pos_left hxy (by positivity)
  linarith

theorem hours_lt {d d' l : ℝ} (h0 : 0 < l) (h1 : l ≤ 66) (h : decR d < decR d') :
    24 / Real.pi * Real.arccos (hourArg d l) < 24 / Real.pi * Real.arccos (hourArg d' l) := by
  have hpi := Real.pi_pos
  have hl : |l| ≤ 66 := by rw [abs_of_pos h0]; exact h1
  apply mul_lt_mul_of_pos_left _ (by positivity)
  have b1 := hourArg_bounds (d := d) hl
  have b2 := hourArg_bounds (d := d') hl
  apply Real.strictAntiOn_arccos ⟨b2.1.le, b2.2.le⟩ ⟨b1.1.le, b1.2.le⟩
  have ht : Real.tan (decR d) < Real.tan (decR d') :=
    Real.tan_lt_tan_of_lt_of_lt_pi_div_two (decR_bounds d).1 (decR_bounds d').2 h
  have ht' : 0 < Real.tan (l * (Real.pi / 180)) :=
    Real.tan_pos_of_pos_of_lt_pi_div_two (by positivity) (by nlinarith)
  unfold hourArg
  nlinarith

/-- the offset of a day from the solstice `juneSolstice + 365 k`, in days -/
def FromSolstice (d x : ℝ) : Prop := ∃ k : ℤ, d = juneSolstice + 365 * k + x

theorem dec_of_offset {d x : ℝ} (h : FromSolstice d x) : decR d = decR (juneSolstice + x) := by
  obtain ⟨k, rfl⟩ := h
  rw [declination_at, declination_solstice]
  have : 2 * Real.pi / 365 * (juneSolstice + 365 * k + x - juneSolstice) = 2 * Real.pi / 365 * x + k * (2 * Real.pi) := by ring
  rw [this, Real.cos_add_int_mul_two_pi]

theorem dec_even (x : ℝ) : decR (juneSolstice + -x) = decR (juneSolstice + x) := by
  rw [declination_solstice, declination_solstice, mul_neg, Real.cos_neg]

theorem dec_half (x : ℝ) : decR (juneSolstice + (x + 182.5)) = -decR (juneSolstice + x) := by
  rw [declination_solstice, declination_solstice]
  have : 2 * Real.pi / 365 * (x + 182.5) = 2 * Real.pi / 365 * x + Real.pi := by ring
  rw [this, Real.cos_add_pi]
  ring

/-- C149. A call of max_daylight with real days and latitudes of at most 66 degrees. Two days 365 days apart have the same length; so have two days at the same
distance before and after the June solstice; of two days half a year apart one is as long as the night of the other; in the north the days nearer to the June solstice
are strictly longer, in the south strictly shorter. -/
theorem C149_year (jday lat : Tensor (XF ℝ)) (n m : ℕ) (hn : jday.shape = [n]) (hm : lat.shape = [m]) (D L : List ℕ → ℝ)
    (hD : HasReals jday D) (hL : HasReals lat L) (h66 : ∀ j, j < m → |L [j]| ≤ 66) :
    ∃ wn r v, maxDaylight jday lat = .ok (wn, r) ∧ r.shape = [n, m] ∧ HasReals r v ∧ ∀ i i' j, i < n → i' < n → j < m →
      (∀ k : ℤ, D [i'] = D [i] + 365 * k → v [i', j] = v [i, j]) ∧
      (∀ x, D [i] = juneSolstice - x → D [i'] = juneSolstice + x → v [i', j] = v [i, j]) ∧
      (∀ k : ℤ, D [i'] = D [i] + 182.5 + 365 * k → v [i', j] + v [i, j] = 24) ∧
      (∀ x y, FromSolstice (D [i]) x → FromSolstice (D [i']) y → |x| < |y| → |y| ≤ 182.5 →
        (0 < L [j] → v [i', j] < v [i, j]) ∧ (L [j] < 0 → v [i, j] < v [i', j])) := by
  obtain ⟨wn, r, v, h1, h2, h3, h4⟩ := C51_call_values jday lat n m hn hm D L hD hL h66
  refine ⟨wn, r, v, h1, h2, h3, fun i i' j hi hi' hj => ?_⟩
  have e := (h4 i j hi hj).1
  have e' := (h4 i' j hi' hj).1
  rw [← hourArg_eq] at e e'
  have off : ∀ d, FromSolstice d (d - juneSolstice) := fun d => ⟨0, by push_cast; ring⟩
  refine ⟨fun k h => ?_, fun x hx hy => ?_, fun k h => ?_, fun x y hx hy hxy hy2 => ?_⟩
  · rw [e, e', hours_eq_of_dec (d' := D [i])]
    rw [dec_of_offset (off (D [i])), dec_of_offset (x := D [i] - juneSolstice) ⟨k, by rw [h]; ring⟩]
  · rw [e, e', hours_eq_of_dec (d' := D [i])]
    rw [hx, hy, sub_eq_add_neg, dec_even]
  · have hd : decR (D [i']) = -decR (D [i]) := by
      rw [dec_of_offset (off (D [i])), ← dec_half, dec_of_offset (x := D [i] - juneSolstice + 182.5) ⟨k, by rw [h]; ring⟩]
    have hh : hourArg (D [i']) (L [j]) = -hourArg (D [i]) (L [j]) := by
      unfold hourArg; rw [hd, Real.tan_neg]; ring
    rw [e, e', hh, hours_neg]
    ring
  · have habs : ∀ z : ℝ, decR (juneSolstice + z) = decR (juneSolstice + |z|) := by
      intro z
      rcases abs_cases z with ⟨hz, _⟩ | ⟨hz, _⟩
      · rw [hz]
      · rw [hz, dec_even]
    have hd : decR (D [i']) < decR (D [i]) := by
      rw [dec_of_offset hx, dec_of_offset hy, habs x, habs y]
      exact declination_lt (abs_nonneg x) hxy hy2
    have hl := abs_le.mp (h66 j hj)
    refine ⟨fun h0 => ?_, fun h0 => ?_⟩
    · rw [e, e']
      exact hours_lt h0 hl.2 hd
    · rw [e, e']
      have hlt := hours_lt (l := -L [j]) (by linarith) (by linarith) hd
      rw [hourArg_neg, hourArg_neg, hours_neg, hours_neg] at hlt
      linarith

/-- days 100 and 200 at 40 degrees north and south -/
example : ∃ wn r v, maxDaylight ⟨[2], fun i => fin (if i = [0] then 200 else 100)⟩ ⟨[2], fun i => fin (if i = [0] then 40 else -40)⟩ = .ok (wn, r) ∧
    HasReals r v ∧ v [1, 0] < v [0, 0] ∧ v [0, 1] < v [1, 1] := by
  obtain ⟨wn, r, v, h1, -, h2, h3⟩ := C149_year ⟨[2], fun i => fin (if i = [0] then 200 else 100)⟩ ⟨[2], fun i => fin (if i = [0] then 40 else -40)⟩
    2 2 rfl rfl (fun i => if i = [0] then 200 else 100) (fun i => if i = [0] then 40 else -40) (fun _ _ => rfl) (fun _ _ => rfl) (by
      intro j _
      split_ifs <;> norm_num [abs_of_neg])
  obtain ⟨s1, s2⟩ := C149_solstice_day
  norm_num at s1 s2
  have key : |200 - juneSolstice| < |100 - juneSolstice| ∧ |100 - juneSolstice| ≤ 182.5 := by
    rw [abs_of_pos (show 0 < 200 - juneSolstice by linarith), abs_of_neg (show 100 - juneSolstice < 0 by linarith)]
    norm_num
    constructor <;> linarith
  refine ⟨wn, r, v, h1, h2, ?_, ?_⟩
  · exact ((h3 0 1 0 (by norm_num) (by norm_num) (by norm_num)).2.2.2 (200 - juneSolstice) (100 - juneSolstice) ⟨0, by simp⟩ ⟨0, by simp⟩
      key.1 key.2).1 (by norm_num)
  · exact ((h3 0 1 1 (by norm_num) (by norm_num) (by norm_num)).2.2.2 (200 - juneSolstice) (100 - juneSolstice) ⟨0, by simp⟩ ⟨0, by simp⟩
      key.1 key.2).2 (by norm_num)

end Verif.Props
