import Verif.Basic.Formats
import Verif.Lemmas.FloatErr
import Verif.Props.FloatNmse

/-
Property C166: the test of `nmse` for even spacing, on coordinates as they are stored.
-/

set_option linter.unusedSectionVars false
namespace Verif.Props
open Model Spec Lemmas
variable {K : Type _} [Field K] [LinearOrder K] [IsStrictOrderedRing K]

/-- `l` holds the numbers `a, a + d, a + 2 d, …`, each rounded to the precision of the coordinates -/
def StoredGrid (C : Rounding K) (a d : K) (l : List K) : Prop := ∀ (k : ℕ) (x : K), l[k]? = some x → x = C.fl (a + k * d)

theorem npDiffFl_getElem? (C : Rounding K) (l : List K) (k : ℕ) (z : K) (h : (npDiffFl C l)[k]? = some z) :
    ∃ x y, l[k]? = some x ∧ l[k + 1]? = some y ∧ z = C.fl (y - x) := by
  unfold npDiffFl at h
  rw [List.getElem?_zipWith_eq_some] at h
  obtain ⟨y, x, hy, hx, rfl⟩ := h
  rw [List.getElem?_tail] at hy
  exact ⟨x, y, hx, hy, rfl⟩

/-- a computed step -/
theorem step_close {C : Rounding K} {u η : K} (A : C.Accurate u η) (hu : u ≤ 1 / 1000) {a d B : K} {l : List K} (hl : StoredGrid C a d l) (hB : ∀ k < l.length, |a + k * d| ≤ B)
    (k : ℕ) (z : K) (h : (npDiffFl C l)[k]? = some z) : |z - d| ≤ 5 * (u * B + η) := by
  obtain ⟨x, y, hx, hy, rfl⟩ := npDiffFl_getElem? C l k z h
  have kx := (List.getElem?_eq_some_iff.mp hx).1
  have ky := (List.getElem?_eq_some_iff.mp hy).1
  have ex := hl k x hx
  have ey := hl (k + 1) y hy
  have bx := hB k kx
  have by' := hB (k + 1) ky
  push_cast at ey by'
  have h0 := A.u_nonneg
  have h1 := A.eta_nonneg
  have e1 := A.err (a + k * d)
  have e2 := A.err (a + (k + 1) * d)
  rw [← ex] at e1
  rw [← ey] at e2
  have m1 := mul_le_mul_of_nonneg_left bx h0
  have m2 := mul_le_mul_of_nonneg_left by' h0
  have rx : C.rep x := ex ▸ C.rep_fl _
  have ry : C.rep y := ey ▸ C.rep_fl _
  have e3 := A.sub ry rx
  have f1 : |(y - x) - d| ≤ 2 * (u * B + η) := by
    have : (y - x) - d = (y - (a + (k + 1) * d)) - (x - (a + k * d)) := by ring
    rw [this]
    refine (abs_sub _ _).trans ?_
    linarith
  have f2 : |d| ≤ 2 * B := by
    have : d = (a + (k + 1) * d) - (a + k * d) := by ring
    rw [this]
    refine (abs_sub _ _).trans ?_
    linarith
  have f3 : |y - x| ≤ |d| + 2 * (u * B + η) := by
    have := abs_add_le ((y - x) - d) d
    rw [sub_add_cancel] at this
    linarith
  have m3 := mul_le_mul_of_nonneg_left f3 h0
  have m4 := mul_le_mul_of_nonneg_left f2 h0
  have hB0 : 0 ≤ B := (abs_nonneg _).trans bx
  have he : 0 ≤ u * B + η := add_nonneg (mul_nonneg h0 hB0) h1
  have m5 := mul_le_mul_of_nonneg_right hu he
  have := abs_sub_le (C.fl (y - x)) (y - x) d
  linarith

/-- the comparison of two computed steps -/
theorem close_steps {C : Rounding K} {u η : K} (A : C.Accurate u η) (hu : u ≤ 1 / 1000) (hη : η ≤ 1 / 1000000000) {d e : K} (he : 0 ≤ e) (hηe : η ≤ e)
    (hd : 1000000 * (10 * e) ≤ 9 * |d|) {z z0 : K} (h : |z - d| ≤ 5 * e) (h0 : |z0 - d| ≤ 5 * e) (rz : C.rep z) (rz0 : C.rep z0) : isCloseFl C z z0 = true := by
  have u0 := A.u_nonneg
  have η0 := A.eta_nonneg
  unfold isCloseFl
  rw [decide_eq_true_eq]
  have a1 := A.sub rz rz0
  have a2 : |z - z0| ≤ 10 * e := by
    have : z - z0 = (z - d) - (z0 - d) := by ring
    rw [this]
    refine (abs_sub _ _).trans ?_
    linarith
  have a3 : |C.fl (z - z0)| ≤ 1001 / 1000 * (10 * e) := by
    have := abs_add_le (C.fl (z - z0) - (z - z0)) (z - z0)
    rw [sub_add_cancel] at this
    have b := mul_le_mul hu a2 (abs_nonneg _) (by norm_num : (0 : K) ≤ 1 / 1000)
    linarith
  have b1 : |d| - 5 * e ≤ |z0| := by
    have := abs_sub_abs_le_abs_sub d z0
    rw [abs_sub_comm] at this
    linarith
  have hd0 : 0 ≤ |d| := abs_nonneg _
  have z00 : 0 ≤ |z0| := abs_nonneg _
  -- the tolerance
  have t1 : 998 / 1000 * (1 / 100000) ≤ C.fl (1 / 100000) := by
    have := A.err (1 / 100000)
    rw [abs_of_pos (by norm_num : (0 : K) < 1 / 100000)] at this
    have := (abs_le.mp this).1
    have := mul_le_mul_of_nonneg_right hu (by norm_num : (0 : K) ≤ 1 / 100000)
    norm_num at *
    linarith
  have t2 : 998 / 1000 * (1 / 100000) * |z0| ≤ C.fl (1 / 100000) * |z0| := mul_le_mul_of_nonneg_right t1 z00
  have t0 : 0 ≤ C.fl (1 / 100000) * |z0| := le_trans (mul_nonneg (by norm_num) z00) t2
  have t3 : 999 / 1000 * (C.fl (1 / 100000) * |z0|) - η ≤ C.fl (C.fl (1 / 100000) * |z0|) := by
    have := A.err (C.fl (1 / 100000) * |z0|)
    rw [abs_of_nonneg t0] at this
    have := (abs_le.mp this).1
    have := mul_le_mul_of_nonneg_right hu t0
    linarith
  have t4 : C.fl (C.fl (1 / 100000) * |z0|) ≤ C.fl (C.fl (1 / 100000000) + C.fl (C.fl (1 / 100000) * |z0|)) :=
    C.le_fl (C.rep_fl _) (le_add_of_nonneg_left (C.fl_nonneg (by norm_num)))
  refine a3.trans (le_trans ?_ t4)
  refine le_trans ?_ t3
  have t5 := mul_le_mul_of_nonneg_left t2 (by norm_num : (0 : K) ≤ 999 / 1000)
  have t6 := mul_le_mul_of_nonneg_left b1 (by norm_num : (0 : K) ≤ 999 / 1000 * (998 / 1000 * (1 / 100000)))
  norm_num at *
  linarith

/-- **C166, partial.** Coordinates `a, a + d, a + 2 d, …` (at least two) of size at most `B` that are rounded when stored pass the test if the rounding is
small against the step: `1e7 (u B + η) ≤ 9 |d|`. -/
theorem C166_accepted_partial {C : Rounding K} {u η : K} (A : C.Accurate u η) (hu : u ≤ 1 / 1000) (hη : η ≤ 1 / 1000000000) {a d B : K} {l : List K} (h2 : 2 ≤ l.length)
    (hd : d ≠ 0) (hl : StoredGrid C a d l) (hB : ∀ k < l.length, |a + k * d| ≤ B) (hstep : 10000000 * (u * B + η) ≤ 9 * |d|) :
    evenSpacingFl C (.d1 l) = .ok true := by
  have h0 := A.u_nonneg
  have h1 := A.eta_nonneg
  have hB0 : 0 ≤ B := (abs_nonneg _).trans (hB 0 (by omega))
  have he : 0 ≤ u * B + η := add_nonneg (mul_nonneg h0 hB0) h1
  have hηe : η ≤ u * B + η := le_add_of_nonneg_left (mul_nonneg h0 hB0)
  have hd' : 0 < |d| := abs_pos.mpr hd
  have close := step_close A hu hl hB
  have rep : ∀ z ∈ npDiffFl C l, C.rep z := by
    intro z hz
    obtain ⟨k, hk⟩ := List.mem_iff_getElem?.mp hz
    obtain ⟨x, y, -, -, rfl⟩ := npDiffFl_getElem? C l k z hk
    exact C.rep_fl _
  cases hD : npDiffFl C l with
  | nil =>
    have : (npDiffFl C l).length = 0 := by rw [hD]; rfl
    unfold npDiffFl at this
    rw [List.length_zipWith, List.length_tail] at this
    omega
  | cons z0 zs =>
    have hz0 := close 0 z0 (by rw [hD]; rfl)
    have nz : z0 ≠ 0 := by
      rintro rfl
      rw [zero_sub, abs_neg] at hz0
      linarith
    have na : ¬ ((z0 :: zs).all (fun x => decide (x = 0)) = true) := by simp [nz]
    unfold evenSpacingFl
    simp only [hD]
    rw [if_neg na]
    simp only [Except.ok.injEq, List.all_eq_true]
    intro z hz
    rw [← hD] at hz
    obtain ⟨k, hk⟩ := List.mem_iff_getElem?.mp hz
    exact close_steps A hu hη he hηe (by linarith) (close k z hk) hz0 (rep z hz) (rep z0 (by rw [hD]; exact List.mem_cons_self ..))

/-- **C166, partial.** In any precision: if all `a + k d` and the step can be stored exactly, the coordinates pass the test. -/
theorem C166_exact_grid_partial (C : Rounding K) {a d : K} {l : List K} (h2 : 2 ≤ l.length) (hd : d ≠ 0) (hl : ∀ (k : ℕ) (x : K), l[k]? = some x → x = a + k * d) (hrep : C.rep d) :
    evenSpacingFl C (.d1 l) = .ok true := by
  have steps : ∀ z ∈ npDiffFl C l, z = d := by
    intro z hz
    obtain ⟨k, hk⟩ := List.mem_iff_getElem?.mp hz
    obtain ⟨x, y, hx, hy, rfl⟩ := npDiffFl_getElem? C l k z hk
    rw [hl k x hx, hl (k + 1) y hy]
    push_cast
    rw [show a + ((k : K) + 1) * d - (a + k * d) = d by ring, C.fl_of_rep _ hrep]
  cases hD : npDiffFl C l with
  | nil =>
    have : (npDiffFl C l).length = 0 := by rw [hD]; rfl
    unfold npDiffFl at this
    rw [List.length_zipWith, List.length_tail] at this
    omega
  | cons z0 zs =>
    rw [hD] at steps
    have e0 := steps z0 (List.mem_cons_self ..)
    have na : ¬ ((z0 :: zs).all (fun x => decide (x = 0)) = true) := by simp [e0, hd]
    unfold evenSpacingFl
    simp only [hD]
    rw [if_neg na]
    simp only [Except.ok.injEq, List.all_eq_true]
    intro z hz
    rw [steps z hz, e0]
    unfold isCloseFl
    rw [decide_eq_true_eq, sub_self, C.fl_zero, abs_zero]
    exact C.fl_nonneg (add_nonneg (C.fl_nonneg (by norm_num)) (C.fl_nonneg (mul_nonneg (C.fl_nonneg (by norm_num)) (abs_nonneg _))))

/-- **C166, partial.** Then `nmse` does what it would do without the test. -/
theorem C166_call_partial (C R : Rounding K) (sum : List K → K) (wt : K → K) (obs mod : GeoInput K) (hlat : evenSpacingFl C obs.lat = .ok true)
    (hlon : evenSpacingFl C obs.lon = .ok true) : nmseWithFl C R sum wt obs mod = nmseWithBy (fun _ => .ok true) (nmseSliceFl R sum) wt obs mod := by
  unfold nmseWithFl nmseWithBy
  rw [hlat, hlon]

/-- the latitudes 45, 45.1, 45.2 as stored in single precision -/
def lats32 : List ℚ := [45, (float32 : Rounding ℚ).fl (451 / 10), (float32 : Rounding ℚ).fl (452 / 10)]

/-- a field on these latitudes -/
def field32 : GeoInput ℚ :=
  { kind := .dataArray, coords := ["lat", "lon"], found := true, manyLat := false, manyLon := false, lat := .d1 lats32, lon := .d1 [10, 11], vars := [("t", [some 1, some 2, some 3, some 4, some 5, some 7])] }

theorem lats32_stored : StoredGrid (float32 : Rounding ℚ) 45 (1 / 10) lats32 := by
  intro k x h
  match k with
  | 0 => injection h with h; subst h; decide +kernel
  | 1 => injection h with h; subst h; decide +kernel
  | 2 => injection h with h; subst h; decide +kernel
  | k + 3 => exact absurd h (by simp [lats32])

/-- **C166 counterexample.** Latitudes 45, 45.1, 45.2 in single precision: every field on them is rejected as unevenly spaced, also when it is compared with itself; in
double precision the same grid is accepted. -/
theorem C166_counterexample : StoredGrid (float32 : Rounding ℚ) 45 (1 / 10) lats32 ∧ evenSpacingFl (float32 : Rounding ℚ) (.d1 lats32) = .ok false ∧
    nmseWithFl float32 float64 (leftSum float64) (fun _ => 1) field32 field32 = .error .valueError ∧
    evenSpacingFl (float64 : Rounding ℚ) (.d1 [45, float64.fl (451 / 10), float64.fl (452 / 10)]) = .ok true :=
  ⟨lats32_stored, by decide +kernel, by decide +kernel, by decide +kernel⟩

/-- **C166, double precision.** Every grid within 360 degrees whose step is at least 5e-8 degrees is accepted. -/
theorem C166_double_partial [FloorRing K] {a d : K} {l : List K} (h2 : 2 ≤ l.length) (hl : StoredGrid float64 a d l) (hB : ∀ k < l.length, |a + k * d| ≤ 360)
    (hd : 5 / 100000000 ≤ |d|) : evenSpacingFl float64 (.d1 l) = .ok true := by
  have hu : (2 : K) ^ (-53 : ℤ) ≤ 112 / 10 ^ 18 := by rw [zpow_neg]; norm_num
  have hη : (2 : K) ^ (-1075 : ℤ) ≤ 2 ^ (-53 : ℤ) := zpow_le_zpow_right₀ (by norm_num) (by norm_num)
  have A := float64_accurate (K := K)
  generalize (2 : K) ^ (-53 : ℤ) = u at *
  generalize (2 : K) ^ (-1075 : ℤ) = η at *
  refine C166_accepted_partial A (hu.trans (by norm_num)) (hη.trans (hu.trans (by norm_num))) h2 ?_ hl hB ?_
  · rintro rfl
    rw [abs_zero] at hd
    norm_num at hd
  · norm_num at *
    linarith

/-- non-vacuity: a quarter-degree grid in single precision; a tenth-degree grid in double precision -/
example : evenSpacingFl (float32 : Rounding ℚ) (.d1 [45, 181 / 4, 182 / 4]) = .ok true :=
  C166_exact_grid_partial _ (a := 45) (d := 1 / 4) (by decide) (by norm_num)
    (fun k x h => by
      match k with
      | 0 => injection h with h; subst h; norm_num
      | 1 => injection h with h; subst h; norm_num
      | 2 => injection h with h; subst h; norm_num
      | k + 3 => exact absurd h (by simp))
    ⟨1, -2, by norm_num, by norm_num, by norm_num⟩

example : evenSpacingFl (float64 : Rounding ℚ) (.d1 ((List.range 3600).map (fun k : ℕ => float64.fl (k * (1 / 10))))) = .ok true :=
  C166_double_partial (a := 0) (d := 1 / 10) (by simp)
    (fun k x h => by
      rw [List.getElem?_map, Option.map_eq_some_iff] at h
      obtain ⟨j, hj, rfl⟩ := h
      rw [List.getElem?_range (by have := (List.getElem?_eq_some_iff.mp hj).1; simpa using this)] at hj
      injection hj with hj
      rw [hj, zero_add])
    (fun k hk => by
      rw [List.length_map, List.length_range] at hk
      have : (k : ℚ) ≤ 3600 := by exact_mod_cast hk.le
      rw [zero_add, abs_of_nonneg (by positivity)]
      linarith)
    (by norm_num)

end Verif.Props
