import Verif.Props.MetLabels

/-
C112 and C117 in terms of calls with numbers: the value at a labelled point is what the function returns for the numbers at that point.
-/

set_option linter.unusedSectionVars false

namespace Verif.Props
open Verif.Model Verif.Spec Verif.Lemmas Verif.XF

/-- a Python float as an argument -/
def num (x : XF ℝ) : Arg (XF ℝ) := ⟨.float, ⟨[], fun _ => x⟩⟩

/-- the call returns the number `v` -/
def Returns (r : Except PyErr (Arg (XF ℝ))) (v : XF ℝ) : Prop := ∃ q, r = .ok q ∧ q.val.shape = [] ∧ q.val.get [] = v

/-- **C112, relhum_ice and relhum_water** (partial, as `C112_relhum_ice_partial`): at every labelled point the result is what the function
returns for the three numbers at that point. -/
theorem C112_numbers_partial (t w p : LArr (XF ℝ)) (h : SameNames t w p) (hd : w.dims = t.dims) :
    (∃ r, relhumIceDA t w p = .ok r ∧ r.dims = t.dims ∧ (∀ d ∈ t.dims, r.size d = t.size d) ∧
      ∀ i, Returns (relhumIce (num (t.get i)) (num (w.get i)) (num (p.get i))) (r.get i)) ∧
    (∃ r, relhumWaterDA t w p = .ok r ∧ r.dims = t.dims ∧ (∀ d ∈ t.dims, r.size d = t.size d) ∧
      ∀ i, Returns (relhumWater (num (t.get i)) (num (w.get i)) (num (p.get i))) (r.get i)) := by
  obtain ⟨⟨r, h1, h2, h3, h4⟩, s, g1, g2, g3, g4⟩ := C112_relhum_ice_partial t w p h hd
  refine ⟨⟨r, h1, h2, h3, fun i => ⟨_, rfl, rfl, ?_⟩⟩, s, g1, g2, g3, fun i => ⟨_, rfl, rfl, ?_⟩⟩
  · rw [h4]; rfl
  · rw [g4]; rfl

/-- **C112, dewtemp, heat_index and relhum**: whatever the orders of the dimensions, at every labelled point the result is what the
function returns for the numbers at that point, if it accepts them. -/
theorem C112_numbers (alt : Bool) (t w p : LArr (XF ℝ)) (h : SameNames t w p) :
    (∃ r, dewtempDA t w = .ok r ∧ r.dims = t.dims ∧ ∀ i, Returns (dewtemp (num (t.get i)) (num (w.get i))) (r.get i)) ∧
    (∃ r, heatIndexDA alt t w = .ok r ∧ r.dims = w.dims ∧
      ∀ i b q, heatIndex alt (num (t.get i)) (num (w.get i)) = .ok (b, q) → q.val.shape = [] ∧ q.val.get [] = r.get i) ∧
    (∃ r, relhumTableDA t w p = .ok r ∧ r.dims = w.dims ∧
      ∀ i q, relhum (num (t.get i)) (num (w.get i)) (num (p.get i)) = .ok q → q.val.shape = [] ∧ q.val.get [] = r.get i) := by
  obtain ⟨⟨r, h1, h2, h3⟩, ⟨s, g1, g2, g3⟩, u, k1, k2, k3⟩ := C112_by_name alt t w p h
  refine ⟨⟨r, h1, h2, fun i => ⟨_, rfl, rfl, ?_⟩⟩, ⟨s, g1, g2, fun i b q hq => ?_⟩, u, k1, k2, fun i q hq => ?_⟩
  · rw [h3]; rfl
  · rw [g3]
    unfold heatIndex at hq
    rw [if_neg (by simp [num]), if_neg (by simp [num]), if_neg (by simp [num, Tensor.values, Tensor.indices])] at hq
    simp only at hq
    split at hq
    · cases hq
    · injection hq with hq
      injection hq with _ hq
      subst hq
      exact ⟨rfl, rfl⟩
  · rw [k3]
    unfold relhum at hq
    split at hq
    · cases hq
    · rw [if_neg (by simp [listTimesScalar, num])] at hq
      injection hq with hq
      subst hq
      exact ⟨rfl, rfl⟩

/-- **C117** (partial, as `C117_labels_partial`): the entry for a day and a latitude is what max_daylight returns for these two numbers. -/
theorem C117_numbers_partial (jday lat : Tensor (XF ℝ)) (hj : jday.shape.length = 1) (hl : lat.shape.length = 1) :
    ∃ w r, maxDaylightDA jday lat = .ok (w, r, jday.values, lat.values) ∧ r.shape = [jday.values.length, lat.values.length] ∧
      ∀ d l a b, jday.values[d]? = some a → lat.values[l]? = some b →
        ∃ w' q, maxDaylight (num a).val (num b).val = .ok (w', q) ∧ q.shape = [1, 1] ∧ q.get [0, 0] = r.get [d, l] := by
  obtain ⟨w, r, h1, h2, h3⟩ := C117_labels_partial jday lat hj hl
  refine ⟨w, r, h1, h2, fun d l a b ha hb => ⟨_, _, rfl, rfl, ?_⟩⟩
  rw [h3 d l a b ha hb]
  rfl

/-- a case: a row and a column of days and latitudes, and an accepted call of heat_index -/
example : ∃ t w p : LArr (XF ℝ), SameNames t w p ∧ w.dims ≠ t.dims :=
  ⟨_, _, _, square_names ["lat", "lon"] ["lon", "lat"] ["lat", "lon"] (Or.inl rfl) (Or.inr rfl) (Or.inl rfl) (fun _ _ => 80) (fun _ _ => 50) (fun _ _ => 1),
    by simp [square]⟩

example : ∃ b q, heatIndex false (num (fin 80)) (num (fin 50)) = .ok (b, q) := by
  unfold heatIndex
  rw [if_neg (by simp [num]), if_neg (by simp [num]), if_neg (by simp [num, Tensor.values, Tensor.indices])]
  simp only
  rw [if_neg]
  · exact ⟨_, _, rfl⟩
  · simp [num, Tensor.values, Tensor.indices, reduceMin, reduceMax, lt]
    norm_num

end Verif.Props
