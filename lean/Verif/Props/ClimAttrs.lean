import Verif.Model.ClimAttrs
import Mathlib.Tactic.SplitIfs

/-
C44: attributes of the results of the climatology functions; C93: attributes of a Dataset's variables.
-/

namespace Verif.Props
open Model

/-- `C44`: with `keep_attrs` True (whatever xarray's global option says) every function returns exactly the input's attributes -/
theorem C44_true (opt : XrOptions) (freq : String) (o : AttrObj) :
    (calendarAttrs opt freq (.bool true) o).attrs = o.attrs ∧ (climatologyAttrs opt freq (.bool true) o).attrs = o.attrs ∧
    (anomalyAttrs opt freq (.bool true) o).attrs = o.attrs ∧ (seasonAttrs opt (.bool true) o).attrs = o.attrs := by
  have hor : ∀ (a b : Attrs), (∀ k, b k = none ∨ b k = a k) → (fun k => (a k).or (b k)) = a := by
    intro a b h
    funext k
    rcases h k with h | h <;> rw [h] <;> cases a k <;> rfl
  have k1 : (Flag.bool true).keeps = true := rfl
  have k2 : (Flag.bool true).isTrueOrNone = true := rfl
  have k3 : ∀ o, reduceGroups opt (Flag.bool true) o = o := fun o => rfl
  refine ⟨?_, ?_, ?_, ?_⟩
  · simp only [calendarAttrs, k1, k3, if_true]
    split
    · apply hor
      intro k
      obtain ⟨_ | _ | _, _ | _⟩ := opt <;> simp [reduceGroups, arith, AttrObj.strip, noAttrs]
    · rfl
  · simp only [climatologyAttrs, k2, k3, if_true]
    split
    · apply hor
      intro k
      obtain ⟨_ | _ | _, _ | _⟩ := opt <;> simp [arith, AttrObj.strip, noAttrs]
    · rfl
  · simp only [anomalyAttrs, k1, if_true]
    apply hor
    intro k
    simp [AttrObj.strip, noAttrs]
  · rfl

/-- `C44`: with `keep_attrs` False every function returns an empty attribute dictionary -/
theorem C44_false (opt : XrOptions) (freq : String) (o : AttrObj) :
    (calendarAttrs opt freq (.bool false) o).attrs = noAttrs ∧ (climatologyAttrs opt freq (.bool false) o).attrs = noAttrs ∧
    (anomalyAttrs opt freq (.bool false) o).attrs = noAttrs ∧ (seasonAttrs opt (.bool false) o).attrs = noAttrs := by
  have k1 : (Flag.bool false).keeps = false := rfl
  have k2 : (Flag.bool false).isTrueOrNone = false := rfl
  have k3 : ∀ o, reduceGroups opt (Flag.bool false) o = o.strip := fun o => rfl
  refine ⟨?_, ?_, ?_, ?_⟩
  · simp only [calendarAttrs, k1, k3]
    split
    · obtain ⟨_ | _ | _, _ | _⟩ := opt <;> rfl
    · rfl
  · simp only [climatologyAttrs, k2, k3]
    split
    · obtain ⟨_ | _ | _, _ | _⟩ := opt <;> rfl
    · rfl
  · simp only [anomalyAttrs, k1]
    rfl
  · rfl

/-- `C44`: unless xarray's global option is False, `None` does the same as True -/
theorem C44_none (opt : XrOptions) (ho : opt.keepAttrs ≠ some false) (freq : String) (o : AttrObj) :
    calendarAttrs opt freq .none o = calendarAttrs opt freq (.bool true) o ∧
    climatologyAttrs opt freq .none o = climatologyAttrs opt freq (.bool true) o ∧
    anomalyAttrs opt freq .none o = anomalyAttrs opt freq (.bool true) o ∧ seasonAttrs opt .none o = seasonAttrs opt (.bool true) o := by
  obtain ⟨_ | _ | _, b⟩ := opt
  · exact ⟨rfl, rfl, rfl, rfl⟩
  · exact absurd rfl ho
  · exact ⟨rfl, rfl, rfl, rfl⟩

/-- `C44`: the default argument of `calendar_average` and `climate_anomaly`, the string "default", does the same as True -/
theorem C44_default (opt : XrOptions) (freq : String) (o : AttrObj) :
    calendarAttrs opt freq (.str "default") o = calendarAttrs opt freq (.bool true) o ∧
    anomalyAttrs opt freq (.str "default") o = anomalyAttrs opt freq (.bool true) o := ⟨rfl, rfl⟩

/-- `C44`: numbers used as truth values: 1 does the same as True, 0 the same as False -/
theorem C44_numbers (opt : XrOptions) (freq : String) (o : AttrObj) :
    (calendarAttrs opt freq (.int 1) o = calendarAttrs opt freq (.bool true) o ∧
      climatologyAttrs opt freq (.int 1) o = climatologyAttrs opt freq (.bool true) o ∧
      anomalyAttrs opt freq (.int 1) o = anomalyAttrs opt freq (.bool true) o ∧ seasonAttrs opt (.int 1) o = seasonAttrs opt (.bool true) o) ∧
    (calendarAttrs opt freq (.int 0) o = calendarAttrs opt freq (.bool false) o ∧
      climatologyAttrs opt freq (.int 0) o = climatologyAttrs opt freq (.bool false) o ∧
      anomalyAttrs opt freq (.int 0) o = anomalyAttrs opt freq (.bool false) o ∧ seasonAttrs opt (.int 0) o = seasonAttrs opt (.bool false) o) :=
  ⟨⟨rfl, rfl, rfl, rfl⟩, rfl, rfl, rfl, rfl⟩

/-- With the global option False, `None` drops the attributes in some functions and frequencies and keeps them in others. -/
theorem C44_option_false (b : Bool) (o : AttrObj) (ho : o.attrs ≠ noAttrs) :
    (climatologyAttrs ⟨some false, b⟩ "season" .none o).attrs = o.attrs ∧ (climatologyAttrs ⟨some false, b⟩ "month" .none o).attrs = noAttrs ∧
    (climatologyAttrs ⟨some false, b⟩ "month" .none o).attrs ≠ o.attrs ∧ (anomalyAttrs ⟨some false, b⟩ "month" .none o).attrs = o.attrs := by
  have hor : (fun k => (o.attrs k).or (noAttrs k)) = o.attrs := by
    funext k
    cases o.attrs k <;> rfl
  exact ⟨hor, rfl, fun h => ho h.symm, hor⟩

/-- `C93`: a Dataset's variables keep their attributes in hourly, daily and monthly averages -/
theorem C93_kept_partial (opt : XrOptions) (freq : String) (hf : freq = "hour" ∨ freq = "day" ∨ freq = "month") (o : AttrObj) :
    calendarAttrs opt freq (.bool true) o = o ∧ climatologyAttrs opt freq (.bool true) o = o ∧ seasonAttrs opt (.bool true) o = o := by
  rcases hf with rfl | rfl | rfl <;> exact ⟨rfl, rfl, rfl⟩

/-- `C93`: with an xarray whose arithmetic keeps attributes, they also keep them in seasonal and yearly averages and seasonal climatologies -/
theorem C93_new_xarray_partial (freq : String) (o : AttrObj) :
    (calendarAttrs ⟨none, true⟩ freq (.bool true) o).vars = o.vars ∧ (climatologyAttrs ⟨none, true⟩ freq (.bool true) o).vars = o.vars := by
  constructor
  · unfold calendarAttrs
    split_ifs <;> rfl
  · unfold climatologyAttrs
    split_ifs <;> rfl

/-- `C93`: no attribute of a variable is invented or changed -/
theorem C93_from_input (opt : XrOptions) (freq : String) (flag : Flag) (o : AttrObj) (r : AttrObj)
    (hr : r = calendarAttrs opt freq flag o ∨ r = climatologyAttrs opt freq flag o ∨ r = anomalyAttrs opt freq flag o ∨ r = seasonAttrs opt flag o) :
    r.vars = o.vars ∨ r.vars = o.strip.vars := by
  have h1 : ∀ flag' o', reduceGroups opt flag' o' = o' ∨ reduceGroups opt flag' o' = o'.strip := by
    intro flag' o'
    unfold reduceGroups
    by_cases h : (if flag' = Flag.none then opt.keepAttrs.getD true else flag'.truthy) = true
    · rw [if_pos h]; exact Or.inl rfl
    · rw [if_neg h]; exact Or.inr rfl
  have h2 : ∀ o', arith opt o' = o' ∨ arith opt o' = o'.strip := by
    intro o'
    unfold arith
    split <;> simp
  have h3 : ∀ o' : AttrObj, o'.strip.strip = o'.strip := by
    intro o'
    simp [AttrObj.strip]
  have ha : ∀ (o' : AttrObj) a, (o'.assign a).vars = o'.vars := fun _ _ => rfl
  rcases hr with rfl | rfl | rfl | rfl
  · unfold calendarAttrs
    rcases h1 flag o with hA | hA <;> simp only [hA] <;> split_ifs <;> obtain ⟨_ | _ | _, _ | _⟩ := opt <;>
      simp [ha, arith, reduceGroups, AttrObj.strip]
  · unfold climatologyAttrs
    rcases h1 flag o with hA | hA <;> simp only [hA] <;> split_ifs <;> (try simp only [ha]) <;> obtain ⟨_ | _ | _, _ | _⟩ := opt <;> simp [arith, AttrObj.strip]
  · right
    unfold anomalyAttrs
    obtain ⟨_ | _ | _, _ | _⟩ := opt <;> simp [arith, AttrObj.strip, AttrObj.assign]
  · rcases h1 flag o with h | h <;> rw [seasonAttrs, h] <;> simp

/-- a Dataset with one variable that has units -/
def withUnits : AttrObj := ⟨fun k => if k = "title" then some "run 1" else none, [("t", fun k => if k = "units" then some "K" else none)]⟩

/-- C93 is false of the code: with `keep_attrs=True` the variables of a Dataset lose their attributes (units, names) in all anomalies, and,
with an xarray whose arithmetic drops attributes by default, in seasonal and yearly averages and in seasonal climatologies. -/
theorem C93_counterexample : (withUnits.vars.map (fun v => v.2 "units") = [some "K"]) ∧
    (∀ opt, (anomalyAttrs opt "month" (.bool true) withUnits).vars.map (fun v => v.2 "units") = [none]) ∧
    ((calendarAttrs ⟨none, false⟩ "season" (.bool true) withUnits).vars.map (fun v => v.2 "units") = [none]) ∧
    ((calendarAttrs ⟨none, false⟩ "year" (.bool true) withUnits).vars.map (fun v => v.2 "units") = [none]) ∧
    ((climatologyAttrs ⟨none, false⟩ "season" (.bool true) withUnits).vars.map (fun v => v.2 "units") = [none]) := by
  refine ⟨rfl, fun opt => ?_, rfl, rfl, rfl⟩
  obtain ⟨_ | _ | _, _ | _⟩ := opt <;> rfl

example : withUnits.attrs ≠ noAttrs := fun h => by
  have := congrFun h "title"
  simp [withUnits, noAttrs] at this

end Verif.Props
