import Verif.Basic.Py

/-
Model of which time coordinate the functions of geocat/comp/climatologies.py use and of the type of the time stamps they return
(the numbers are in Model/Climatology.lean).

Library functions, as modelled here (trusted):
* `dset[name]` raises KeyError for a name that is not a coordinate or variable; `dset.cf["time"]` (cf_xarray) is the one coordinate its
  metadata marks as time and raises KeyError if there is none; that choice is the parameter `cf`;
* `_contains_datetime_like_objects` accepts datetime64 and cftime objects;
* `xr.date_range(..., use_cftime=True)` yields cftime objects of the given calendar, and without `use_cftime` datetime64 for a
  datetime64 start and the calendar "proleptic_gregorian" (years outside the range of datetime64 are not modelled);
* `resample`, the mean over the bounds and adding an offset keep the type of the time stamps.
-/

namespace Verif.Model

/-- what a coordinate holds -/
inductive StampKind
  | datetime64
  | cftime (calendar : String)
  | other
  deriving DecidableEq

/-- climatologies.py 28-41: `_get_time_coordinate_info`; `name = none` stands for `None` -/
def timeCoordinate (coords : List (String × StampKind)) (cf : Option String) (name : Option String) : Except PyErr (String × StampKind) := do
  let n ← if name.getD "" ≠ "" then pure (name.getD "") else match cf with
    | some n => pure n
    | none => throw .keyError
  match coords.lookup n with
  | none => throw .keyError
  | some .other => throw .valueError
  | some k => pure (n, k)

/-- climatologies.py 110-122: `_infer_calendar_name` of a time coordinate (`other` has been rejected before) -/
def calendarName : StampKind → String
  | .cftime c => c
  | _ => "proleptic_gregorian"

/-- the type of `start` in `_calculate_center_of_time_bounds` -/
inductive StartKind
  | cftime | str | np
  deriving DecidableEq

/-- climatologies.py 92-107: the type of the centred time stamps -/
def centredKind (calendar : String) : StartKind → StampKind
  | .cftime => .cftime calendar
  | .str => .cftime calendar
  | .np => .datetime64

/-- `dset[time_dim].values[0]` -/
def startKind : StampKind → StartKind
  | .cftime _ => .cftime
  | _ => .np

/-- climatologies.py 419-464: name and type of the time coordinate of a result of `calendar_average` -/
def calendarStamps (coords : List (String × StampKind)) (cf name : Option String) : Except PyErr (String × StampKind) := do
  let (n, k) ← timeCoordinate coords cf name
  return (n, centredKind (calendarName k) (startKind k))

/-- climatologies.py 592-670: the same for `climatology_average` by hour, day or month: `start` is a formatted string -/
def climatologyStamps (coords : List (String × StampKind)) (cf name : Option String) : Except PyErr (String × StampKind) := do
  let (n, k) ← timeCoordinate coords cf name
  return (n, centredKind (calendarName k) .str)

/-- climatologies.py 281, 324-337: the same for `month_to_season` -/
def monthToSeasonStamps (coords : List (String × StampKind)) (cf name : Option String) : Except PyErr (String × StampKind) :=
  timeCoordinate coords cf name

/-- climatologies.py 186, 202-218: the same for `climate_anomaly`: the samples keep their time stamps -/
def anomalyStamps (coords : List (String × StampKind)) (cf name : Option String) : Except PyErr (String × StampKind) := do
  let (n, k) ← timeCoordinate coords cf name
  -- `calendar_average` and `climatology_average` are called with the name found
  let _ ← timeCoordinate coords cf (some n)
  return (n, k)

end Verif.Model
