import Mathlib.Data.Int.Notation

/-
Model of the attribute handling of geocat/comp/climatologies.py (the numbers are in Model/Climatology.lean).

xarray's rules that are used (xarray/core/options.py `_get_keep_attrs`, groupby.py, common.py, dataset.py, variable.py):
* the global option `keep_attrs` is True, False or "default" (here: `Option Bool`);
* grouped and resampled reductions keep the attributes of the object and of its variables if their argument is truthy; for `None` the
  global option decides, by default they are kept;
* arithmetic and `.sum(dim)` follow the global option; by default they drop the attributes up to xarray 2025.10 and keep them since
  2025.11 (`arithKeeps`); the number-of-days weights have no attributes of their own;
* `assign_attrs` updates the dictionary of the object, `drop_attrs` empties it and those of all variables.
Attributes of coordinates are not modelled.
-/

namespace Verif.Model

/-- an attribute dictionary -/
abbrev Attrs := String → Option String

/-- the attributes of an object; `vars` are the data variables of a Dataset (none for a DataArray) -/
structure AttrObj where
  attrs : Attrs
  vars : List (String × Attrs)

/-- what xarray does about attributes: the global option `keep_attrs` (`none` for "default"), and the default of arithmetic -/
structure XrOptions where
  keepAttrs : Option Bool
  arithKeeps : Bool

/-- values passed as `keep_attrs` -/
inductive Flag
  | bool (b : Bool)
  | none
  | int (n : ℤ)
  | str (s : String)
  deriving DecidableEq

/-- Python truth value -/
def Flag.truthy : Flag → Bool
  | .bool b => b
  | .none => false
  | .int n => n ≠ 0
  | .str s => s ≠ ""

/-- `keep_attrs or keep_attrs is None` (climatologies.py 188, 436) -/
def Flag.keeps (f : Flag) : Bool := f.truthy || f == .none

/-- `keep_attrs in {True, None}` (climatologies.py 605); `1 == True` in Python -/
def Flag.isTrueOrNone (f : Flag) : Bool := f == .bool true || f == .none || f == .int 1

def noAttrs : Attrs := fun _ => none

/-- all attributes removed: `drop_attrs()`, or the result of an operation that does not keep them -/
def AttrObj.strip (o : AttrObj) : AttrObj := ⟨noAttrs, o.vars.map (fun v => (v.1, noAttrs))⟩

/-- `assign_attrs(attrs)` -/
def AttrObj.assign (o : AttrObj) (a : Attrs) : AttrObj := ⟨fun k => (a k).or (o.attrs k), o.vars⟩

/-- resampled or grouped reduction with `keep_attrs=flag` -/
def reduceGroups (opt : XrOptions) (flag : Flag) (o : AttrObj) : AttrObj :=
  if (if flag = .none then opt.keepAttrs.getD true else flag.truthy) then o else o.strip

/-- arithmetic, and `.sum(dim)` without `keep_attrs` -/
def arith (opt : XrOptions) (o : AttrObj) : AttrObj := if opt.keepAttrs.getD opt.arithKeeps then o else o.strip

/-- climatologies.py 423-468: attributes of `calendar_average` -/
def calendarAttrs (opt : XrOptions) (freq : String) (flag : Flag) (o : AttrObj) : AttrObj :=
  let d := reduceGroups opt flag o
  if freq = "season" ∨ freq = "year" then
    let attrs := if flag.keeps then d.attrs else noAttrs
    (reduceGroups opt .none (arith opt d)).assign attrs
  else d

/-- climatologies.py 604-672: attributes of `climatology_average`. `concat` takes the attributes of the first season (all agree). -/
def climatologyAttrs (opt : XrOptions) (freq : String) (flag : Flag) (o : AttrObj) : AttrObj :=
  let attrs := if flag.isTrueOrNone then o.attrs else noAttrs
  if freq = "season" then (arith opt (arith opt (reduceGroups opt flag o))).assign attrs
  else reduceGroups opt flag o

/-- climatologies.py 187-218: attributes of `climate_anomaly` -/
def anomalyAttrs (opt : XrOptions) (freq : String) (flag : Flag) (o : AttrObj) : AttrObj :=
  let attrs := if flag.keeps then o.attrs else noAttrs
  -- the group arithmetic only involves the (then dropped) attributes of data and climatology
  (arith opt o).strip.assign attrs

/-- climatologies.py 324: attributes of `month_to_season` -/
def seasonAttrs (opt : XrOptions) (flag : Flag) (o : AttrObj) : AttrObj := reduceGroups opt flag o

end Verif.Model
