import Verif.Basic.Py
import Verif.Basic.PyStr

/-
Model of `_find_var` and `_find_optional_var`, /repo/geocat/comp/gc_util.py, and of the variable/coordinate selection
of `zonal_meridional_psi`, /repo/geocat/comp/meteorology.py:1454-1511.
-/

namespace Verif.Model
open PyStr

/-- what the lookup sees of one variable: name, the two attributes (`none` if absent) and its dimensions -/
structure Var where
  name : Str
  standardName : Option Str := none
  longName : Option Str := none
  dims : List Str := []

/-- a data set: data variables and coordinates, each in data set order -/
structure Dataset where
  dataVars : List Var
  coords : List Var := []

/-- `name in ds`: data variables and coordinates -/
def Dataset.contains (ds : Dataset) (n : Str) : Bool := (ds.dataVars ++ ds.coords).any (fun v => v.name == n)

/-- gc_util.py:75-81 and 123-129 (a set; only membership matters) -/
def nameVariations (s : Str) : List Str := [s, lower s, upper s, capitalize s, title '_' s]

/-- gc_util.py:96-105 -/
def longNameVariations (s : Str) : List Str :=
  [s, lower s, upper s, capitalize s, title ' ' s, title '_' s, replace ' ' '_' s, replace '_' ' ' s]

/-- gc_util.py:120-130 the set of expanded names -/
def expandedNames (names : List Str) : List Str := names.flatMap nameVariations

/-- `attrs.get(key, '')` -/
def attrOrEmpty (a : Option Str) : Str := a.getD []

/-- gc_util.py:33-137 `_find_var`. `order` is the iteration order Python happens to use for the set of expanded names
at line 132 (any list with the same elements). Python truthiness: empty strings and lists count as not given. -/
def findVar (order : List Str → List Str) (ds : Dataset) (standardName longName : Option Str)
    (possibleNames : Option (List Str)) : Except PyErr Str :=
  -- 74-90
  let stage1 := match standardName with
    | some (c :: cs) => ds.dataVars.find? (fun (v : Var) =>
        (nameVariations (c :: cs)).contains v.name || (nameVariations (c :: cs)).contains (attrOrEmpty v.standardName))
    | _ => none
  -- 95-114
  let stage2 := match longName with
    | some (c :: cs) => ds.dataVars.find? (fun (v : Var) =>
        (longNameVariations (c :: cs)).contains v.name || (longNameVariations (c :: cs)).contains (attrOrEmpty v.longName))
    | _ => none
  -- 119-134
  let stage3 := match possibleNames with
    | some (n :: ns) => (order (expandedNames (n :: ns))).find? (fun n => ds.contains n)
    | _ => none
  match stage1 with
  | some v => .ok v.name
  | none =>
    match stage2 with
    | some v => .ok v.name
    | none =>
      match stage3 with
      | some n => .ok n
      | none => .error .keyError

/-- gc_util.py:140-172 `_find_optional_var` -/
def findOptionalVar (order : List Str → List Str) (ds : Dataset) (standardName longName : Option Str)
    (possibleNames : Option (List Str)) : Except PyErr (Option Str) :=
  match findVar order ds standardName longName possibleNames with
  | .ok n => .ok (some n)
  | .error .keyError => .ok none
  | .error e => .error e

/-- the name arguments of `zonal_meridional_psi` -/
structure PsiNames where
  wind : Option Str := none
  ps : Option Str := none
  plev : Option Str := none
  hyam : Option Str := none
  hybm : Option Str := none

/-- Python `if not name` for an optional string -/
def given (n : Option Str) : Option Str :=
  match n with
  | some (c :: cs) => some (c :: cs)
  | _ => none

/-- where the wind on pressure levels comes from -/
inductive PsiSource
  | onPressure (plev : Str)
  | interpolated (hyam hybm : Str)
  deriving DecidableEq

/-- `ds[name]`, KeyError if absent -/
def Dataset.lookup (ds : Dataset) (n : Str) : Except PyErr Var :=
  match (ds.dataVars ++ ds.coords).find? (fun v => v.name == n) with
  | some v => .ok v
  | none => .error .keyError

/-- meteorology.py:1455-1461 the wind variable -/
def psiWind (order : List Str → List Str) (ds : Dataset) (a : PsiNames) : Except PyErr Str :=
  match given a.wind with
  | some n => .ok n
  | none => findVar order ds (some "northward_wind".toList) (some "Meridional wind".toList)
      (some ["V".toList, "vs".toList, "meridional_wind".toList])

/-- meteorology.py:1462-1473 the surface pressure variable -/
def psiPs (order : List Str → List Str) (ds : Dataset) (a : PsiNames) : Except PyErr Str :=
  match given a.ps with
  | some n => .ok n
  | none => findVar order ds (some "surface_air_pressure".toList) (some "Surface pressure".toList)
      (some ["ps".toList, "p_surface".toList, "surface_pressure".toList, "pressure_surface".toList])

/-- meteorology.py:1474-1480 -/
def psiHyam (order : List Str → List Str) (ds : Dataset) (a : PsiNames) : Except PyErr (Option Str) :=
  match given a.hyam with
  | some n => .ok (some n)
  | none => findOptionalVar order ds none (some "hybrid A coefficient at layer midpoints".toList)
      (some ["hyam".toList, "hya".toList, "hybrid_A_midpoints".toList])

/-- meteorology.py:1481-1487 -/
def psiHybm (order : List Str → List Str) (ds : Dataset) (a : PsiNames) : Except PyErr (Option Str) :=
  match given a.hybm with
  | some n => .ok (some n)
  | none => findOptionalVar order ds none (some "hybrid B coefficient at layer midpoints".toList)
      (some ["hybm".toList, "hyb".toList, "hybrid_B_midpoints".toList])

/-- meteorology.py:1488-1494 -/
def psiPlev (order : List Str → List Str) (ds : Dataset) (a : PsiNames) : Except PyErr (Option Str) :=
  match given a.plev with
  | some n => .ok (some n)
  | none => findOptionalVar order ds (some "air_pressure".toList) none
      (some ["plev".toList, "pressure_lev".toList, "pressure_levels".toList])

/-- meteorology.py:1454-1511 variable lookup and choice of source; returns the names of the wind and surface pressure
variables and the source -/
def psiSelect (order : List Str → List Str) (ds : Dataset) (a : PsiNames) : Except PyErr (Str × Str × PsiSource) := do
  let wind ← psiWind order ds a
  let ps ← psiPs order ds a
  let hyam ← psiHyam order ds a
  let hybm ← psiHybm order ds a
  let plev ← psiPlev order ds a
  -- 1497-1511
  let onPressure : Option Str ← match plev with
    | some p => do
        let w ← ds.lookup wind
        pure (if w.dims.contains p then some p else none)
    | none => pure none
  match onPressure with
  | some p => return (wind, ps, .onPressure p)
  | none =>
    match hyam, hybm with
    | some a, some b => do
        -- 1501-1504: the four variables are read
        let _ ← ds.lookup wind
        let _ ← ds.lookup ps
        let _ ← ds.lookup a
        let _ ← ds.lookup b
        return (wind, ps, .interpolated a b)
    | _, _ => .error .attributeError

/-- xarray `DataArray(..., dims=dims, coords=coords)`: a coordinate whose dimensions are not among `dims` is a
ValueError -/
def checkCoords (dims : List Str) (coords : List (Str × List Str)) : Except PyErr Unit :=
  if coords.all (fun c => c.2.all (fun d => dims.contains d)) then .ok () else .error .valueError

/-- meteorology.py:1514-1540: the pressure coordinate is stored under the name `plev` but keeps the dimension it has in
the wind variable (a one-dimensional coordinate named like its dimension); the layer thickness array is then built with
dimensions time, latitudes, plev -/
def psiThicknessCheck (src : PsiSource) : Except PyErr Unit :=
  let pdim := match src with
    | .onPressure p => p
    | .interpolated _ _ => "plev".toList
  checkCoords ["time".toList, "latitudes".toList, "plev".toList]
    [("plev".toList, [pdim]), ("latitudes".toList, ["latitudes".toList])]

/-- lookup followed by the construction of the thickness array -/
def psiPrepare (order : List Str → List Str) (ds : Dataset) (a : PsiNames) : Except PyErr (Str × Str × PsiSource) := do
  let r ← psiSelect order ds a
  psiThicknessCheck r.2.2
  return r

end Verif.Model
