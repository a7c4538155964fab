import Verif.Model.Climatology
import Verif.Model.FloatsNmse

/-
The functions of climatologies.py with the arithmetic left open: how the mean of some values and how the day-weighted sum of some monthly values is
computed. `exactArith` gives `Model/Climatology`, `floatArith` rounds every operation.
-/

set_option linter.unusedSectionVars false

namespace Verif.Model
variable {K : Type _} [Field K] [LinearOrder K]

/-- the two computations with data values -/
structure ClimArith (K : Type _) where
  /-- `.mean()` over the values that are not missing -/
  mean : List K → K
  /-- `(values * (days / total)).sum()` over pairs of value and number of days -/
  wsum : K → List (K × K) → K

/-- exact numbers -/
def exactArith : ClimArith K where
  mean l := l.sum / l.length
  wsum D l := (l.map (fun x => x.1 * (x.2 / D))).sum

/-- every operation rounded; numbers of days and their sum are exact; `sum` adds up in some order (`AddsUp`) -/
def floatArith (R : Rounding K) (sum : List K → K) : ClimArith K where
  mean l := R.fl (sum l / l.length)
  wsum D l := sum (l.map (fun x => R.fl (x.1 * R.fl (x.2 / D))))

variable (A : ClimArith K)

/-- see `nanMean` -/
def nanMeanBy (c : ℕ) (g : List (Entry K)) : Option K :=
  if g.filterMap (·.val c) = [] then none else some (A.mean (g.filterMap (·.val c)))

/-- see `meanEach` -/
def meanEachBy (l : List (ℤ × List (Entry K))) : List (Entry K) := l.map (fun g => ⟨g.1, fun c => nanMeanBy A c g.2⟩)

/-- the values of cell `c` that are not missing, with the days of their months -/
def dayValues (cal : Cal) (c : ℕ) (m : List (Entry K)) : List (K × K) := m.filterMap (fun e => (e.val c).map (fun x => (x, (cal.len e.key : K))))

/-- climatologies.py 449-453 (see `weightedSums`) -/
def weightedSumsBy (cal : Cal) (p : Period) (m : List (Entry K)) : List (Entry K) :=
  (bins (monthPeriod p) m).map (fun g =>
    ⟨g.1, fun c => if g.2 = [] then none else some (A.wsum (totalDays cal g.2) (dayValues cal c g.2))⟩)

/-- climatologies.py 344-468 (see `calendarAverage`) -/
def calendarAverageBy (cal : Cal) (infer : InferFreq) (freq : String) (s : Series K) : Except PyErr (List (Entry K)) := do
  let p ← calendarPeriod freq
  let key := if p = .season ∨ p = .year then .month else p
  if ¬ s.isTime then throw .valueError
  checkUniform cal infer s
  let g ← resample (periodOf cal key) s.samples
  let m := dropna s.ncell (meanEachBy A g)
  let out := if p = .season ∨ p = .year then weightedSumsBy A cal p m else m
  match out.head?, out.getLast? with
  | some a, some z => centerBounds cal p a.key z.key out
  | _, _ => throw (if p = .season ∨ p = .year then .valueError else .indexError)

/-- climatologies.py 625-641 (see `seasonClimate`) -/
def seasonClimateBy (cal : Cal) (s : Series K) (months : List ℤ) : Except PyErr (ℕ → Option K) := do
  let g ← resample cal.monthOf (s.samples.filter (fun e => cal.month e.key ∈ months))
  let m := dropna s.ncell (meanEachBy A g)
  return fun c => some (A.wsum (totalDays cal m) (dayValues cal c m))

/-- climatologies.py 609-646 (see `seasonClimates`) -/
def seasonClimatesBy (cal : Cal) (s : Series K) (custom : List String) : Except PyErr (ClimOut K) := do
  let seasons := if custom = [] then ["DJF", "JJA", "MAM", "SON"] else custom
  if seasons.any (fun n => (seasonMonths n).isNone) then throw .valueError
  let vals ← seasons.mapM (fun n => do return (n, ← seasonClimateBy A cal s ((seasonMonths n).getD [])))
  return .seasons vals

/-- climatologies.py 650-672 (see `groupClimate`) -/
def groupClimateBy (cal : Cal) (p : Period) (s : Series K) : Except PyErr (List (Entry K)) := do
  let y := medianYear cal s.samples
  let g := groupKeys (stampKey cal p) s.samples
  match g.head?, g.getLast? with
  | some a, some z =>
    if ¬ (1000 ≤ y ∧ y ≤ 99999) then throw .valueError
    let first ← keyPeriod cal p y a.1
    let last ← keyPeriod cal p y z.1
    centerBounds cal p first last (meanEachBy A g)
  | _, _ => throw .indexError

/-- climatologies.py 471-672 (see `climatologyAverage`) -/
def climatologyAverageBy (cal : Cal) (infer : InferFreq) (freq : String) (custom : List String) (s : Series K) : Except PyErr (ClimOut K) := do
  let p ← climatologyPeriod freq
  if ¬ s.isTime then throw .valueError
  checkUniform cal infer s
  if p = .season then seasonClimatesBy A cal s custom
  else return .times (← groupClimateBy A cal p s)

/-- climatologies.py 221-341 (see `monthToSeason`) -/
def monthToSeasonBy (cal : Cal) (season : String) (s : Series K) : Except PyErr (List (Entry K)) := do
  if ¬ s.isTime then throw .valueError
  if s.samples.length % 12 ≠ 0 then throw .valueError
  let (months, anchor) ← match seasonQuarter season with
    | some r => pure r
    | none => throw .keyError
  let f := s.samples.filter (fun e => cal.month e.key ∈ months)
  let f := if season = "DJF" then f.dropLast else if season = "NDJ" then f.tail else f
  let g ← resample (fun t => quarterOf anchor (cal.monthOf t)) f
  let means := (meanEachBy A g).map (fun e => (⟨quarterMonth anchor e.key + 1, e.val⟩ : Entry K))
  let sel := means.filter (fun e => decide (Cal.monthNo e.key = months.getD 1 0))
  return sel.map (fun e => ⟨cal.monthStart e.key, e.val⟩)

/-- see `groupSum`; `sum` adds up -/
def groupSumBy (sum : List K → K) (f : ℤ → ℤ) (clim : List (Entry K)) (t : ℤ) (c : ℕ) : Option K :=
  let g := clim.filter (fun e => f e.key = f t)
  if g = [] then none else some (sum (g.filterMap (·.val c)))

/-- see `minusGroup`; `sub` subtracts -/
def minusGroupBy (sub : K → K → K) (l : List (Entry K)) (ref : ℤ → ℕ → Option K) : List (Entry K) :=
  l.map (fun e => ⟨e.key, fun c => match e.val c, ref e.key c with | some x, some y => some (sub x y) | _, _ => none⟩)

/-- climatologies.py 125-218 (see `climateAnomaly`) -/
def climateAnomalyBy (sum : List K → K) (sub : K → K → K) (cal : Cal) (infer : InferFreq) (freq : String) (s : Series K) : Except PyErr (List (Entry K)) := do
  if ¬ s.isTime then throw .valueError
  match freq with
  | "day" =>
    match ← climatologyAverageBy A cal infer "day" [] s with
    | .times clim => return minusGroupBy sub s.samples (groupSumBy sum (stampKey cal .day) clim)
    | .seasons _ => throw .notImplemented
  | "month" =>
    match ← climatologyAverageBy A cal infer "month" [] s with
    | .times clim => return minusGroupBy sub s.samples (groupSumBy sum (stampKey cal .month) clim)
    | .seasons _ => throw .notImplemented
  | "season" =>
    match ← climatologyAverageBy A cal infer "season" [] s with
    | .seasons clim =>
      return minusGroupBy sub s.samples (fun t c => ((clim.find? (fun x => x.1 = seasonOf (cal.month t))).map (·.2 c)).join)
    | .times _ => throw .notImplemented
  | "year" =>
    let clim ← calendarAverageBy A cal infer "year" s
    return minusGroupBy sub s.samples (groupSumBy sum (fun t => cal.year t % 100) clim)
  | _ => throw .valueError

end Verif.Model
