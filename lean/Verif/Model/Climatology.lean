import Verif.Basic.TimeSeries
import Verif.Basic.Py
import Mathlib.Algebra.Order.Field.Basic
import Mathlib.Algebra.BigOperators.Group.List.Basic
import Mathlib.Data.List.Sort
import Mathlib.Data.List.Dedup

/-
Model of geocat/comp/climatologies.py.

A DataArray or Dataset is a list of samples in time; a sample holds one value per grid cell (`none` is NaN;
infinities are not modelled). For a Dataset "cell" ranges over the cells of all its variables along the time
dimension. Time stamps are seconds (`Basic/Cal.lean`).

Library functions, as modelled here (trusted):
* `resample(freq)` bins consecutive periods from the first to the last sample, needs increasing times and yields NaN
  for empty bins, for `mean` as well as for `sum` and `count`;
* reductions of floating-point data skip NaN; the mean of no values is NaN, the sum of no values is 0;
* `dropna(time)` drops a time step if any cell is NaN (`how="any"`);
* `groupby(strftime)` forms one group per distinct string, in string order;
* `xr.infer_freq` is an arbitrary function: it finds a frequency, finds none, or raises;
* `assign_coords` raises ValueError if the number of labels is wrong;
* ISO date strings need a four- or five-digit year and a valid day of the month.
-/

set_option linter.unusedSectionVars false

namespace Verif.Model
variable {K : Type _} [Field K] [LinearOrder K]

/-- climatologies.py 400-406: pandas frequencies 'h', 'D', 'MS', 'QS-DEC', 'YS': number of the period containing a time stamp -/
def periodOf (cal : Cal) (p : Period) (t : ℤ) : ℤ :=
  match p with
  | .hour => t / 3600
  | .day => t / 86400
  | .month => cal.monthOf t
  | .season => (cal.monthOf t + 1) / 3
  | .year => cal.monthOf t / 12

/-- first second of a period -/
def periodStart (cal : Cal) (p : Period) (b : ℤ) : ℤ :=
  match p with
  | .hour => 3600 * b
  | .day => 86400 * b
  | .month => cal.monthStart b
  | .season => cal.monthStart (3 * b - 1)
  | .year => cal.monthStart (12 * b)

/-- 92-106: mean of the period's start and the next period's start (exact, both are multiples of an hour) -/
def periodCenter (cal : Cal) (p : Period) (b : ℤ) : ℤ := (periodStart cal p b + periodStart cal p (b + 1)) / 2

/-- `xr.date_range(start=a, end=b)` in period numbers -/
def periodRange (a b : ℤ) : List ℤ := (List.range (b - a + 1).toNat).map (fun i : ℕ => a + i)

/-- mean over the non-missing values of a cell; NaN if there are none -/
def nanMean (c : ℕ) (g : List (Entry K)) : Option K :=
  if g.filterMap (·.val c) = [] then none else some ((g.filterMap (·.val c)).sum / (g.filterMap (·.val c)).length)

/-- sum over the non-missing values of a cell -/
def nanSum (c : ℕ) (g : List (Entry K)) : K := (g.filterMap (·.val c)).sum

/-- bins of a resampled axis: every period from that of the first to that of the last entry, with the entries in it -/
def bins (per : ℤ → ℤ) (l : List (Entry K)) : List (ℤ × List (Entry K)) :=
  match l.head?, l.getLast? with
  | some a, some z => (periodRange (per a.key) (per z.key)).map (fun b => (b, l.filter (fun e => per e.key = b)))
  | _, _ => []

/-- `resample(...)` on the user's samples; raises if they are not in increasing order (or if there are none) -/
def resample (per : ℤ → ℤ) (l : List (Entry K)) : Except PyErr (List (ℤ × List (Entry K))) :=
  if l = [] ∨ ¬ l.Pairwise (fun a b => a.key ≤ b.key) then throw .valueError else pure (bins per l)

/-- `.mean()` of a resampled or grouped object -/
def meanEach (l : List (ℤ × List (Entry K))) : List (Entry K) := l.map (fun g => ⟨g.1, fun c => nanMean c g.2⟩)

/-- `.dropna(time_dim)` -/
def dropna (ncell : ℕ) (l : List (Entry K)) : List (Entry K) := l.filter (fun e => (List.range ncell).all (fun c => (e.val c).isSome))

/-- `xr.infer_freq`: `ok true` a frequency was found, `ok false` none -/
abbrev InferFreq := List ℤ → Except PyErr Bool

/-- climatologies.py 423-427 and 595-600: uniform spacing, or one sample in every month -/
def checkUniform (cal : Cal) (infer : InferFreq) (s : Series K) : Except PyErr Unit := do
  if ← infer (s.samples.map (·.key)) then return ()
  let m ← resample cal.monthOf s.samples
  if m.all (fun g => g.2.length = 1) then return () else throw .valueError

/-- climatologies.py 42-107: `_calculate_center_of_time_bounds` with the first and the last entry's period as bounds -/
def centerBounds (cal : Cal) (p : Period) (first last : ℤ) (l : List (Entry K)) : Except PyErr (List (Entry K)) :=
  if (periodRange first last).length = l.length then
    pure (List.zipWith (fun b e => (⟨periodCenter cal p b, e.val⟩ : Entry K)) (periodRange first last) l)
  else throw .valueError

/-- number of the season or year containing month `k` -/
def monthPeriod (p : Period) (k : ℤ) : ℤ :=
  match p with
  | .season => (k + 1) / 3
  | .year => k / 12
  | _ => k

/-- number of days of all months of a group -/
def totalDays (cal : Cal) (g : List (Entry K)) : K := (g.map (fun e => (cal.len e.key : K))).sum

/-- climatologies.py 449-453: month values weighted with the number of days, summed over each season or year -/
def weightedSums (cal : Cal) (p : Period) (m : List (Entry K)) : List (Entry K) :=
  (bins (monthPeriod p) m).map (fun g =>
    ⟨g.1, fun c => if g.2 = [] then none
      else some (nanSum c (g.2.map (fun e => ⟨e.key, fun c => (e.val c).map (fun x => x * ((cal.len e.key : K) / totalDays cal g.2))⟩)))⟩)

/-- climatologies.py 400-411: accepted frequencies of `calendar_average` -/
def calendarPeriod : String → Except PyErr Period
  | "hour" => .ok .hour
  | "day" => .ok .day
  | "month" => .ok .month
  | "season" => .ok .season
  | "year" => .ok .year
  | _ => .error .valueError

/-- climatologies.py 344-468: `calendar_average` (attributes: `Model/ClimAttrs.lean`) -/
def calendarAverage (cal : Cal) (infer : InferFreq) (freq : String) (s : Series K) : Except PyErr (List (Entry K)) := do
  -- 400-411
  let p ← calendarPeriod freq
  -- 415
  let key := if p = .season ∨ p = .year then .month else p
  -- 420
  if ¬ s.isTime then throw .valueError
  -- 423-427
  checkUniform cal infer s
  -- 433-437
  let g ← resample (periodOf cal key) s.samples
  let m := dropna s.ncell (meanEach g)
  -- 440-453
  let out := if p = .season ∨ p = .year then weightedSums cal p m else m
  -- 456-464: `dset[time_dim].values[0]` and `[-1]`. Without any complete month the resampling in 449 already raises ValueError (for
  -- datetime64; for cftime objects the accessor `dt` of an empty array raises AttributeError)
  match out.head?, out.getLast? with
  | some a, some z => centerBounds cal p a.key z.key out
  | _, _ => throw (if p = .season ∨ p = .year then .valueError else .indexError)

/-- climatologies.py 560-573: `seasons_dict` of `climatology_average` -/
def seasonMonths : String → Option (List ℤ)
  | "DJF" => some [12, 1, 2]
  | "JFM" => some [1, 2, 3]
  | "FMA" => some [2, 3, 4]
  | "MAM" => some [3, 4, 5]
  | "AMJ" => some [4, 5, 6]
  | "MJJ" => some [5, 6, 7]
  | "JJA" => some [6, 7, 8]
  | "JAS" => some [7, 8, 9]
  | "ASO" => some [8, 9, 10]
  | "SON" => some [9, 10, 11]
  | "OND" => some [10, 11, 12]
  | "NDJ" => some [11, 12, 1]
  | _ => none

/-- climatologies.py 553-578: accepted frequencies of `climatology_average` -/
def climatologyPeriod : String → Except PyErr Period
  | "hour" => .ok .hour
  | "day" => .ok .day
  | "month" => .ok .month
  | "season" => .ok .season
  | _ => .error .valueError

/-- `dt.strftime(format)` with '%m', '%m-%d' and '%m-%d %H' (554-556): the digits of the string as a number. All fields
are zero-padded to two digits, so the order of the numbers is the order of the strings. -/
def stampKey (cal : Cal) (p : Period) (t : ℤ) : ℤ :=
  match p with
  | .hour => (cal.month t * 100 + cal.day t) * 100 + Cal.hour t
  | .day => cal.month t * 100 + cal.day t
  | _ => cal.month t

/-- the period of year `y` named by such a string; ValueError for a day the month does not have -/
def keyPeriod (cal : Cal) (p : Period) (y key : ℤ) : Except PyErr ℤ :=
  match p with
  | .hour =>
    let k := 12 * y + key / 10000 - 1
    if key / 100 % 100 ≤ cal.len k then pure (24 * (cal.monthStart k / 86400 + key / 100 % 100 - 1) + key % 100) else throw .valueError
  | .day =>
    let k := 12 * y + key / 100 - 1
    if key % 100 ≤ cal.len k then pure (cal.monthStart k / 86400 + key % 100 - 1) else throw .valueError
  | _ => pure (12 * y + key - 1)

/-- twice `np.median(l)` -/
def median2 (l : List ℤ) : ℤ :=
  let s := l.insertionSort (· ≤ ·)
  s.getD ((s.length - 1) / 2) 0 + s.getD (s.length / 2) 0

/-- `f'{x:.0f}'` for `x = m / 2`: halves go to the even neighbour -/
def roundHalf (m : ℤ) : ℤ := if m % 2 = 0 then m / 2 else if (m / 2) % 2 = 0 then m / 2 else m / 2 + 1

/-- climatologies.py 650 and 667: the year the climatology is labelled with -/
def medianYear (cal : Cal) (l : List (Entry K)) : ℤ := roundHalf (median2 (l.map (fun e => cal.year e.key)))

/-- distinct keys in increasing order, each with the samples having it -/
def groupKeys (f : ℤ → ℤ) (l : List (Entry K)) : List (ℤ × List (Entry K)) :=
  (((l.map (fun e => f e.key)).dedup).insertionSort (· ≤ ·)).map (fun k => (k, l.filter (fun e => f e.key = k)))

/-- result of `climatology_average`: along time, or along a new dimension `season` -/
inductive ClimOut (K : Type _)
  | times (l : List (Entry K))
  | seasons (l : List (String × (ℕ → Option K)))

/-- climatologies.py 625-641: one season -/
def seasonClimate (cal : Cal) (s : Series K) (months : List ℤ) : Except PyErr (ℕ → Option K) := do
  let g ← resample cal.monthOf (s.samples.filter (fun e => cal.month e.key ∈ months))
  let m := dropna s.ncell (meanEach g)
  return fun c => some (nanSum c (m.map (fun e => ⟨e.key, fun c => (e.val c).map (fun x => x * ((cal.len e.key : K) / totalDays cal m))⟩)))

/-- climatologies.py 609-646: all seasons; `custom = []` stands for `None` (or an empty list), a single string is a one-element list -/
def seasonClimates (cal : Cal) (s : Series K) (custom : List String) : Except PyErr (ClimOut K) := do
  let seasons := if custom = [] then ["DJF", "JJA", "MAM", "SON"] else custom
  if seasons.any (fun n => (seasonMonths n).isNone) then throw .valueError
  let vals ← seasons.mapM (fun n => do return (n, ← seasonClimate cal s ((seasonMonths n).getD [])))
  return .seasons vals

/-- climatologies.py 650-672: hour, day and month -/
def groupClimate (cal : Cal) (p : Period) (s : Series K) : Except PyErr (List (Entry K)) := do
  let y := medianYear cal s.samples
  let g := groupKeys (stampKey cal p) s.samples
  match g.head?, g.getLast? with
  | some a, some z =>
    if ¬ (1000 ≤ y ∧ y ≤ 99999) then throw .valueError
    let first ← keyPeriod cal p y a.1
    let last ← keyPeriod cal p y z.1
    centerBounds cal p first last (meanEach g)
  | _, _ => throw .indexError

/-- climatologies.py 471-672: `climatology_average` (the warning about unused `custom_seasons` is not modelled) -/
def climatologyAverage (cal : Cal) (infer : InferFreq) (freq : String) (custom : List String) (s : Series K) : Except PyErr (ClimOut K) := do
  let p ← climatologyPeriod freq
  if ¬ s.isTime then throw .valueError
  checkUniform cal infer s
  if p = .season then seasonClimates cal s custom
  else return .times (← groupClimate cal p s)

/-- the meteorological season of a month (`dt.season`) -/
def seasonOf (m : ℤ) : String :=
  if m = 12 ∨ m ≤ 2 then "DJF" else if m ≤ 5 then "MAM" else if m ≤ 8 then "JJA" else "SON"

/-- data minus the value of its group; NaN if there is no such group -/
def minusGroup (l : List (Entry K)) (ref : ℤ → ℕ → Option K) : List (Entry K) :=
  l.map (fun e => ⟨e.key, fun c => match e.val c, ref e.key c with | some x, some y => some (x - y) | _, _ => none⟩)

/-- climatologies.py 214-217: `clim.groupby(strftime).sum()` looked up at the key of a sample -/
def groupSum (f : ℤ → ℤ) (clim : List (Entry K)) (t : ℤ) (c : ℕ) : Option K :=
  let g := clim.filter (fun e => f e.key = f t)
  if g = [] then none else some (nanSum c g)

/-- climatologies.py 125-218: `climate_anomaly` -/
def climateAnomaly (cal : Cal) (infer : InferFreq) (freq : String) (s : Series K) : Except PyErr (List (Entry K)) := do
  -- 186
  if ¬ s.isTime then throw .valueError
  match freq with
  | "day" =>
    match ← climatologyAverage cal infer "day" [] s with
    | .times clim => return minusGroup s.samples (groupSum (stampKey cal .day) clim)
    | .seasons _ => throw .notImplemented
  | "month" =>
    match ← climatologyAverage cal infer "month" [] s with
    | .times clim => return minusGroup s.samples (groupSum (stampKey cal .month) clim)
    | .seasons _ => throw .notImplemented
  | "season" =>
    match ← climatologyAverage cal infer "season" [] s with
    | .seasons clim =>
      return minusGroup s.samples (fun t c => ((clim.find? (fun x => x.1 = seasonOf (cal.month t))).map (·.2 c)).join)
    | .times _ => throw .notImplemented
  | "year" =>
    -- '%y': the last two digits of the year
    let clim ← calendarAverage cal infer "year" s
    return minusGroup s.samples (groupSum (fun t => cal.year t % 100) clim)
  | _ => throw .valueError

/-- climatologies.py 288-301: `seasons_dict` of `month_to_season`: months and the month its quarters are anchored at -/
def seasonQuarter : String → Option (List ℤ × ℤ)
  | "DJF" => some ([12, 1, 2], 12)
  | "JFM" => some ([1, 2, 3], 1)
  | "FMA" => some ([2, 3, 4], 2)
  | "MAM" => some ([3, 4, 5], 3)
  | "AMJ" => some ([4, 5, 6], 4)
  | "MJJ" => some ([5, 6, 7], 5)
  | "JJA" => some ([6, 7, 8], 6)
  | "JAS" => some ([7, 8, 9], 7)
  | "ASO" => some ([8, 9, 10], 8)
  | "SON" => some ([9, 10, 11], 9)
  | "OND" => some ([10, 11, 12], 10)
  | "NDJ" => some ([11, 12, 1], 11)
  | _ => none

/-- quarter (three months) anchored at month `a`, containing month `k` -/
def quarterOf (a k : ℤ) : ℤ := (k - (a - 1)) / 3

/-- first month of such a quarter -/
def quarterMonth (a q : ℤ) : ℤ := 3 * q + (a - 1)

/-- climatologies.py 221-341: `month_to_season` (`keep_attrs`: `Model/ClimAttrs.lean`). Labels are the starts of the middle months. -/
def monthToSeason (cal : Cal) (season : String) (s : Series K) : Except PyErr (List (Entry K)) := do
  -- 281
  if ¬ s.isTime then throw .valueError
  -- 282-286
  if s.samples.length % 12 ≠ 0 then throw .valueError
  -- 302-307: only ValueError is caught, so a failed lookup stays a KeyError
  let (months, anchor) ← match seasonQuarter season with
    | some r => pure r
    | none => throw .keyError
  -- 310-312
  let f := s.samples.filter (fun e => cal.month e.key ∈ months)
  -- 314-321
  let f := if season = "DJF" then f.dropLast else if season = "NDJ" then f.tail else f
  -- 324
  let g ← resample (fun t => quarterOf anchor (cal.monthOf t)) f
  -- 325-337: the start of the quarter moved to the next month's start
  let means := (meanEach g).map (fun e => (⟨quarterMonth anchor e.key + 1, e.val⟩ : Entry K))
  -- 341
  let sel := means.filter (fun e => decide (Cal.monthNo e.key = months.getD 1 0))
  return sel.map (fun e => ⟨cal.monthStart e.key, e.val⟩)

end Verif.Model
