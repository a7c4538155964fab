import Verif.Model.Climatology
import Verif.Model.DeltaPressure
import Mathlib.Algebra.Order.Field.Rat
import Mathlib.Algebra.Field.Rat

/-
The model against numbers expected by the repository's own unit tests. These are tests of the model
(evaluated by the kernel), not proofs of properties.
-/

set_option maxRecDepth 100000
namespace Verif.Check
open Model

/-! test/test_meteorology.py:676-705 -/

/-- the list returned, if any -/
def total (r : Except PyErr (List (XF ℚ))) : Option (List (XF ℚ)) := r.toOption

example : total (deltaPressure [1, 5, 100, 1000] (.fin 1018) none) = some [.fin 2, .fin (99 / 2), .fin (995 / 2), .fin 468] := by decide +kernel
example : total (deltaPressure [1, 5, 100, 1000] (.fin 900) none) = some [.fin 2, .fin (99 / 2), .fin (995 / 2), .fin 350] := by decide +kernel
example : total (deltaPressure [1, 5, 100, 1000] (.fin 50) none) = some [.fin 2, .fin 47, .nan, .nan] := by decide +kernel

example : total (deltaPressure [-5, 5, 100, 1000] (.fin 1018) none) = none := by decide +kernel
example : total (deltaPressure [1, 5, 100, 1000] (.fin (1 / 2)) none) = none := by decide +kernel
example : total (deltaPressure [1, 5, 100, 1000] (.fin 1018) (some (1 / 4))) = some [.fin (2 + 1 - 1 / 4), .fin (99 / 2), .fin (995 / 2), .fin 468] := by decide +kernel

/-! test/test_climatologies.py:330-560: two years of monthly data 0, 1, ..., 23 from 2020-01 -/

/-- the monthly record -/
def monthly : Series ℚ :=
  ⟨1, (List.range 24).map (fun k : ℕ => ⟨Cal.julian.monthStart (12 * 2020 + k), fun _ => some (k : ℚ)⟩), true⟩

/-- the values returned, if any -/
def vals (r : Except PyErr (List (Entry ℚ))) : Option (List (Option ℚ)) := r.toOption.map (fun l => l.map (fun e => e.val 0))

/-- pandas finds a frequency -/
def always : InferFreq := fun _ => .ok true

example : (vals (calendarAverage Cal.julian always "season" monthly)).getD [] =
    [some (29 / 60), some 3, some (553 / 92), some 9, some (359 / 30), some 15, some (1657 / 92), some 21, some 23] := by decide +kernel

example : (vals (calendarAverage Cal.julian always "year" monthly)).getD [] = [some (1009 / 183), some (6397 / 365)] := by decide +kernel

example : (vals (calendarAverage Cal.julian always "TEST" monthly)) = none := by decide +kernel

/-! test/test_climatologies.py:722: season climatology of the monthly data, DJF, JJA, MAM, SON -/

example : (match climatologyAverage Cal.julian always "season" [] monthly with
    | .ok (.seasons l) => l.map (fun e => (e.1, e.2 0))
    | _ => []) = [("DJF", some (1819 / 181)), ("JJA", some (1105 / 92)), ("MAM", some 9), ("SON", some 15)] := by decide +kernel

/-! test/test_climatologies.py: months with values 1, ..., 12 -/

/-- `n` months with values 1, ..., `n` -/
def year12 (n : ℕ) : Series ℚ :=
  ⟨1, (List.range n).map (fun k : ℕ => ⟨Cal.julian.monthStart (12 * 2000 + k), fun _ => some ((k : ℚ) + 1)⟩), true⟩

example : vals (monthToSeason Cal.julian "JFM" (year12 12)) = some [some 2] := by decide +kernel
example : vals (monthToSeason Cal.julian "JJA" (year12 12)) = some [some 7] := by decide +kernel
example : vals (monthToSeason Cal.julian "NDJ" (year12 12)) = some [some (23 / 2)] := by decide +kernel
example : vals (monthToSeason Cal.julian "TEST" (year12 12)) = none := by decide +kernel
example : vals (monthToSeason Cal.julian "JFM" (year12 13)) = none := by decide +kernel
example : ∀ s ∈ ["DJF", "JFM", "FMA", "MAM", "AMJ", "MJJ", "JJA", "JAS", "ASO", "SON", "OND", "NDJ"],
    ((vals (monthToSeason Cal.julian s (year12 24))).getD []).length = 2 := by decide +kernel

end Verif.Check
