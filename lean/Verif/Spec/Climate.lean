import Verif.Basic.TimeSeries
import Mathlib.Algebra.Order.Field.Basic
import Mathlib.Algebra.BigOperators.Group.List.Basic

/-
Specification of averages over calendar periods (no import of the model).
-/

namespace Verif.Spec
variable {K : Type _} [Field K] [LinearOrder K]

/-- the non-missing values of cell `c` among the samples whose time satisfies `P` -/
def valuesIn (l : List (Entry K)) (P : ℤ → Prop) [DecidablePred P] (c : ℕ) : List K :=
  (l.filter (fun e => decide (P e.key))).filterMap (·.val c)

/-- plain mean; missing if there is nothing to average -/
def mean (vs : List K) : Option K := if vs = [] then none else some (vs.sum / vs.length)

/-- plain mean of the samples of month `k` -/
def monthMean (cal : Cal) (l : List (Entry K)) (k : ℤ) (c : ℕ) : Option K := mean (valuesIn l (fun t => cal.monthOf t = k) c)

/-- month `k` has a value in every cell -/
def FullMonth (cal : Cal) (s : Series K) (k : ℤ) : Prop := ∀ c < s.ncell, (monthMean cal s.samples k c).isSome

instance (cal : Cal) (s : Series K) : DecidablePred (FullMonth cal s) := fun k => by unfold FullMonth; infer_instance

/-- mean over months, each weighted with its number of days -/
def dayWeighted (cal : Cal) (ks : List ℤ) (x : ℤ → K) : K :=
  (ks.map (fun k => (cal.len k : K) * x k)).sum / (ks.map (fun k => (cal.len k : K))).sum

/-- the months of season number `b` (December, January, February for `b` divisible by 4, ...) -/
def seasonOfMonths (b : ℤ) : List ℤ := [3 * b - 1, 3 * b, 3 * b + 1]

/-- the months of year `y` -/
def yearOfMonths (y : ℤ) : List ℤ := (List.range 12).map (fun i : ℕ => 12 * y + i)

/-- the calendar label of a time stamp within the year: month, day of the month, hour (as far as the frequency distinguishes them) -/
def stamp (cal : Cal) (p : Period) (t : ℤ) : ℤ × ℤ × ℤ :=
  match p with
  | .hour => (cal.month t, cal.day t, Cal.hour t)
  | .day => (cal.month t, cal.day t, 0)
  | _ => (cal.month t, 0, 0)

/-- calendar order of such labels -/
def before (a b : ℤ × ℤ × ℤ) : Prop := a.1 < b.1 ∨ (a.1 = b.1 ∧ (a.2.1 < b.2.1 ∨ (a.2.1 = b.2.1 ∧ a.2.2 < b.2.2)))

end Verif.Spec
