import Verif.Basic.TimeSeries

/-
Specification of the three-letter season names (no import of the model).
-/

namespace Verif.Spec

/-- first letter of the English name of month `m`; any number counts, month 13 is January again -/
def monthInitial (m : ℤ) : Char :=
  if m % 12 = 1 then 'J' else if m % 12 = 2 then 'F' else if m % 12 = 3 then 'M' else if m % 12 = 4 then 'A'
  else if m % 12 = 5 then 'M' else if m % 12 = 6 then 'J' else if m % 12 = 7 then 'J' else if m % 12 = 8 then 'A'
  else if m % 12 = 9 then 'S' else if m % 12 = 10 then 'O' else if m % 12 = 11 then 'N' else 'D'

/-- `name` is spelled by the initials of the three consecutive months of which `a` is the first -/
def SeasonFrom (name : String) (a : ℤ) : Prop :=
  1 ≤ a ∧ a ≤ 12 ∧ name.toList = [monthInitial a, monthInitial (a + 1), monthInitial (a + 2)]

instance (name : String) (a : ℤ) : Decidable (SeasonFrom name a) := by unfold SeasonFrom; infer_instance

/-- month `m` is `a` or one of the two months after it -/
def InSeason (a m : ℤ) : Prop := (m - a) % 12 ≤ 2

instance (a m : ℤ) : Decidable (InSeason a m) := by unfold InSeason; infer_instance

end Verif.Spec
