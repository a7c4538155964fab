import Verif.Basic.Cal

/-
Time series as handed to the climatology functions.
-/

namespace Verif

/-- one step along a time-like axis: its time stamp (or period number) and one value per cell -/
structure Entry (K : Type _) where
  key : ℤ
  val : ℕ → Option K

/-- the data passed by the user; `isTime`: the coordinate holds datetime64 or cftime objects -/
structure Series (K : Type _) where
  ncell : ℕ
  samples : List (Entry K)
  isTime : Bool

/-- frequency aliases -/
inductive Period
  | hour | day | month | season | year
  deriving DecidableEq

end Verif
