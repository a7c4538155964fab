import Verif.Basic.TimeSeries
import Verif.Basic.Py
import Mathlib.Algebra.Order.Ring.Int
import Mathlib.Data.List.Chain

/-
Specification of the median year of a record and of the records the averages accept (no import of the model).
-/

namespace Verif.Spec

/-- `a` is at rank `k` (from 0) of the numbers `l`: at most `k` of them are smaller, more than `k` are not larger -/
def AtRank (l : List ℤ) (k : ℕ) (a : ℤ) : Prop :=
  l.countP (fun x => decide (x < a)) ≤ k ∧ k < l.countP (fun x => decide (x ≤ a))

/-- `M` is the median of the numbers `l`, rounded to the nearest integer; a half is rounded to the even neighbour. The median is the
middle number, or the mean of the two middle numbers. -/
def IsRoundedMedian (l : List ℤ) (M : ℤ) : Prop :=
  ∃ a b, AtRank l ((l.length - 1) / 2) a ∧ AtRank l (l.length / 2) b ∧ |2 * M - (a + b)| ≤ 1 ∧ ((a + b) % 2 = 1 → M % 2 = 0)

/-- `M` is the median of the years of the samples -/
def IsMedianYear {K : Type _} (cal : Cal) (s : Series K) (M : ℤ) : Prop := IsRoundedMedian (s.samples.map (fun e => cal.year e.key)) M

/-- one sample in every month from the first to the last: each sample lies in the month after the one before it -/
def OncePerMonth {K : Type _} (cal : Cal) (s : Series K) : Prop :=
  s.samples ≠ [] ∧ s.samples.IsChain (fun a b => cal.monthOf b.key = cal.monthOf a.key + 1)

/-- the record is evenly spaced (as found by `xr.infer_freq`), or has one sample in every month -/
def Regular {K : Type _} (cal : Cal) (infer : List ℤ → Except PyErr Bool) (s : Series K) : Prop :=
  infer (s.samples.map (·.key)) = .ok true ∨ infer (s.samples.map (·.key)) = .ok false ∧ OncePerMonth cal s

end Verif.Spec
