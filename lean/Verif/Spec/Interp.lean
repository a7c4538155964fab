import Verif.Basic.XF

/-
Specification of piecewise linear interpolation in a column of `n` levels (coordinates `p`, values `v`, any order),
with missing values outside (no import of the model).
-/

namespace Verif.Spec
variable {K : Type _} [Field K] [LinearOrder K]

/-- levels `i` and `j` are neighbours (`i` has the smaller coordinate) and `x` lies between them -/
def Bracket (n : ℕ) (p : ℕ → K) (x : K) (i j : ℕ) : Prop :=
  i < n ∧ j < n ∧ p i < p j ∧ p i ≤ x ∧ x ≤ p j ∧ ∀ k < n, ¬ (p i < p k ∧ p k < p j)

/-- `x` lies outside the column -/
def Outside (n : ℕ) (p : ℕ → K) (x : K) : Prop := (∀ k < n, x < p k) ∨ (∀ k < n, p k < x)

/-- the value on the straight line through two levels -/
def lineValue (pi pj : K) (vi vj : XF K) (x : K) : XF K :=
  vi + (vj - vi) * .fin ((x - pi) / (pj - pi))

/-- `y` is the interpolated value at `x`: missing outside the column, else on the line between two neighbouring
levels around `x` -/
def InterpAt (n : ℕ) (p : ℕ → K) (v : ℕ → XF K) (x : K) (y : XF K) : Prop :=
  (Outside n p x ∧ y = .nan) ∨
  (¬ Outside n p x ∧ ∃ i j, Bracket n p x i j ∧ y = lineValue (p i) (p j) (v i) (v j) x)

/-- the levels have pairwise different coordinates -/
def Distinct (n : ℕ) (p : ℕ → K) : Prop := ∀ i < n, ∀ j < n, p i = p j → i = j

/-- the requested coordinates are in increasing or in decreasing order -/
def Sorted (x : List K) : Prop := x.Pairwise (· ≤ ·) ∨ x.Pairwise (· ≥ ·)

end Verif.Spec
