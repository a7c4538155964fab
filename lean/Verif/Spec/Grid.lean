import Verif.Basic.XF

/-
Specification of bilinear interpolation on a latitude-longitude grid (no import of the model).
-/

namespace Verif.Spec
variable {K : Type _} [Field K] [LinearOrder K]

/-- the axis of `n` points is strictly increasing -/
def IncAxis (n : ℕ) (x : ℕ → K) : Prop := ∀ i j, i < j → j < n → x i < x j

/-- `q` lies between the neighbouring axis points `i` and `i + 1`, ends included -/
def InCell (n : ℕ) (x : ℕ → K) (q : K) (i : ℕ) : Prop := i + 1 < n ∧ x i ≤ q ∧ q ≤ x (i + 1)

/-- strictly between -/
def InsideCell (n : ℕ) (x : ℕ → K) (q : K) (i : ℕ) : Prop := i + 1 < n ∧ x i < q ∧ q < x (i + 1)

/-- how far from `i` to `i + 1`, as a fraction -/
def frac (x : ℕ → K) (q : K) (i : ℕ) : K := (q - x i) / (x (i + 1) - x i)

/-- weighted mean of four corner values; `s` is the fraction between the first and the second index pair -/
def bilinear (v00 v01 v10 v11 s t : K) : K :=
  (1 - s) * ((1 - t) * v00 + t * v01) + s * ((1 - t) * v10 + t * v11)

/-- a cell counts as missing if it is NaN or equal to the missing-value code -/
def IsMissing (missing : Option (XF K)) (v : XF K) : Prop := v = .nan ∨ ∃ m, missing = some m ∧ m ≠ .nan ∧ v = m

/-- what marks a missing result -/
def missingMark (missing : Option (XF K)) : XF K := missing.getD .nan

end Verif.Spec
