import Verif.Basic.XF

/-
Specification of pressure layers (Simmons & Burridge 1981, eq. 3.1), independent of the model.
A column is given by a number of levels `n` and level pressures `lev 0 < lev 1 < ...` from the top down.
-/

namespace Verif.Spec
variable {K : Type _} [Field K] [LinearOrder K]

/-- The array of the first `n` values of `lev`. -/
def column {α : Type _} (n : ℕ) (lev : ℕ → α) : List α := (List.range n).map lev

/-- Half-level pressure above layer `k`: the given top for the first layer, else the midpoint with the level above. -/
def upperIface (lev : ℕ → K) (ptop : K) (k : ℕ) : K :=
  if k = 0 then ptop else (lev (k - 1) + lev k) / 2

/-- Half-level pressure below layer `k`, cut off at the surface. -/
def lowerIface (n : ℕ) (lev : ℕ → K) (ps : K) (k : ℕ) : K :=
  if k + 1 < n then min ps ((lev k + lev (k + 1)) / 2) else ps

/-- Thickness of layer `k`: missing when the layer is entirely at or below the surface. -/
def thickness (n : ℕ) (lev : ℕ → K) (ps ptop : K) (k : ℕ) : XF K :=
  if ps ≤ upperIface lev ptop k then .nan
  else .fin (lowerIface n lev ps k - upperIface lev ptop k)

/-- The levels increase strictly from index 0 to `n-1`. -/
def Increasing (n : ℕ) (lev : ℕ → K) : Prop := ∀ i j, i < j → j < n → lev i < lev j

/-- Multiply an extended number by a positive factor (unit conversion). -/
def scale (c : K) : XF K → XF K
  | .fin x => .fin (c * x)
  | .pinf => .pinf
  | .ninf => .ninf
  | .nan => .nan

/-- Row-major position of a multi-index in an array of the given shape. -/
def offset : List ℕ → List ℕ → ℕ
  | _ :: ss, i :: is => i * ss.prod + offset ss is
  | _, _ => 0

/-- `idx` is a valid multi-index for `shape`. -/
def ValidIndex : List ℕ → List ℕ → Prop
  | [], [] => True
  | s :: ss, i :: is => i < s ∧ ValidIndex ss is
  | _, _ => False

end Verif.Spec
