import Verif.Model.Sigma
import Mathlib.Algebra.Order.Floor.Ring

/-
`interp_sigma_to_hybrid` for data of an integer type, /repo/geocat/comp/interpolation.py:838-856: the output array is a copy of the
data, so the interpolated numbers are converted to the integer type when they are stored.
-/

namespace Verif.Model
variable {K : Type _} [Field K] [LinearOrder K] [FloorRing K]

/-- numpy's conversion of a float to an integer: truncation; `none` for NaN and infinities, where the result depends on the platform.
Overflow is not modelled. -/
def toIntType : XF K → Option ℤ
  | .fin x => some (if 0 ≤ x then ⌊x⌋ else ⌈x⌉)
  | _ => none

/-- interpolation.py:766-862 for integer `data` (838 and 850: `data_stacked[:, : len(hyam)].copy()`, `data[: len(hyam)].copy()`;
841 and 851: stores into them) -/
def interpSigmaToHybridInt (lg : K → K) (levDim cfVertical : Option String) (method : String) (p0 : K) (sig : List K)
    (data : LArr ℤ) (ps hyam hybm : LArr K) : Except PyErr (LArr (Option ℤ) × List K) := do
  let r ← interpSigmaToHybrid lg levDim cfVertical method p0 sig (data.map (fun z : ℤ => .fin (z : K))) ps hyam hybm
  return (r.1.map toIntType, r.2)

end Verif.Model
