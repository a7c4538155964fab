import Verif.Model.Multidim

/-
`interp_multidim` of a grid whose longitudes are stored as integers (interpolation.py 107-123). `np.pad` keeps the integer type and lines 113-114 compute in
it: the Python number 360 has to fit (`OverflowError` otherwise; `.exception` here) and the result is reduced modulo `2 ^ bits`. (numpy 2. Comparisons,
sorting and interpolation convert the integers to floating-point numbers; that conversion is exact for longitudes.)
-/

namespace Verif.Model
variable {K : Type _} [Field K] [LinearOrder K]

/-- a numpy integer type: `int8` ... `int64`, `uint8` ... `uint64` -/
structure IntFormat where
  signed : Bool
  bits : ℕ

namespace IntFormat

/-- the smallest number of the type -/
def least (F : IntFormat) : ℤ := if F.signed then -2 ^ (F.bits - 1) else 0

/-- the number of the type congruent to `z` -/
def reduce (F : IntFormat) (z : ℤ) : ℤ := (z - F.least) % 2 ^ F.bits + F.least

/-- the number is one of the type -/
def fits (F : IntFormat) (z : ℤ) : Bool := F.least ≤ z && z < F.least + 2 ^ F.bits

/-- `x += c` for an element of an array of the type and a Python number `c` (`x -= 360` is subtraction of the Python number 360) -/
def inPlace (F : IntFormat) (op : ℤ → ℤ → ℤ) (x c : ℤ) : Except PyErr ℤ := if F.fits c then .ok (F.reduce (op x c)) else .error .exception

end IntFormat

/-- interpolation.py:70-125 `_pre_interp_multidim` with `cyclic=True` (see `preInterp`) for longitudes `lon` of an integer type -/
def preInterpInt (F : IntFormat) (missing : Option (XF K)) (g : GeoGrid K) (lon : List ℤ) : Except PyErr (GeoGrid K) := do
  -- 100-105
  let g := match missing with
    | none => g
    | some m => { g with get := fun t i j => if (g.get t i j).eqb m then .nan else g.get t i j }
  -- 109
  if g.lead ≠ 0 ∨ g.nlon = 0 then throw .valueError
  -- 110-112
  let p := padWrap lon
  -- 113
  let a ← F.inPlace (· - ·) (p.headD 0) 360
  let p ← Py.setIndex p 0 a
  -- 114
  let b ← F.inPlace (· + ·) (p.getLastD 0) 360
  let p ← Py.setIndex p (-1) b
  -- 109, 116-123
  return { g with lon := p.map (Int.cast : ℤ → K), nlon := g.nlon + 2, get := fun t i j => g.get t i ((j + g.nlon - 1) % g.nlon) }

/-- interpolation.py:865-987 `interp_multidim` with `cyclic=True` (see `interpMultidim`) of a DataArray with longitudes of an integer type -/
def interpMultidimInt (F : IntFormat) (g : GeoGrid K) (lon : List ℤ) (latOut lonOut : List K) (missing : Option (XF K)) (m : GridMethod)
    (fill : Option (XF K)) : Except PyErr (PyType × GeoGrid K) := do
  -- 981
  let g ← preInterpInt F missing g lon
  -- 982-984
  let out := xrInterp m fill g latOut lonOut
  -- 985
  return (.dataArray, postInterp missing out)

end Verif.Model
