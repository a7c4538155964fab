import Verif.Basic.LArr
import Verif.Spec.Interp

/-
Specification for interpolation from hybrid levels to pressure levels (no import of the model).
-/

namespace Verif.Spec
variable {K : Type _} [Field K] [LinearOrder K]

/-- `data` has the dimensions of the surface pressure `ps` plus a level dimension `lev` with `n ≥ 2` levels, in any order -/
structure LevelData (lev : String) (n : ℕ) (ps : LArr K) (data : LArr (XF K)) : Prop where
  two : 2 ≤ n
  levNew : lev ∉ ps.dims
  plevNew : "plev" ∉ ps.dims
  perm : (lev :: ps.dims).Perm data.dims
  sizeLev : data.size lev = n
  sizes : ∀ d ∈ ps.dims, data.size d = ps.size d ∧ 0 < ps.size d
  wf : ps.WF

/-- `i` is a grid point -/
def AtPoint (ps : LArr K) (i : String → ℕ) : Prop := ∀ d ∈ ps.dims, i d < ps.size d

/-- pressure of level `k` at grid point `i` -/
def levelPressure (a b : ℕ → K) (p0 : K) (ps : LArr K) (i : String → ℕ) (k : ℕ) : K := a k * p0 + b k * ps.get i

/-- data value of level `k` at grid point `i` -/
def levelValue (lev : String) (data : LArr (XF K)) (i : String → ℕ) (k : ℕ) : XF K := data.get (Function.update i lev k)

/-- a division of every dimension of `data` into chunks of positive length -/
def Chunking (data : LArr (XF K)) (chunks : String → List ℕ) : Prop :=
  ∀ d ∈ data.dims, (chunks d).sum = data.size d ∧ ∀ c ∈ chunks d, 0 < c

/-- `out` has the dimensions of `data` with `plev` in place of `lev`, and at every grid point and requested pressure the
interpolated value of the column, linear in the transformed pressure `g p` -/
structure IsInterpolated (g : K → K) (lev : String) (n : ℕ) (a b : ℕ → K) (p0 : K) (x : List K) (ps : LArr K)
    (data out : LArr (XF K)) : Prop where
  dims : out.dims = data.dims.map (fun d => if d = lev then "plev" else d)
  sizePlev : out.size "plev" = x.length
  sizes : ∀ d ∈ ps.dims, out.size d = ps.size d
  value : ∀ i, AtPoint ps i → ∀ y, x[i "plev"]? = some y →
    InterpAt n (fun k => g (levelPressure a b p0 ps i k)) (levelValue lev data i) (g y) (out.get i)

end Verif.Spec
