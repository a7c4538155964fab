import Verif.Model.Multidim
import Verif.Spec.Grid

/-
Specification: longitudes continued around the globe, and grids that differ only in where they start.
-/

namespace Verif.Spec
variable {K : Type _} [Field K] [LinearOrder K]

/-- the `n` longitudes `x` continued in both directions: `n` points further is 360 degrees further -/
def around (n : ℕ) (x : ℕ → K) (j : ℤ) : K := x (j % (n : ℤ)).toNat + 360 * ((j / (n : ℤ) : ℤ) : K)

/-- `g'` is the same data on the same globe as `g`, with the first column `d` points further east -/
structure SameGlobe (g g' : Model.GeoGrid K) (x x' : ℕ → K) (d : ℤ) : Prop where
  nlon : g'.nlon = g.nlon
  nlat : g'.nlat = g.nlat
  lon : ∀ j < g.nlon, x' j = around g.nlon x (j + d)
  get : ∀ t i j, j < g.nlon → g'.get t i j = g.get t i ((j + d) % (g.nlon : ℤ)).toNat

end Verif.Spec
