import Verif.Basic.Py
import Mathlib.Data.Complex.BigOperators
import Mathlib.Data.Fintype.BigOperators
import Mathlib.Analysis.SpecialFunctions.Trigonometric.Basic

/-
Model of geocat/comp/spherical.py.

2-dimensional arrays are functions on `Fin r × Fin c` (curried), the array of harmonics is a function of a position in the list of pairs
(n, m) and of a grid point. scipy's functions for spherical harmonics and `SphericalVoronoi` are parameters.
Simplifications: complex and real numbers are exact; `max_harm` is a natural number (a negative one gives empty lists); all 2-D arguments
have the same shape (and the same labels, for DataArrays, so that xarray's alignment by labels does nothing; for labels that differ see Model/SphericalAlign).
-/

namespace Verif.Model.Spherical
open scoped BigOperators

/-- the functions of scipy: `sph_harm(m, n, theta, phi)` (older than 1.15) and `sph_harm_y(n, m, theta, phi)` (1.15 and later) -/
structure SciPy where
  sphHarm : ℕ → ℕ → ℝ → ℝ → ℂ
  sphHarmY : ℕ → ℕ → ℝ → ℝ → ℂ

/-- spherical.py 10-20: `sph_harm_y` as used by the module -/
def sphHarmY (lib : SciPy) (oldScipy : Bool) (n m : ℕ) (theta phi : ℝ) : ℂ :=
  if oldScipy then lib.sphHarm m n phi theta else lib.sphHarmY n m theta phi

/-- spherical.py 72-87: the pairs (n, m) of `nlist` and `mlist`, with `scale_mul` -/
def decompPairs (maxHarm : ℕ) : List (ℕ × ℕ × ℕ) :=
  (List.range (maxHarm + 1)).flatMap (fun n => (List.range (n + 1)).map (fun m => (n, m, if m = 0 then 1 else 2)))

/-- spherical.py 168-176: the pairs (n, m) -/
def recompPairs (maxHarm : ℕ) : List (ℕ × ℕ) :=
  (List.range (maxHarm + 1)).flatMap (fun n => (List.range (n + 1)).map (fun m => (n, m)))

/-- numpy array or DataArray -/
inductive Container
  | numpy
  | xarray
  deriving DecidableEq

/-- np.sum over two axes of a 3-D array -/
noncomputable def sum12 {r c : ℕ} {H : ℕ} (f : Fin H → Fin r → Fin c → ℂ) : Fin H → ℂ := fun h => ∑ i, ∑ j, f h i j
noncomputable def sum01 {r c : ℕ} {H : ℕ} (f : Fin r → Fin c → Fin H → ℂ) : Fin H → ℂ := fun h => ∑ i, ∑ j, f i j h

/-- spherical.py 26-125: `decomposition`. For numpy input the product has the axes (harmonic, lat, lon) and is summed over 1, 2; for xarray
input it has the axes (lat, lon, harmonic) and is summed over 0, 1. `scale` may not be all zero. -/
noncomputable def decomposition (lib : SciPy) (oldScipy : Bool) (ty : Container) {r c : ℕ} (data scale theta phi : Fin r → Fin c → ℝ)
    (maxHarm : ℕ) : Container × List ℂ :=
  -- 65-70
  let scaleVal : ℂ := 1 / ((∑ i, ∑ j, (scale i j : ℂ)) * sphHarmY lib oldScipy 0 0 0 0 ^ 2)
  let pairs := decompPairs maxHarm
  -- 88-89
  let scaleRes : Fin pairs.length → ℂ := fun h => (pairs.get h).2.2 * scaleVal
  -- 90
  let scaleDat : Fin r → Fin c → ℂ := fun i j => data i j * scale i j
  -- 112-115: theta and phi change roles
  let harmonics : Fin pairs.length → Fin r → Fin c → ℂ := fun h i j => sphHarmY lib oldScipy (pairs.get h).1 (pairs.get h).2.1 (phi i j) (theta i j)
  -- 123
  let results := match ty with
    | .numpy => sum12 (fun h i j => scaleDat i j * harmonics h i j)
    | .xarray => sum01 (fun i j h => scaleDat i j * harmonics h i j)
  (ty, List.ofFn (fun h => results h * scaleRes h))

/-- spherical.py 128-202: `recomposition`. The number of coefficients must be the number of pairs, or 1 where the coefficients are broadcast as a numpy array
(numpy input, and with an older scipy also xarray input, lines 182-185). -/
noncomputable def recomposition (lib : SciPy) (oldScipy : Bool) (ty : Container) {r c : ℕ} (data : List ℂ) (theta phi : Fin r → Fin c → ℝ)
    (maxHarm : ℕ) : Except PyErr (Container × (Fin r → Fin c → ℝ)) :=
  let pairs := recompPairs maxHarm
  let harmonics : Fin pairs.length → Fin r → Fin c → ℂ := fun h i j => sphHarmY lib oldScipy (pairs.get h).1 (pairs.get h).2 (phi i j) (theta i j)
  -- 190-202
  let combine (d : Fin pairs.length → ℂ) : Fin r → Fin c → ℝ := fun i j =>
    (∑ h, (harmonics h i j).re * (d h).re) + ∑ h, (harmonics h i j).im * (d h).im
  if data.length = pairs.length then .ok (ty, combine (fun h => data.getD h 0))
  else if ty = .numpy ∨ oldScipy = true then
    match data with
    | [d] => .ok (ty, combine (fun _ => d))
    | _ => .error .valueError
  else .error .valueError

/-- spherical.py 233-236: the place on the unit sphere of a grid point -/
noncomputable def location (theta phi : ℝ) : ℝ × ℝ × ℝ := (Real.sin phi * Real.sin theta, Real.sin phi * Real.cos theta, Real.cos phi)

/-- `reshape` of a list to `r` rows of `c` -/
def toRows {α : Type} (r c : ℕ) (l : List α) : List (List α) := (List.range r).map (fun i => (l.drop (i * c)).take c)

/-- spherical.py 205-249: `scale_voronoi`; 2-D arrays by rows of length `c`; `voronoi` is `SphericalVoronoi(points, 1, 0).calculate_areas()`. The
test for a DataArray at the end (246) is applied to `theta` after its conversion to a numpy array (226-228), hence never true. -/
noncomputable def scaleVoronoi (voronoi : List (ℝ × ℝ × ℝ) → Except PyErr (List ℝ)) (ty : Container) (c : ℕ) (theta phi : List (List ℝ)) :
    Except PyErr (Container × List (List ℝ)) := do
  -- 226-228
  let tyNow : Container := match ty with | .xarray => .numpy | .numpy => .numpy
  -- 230-236
  let locs := List.zipWith location theta.flatten phi.flatten
  -- 238-244
  let areas ← voronoi locs
  let scale := toRows theta.length c areas
  -- 246-249
  if tyNow = .xarray then pure (.xarray, scale) else pure (.numpy, scale)

end Verif.Model.Spherical
