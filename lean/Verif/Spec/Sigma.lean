import Verif.Spec.HybridInterp

/-
Specification for interpolation from sigma to hybrid levels (no import of the model).
-/

namespace Verif.Spec
variable {K : Type _} [Field K] [LinearOrder K]

/-- sigma of hybrid level `k` at grid point `i`: its pressure over the surface pressure -/
def hybridSigma (a b : ℕ → K) (p0 : K) (ps : LArr K) (i : String → ℕ) (k : ℕ) : K := a k * p0 / ps.get i + b k

/-- `data` has the dimensions of the surface pressure `ps` plus a level dimension `lev` with `n ≥ 2` levels, in any order -/
structure SigmaData (lev : String) (n : ℕ) (ps : LArr K) (data : LArr (XF K)) : Prop where
  two : 2 ≤ n
  levNew : lev ∉ ps.dims
  hlevNew : "hlev" ∉ ps.dims
  perm : (lev :: ps.dims).Perm data.dims
  sizeLev : data.size lev = n
  sizes : ∀ d ∈ ps.dims, data.size d = ps.size d ∧ 0 < ps.size d
  wf : ps.WF

/-- `out` has the dimensions of `data` in the same order with `hlev` (of size `m`) in place of `lev`; at every grid point
and hybrid level it holds the value interpolated in that column, from the sigma values `s`, at that column's own sigma of the level -/
structure IsSigmaInterpolated (g : K → K) (lev : String) (n : ℕ) (s : ℕ → K) (m : ℕ) (a b : ℕ → K) (p0 : K) (ps : LArr K)
    (data out : LArr (XF K)) : Prop where
  dims : out.dims = data.dims.map (fun d => if d = lev then "hlev" else d)
  sizeHlev : out.size "hlev" = m
  sizes : ∀ d ∈ ps.dims, out.size d = ps.size d
  value : ∀ i, AtPoint ps i → i "hlev" < m →
    InterpAt n (fun k => g (s k)) (levelValue lev data i) (g (hybridSigma a b p0 ps i (i "hlev"))) (out.get i)

end Verif.Spec
