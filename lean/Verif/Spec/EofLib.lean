import Verif.Model.Eof
import Mathlib.Data.Real.Sqrt
import Mathlib.Algebra.BigOperators.Group.Finset.Basic

/-
What an EOF analysis is, and what the documentation of the `eofs` package says its solver returns for data without missing values.
-/

namespace Verif.Spec
open Model.EofFns
noncomputable section

/-- sum over all points of a grid of shape `sh` -/
def gridSum (sh : List ℕ) (f : List ℕ → ℝ) : ℝ := ((Tensor.indices sh).map f).sum

/-- the weight of a grid point; without weights it is one -/
def weightAt (w : Option (Tensor ℝ)) (s : List ℕ) : ℝ := match w with
  | none => 1
  | some w => w.get s

/-- the series that are analysed: data minus their time mean (if `center`), times the weights -/
def anomaly (center : Bool) (w : Option (Tensor ℝ)) (n : ℕ) (x : ℕ → List ℕ → ℝ) (t : ℕ) (s : List ℕ) : ℝ :=
  weightAt w s * (x t s - if center then (∑ u ∈ Finset.range n, x u s) / n else 0)

/-- patterns `E k`, time series `P k` and variances `lam k` (`k < m`) are an EOF analysis of the `n` fields `a 0, ..., a (n - 1)` on a grid of shape `sh` -/
structure IsEofAnalysis (n : ℕ) (sh : List ℕ) (a : ℕ → List ℕ → ℝ) (ddof : ℤ) (m : ℕ) (E : ℕ → List ℕ → ℝ) (P : ℕ → ℕ → ℝ) (lam : ℕ → ℝ) : Prop where
  modes : m ≤ (Tensor.indices sh).length
  orthonormal : ∀ k < m, ∀ l < m, gridSum sh (fun s => E k s * E l s) = if k = l then 1 else 0
  projection : ∀ k < m, ∀ t < n, P k t = gridSum sh (fun s => a t s * E k s)
  uncorrelated : ∀ k < m, ∀ l < m, ∑ t ∈ Finset.range n, P k t * P l t = if k = l then (n - ddof) * lam k else 0
  decreasing : ∀ k l, k ≤ l → l < m → lam l ≤ lam k
  nonneg : ∀ k < m, 0 ≤ lam k
  complete : ∀ t < n, ∀ s, Tensor.InBounds sh s → a t s = ∑ k ∈ Finset.range m, P k t * E k s

/-- the scaling options 0, 1, 2: unscaled, divided by, multiplied by the square root of the eigenvalue -/
def scaling (sc : ℤ) (lam : ℝ) : ℝ := if sc = 1 then 1 / √lam else if sc = 2 then √lam else 1

/-- The documented behaviour of `eofs.xarray.Eof(data, weights, center, ddof)` and its methods, for data of `n` times on a grid without missing values, fewer
degrees of freedom removed than there are times, and weights for each grid point (if any). `num` makes an attribute of a list of numbers. -/
def EofContract {A : Type} (num : List ℝ → A) (mk : Opts ℝ → XArr ℝ A → Except PyErr (Solver ℝ A)) : Prop :=
  ∀ (opts : Opts ℝ) (x : XArr ℝ A) (n : ℕ) (sh : List ℕ), x.data.shape = n :: sh → sh ≠ [] → opts.ddof < n → 0 < n →
    x.dims.head? = some "time" → (∀ w, opts.weights = some w → w.shape = sh) →
    ∃ s m E P lam, mk opts x = .ok s ∧
      IsEofAnalysis n sh (anomaly opts.center opts.weights n (fun t g => x.data.get (t :: g))) opts.ddof m E P lam ∧
      (∀ q : ℤ, 0 < q → ∀ sc ∈ ([0, 1, 2] : List ℤ), ∃ e p, s.eofs q sc = .ok e ∧ s.pcs q sc = .ok p ∧
        e.shape = min q.toNat m :: sh ∧ p.shape = [n, min q.toNat m] ∧
        ∀ k < min q.toNat m, (∀ g, Tensor.InBounds sh g → e.get (k :: g) = scaling sc (lam k) * E k g) ∧
          ∀ t < n, p.get [t, k] = scaling sc (lam k) * P k t) ∧
      (∀ q : ℤ, 0 < q → s.eigenvalues q = num ((List.range (min q.toNat m)).map lam) ∧
        s.varianceFraction q = num ((List.range (min q.toNat m)).map (fun k => lam k / ∑ j ∈ Finset.range m, lam j))) ∧
      s.totalAnomalyVariance = num [∑ j ∈ Finset.range m, lam j]

end
end Verif.Spec
