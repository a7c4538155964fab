import Mathlib.Data.Complex.BigOperators
import Mathlib.Data.Fintype.BigOperators
import Mathlib.Analysis.SpecialFunctions.Trigonometric.Basic

/-
Specification for the spherical harmonics functions, independent of the model.
`Y n m colat lon` is the spherical harmonic of degree `n` and order `m` at colatitude `colat` and longitude `lon`.
-/

namespace Verif.Spec.Spherical
open scoped BigOperators

/-- the facts about spherical harmonics the round trip needs: order 0 is real, the constant one is 1/sqrt(4π) -/
structure Harmonics (Y : ℕ → ℕ → ℝ → ℝ → ℂ) : Prop where
  order_zero_real : ∀ n colat lon, (Y n 0 colat lon).im = 0
  constant : Y 0 0 0 0 ^ 2 = 1 / (4 * Real.pi)

/-- total weight -/
noncomputable def total {r c : ℕ} (w : Fin r → Fin c → ℝ) : ℝ := ∑ i, ∑ j, w i j

/-- weighted sum over the grid of the product of two functions -/
noncomputable def pairing {r c : ℕ} (w : Fin r → Fin c → ℝ) (f g : Fin r → Fin c → ℝ) : ℝ := ∑ i, ∑ j, w i j * f i j * g i j

/-- real part and imaginary part of a harmonic on the grid -/
noncomputable def gridRe {r c : ℕ} (Y : ℕ → ℕ → ℝ → ℝ → ℂ) (lon colat : Fin r → Fin c → ℝ) (n m : ℕ) : Fin r → Fin c → ℝ :=
  fun i j => (Y n m (colat i j) (lon i j)).re
noncomputable def gridIm {r c : ℕ} (Y : ℕ → ℕ → ℝ → ℝ → ℂ) (lon colat : Fin r → Fin c → ℝ) (n m : ℕ) : Fin r → Fin c → ℝ :=
  fun i j => (Y n m (colat i j) (lon i j)).im

/-- The weights integrate the products of the real and imaginary parts of the harmonics up to degree `N` as exactly as the integral over the
sphere (of area 4π) does: on the sphere ∫ |Y|² = 1, which is split evenly between real and imaginary part for m > 0, and different functions are
orthogonal. -/
structure QuadratureExact {r c : ℕ} (Y : ℕ → ℕ → ℝ → ℝ → ℂ) (N : ℕ) (w lon colat : Fin r → Fin c → ℝ) : Prop where
  nonzero : total w ≠ 0
  re_re : ∀ n m n' m', m ≤ n → n ≤ N → m' ≤ n' → n' ≤ N →
    pairing w (gridRe Y lon colat n m) (gridRe Y lon colat n' m')
      = total w / (4 * Real.pi) * (if n = n' ∧ m = m' then (if m = 0 then 1 else 1 / 2) else 0)
  im_im : ∀ n m n' m', m ≤ n → n ≤ N → m' ≤ n' → n' ≤ N →
    pairing w (gridIm Y lon colat n m) (gridIm Y lon colat n' m')
      = total w / (4 * Real.pi) * (if n = n' ∧ m = m' then (if m = 0 then 0 else 1 / 2) else 0)
  re_im : ∀ n m n' m', m ≤ n → n ≤ N → m' ≤ n' → n' ≤ N → pairing w (gridRe Y lon colat n m) (gridIm Y lon colat n' m') = 0

/-- position of the coefficient of (n, m) -/
def index (n m : ℕ) : ℕ := n * (n + 1) / 2 + m

/-- number of coefficients -/
def count (N : ℕ) : ℕ := (N + 1) * (N + 2) / 2

/-- A list of coefficients for truncation `N`: one per pair, and no imaginary part where m = 0 (there the sine part does not exist). -/
def Admissible (N : ℕ) (c : List ℂ) : Prop := c.length = count N ∧ ∀ n ≤ N, ∀ z : ℂ, c[index n 0]? = some z → z.im = 0

/-- linear combinations of the real and imaginary parts of the harmonics on the grid -/
def InSpan {r c : ℕ} (Y : ℕ → ℕ → ℝ → ℝ → ℂ) (N : ℕ) (lon colat f : Fin r → Fin c → ℝ) : Prop :=
  ∃ a b : ℕ → ℕ → ℝ, ∀ i j, f i j =
    ∑ n ∈ Finset.range (N + 1), ∑ m ∈ Finset.range (n + 1), (a n m * gridRe Y lon colat n m i j + b n m * gridIm Y lon colat n m i j)

/-- the sum a field is rebuilt with -/
noncomputable def synthesis {r c : ℕ} (Y : ℕ → ℕ → ℝ → ℝ → ℂ) (N : ℕ) (coef : List ℂ) (lon colat : Fin r → Fin c → ℝ) : Fin r → Fin c → ℝ :=
  fun i j => ∑ n ∈ Finset.range (N + 1), ∑ m ∈ Finset.range (n + 1),
    ((coef.getD (index n m) 0).re * gridRe Y lon colat n m i j + (coef.getD (index n m) 0).im * gridIm Y lon colat n m i j)

/-- the coefficient of (n, m): the weighted mean of data times harmonic, in units of the squared constant harmonic, doubled for m > 0 -/
noncomputable def analysis {r c : ℕ} (Y : ℕ → ℕ → ℝ → ℝ → ℂ) (f w lon colat : Fin r → Fin c → ℝ) (n m : ℕ) : ℂ :=
  (if m = 0 then 1 else 2) * (∑ i, ∑ j, (f i j : ℂ) * w i j * Y n m (colat i j) (lon i j)) / (total w * Y 0 0 0 0 ^ 2)

/-- dot product in space -/
def dot (p q : ℝ × ℝ × ℝ) : ℝ := p.1 * q.1 + p.2.1 * q.2.1 + p.2.2 * q.2.2

/-- cosine of the angle at the centre between two places given by longitude and colatitude (spherical law of cosines) -/
noncomputable def cosAngle (lon colat lon' colat' : ℝ) : ℝ :=
  Real.cos colat * Real.cos colat' + Real.sin colat * Real.sin colat' * Real.cos (lon - lon')

end Verif.Spec.Spherical
