import Verif.Props.Hybrid
import Mathlib.Algebra.BigOperators.Ring.Finset

/-
Property C206: hybrid pressures and layers follow the unit of pressure, rise with the surface pressure and gain its mass.
-/

set_option linter.unusedSectionVars false
namespace Verif.Props
open Model Lemmas
variable {K : Type _} [Field K] [LinearOrder K] [IsStrictOrderedRing K]

/-- every value of an array multiplied by `c` -/
def timesC (c : K) (t : Tensor K) : Tensor K := t.map (c * ·)

section
variable (ps hya hyb : Tensor K) (p0 : K) (n ny nx : ℕ) (hp : ps.shape = [ny, nx]) (ha : hya.shape = [n]) (hb : hyb.shape = [n])
include hp ha hb

/-- **C206, units.** With the reference pressure and the surface pressure in another unit (multiplied by `c`), the pressures of all
levels are multiplied by `c` and the thicknesses of all layers by its magnitude. -/
theorem C206_units (c : K) :
    ∃ p p' r r', pressureNp ps hya hyb p0 = .ok p ∧ pressureNp (timesC c ps) hya hyb (c * p0) = .ok p' ∧
      deltaHybridNp ps hya hyb p0 = .ok r ∧ deltaHybridNp (timesC c ps) hya hyb (c * p0) = .ok r' ∧
      ∀ k y x, y < ny → x < nx → (k < n → p'.get [k, y, x] = c * p.get [k, y, x]) ∧ (k + 1 < n → r'.get [k, y, x] = |c| * r.get [k, y, x]) := by
  obtain ⟨p, p1, p2, p3⟩ := pressureNp_grid ps hya hyb p0 n ny nx hp ha hb
  obtain ⟨p', q1, q2, q3⟩ := pressureNp_grid (timesC c ps) hya hyb (c * p0) n ny nx hp ha hb
  obtain ⟨r, r1, r2, r3⟩ := deltaHybridNp_grid ps hya hyb p0 n ny nx hp ha hb
  obtain ⟨r', s1, s2, s3⟩ := deltaHybridNp_grid (timesC c ps) hya hyb (c * p0) n ny nx hp ha hb
  refine ⟨p, p', r, r', p1, q1, r1, s1, fun k y x hy hx => ⟨fun hk => ?_, fun hk => ?_⟩⟩
  · rw [p3 k y x hk hy hx, q3 k y x hk hy hx]
    show _ * _ + _ * (c * ps.get [y, x]) = _
    ring
  · rw [r3 k y x (by omega) hy hx, s3 k y x (by omega) hy hx, ← abs_mul]
    congr 1
    show _ * _ + _ * (c * ps.get [y, x]) - (_ * _ + _ * (c * ps.get [y, x])) = _
    ring

/-- **C206, higher surface pressure.** Where the surface pressure is higher, the pressure of a level with a nonnegative
coefficient `hyb` is not lower, and it is higher if the coefficient is positive; it changes by `hyb` times the change. Where the
coefficients are such that the pressures grow downwards on both surfaces, a layer over which `hyb` grows gets thicker, by the
difference of `hyb` times the change of the surface pressure; so the column as a whole by `hyb[n-1] - hyb[0]` times the change. -/
theorem C206_rise (ps' : Tensor K) (hp' : ps'.shape = [ny, nx]) :
    ∃ p p' r r', pressureNp ps hya hyb p0 = .ok p ∧ pressureNp ps' hya hyb p0 = .ok p' ∧
      deltaHybridNp ps hya hyb p0 = .ok r ∧ deltaHybridNp ps' hya hyb p0 = .ok r' ∧
      ∀ y x, y < ny → x < nx →
        (∀ k < n, p'.get [k, y, x] - p.get [k, y, x] = hyb.get [k] * (ps'.get [y, x] - ps.get [y, x]) ∧
          (0 ≤ hyb.get [k] → ps.get [y, x] ≤ ps'.get [y, x] → p.get [k, y, x] ≤ p'.get [k, y, x]) ∧
          (0 < hyb.get [k] → ps.get [y, x] < ps'.get [y, x] → p.get [k, y, x] < p'.get [k, y, x])) ∧
        ((∀ k, k + 1 < n → p.get [k, y, x] ≤ p.get [k + 1, y, x] ∧ p'.get [k, y, x] ≤ p'.get [k + 1, y, x]) →
          (∀ k, k + 1 < n → r'.get [k, y, x] - r.get [k, y, x] = (hyb.get [k + 1] - hyb.get [k]) * (ps'.get [y, x] - ps.get [y, x])) ∧
          (1 ≤ n → (∑ k ∈ Finset.range (n - 1), r'.get [k, y, x]) - ∑ k ∈ Finset.range (n - 1), r.get [k, y, x]
            = (hyb.get [n - 1] - hyb.get [0]) * (ps'.get [y, x] - ps.get [y, x]))) := by
  obtain ⟨p, p1, p2, p3⟩ := pressureNp_grid ps hya hyb p0 n ny nx hp ha hb
  obtain ⟨p', q1, q2, q3⟩ := pressureNp_grid ps' hya hyb p0 n ny nx hp' ha hb
  obtain ⟨r, r1, r2, r3⟩ := deltaHybridNp_grid ps hya hyb p0 n ny nx hp ha hb
  obtain ⟨r', s1, s2, s3⟩ := deltaHybridNp_grid ps' hya hyb p0 n ny nx hp' ha hb
  refine ⟨p, p', r, r', p1, q1, r1, s1, fun y x hy hx => ?_⟩
  have hpk : ∀ k < n, p'.get [k, y, x] - p.get [k, y, x] = hyb.get [k] * (ps'.get [y, x] - ps.get [y, x]) := fun k hk => by
    rw [p3 k y x hk hy hx, q3 k y x hk hy hx]; ring
  refine ⟨fun k hk => ⟨hpk k hk, fun h0 h => ?_, fun h0 h => ?_⟩, fun hd => ?_⟩
  · have := mul_nonneg h0 (sub_nonneg.mpr h)
    rw [← hpk k hk] at this
    exact sub_nonneg.mp this
  · have := mul_pos h0 (sub_pos.mpr h)
    rw [← hpk k hk] at this
    exact sub_pos.mp this
  · have layer : ∀ k, k + 1 < n → r'.get [k, y, x] - r.get [k, y, x] = (hyb.get [k + 1] - hyb.get [k]) * (ps'.get [y, x] - ps.get [y, x]) := by
      intro k hk
      obtain ⟨d1, d2⟩ := hd k hk
      rw [p3 k y x (by omega) hy hx, p3 (k + 1) y x hk hy hx] at d1
      rw [q3 k y x (by omega) hy hx, q3 (k + 1) y x hk hy hx] at d2
      rw [r3 k y x (by omega) hy hx, s3 k y x (by omega) hy hx, abs_of_nonpos (by linarith), abs_of_nonpos (by linarith)]
      ring
    refine ⟨layer, fun hn => ?_⟩
    rw [← Finset.sum_sub_distrib, Finset.sum_congr rfl fun k hk => layer k (by have := Finset.mem_range.mp hk; omega), ← Finset.sum_mul,
      Finset.sum_range_sub (fun k => hyb.get [k])]

end

/-- three interfaces over two points, 100000 and 90000; in hPa, and with 1000 Pa more -/
example : ((pressureNp ⟨[1, 2], fun i => if i = [0, 0] then 100000 else (90000 : ℚ)⟩ ⟨[3], fun i => if i = [1] then 1 / 4 else 0⟩
      ⟨[3], fun i => if i = [0] then 0 else if i = [1] then 1 / 4 else 1⟩ 100000).map fun t => (t.get [1, 0, 1], t.get [2, 0, 1])) = .ok (47500, 90000) ∧
    ((deltaHybridNp ⟨[1, 2], fun i => if i = [0, 0] then 100000 else (90000 : ℚ)⟩ ⟨[3], fun i => if i = [1] then 1 / 4 else 0⟩
      ⟨[3], fun i => if i = [0] then 0 else if i = [1] then 1 / 4 else 1⟩ 100000).map fun t => (t.get [0, 0, 1], t.get [1, 0, 1])) = .ok (47500, 42500) ∧
    ((deltaHybridNp ⟨[1, 2], fun i => if i = [0, 0] then 101000 else (91000 : ℚ)⟩ ⟨[3], fun i => if i = [1] then 1 / 4 else 0⟩
      ⟨[3], fun i => if i = [0] then 0 else if i = [1] then 1 / 4 else 1⟩ 100000).map fun t => (t.get [0, 0, 1], t.get [1, 0, 1])) = .ok (47750, 43250) := by
  decide +kernel

end Verif.Props
