import Verif.Model.Hybrid
import Mathlib.Algebra.Order.Field.Basic
import Mathlib.Algebra.BigOperators.Group.Finset.Basic
import Mathlib.Algebra.Order.BigOperators.Group.Finset
import Mathlib.Tactic.FieldSimp
import Mathlib.Tactic.Ring
import Mathlib.Tactic.Linarith

set_option linter.unusedSectionVars false
namespace Verif.Lemmas
open Model
variable {K : Type _} [Field K] [LinearOrder K] [IsStrictOrderedRing K]

theorem ok_exists {α : Type _} {P : α → Prop} {e : Except PyErr α} (h : match e with | .ok r => P r | .error _ => False) :
    ∃ r, e = .ok r ∧ P r := by
  cases e with
  | error _ => exact h.elim
  | ok r => exact ⟨r, rfl, h⟩

theorem bdim_one (a : ℕ) : Tensor.bdim 1 a = some a := by
  unfold Tensor.bdim
  split
  · simp_all
  · simp

/-- broadcasting level coefficients (n,1,1) against a grid (ny,nx) -/
theorem bshape_level_grid (n ny nx : ℕ) : Tensor.bshape [n, 1, 1] [ny, nx] = some [n, ny, nx] := by
  simp only [Tensor.bshape, Tensor.bshapeRev, bdim_one, List.reverse_cons, List.reverse_nil, List.nil_append, List.cons_append,
    Option.map_some]

theorem bshape_level_cube (n ny nx : ℕ) : Tensor.bshape [n, 1, 1] [n, ny, nx] = some [n, ny, nx] := by
  have h : Tensor.bdim n n = some n := by simp [Tensor.bdim]
  simp only [Tensor.bshape, Tensor.bshapeRev, bdim_one, h, List.reverse_cons, List.reverse_nil, List.nil_append, List.cons_append,
    Option.map_some]

theorem bidx_level (n k y x : ℕ) (hk : k < n) : Tensor.bidx [n, 1, 1] [k, y, x] = [k, 0, 0] := by
  simp [Tensor.bidx]
  omega

theorem bidx_grid (ny nx k y x : ℕ) (hy : y < ny) (hx : x < nx) : Tensor.bidx [ny, nx] [k, y, x] = [y, x] := by
  simp [Tensor.bidx]
  omega

theorem bidx_cube (n ny nx k y x : ℕ) (hk : k < n) (hy : y < ny) (hx : x < nx) :
    Tensor.bidx [n, ny, nx] [k, y, x] = [k, y, x] := by
  simp [Tensor.bidx]
  omega

/-- numpy path on a grid -/
theorem pressureNp_grid (psfc hya hyb : Tensor K) (p0 : K) (n ny nx : ℕ) (hp : psfc.shape = [ny, nx])
    (ha : hya.shape = [n]) (hb : hyb.shape = [n]) :
    ∃ r, pressureNp psfc hya hyb p0 = .ok r ∧ r.shape = [n, ny, nx] ∧
      ∀ k y x, k < n → y < ny → x < nx → r.get [k, y, x] = hya.get [k] * p0 + hyb.get [k] * psfc.get [y, x] := by
  apply ok_exists
  simp only [pressureNp, ha, hb, ne_eq, not_true_eq_false, if_false, List.length_singleton, lt_irrefl, expandDims12, Tensor.zip,
    Tensor.map, hp, bshape_level_grid, bshape_level_cube, bind, Except.bind, pure, Except.pure]
  refine ⟨?_, ?_⟩
  · trivial
  · intro k y x hk hy hx
    simp [bidx_level n k y x hk, bidx_grid ny nx k y x hy hx, bidx_cube n ny nx k y x hk hy hx]

theorem deltaHybridNp_grid (ps hya hyb : Tensor K) (p0 : K) (n ny nx : ℕ) (hp : ps.shape = [ny, nx])
    (ha : hya.shape = [n]) (hb : hyb.shape = [n]) :
    ∃ r, deltaHybridNp ps hya hyb p0 = .ok r ∧ r.shape = [n - 1, ny, nx] ∧
      ∀ k y x, k < n - 1 → y < ny → x < nx → r.get [k, y, x] =
        |(hya.get [k] * p0 + hyb.get [k] * ps.get [y, x]) - (hya.get [k + 1] * p0 + hyb.get [k + 1] * ps.get [y, x])| := by
  apply ok_exists
  simp only [deltaHybridNp, ha, hb, ne_eq, not_true_eq_false, if_false, List.length_singleton, lt_irrefl, expandDims12, Tensor.zip,
    Tensor.map, sliceFirst, hp, List.tail_cons, List.headD_cons, bshape_level_grid, bshape_level_cube, Tensor.bshape_self, bind, Except.bind,
    pure, Except.pure]
  refine ⟨?_, ?_⟩
  · trivial
  · intro k y x hk hy hx
    simp [bidx_level (n - 1) k y x hk, bidx_grid ny nx k y x hy hx, bidx_cube (n - 1) ny nx k y x hk hy hx, mul_comm p0]

/-- sum of absolute steps of a monotone sequence -/
theorem sum_abs_mono (f : ℕ → K) (m : ℕ) (h : ∀ k < m, f k ≤ f (k + 1)) :
    (∑ k ∈ Finset.range m, |f k - f (k + 1)|) = f m - f 0 ∧ f 0 ≤ f m := by
  induction m with
  | zero => simp
  | succ m ih =>
    obtain ⟨h1, h2⟩ := ih (fun k hk => h k (by omega))
    have h3 := h m (by omega)
    rw [Finset.sum_range_succ, h1, abs_of_nonpos (by linarith)]
    exact ⟨by ring, by linarith⟩

end Verif.Lemmas
