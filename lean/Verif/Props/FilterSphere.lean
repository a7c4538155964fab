import Verif.Props.FilterField
import Verif.Props.Spherical

/-
Property C210: filtering in time and spherical harmonics in either order.
-/

set_option linter.unusedSectionVars false
namespace Verif.Props
open Model Model.Spherical Spec.Spherical Lemmas.Spherical

/-- a vector of harmonic coefficients up to `N` at one time -/
noncomputable def coefVector (N : ℕ) (coef : ℕ → ℂ) : List ℂ := (List.range ((N + 1) * (N + 2) / 2)).map coef

/-- complex numbers filtered in time: the real and the imaginary parts are -/
noncomputable def filterComplex (fl : Flags) (f cl ch : ℝ) {T : ℕ} [NeZero T] (y : ZMod T → ℂ) (t : ZMod T) : ℂ :=
  ⟨fourierFilter fl f cl ch (fun s => (y s).re) t, fourierFilter fl f cl ch (fun s => (y s).im) t⟩

namespace FilterSphere

theorem coefficient_sum {r c T : ℕ} [NeZero T] (Y : ℕ → ℕ → ℝ → ℝ → ℂ) (H : ZMod T → ℝ) (x : ZMod T → Fin r → Fin c → ℝ) (scale theta phi : Fin r → Fin c → ℝ) (n m : ℕ) :
    coefficient Y (fun i j => ∑ s, H s * x s i j) scale theta phi n m = ∑ s, (H s : ℂ) * coefficient Y (x s) scale theta phi n m := by
  unfold coefficient
  have e : ∑ i, ∑ j, ((∑ s, H s * x s i j : ℝ) : ℂ) * scale i j * Y n m (phi i j) (theta i j)
      = ∑ s, (H s : ℂ) * ∑ i, ∑ j, (x s i j : ℂ) * scale i j * Y n m (phi i j) (theta i j) := by
    simp only [Finset.mul_sum]
    conv_rhs => rw [Finset.sum_comm]
    refine Finset.sum_congr rfl fun i _ => ?_
    conv_rhs => rw [Finset.sum_comm]
    refine Finset.sum_congr rfl fun j _ => ?_
    rw [Complex.ofReal_sum, Finset.sum_mul, Finset.sum_mul]
    exact Finset.sum_congr rfl fun s _ => by push_cast; ring
  rw [e, Finset.sum_mul]
  exact Finset.sum_congr rfl fun s _ => by ring

theorem filterComplex_sum (fl : Flags) (f cl ch : ℝ) {T : ℕ} [NeZero T] (t : ZMod T) (H : ZMod T → ℝ)
    (hH : ∀ x : ZMod T → ℝ, fourierFilter fl f cl ch x t = ∑ s, H s * x s) (y : ZMod T → ℂ) : filterComplex fl f cl ch y t = ∑ s, (H s : ℂ) * y s := by
  unfold filterComplex
  rw [hH, hH]
  apply Complex.ext
  · rw [Complex.re_sum]
    exact Finset.sum_congr rfl fun s _ => by simp
  · rw [Complex.im_sum]
    exact Finset.sum_congr rfl fun s _ => by simp

end FilterSphere
open FilterSphere

/-- **C210**, `decomposition`: the harmonic coefficients of the filtered field are the filtered coefficients. For every grid, set of
weights, number of times and filter. -/
theorem C210_decomposition (fl : Flags) (f cl ch : ℝ) (hf : 0 < f) (h1 : 0 ≤ cl) (h2 : 0 ≤ ch) (lib : SciPy) (old : Bool) (ty : Container) {r c : ℕ} (T : ℕ) [NeZero T]
    (x : ZMod T → Fin r → Fin c → ℝ) (scale theta phi : Fin r → Fin c → ℝ) (N : ℕ) :
    ∃ coef : ZMod T → ℕ → ℂ, (∀ t, decomposition lib old ty (x t) scale theta phi N = (ty, coefVector N (coef t))) ∧
      ∀ t, decomposition lib old ty (fun i j => fourierFilter fl f cl ch (fun s => x s i j) t) scale theta phi N
        = (ty, coefVector N fun h => filterComplex fl f cl ch (fun s => coef s h) t) := by
  have hlen : (recompPairs N).length = (N + 1) * (N + 2) / 2 := pairs_length N
  have hlist : ∀ g : ℕ × ℕ → ℂ, (recompPairs N).map g = coefVector N fun h => g ((recompPairs N).getD h (0, 0)) := by
    intro g
    refine List.ext_getElem (by simp [coefVector, hlen]) fun k hk hk' => ?_
    rw [List.length_map] at hk
    simp [coefVector, List.getD_eq_getElem?_getD, List.getElem?_eq_getElem hk]
  refine ⟨fun t h => coefficient (sphHarmY lib old) (x t) scale theta phi ((recompPairs N).getD h (0, 0)).1 ((recompPairs N).getD h (0, 0)).2, ?_, ?_⟩
  · intro t
    rw [decomp_eq, hlist]
  · intro t
    rw [decomp_eq, hlist]
    obtain ⟨H, hH⟩ := FilterField.kernel fl f cl ch hf h1 h2 t
    simp only [filterComplex_sum fl f cl ch t H hH, hH, coefficient_sum]

/-- **C210**, `recomposition`: filtered coefficients give the filtered field. -/
theorem C210_recomposition (fl : Flags) (f cl ch : ℝ) (hf : 0 < f) (h1 : 0 ≤ cl) (h2 : 0 ≤ ch) (lib : SciPy) (old : Bool) (ty : Container) {r c : ℕ} (T : ℕ) [NeZero T]
    (coef : ZMod T → ℕ → ℂ) (theta phi : Fin r → Fin c → ℝ) (N : ℕ) :
    ∃ x : ZMod T → Fin r → Fin c → ℝ, (∀ t, recomposition lib old ty (coefVector N (coef t)) theta phi N = .ok (ty, x t)) ∧
      ∀ t, recomposition lib old ty (coefVector N fun h => filterComplex fl f cl ch (fun s => coef s h) t) theta phi N
        = .ok (ty, fun i j => fourierFilter fl f cl ch (fun s => x s i j) t) := by
  refine ⟨fun t => synthesis (sphHarmY lib old) N (coefVector N (coef t)) theta phi, fun t => recomp_eq lib old ty _ theta phi N (by simp [coefVector, count]), fun t => ?_⟩
  rw [recomp_eq lib old ty _ theta phi N (by simp [coefVector, count])]
  obtain ⟨H, hH⟩ := FilterField.kernel fl f cl ch hf h1 h2 t
  congr 2
  funext i j
  rw [hH]
  simp only [synthesis, Finset.mul_sum]
  rw [Finset.sum_comm]
  refine Finset.sum_congr rfl fun n hn => ?_
  rw [Finset.sum_comm]
  refine Finset.sum_congr rfl fun m hm => ?_
  have hget : ∀ g : ℕ → ℂ, (coefVector N g).getD (index n m) 0 = if index n m < (N + 1) * (N + 2) / 2 then g (index n m) else 0 := by
    intro g
    unfold coefVector
    split_ifs with hi
    · simp [List.getD_eq_getElem?_getD, hi]
    · simp [List.getD_eq_getElem?_getD, hi]
  simp only [hget]
  split_ifs with hi
  · simp only [filterComplex, hH, Finset.sum_mul]
    rw [← Finset.sum_add_distrib]
    exact Finset.sum_congr rfl fun s _ => by ring
  · simp

/-- a field on a 2 by 3 grid at four times: filtering with any weights and grid, then decomposing -/
example (lib : SciPy) (x : ZMod 4 → Fin 2 → Fin 3 → ℝ) (scale theta phi : Fin 2 → Fin 3 → ℝ) :
    ∃ coef : ZMod 4 → ℕ → ℂ, (∀ t, decomposition lib false .numpy (x t) scale theta phi 1 = (.numpy, [coef t 0, coef t 1, coef t 2])) ∧
      ∀ t, decomposition lib false .numpy (fun i j => fourierFilter { lowPass := true } 4 1 0 (fun s => x s i j) t) scale theta phi 1
        = (.numpy, [filterComplex { lowPass := true } 4 1 0 (fun s => coef s 0) t, filterComplex { lowPass := true } 4 1 0 (fun s => coef s 1) t,
            filterComplex { lowPass := true } 4 1 0 (fun s => coef s 2) t]) := by
  have : NeZero 4 := ⟨by norm_num⟩
  exact C210_decomposition { lowPass := true } 4 1 0 (by norm_num) (by norm_num) le_rfl lib false .numpy 4 x scale theta phi 1

end Verif.Props
