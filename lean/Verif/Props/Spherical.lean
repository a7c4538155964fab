import Verif.Lemmas.Spherical
import Mathlib.Tactic.NormNum

set_option linter.unusedSectionVars false

namespace Verif.Props
open Model Model.Spherical Spec.Spherical Lemmas.Spherical
open scoped BigOperators

/-! ### C68 -/

theorem coefficient_analysis (Y : ℕ → ℕ → ℝ → ℝ → ℂ) {r c : ℕ} (data scale theta phi : Fin r → Fin c → ℝ) (n m : ℕ) :
    coefficient Y data scale theta phi n m = analysis Y data scale theta phi n m := by
  simp only [coefficient, analysis, total]
  push_cast
  split <;> ring

/-- The pairs used by both functions: each pair with 0 ≤ m ≤ n ≤ max_harm exactly once, ordered by n and then by m, and (n, m) at position
n(n+1)/2+m. -/
theorem C68_pairs (N : ℕ) :
    (decompPairs N).map (fun q => (q.1, q.2.1)) = recompPairs N ∧ (recompPairs N).Nodup ∧ (recompPairs N).length = (N + 1) * (N + 2) / 2 ∧
      (∀ n m, (n, m) ∈ recompPairs N ↔ m ≤ n ∧ n ≤ N) ∧
      (recompPairs N).Pairwise (fun p q => p.1 < q.1 ∨ p.1 = q.1 ∧ p.2 < q.2) ∧
      ∀ n m, m ≤ n → n ≤ N → (recompPairs N)[n * (n + 1) / 2 + m]? = some (n, m) := by
  refine ⟨?_, nodup_pairs N, pairs_length N, fun n m => mem_pairs, ?_, fun n m h1 h2 => pairs_get h1 h2⟩
  · rw [decompPairs_eq, List.map_map]; simp [Function.comp_def]
  · induction N with
    | zero => simp [recompPairs]
    | succ N ih =>
      rw [pairs_succ, List.pairwise_append]
      refine ⟨ih, ?_, ?_⟩
      · rw [List.pairwise_map]
        exact List.pairwise_lt_range.imp (fun h => Or.inr ⟨rfl, h⟩)
      · rintro ⟨a, b⟩ h1 ⟨a', b'⟩ h2
        rw [mem_pairs] at h1
        simp only [List.mem_map, List.mem_range, Prod.mk.injEq] at h2
        obtain ⟨x, hx, rfl, rfl⟩ := h2
        left; simp only; omega

/-- The result of `decomposition` has (max_harm+1)(max_harm+2)/2 entries, and the one at n(n+1)/2+m is the coefficient of (n, m). -/
theorem C68_decomposition_order (lib : SciPy) (old : Bool) (ty : Container) {r c : ℕ} (data scale theta phi : Fin r → Fin c → ℝ) (N : ℕ) :
    (decomposition lib old ty data scale theta phi N).2.length = (N + 1) * (N + 2) / 2 ∧
      ∀ n m, m ≤ n → n ≤ N → (decomposition lib old ty data scale theta phi N).2[n * (n + 1) / 2 + m]?
        = some (analysis (sphHarmY lib old) data scale theta phi n m) := by
  rw [decomp_eq]
  refine ⟨by simp only [List.length_map]; exact pairs_length N, ?_⟩
  intro n m h1 h2
  have := pairs_get h1 h2
  rw [index] at this
  simp only [List.getElem?_map, this, Option.map_some, coefficient_analysis]

/-- `recomposition` takes the entry at n(n+1)/2+m for the coefficient of (n, m). -/
theorem C68_recomposition_order (lib : SciPy) (old : Bool) (ty : Container) {r c : ℕ} (coef : List ℂ) (theta phi : Fin r → Fin c → ℝ) (N : ℕ)
    (hc : coef.length = (N + 1) * (N + 2) / 2) :
    recomposition lib old ty coef theta phi N = .ok (ty, synthesis (sphHarmY lib old) N coef theta phi) :=
  recomp_eq lib old ty coef theta phi N hc

example : recompPairs 2 = [(0, 0), (1, 0), (1, 1), (2, 0), (2, 1), (2, 2)] := by decide
example : (recompPairs 23).length = 300 := by rw [pairs_length]; rfl

/-! ### C69 -/

/-- Decomposing what was composed from admissible coefficients gives them back. -/
theorem C69_decomposition_of_recomposition (lib : SciPy) (old : Bool) (ty : Container) {r c : ℕ} (scale theta phi : Fin r → Fin c → ℝ) (N : ℕ)
    (hY : Harmonics (sphHarmY lib old)) (hq : QuadratureExact (sphHarmY lib old) N scale theta phi) (coef : List ℂ) (hc : Admissible N coef) :
    ∃ f, recomposition lib old ty coef theta phi N = .ok (ty, f) ∧ decomposition lib old ty f scale theta phi N = (ty, coef) := by
  refine ⟨_, recomp_eq lib old ty coef theta phi N hc.1, ?_⟩
  rw [decomp_eq]
  congr 1
  apply List.ext_getElem?
  intro k
  by_cases hk : k < (recompPairs N).length
  · have hg := get_index (N := N) ⟨k, hk⟩
    have hmem : ((recompPairs N).get ⟨k, hk⟩) ∈ recompPairs N := List.get_mem _ _
    generalize hp : (recompPairs N).get ⟨k, hk⟩ = p at hg hmem
    obtain ⟨n, m⟩ := p
    obtain ⟨h1, h2⟩ := mem_pairs.mp hmem
    simp only at hg
    have hkc : k < coef.length := by rw [hc.1, ← pairs_length]; exact hk
    rw [List.getElem?_map, hg, pairs_get h1 h2, ← hg]
    have hcomb : coefficient (sphHarmY lib old) (synthesis (sphHarmY lib old) N coef theta phi) scale theta phi n m = _ :=
      coefficient_of_combination hY hq (fun n m => (coef.getD (index n m) 0).re) (fun n m => (coef.getD (index n m) 0).im) h1 h2
    simp only [Option.map_some]
    rw [hcomb]
    rw [← hg, List.getElem?_eq_getElem hkc, List.getD_eq_getElem?_getD, List.getElem?_eq_getElem hkc]
    simp only [Option.getD_some, Option.some.injEq]
    apply Complex.ext
    · rfl
    · simp only
      split
      · rename_i h0
        subst h0
        refine (hc.2 n h2 _ ?_).symm
        rw [← hg]; exact List.getElem?_eq_getElem hkc
      · rfl
  · rw [List.getElem?_eq_none (by simpa using hk), List.getElem?_eq_none (by rw [hc.1, ← pairs_length]; omega)]

/-- Composing the decomposition of a combination of harmonics gives it back. -/
theorem C69_recomposition_of_decomposition (lib : SciPy) (old : Bool) (ty : Container) {r c : ℕ} (scale theta phi : Fin r → Fin c → ℝ) (N : ℕ)
    (hY : Harmonics (sphHarmY lib old)) (hq : QuadratureExact (sphHarmY lib old) N scale theta phi) (f : Fin r → Fin c → ℝ)
    (hf : InSpan (sphHarmY lib old) N theta phi f) :
    recomposition lib old ty (decomposition lib old ty f scale theta phi N).2 theta phi N = .ok (ty, f) := by
  obtain ⟨a, b, hab⟩ := hf
  have hl : (decomposition lib old ty f scale theta phi N).2.length = count N := (C68_decomposition_order lib old ty f scale theta phi N).1
  rw [recomp_eq lib old ty _ theta phi N hl]
  congr 2
  funext i j
  rw [hab i j, synthesis]
  refine Finset.sum_congr rfl (fun n hn => Finset.sum_congr rfl (fun m hm => ?_))
  have h1 : m ≤ n := by simpa [Nat.lt_succ_iff] using hm
  have h2 : n ≤ N := by simpa [Nat.lt_succ_iff] using hn
  have h3 : (decomposition lib old ty f scale theta phi N).2[index n m]? = _ := (C68_decomposition_order lib old ty f scale theta phi N).2 n m h1 h2
  have hff : f = fun i j => ∑ n ∈ Finset.range (N + 1), ∑ m ∈ Finset.range (n + 1),
      (a n m * gridRe (sphHarmY lib old) theta phi n m i j + b n m * gridIm (sphHarmY lib old) theta phi n m i j) := by
    funext i j; exact hab i j
  have h4 : analysis (sphHarmY lib old) f scale theta phi n m = ⟨a n m, if m = 0 then 0 else b n m⟩ := by
    rw [← coefficient_analysis]
    rw [hff]
    exact coefficient_of_combination hY hq a b h1 h2
  rw [List.getD_eq_getElem?_getD, h3, h4]
  simp only [Option.getD_some]
  by_cases h0 : m = 0
  · subst h0
    simp only [if_true, gridIm, hY.order_zero_real]
    ring
  · simp only [h0, if_false]

/-! The hypotheses are met by the harmonics up to degree 1 on the six corners of an octahedron, arranged in two rows of three. -/

/-- the harmonics up to degree 1 (with the phase of scipy) -/
noncomputable def lowY (n m : ℕ) (colat lon : ℝ) : ℂ :=
  match n, m with
  | 0, 0 => ⟨Real.sqrt (1 / (4 * Real.pi)), 0⟩
  | 1, 0 => ⟨Real.sqrt (3 / (4 * Real.pi)) * Real.cos colat, 0⟩
  | 1, 1 => ⟨- (Real.sqrt (3 / (8 * Real.pi)) * (Real.sin colat * Real.cos lon)), - (Real.sqrt (3 / (8 * Real.pi)) * (Real.sin colat * Real.sin lon))⟩
  | _, _ => 0

noncomputable def octaLon : Fin 2 → Fin 3 → ℝ := ![![0, 0, Real.pi / 2], ![Real.pi, -(Real.pi / 2), 0]]
noncomputable def octaColat : Fin 2 → Fin 3 → ℝ := ![![0, Real.pi / 2, Real.pi / 2], ![Real.pi / 2, Real.pi / 2, Real.pi]]

theorem lowY_harmonics : Harmonics lowY where
  order_zero_real := by
    intro n colat lon
    match n with
    | 0 => rfl
    | 1 => rfl
    | n + 2 => rfl
  constant := by
    have h : (0 : ℝ) ≤ 1 / (4 * Real.pi) := by positivity
    have : lowY 0 0 0 0 = ((Real.sqrt (1 / (4 * Real.pi)) : ℝ) : ℂ) := rfl
    rw [this, ← Complex.ofReal_pow, Real.sq_sqrt h]
    push_cast; ring

theorem low_cases {n m : ℕ} (h1 : m ≤ n) (h2 : n ≤ 1) : (n = 0 ∧ m = 0) ∨ (n = 1 ∧ m = 0) ∨ (n = 1 ∧ m = 1) := by omega

theorem octa_exact : QuadratureExact lowY 1 (fun _ _ => 1) octaLon octaColat := by
  have hpi : Real.pi ≠ 0 := Real.pi_ne_zero
  have e0 : Real.sqrt (1 / (4 * Real.pi)) * Real.sqrt (1 / (4 * Real.pi)) = 1 / (4 * Real.pi) := Real.mul_self_sqrt (by positivity)
  have e1 : Real.sqrt (3 / (4 * Real.pi)) * Real.sqrt (3 / (4 * Real.pi)) = 3 / (4 * Real.pi) := Real.mul_self_sqrt (by positivity)
  have e2 : Real.sqrt (3 / (8 * Real.pi)) * Real.sqrt (3 / (8 * Real.pi)) = 3 / (8 * Real.pi) := Real.mul_self_sqrt (by positivity)
  have k1 : 3 / (8 * Real.pi) = 3 / 2 * (1 / (4 * Real.pi)) := by field_simp; norm_num
  have k2 : 3 / (4 * Real.pi) = 3 * (1 / (4 * Real.pi)) := by field_simp
  have k3 : ∀ x : ℝ, x / (4 * Real.pi) = x * (1 / (4 * Real.pi)) := fun x => by ring
  refine ⟨by simp [total, Fin.sum_univ_succ], ?_, ?_, ?_⟩
  · intro n m n' m' h1 h2 h3 h4
    rcases low_cases h1 h2 with ⟨rfl, rfl⟩ | ⟨rfl, rfl⟩ | ⟨rfl, rfl⟩ <;> rcases low_cases h3 h4 with ⟨rfl, rfl⟩ | ⟨rfl, rfl⟩ | ⟨rfl, rfl⟩ <;>
      simp only [pairing, total, gridRe, gridIm, lowY, octaLon, octaColat, Fin.sum_univ_succ, Fin.sum_univ_zero, Matrix.cons_val_zero,
        Matrix.cons_val_succ, Fin.succ_zero_eq_one, Matrix.cons_val_one, Matrix.cons_val, Real.cos_zero, Real.cos_pi, Real.cos_pi_div_two, Real.cos_neg,
        Real.sin_zero, Real.sin_pi, Real.sin_pi_div_two, Real.sin_neg, k3 (_ + _), and_self, if_true, if_false] <;>
      generalize Real.sqrt (1 / (4 * Real.pi)) = s0 at * <;>
      generalize Real.sqrt (3 / (4 * Real.pi)) = s1 at * <;>
      generalize Real.sqrt (3 / (8 * Real.pi)) = s2 at * <;>
      generalize 1 / (4 * Real.pi) = q at * <;>
      norm_num <;>
      first
        | linear_combination 6 * e0
        | linear_combination 2 * e1 + 2 * k2
        | linear_combination 2 * e2 + 2 * k1
        | ring
  · intro n m n' m' h1 h2 h3 h4
    rcases low_cases h1 h2 with ⟨rfl, rfl⟩ | ⟨rfl, rfl⟩ | ⟨rfl, rfl⟩ <;> rcases low_cases h3 h4 with ⟨rfl, rfl⟩ | ⟨rfl, rfl⟩ | ⟨rfl, rfl⟩ <;>
      simp only [pairing, total, gridRe, gridIm, lowY, octaLon, octaColat, Fin.sum_univ_succ, Fin.sum_univ_zero, Matrix.cons_val_zero,
        Matrix.cons_val_succ, Fin.succ_zero_eq_one, Matrix.cons_val_one, Matrix.cons_val, Real.cos_zero, Real.cos_pi, Real.cos_pi_div_two, Real.cos_neg,
        Real.sin_zero, Real.sin_pi, Real.sin_pi_div_two, Real.sin_neg, k3 (_ + _), and_self, if_true, if_false] <;>
      generalize Real.sqrt (1 / (4 * Real.pi)) = s0 at * <;>
      generalize Real.sqrt (3 / (4 * Real.pi)) = s1 at * <;>
      generalize Real.sqrt (3 / (8 * Real.pi)) = s2 at * <;>
      generalize 1 / (4 * Real.pi) = q at * <;>
      norm_num <;>
      first
        | linear_combination 6 * e0
        | linear_combination 2 * e1 + 2 * k2
        | linear_combination 2 * e2 + 2 * k1
        | ring
  · intro n m n' m' h1 h2 h3 h4
    rcases low_cases h1 h2 with ⟨rfl, rfl⟩ | ⟨rfl, rfl⟩ | ⟨rfl, rfl⟩ <;> rcases low_cases h3 h4 with ⟨rfl, rfl⟩ | ⟨rfl, rfl⟩ | ⟨rfl, rfl⟩ <;>
      simp only [pairing, total, gridRe, gridIm, lowY, octaLon, octaColat, Fin.sum_univ_succ, Fin.sum_univ_zero, Matrix.cons_val_zero,
        Matrix.cons_val_succ, Fin.succ_zero_eq_one, Matrix.cons_val_one, Matrix.cons_val, Real.cos_zero, Real.cos_pi, Real.cos_pi_div_two, Real.cos_neg,
        Real.sin_zero, Real.sin_pi, Real.sin_pi_div_two, Real.sin_neg, k3 (_ + _), and_self, if_true, if_false] <;>
      generalize Real.sqrt (1 / (4 * Real.pi)) = s0 at * <;>
      generalize Real.sqrt (3 / (4 * Real.pi)) = s1 at * <;>
      generalize Real.sqrt (3 / (8 * Real.pi)) = s2 at * <;>
      generalize 1 / (4 * Real.pi) = q at * <;>
      norm_num <;>
      first
        | linear_combination 6 * e0
        | linear_combination 2 * e1 + 2 * k2
        | linear_combination 2 * e2 + 2 * k1
        | ring

/-- all coefficient vectors with three entries that have no sine part for m = 0 are given back on the octahedron -/
example (c0 c1 : ℝ) (c2 : ℂ) (old : Bool) : ∃ f, recomposition ⟨fun m n lon colat => lowY n m colat lon, lowY⟩ old .numpy [(c0 : ℂ), (c1 : ℂ), c2] octaLon octaColat 1
    = .ok (.numpy, f) ∧ decomposition ⟨fun m n lon colat => lowY n m colat lon, lowY⟩ old .numpy f (fun _ _ => 1) octaLon octaColat 1
      = (.numpy, [(c0 : ℂ), (c1 : ℂ), c2]) := by
  have hs : sphHarmY ⟨fun m n lon colat => lowY n m colat lon, lowY⟩ old = lowY := by
    funext n m t p; cases old <;> rfl
  refine C69_decomposition_of_recomposition _ old .numpy _ _ _ 1 (by rw [hs]; exact lowY_harmonics) (by rw [hs]; exact octa_exact) _ ⟨rfl, ?_⟩
  intro n hn z hz
  rcases low_cases (Nat.zero_le n) hn with ⟨rfl, _⟩ | ⟨rfl, _⟩ | ⟨rfl, h⟩
  · simp [index] at hz; subst hz; simp
  · simp [index] at hz; subst hz; simp
  · omega

/-! ### C70 -/

/-- `decomposition` is linear in the data. -/
theorem C70_decomposition_linear (lib : SciPy) (old : Bool) (ty : Container) {r c : ℕ} (f g scale theta phi : Fin r → Fin c → ℝ) (N : ℕ)
    (a b : ℝ) :
    (decomposition lib old ty (fun i j => a * f i j + b * g i j) scale theta phi N).2
      = List.zipWith (fun x y => (a : ℂ) * x + (b : ℂ) * y) (decomposition lib old ty f scale theta phi N).2
          (decomposition lib old ty g scale theta phi N).2 := by
  simp only [decomp_eq]
  rw [List.zipWith_map_left, List.zipWith_map_right, List.zipWith_self]
  refine List.map_congr_left (fun p _ => ?_)
  simp only [coefficient]
  have : ∑ i, ∑ j, ((a * f i j + b * g i j : ℝ) : ℂ) * scale i j * sphHarmY lib old p.1 p.2 (phi i j) (theta i j)
      = a * (∑ i, ∑ j, (f i j : ℂ) * scale i j * sphHarmY lib old p.1 p.2 (phi i j) (theta i j))
        + b * (∑ i, ∑ j, (g i j : ℂ) * scale i j * sphHarmY lib old p.1 p.2 (phi i j) (theta i j)) := by
    simp only [Finset.mul_sum]
    rw [← Finset.sum_add_distrib]
    refine Finset.sum_congr rfl (fun i _ => ?_)
    rw [← Finset.sum_add_distrib]
    refine Finset.sum_congr rfl (fun j _ => ?_)
    push_cast; ring
  rw [this]; ring

/-- `decomposition` does not change when all weights are multiplied by a non-zero constant. -/
theorem C70_weight_scale_invariant (lib : SciPy) (old : Bool) (ty : Container) {r c : ℕ} (f scale theta phi : Fin r → Fin c → ℝ) (N : ℕ)
    (a : ℝ) (ha : a ≠ 0) :
    decomposition lib old ty f (fun i j => a * scale i j) theta phi N = decomposition lib old ty f scale theta phi N := by
  rw [decomp_eq, decomp_eq]
  congr 1
  refine List.map_congr_left (fun p _ => ?_)
  have ha' : (a : ℂ) ≠ 0 := by exact_mod_cast ha
  simp only [coefficient]
  have h1 : ∑ i, ∑ j, (f i j : ℂ) * ((a * scale i j : ℝ) : ℂ) * sphHarmY lib old p.1 p.2 (phi i j) (theta i j)
      = a * ∑ i, ∑ j, (f i j : ℂ) * scale i j * sphHarmY lib old p.1 p.2 (phi i j) (theta i j) := by
    simp only [Finset.mul_sum]
    refine Finset.sum_congr rfl (fun i _ => Finset.sum_congr rfl (fun j _ => ?_))
    push_cast; ring
  have h2 : ∑ i, ∑ j, ((a * scale i j : ℝ) : ℂ) = a * ∑ i, ∑ j, (scale i j : ℂ) := by
    simp only [Finset.mul_sum]
    refine Finset.sum_congr rfl (fun i _ => Finset.sum_congr rfl (fun j _ => ?_))
    push_cast; ring
  rw [h1, h2]
  generalize (∑ i, ∑ j, (f i j : ℂ) * scale i j * sphHarmY lib old p.1 p.2 (phi i j) (theta i j)) = S
  generalize (∑ i, ∑ j, (scale i j : ℂ)) = W
  generalize sphHarmY lib old 0 0 0 0 ^ 2 = y
  generalize (((if p.2 = 0 then 1 else 2 : ℕ)) : ℂ) = k
  rw [one_div, one_div, mul_assoc (a : ℂ) W y, mul_inv]
  calc a * S * (k * ((a : ℂ)⁻¹ * (W * y)⁻¹)) = (a * (a : ℂ)⁻¹) * (S * (k * (W * y)⁻¹)) := by ring
    _ = S * (k * (W * y)⁻¹) := by rw [mul_inv_cancel₀ ha', one_mul]

/-- `recomposition` is linear in the coefficients. -/
theorem C70_recomposition_linear (lib : SciPy) (old : Bool) (ty : Container) {r c : ℕ} (x y : List ℂ) (theta phi : Fin r → Fin c → ℝ) (N : ℕ)
    (a b : ℝ) (hx : x.length = (N + 1) * (N + 2) / 2) (hy : y.length = (N + 1) * (N + 2) / 2) :
    ∃ fx fy, recomposition lib old ty x theta phi N = .ok (ty, fx) ∧ recomposition lib old ty y theta phi N = .ok (ty, fy) ∧
      recomposition lib old ty (List.zipWith (fun u v => (a : ℂ) * u + (b : ℂ) * v) x y) theta phi N
        = .ok (ty, fun i j => a * fx i j + b * fy i j) := by
  refine ⟨_, _, recomp_eq lib old ty x theta phi N hx, recomp_eq lib old ty y theta phi N hy, ?_⟩
  rw [recomp_eq lib old ty _ theta phi N (by rw [List.length_zipWith, hx, hy, count]; simp)]
  congr 2
  funext i j
  simp only [synthesis, Finset.mul_sum]
  rw [← Finset.sum_add_distrib]
  refine Finset.sum_congr rfl (fun n hn => ?_)
  rw [← Finset.sum_add_distrib]
  refine Finset.sum_congr rfl (fun m hm => ?_)
  have h1 : m ≤ n := by simpa [Nat.lt_succ_iff] using hm
  have h2 : n ≤ N := by simpa [Nat.lt_succ_iff] using hn
  have hlt : index n m < (recompPairs N).length := by
    by_contra hcon
    have := pairs_get h1 h2
    rw [List.getElem?_eq_none (by omega)] at this
    cases this
  rw [pairs_length, count] at hlt
  have hx' : index n m < x.length := by omega
  have hy' : index n m < y.length := by omega
  simp only [List.getD_eq_getElem?_getD, List.getElem?_zipWith, List.getElem?_eq_getElem hx', List.getElem?_eq_getElem hy', Option.getD_some]
  simp only [Complex.add_re, Complex.add_im, Complex.re_ofReal_mul, Complex.im_ofReal_mul]
  ring

/-! ### C71 -/

/-- the two functions of scipy compute the same harmonic; `sph_harm` takes (m, n, longitude, colatitude) and `sph_harm_y` (n, m, colatitude, longitude) -/
def SameHarmonics (lib : SciPy) : Prop := ∀ n m colat lon, lib.sphHarm m n lon colat = lib.sphHarmY n m colat lon

theorem same_sph {lib : SciPy} (h : SameHarmonics lib) (old : Bool) : sphHarmY lib old = lib.sphHarmY := by
  funext n m t p
  cases old
  · rfl
  · exact h n m t p

/-- The coefficients computed do not depend on the container type or on the version of scipy. -/
theorem C71_decomposition_same (lib : SciPy) (h : SameHarmonics lib) (old old' : Bool) (ty ty' : Container) {r c : ℕ}
    (data scale theta phi : Fin r → Fin c → ℝ) (N : ℕ) :
    (decomposition lib old ty data scale theta phi N).2 = (decomposition lib old' ty' data scale theta phi N).2 ∧
      (decomposition lib old ty data scale theta phi N).1 = ty := by
  rw [decomp_eq, decomp_eq, same_sph h old, same_sph h old']
  exact ⟨rfl, rfl⟩

/-- The same for `recomposition`, for the right number of coefficients. -/
theorem C71_recomposition_same (lib : SciPy) (h : SameHarmonics lib) (old old' : Bool) (ty ty' : Container) {r c : ℕ} (coef : List ℂ)
    (theta phi : Fin r → Fin c → ℝ) (N : ℕ) (hc : coef.length = (N + 1) * (N + 2) / 2) :
    ∃ f, recomposition lib old ty coef theta phi N = .ok (ty, f) ∧ recomposition lib old' ty' coef theta phi N = .ok (ty', f) := by
  refine ⟨_, recomp_eq lib old ty coef theta phi N hc, ?_⟩
  rw [recomp_eq lib old' ty' coef theta phi N hc, same_sph h old, same_sph h old']

/-- The harmonics are evaluated at the colatitude `phi` and the longitude `theta` of the data point (both versions of scipy). -/
theorem C71_angles (lib : SciPy) (h : SameHarmonics lib) (old : Bool) (ty : Container) {r c : ℕ} (data scale theta phi : Fin r → Fin c → ℝ) (N : ℕ) :
    (decomposition lib old ty data scale theta phi N).2
      = (recompPairs N).map (fun p => analysis lib.sphHarmY data scale theta phi p.1 p.2) := by
  rw [decomp_eq, same_sph h old]
  exact List.map_congr_left (fun p _ => coefficient_analysis _ _ _ _ _ _ _)

/-! ### C72 -/

theorem location_unit (t p : ℝ) : dot (location t p) (location t p) = 1 := by
  simp only [dot, location]
  have h1 := Real.sin_sq_add_cos_sq t
  have h2 := Real.sin_sq_add_cos_sq p
  calc _ = Real.sin p ^ 2 * (Real.sin t ^ 2 + Real.cos t ^ 2) + Real.cos p ^ 2 := by ring
    _ = 1 := by rw [h1, mul_one, h2]

theorem location_dot (t p t' p' : ℝ) : dot (location t p) (location t' p') = cosAngle t p t' p' := by
  simp only [dot, location, cosAngle, Real.cos_sub]
  ring

theorem flatten_getElem? {α : Type} {c : ℕ} : ∀ (l : List (List α)) (_ : ∀ row ∈ l, row.length = c) (i j : ℕ) (row : List α),
    l[i]? = some row → j < c → l.flatten[i * c + j]? = row[j]?
  | [], _, i, j, row, h, _ => by simp at h
  | a :: t, hl, 0, j, row, h, hj => by
    simp only [List.getElem?_cons_zero, Option.some.injEq] at h
    subst h
    rw [List.flatten_cons, Nat.zero_mul, Nat.zero_add, List.getElem?_append_left]
    rw [hl a (by simp)]; exact hj
  | a :: t, hl, i + 1, j, row, h, hj => by
    have ha := hl a (by simp)
    rw [List.flatten_cons, List.getElem?_append_right (by rw [ha]; nlinarith), ha]
    have e : (i + 1) * c + j - c = i * c + j := by
      have : (i + 1) * c = i * c + c := by ring
      omega
    rw [e]
    exact flatten_getElem? t (fun r hr => hl r (by simp [hr])) i j row (by simpa using h) hj

theorem flatten_length {α : Type} {c : ℕ} : ∀ (l : List (List α)), (∀ row ∈ l, row.length = c) → l.flatten.length = l.length * c
  | [], _ => by simp
  | a :: t, hl => by
    rw [List.flatten_cons, List.length_append, hl a (by simp), flatten_length t (fun r hr => hl r (by simp [hr])), List.length_cons]
    ring

/-- The points handed to the Voronoi computation lie on the unit sphere at the given angles, in row-major order (their colatitude is `phi`, and the angle
between any two is the angle between the two places of the grid); the result has the shape of the input, each area at the place of its point; errors of the
Voronoi computation are passed on. What fails is the container type: see `C72_counterexample`. -/
theorem C72_points_and_shape_partial (voronoi : List (ℝ × ℝ × ℝ) → Except PyErr (List ℝ)) (ty : Container) (r c : ℕ) (theta phi : List (List ℝ))
    (ht : theta.length = r) (hp : phi.length = r) (htr : ∀ row ∈ theta, row.length = c) (hpr : ∀ row ∈ phi, row.length = c) :
    ∃ pts : List (ℝ × ℝ × ℝ), pts.length = r * c ∧
      (∀ (i j : ℕ) (trow prow : List ℝ) (t p : ℝ), theta[i]? = some trow → phi[i]? = some prow → trow[j]? = some t → prow[j]? = some p →
        ∃ q, pts[i * c + j]? = some q ∧ dot q q = 1 ∧ q.2.2 = Real.cos p) ∧
      (∀ (i j i' j' : ℕ) (trow prow trow' prow' : List ℝ) (t p t' p' : ℝ) (q q' : ℝ × ℝ × ℝ),
        theta[i]? = some trow → phi[i]? = some prow → trow[j]? = some t → prow[j]? = some p →
        theta[i']? = some trow' → phi[i']? = some prow' → trow'[j']? = some t' → prow'[j']? = some p' →
        pts[i * c + j]? = some q → pts[i' * c + j']? = some q' → dot q q' = cosAngle t p t' p') ∧
      (∀ e, voronoi pts = .error e → scaleVoronoi voronoi ty c theta phi = .error e) ∧
      ∀ areas, voronoi pts = .ok areas → areas.length = r * c →
        ∃ out, scaleVoronoi voronoi ty c theta phi = .ok (.numpy, out) ∧ out.length = r ∧ (∀ row ∈ out, row.length = c) ∧
          ∀ i j, i < r → j < c → ∃ row, out[i]? = some row ∧ row[j]? = areas[i * c + j]? := by
  have key : ∀ (i j : ℕ) (trow prow : List ℝ) (t p : ℝ), theta[i]? = some trow → phi[i]? = some prow → trow[j]? = some t → prow[j]? = some p →
      (List.zipWith location theta.flatten phi.flatten)[i * c + j]? = some (location t p) := by
    intro i j trow prow t p h1 h2 h3 h4
    have hj : j < c := by
      have := (List.getElem?_eq_some_iff.mp h3).1
      rw [htr trow (List.mem_of_getElem? h1)] at this
      exact this
    rw [List.getElem?_zipWith, flatten_getElem? theta htr i j trow h1 hj, flatten_getElem? phi hpr i j prow h2 hj, h3, h4]
  refine ⟨List.zipWith location theta.flatten phi.flatten, ?_, ?_, ?_, ?_, ?_⟩
  · rw [List.length_zipWith, flatten_length theta htr, flatten_length phi hpr, ht, hp, Nat.min_self]
  · intro i j trow prow t p h1 h2 h3 h4
    exact ⟨_, key i j trow prow t p h1 h2 h3 h4, location_unit t p, rfl⟩
  · intro i j i' j' trow prow trow' prow' t p t' p' q q' h1 h2 h3 h4 h1' h2' h3' h4' hq hq'
    rw [key i j trow prow t p h1 h2 h3 h4, Option.some.injEq] at hq
    rw [key i' j' trow' prow' t' p' h1' h2' h3' h4', Option.some.injEq] at hq'
    rw [← hq, ← hq', location_dot]
  · intro e he
    simp only [scaleVoronoi, he, bind, Except.bind]
  · intro areas ha hl
    refine ⟨toRows theta.length c areas, ?_, ?_, ?_, ?_⟩
    · cases ty <;> simp [scaleVoronoi, ha, bind, Except.bind, pure, Except.pure]
    · simp [toRows, ht]
    · intro row hrow
      simp only [toRows, List.mem_map, List.mem_range] at hrow
      obtain ⟨i, hi, rfl⟩ := hrow
      rw [List.length_take, List.length_drop, hl]
      rw [ht] at hi
      have : (i + 1) * c ≤ r * c := Nat.mul_le_mul_right c hi
      have e : (i + 1) * c = i * c + c := by ring
      omega
    · intro i j hi hj
      refine ⟨(areas.drop (i * c)).take c, ?_, ?_⟩
      · simp only [toRows, List.getElem?_map]
        rw [List.getElem?_range (by omega)]; rfl
      · rw [List.getElem?_take_of_lt hj, List.getElem?_drop]

/-- `scale_voronoi` never returns a DataArray, whatever it is given; in particular DataArrays for which it succeeds give a plain array. -/
theorem C72_counterexample :
    (∀ voronoi c theta phi out, scaleVoronoi voronoi .xarray c theta phi ≠ .ok (.xarray, out)) ∧
      ∃ voronoi c theta phi out, scaleVoronoi voronoi .xarray c theta phi = .ok (.numpy, out) ∧ out ≠ [] := by
  constructor
  · intro voronoi c theta phi out h
    simp only [scaleVoronoi] at h
    cases hv : voronoi (List.zipWith location theta.flatten phi.flatten) with
    | error e => simp [hv, bind, Except.bind] at h
    | ok areas => simp [hv, bind, Except.bind, pure, Except.pure] at h
  · refine ⟨fun l => .ok (l.map (fun _ => 1)), 1, [[0]], [[1]], [[1]], ?_, by simp⟩
    simp [scaleVoronoi, toRows, bind, Except.bind, pure, Except.pure]

/-! ### C99: number of coefficients -/

/-- A number of coefficients that does not belong to `max_harm` is rejected, if it is not one, or if the input is a DataArray and scipy new. -/
theorem C99_wrong_number_rejected_partial (lib : SciPy) (old : Bool) (ty : Container) {r c : ℕ} (coef : List ℂ) (theta phi : Fin r → Fin c → ℝ) (N : ℕ)
    (hc : coef.length ≠ (N + 1) * (N + 2) / 2) (h : coef.length ≠ 1 ∨ ty = .xarray ∧ old = false) :
    recomposition lib old ty coef theta phi N = .error .valueError := by
  have hl : coef.length ≠ (recompPairs N).length := by rw [pairs_length]; exact hc
  unfold recomposition
  simp only [if_neg hl]
  by_cases hb : ty = .numpy ∨ old = true
  · rw [if_pos hb]
    have h1 : coef.length ≠ 1 := by
      rcases h with h | ⟨h1, h2⟩
      · exact h
      · rcases hb with hb | hb
        · rw [h1] at hb; cases hb
        · rw [h2] at hb; cases hb
    match coef, h1 with
    | [], _ => rfl
    | [x], h1 => simp at h1
    | _ :: _ :: _, _ => rfl
  · rw [if_neg hb]

example : ([1, 2] : List ℂ).length ≠ (1 + 1) * (1 + 2) / 2 := by simp

/-- A single coefficient in a numpy array is silently used for every harmonic. -/
theorem C99_counterexample : ∃ (lib : SciPy) (theta phi : Fin 1 → Fin 1 → ℝ) (f : Fin 1 → Fin 1 → ℝ),
    recomposition lib false .numpy [1] theta phi 1 = .ok (.numpy, f) ∧ f 0 0 ≠ 0 := by
  have h3 : (recompPairs 1).length = 3 := by decide
  refine ⟨⟨fun _ _ _ _ => 1, fun _ _ _ _ => 1⟩, fun _ _ => 0, fun _ _ => 0, fun _ _ => 3, ?_, by norm_num⟩
  unfold recomposition
  have : ([1] : List ℂ).length ≠ (recompPairs 1).length := by rw [h3]; simp
  simp only [if_neg this, true_or, if_true, sphHarmY, Except.ok.injEq, Prod.mk.injEq, true_and]
  funext i j
  simp [h3]

/-! ### C100: grids with poles -/

theorem location_inj {t p t' p' : ℝ} (ht : 0 ≤ t ∧ t < 2 * Real.pi) (hp : 0 < p ∧ p < Real.pi) (ht' : 0 ≤ t' ∧ t' < 2 * Real.pi)
    (hp' : 0 < p' ∧ p' < Real.pi) (h : location t p = location t' p') : (t, p) = (t', p') := by
  simp only [location, Prod.mk.injEq] at h
  obtain ⟨h1, h2, h3⟩ := h
  have hpp : p = p' := Real.injOn_cos ⟨hp.1.le, hp.2.le⟩ ⟨hp'.1.le, hp'.2.le⟩ h3
  subst hpp
  have hs : Real.sin p ≠ 0 := (Real.sin_pos_of_pos_of_lt_pi hp.1 hp.2).ne'
  have e1 : Real.sin t = Real.sin t' := mul_left_cancel₀ hs h1
  have e2 : Real.cos t = Real.cos t' := mul_left_cancel₀ hs h2
  have e3 : Real.cos (t - t') = 1 := by
    rw [Real.cos_sub, e1, e2]
    have := Real.sin_sq_add_cos_sq t'
    nlinarith
  have e4 := (Real.cos_eq_one_iff_of_lt_of_lt (by linarith [ht.1, ht'.2]) (by linarith [ht.2, ht'.1])).mp e3
  have : t = t' := by linarith
  rw [this]

/-- Without points at the poles, different points of the grid (longitudes within one turn) give different points on the sphere, so that a Voronoi
computation that works for any three or more different points of the sphere works for the grid. -/
theorem C100_no_poles_partial (voronoi : List (ℝ × ℝ × ℝ) → Except PyErr (List ℝ))
    (hv : ∀ pts : List (ℝ × ℝ × ℝ), pts.Nodup → 3 ≤ pts.length → (∀ q ∈ pts, dot q q = 1) → ∃ a, voronoi pts = .ok a)
    (ty : Container) (c : ℕ) (theta phi : List (List ℝ)) (hd : (List.zip theta.flatten phi.flatten).Nodup)
    (h3 : 3 ≤ (List.zip theta.flatten phi.flatten).length)
    (ht : ∀ t ∈ theta.flatten, 0 ≤ t ∧ t < 2 * Real.pi) (hp : ∀ p ∈ phi.flatten, 0 < p ∧ p < Real.pi) :
    ∃ out, scaleVoronoi voronoi ty c theta phi = .ok out := by
  have hn : (List.zipWith location theta.flatten phi.flatten).Nodup := by
    have e : List.zipWith location theta.flatten phi.flatten = (List.zip theta.flatten phi.flatten).map (fun q => location q.1 q.2) := by
      rw [List.zip, List.map_zipWith]
    rw [e]
    refine hd.map_on ?_
    rintro ⟨t, p⟩ h1 ⟨t', p'⟩ h2 h
    exact location_inj (ht _ (List.of_mem_zip h1).1) (hp _ (List.of_mem_zip h1).2) (ht _ (List.of_mem_zip h2).1) (hp _ (List.of_mem_zip h2).2) h
  have hu : ∀ q ∈ List.zipWith location theta.flatten phi.flatten, dot q q = 1 := by
    intro q hq
    obtain ⟨k, hk, rfl⟩ := List.mem_iff_getElem.mp hq
    rw [List.getElem_zipWith]
    exact location_unit _ _
  obtain ⟨a, ha⟩ := hv _ hn (by simpa using h3) hu
  refine ⟨(.numpy, toRows theta.length c a), ?_⟩
  cases ty <;> simp [scaleVoronoi, ha, bind, Except.bind, pure, Except.pure]

example : (List.zip ([[0, 1], [0, 1]] : List (List ℝ)).flatten ([[1, 1], [2, 2]] : List (List ℝ)).flatten).Nodup ∧
    3 ≤ (List.zip ([[0, 1], [0, 1]] : List (List ℝ)).flatten ([[1, 1], [2, 2]] : List (List ℝ)).flatten).length := by
  simp

/-- All points at a pole coincide, hence a grid with a row at the pole and two longitudes is rejected by a Voronoi computation that rejects
duplicate points, as scipy's does. -/
theorem C100_counterexample (voronoi : List (ℝ × ℝ × ℝ) → Except PyErr (List ℝ))
    (hv : ∀ pts : List (ℝ × ℝ × ℝ), ¬ pts.Nodup → voronoi pts = .error .valueError) (ty : Container) (c : ℕ) (t1 t2 : ℝ) (ts : List ℝ)
    (thetas phis : List (List ℝ)) :
    scaleVoronoi voronoi ty c ((t1 :: t2 :: ts) :: thetas) ((0 :: 0 :: ts.map (fun _ => 0)) :: phis) = .error .valueError := by
  have : ¬ (List.zipWith location ((t1 :: t2 :: ts) :: thetas).flatten ((0 :: 0 :: ts.map (fun _ => (0 : ℝ))) :: phis).flatten).Nodup := by
    simp [location]
  simp only [scaleVoronoi, hv _ this, bind, Except.bind]

end Verif.Props
