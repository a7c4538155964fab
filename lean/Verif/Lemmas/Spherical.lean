import Verif.Model.Spherical
import Verif.Spec.Spherical
import Mathlib.Tactic.Ring
import Mathlib.Tactic.Linarith
import Mathlib.Tactic.FieldSimp
import Mathlib.Algebra.BigOperators.Fin

set_option linter.unusedSectionVars false

namespace Verif.Lemmas.Spherical
open Verif Model Model.Spherical Spec.Spherical
open scoped BigOperators

theorem decompPairs_eq (N : ℕ) : decompPairs N = (recompPairs N).map (fun p => (p.1, p.2, if p.2 = 0 then 1 else 2)) := by
  simp [decompPairs, recompPairs, List.map_flatMap, Function.comp_def]

theorem pairs_succ (N : ℕ) : recompPairs (N + 1) = recompPairs N ++ (List.range (N + 2)).map (fun m => (N + 1, m)) := by
  simp only [recompPairs]
  conv_lhs => rw [List.range_succ (n := N + 1), List.flatMap_append]
  simp only [List.flatMap_cons, List.flatMap_nil, List.append_nil]

theorem index_zero_succ (n : ℕ) : index (n + 1) 0 = index n 0 + (n + 1) := by
  simp only [index, add_zero]
  have : (n + 1) * (n + 1 + 1) = n * (n + 1) + 2 * (n + 1) := by ring
  rw [this]; omega

theorem index_eq (n m : ℕ) : index n m = index n 0 + m := by simp [index]

theorem count_eq (N : ℕ) : count N = index (N + 1) 0 := by simp [count, index]

theorem pairs_length (N : ℕ) : (recompPairs N).length = count N := by
  induction N with
  | zero => simp [recompPairs, count]
  | succ N ih =>
    rw [pairs_succ, List.length_append, ih, count_eq, count_eq, index_zero_succ (N + 1)]
    simp

theorem pairs_get {N n m : ℕ} (hm : m ≤ n) (hn : n ≤ N) : (recompPairs N)[index n m]? = some (n, m) := by
  induction N with
  | zero =>
    obtain rfl : n = 0 := by omega
    obtain rfl : m = 0 := by omega
    simp [recompPairs, index]
  | succ N ih =>
    rw [pairs_succ]
    by_cases h : n ≤ N
    · have hlt : index n m < (recompPairs N).length := by
        by_contra hc
        have := ih h
        rw [List.getElem?_eq_none (by omega)] at this
        cases this
      rw [List.getElem?_append_left hlt]; exact ih h
    · obtain rfl : n = N + 1 := by omega
      rw [List.getElem?_append_right (by rw [pairs_length, count_eq, index_eq (N + 1) m]; omega), pairs_length, count_eq, index_eq (N + 1) m]
      have : index (N + 1) 0 + m - index (N + 1) 0 = m := by omega
      rw [this, List.getElem?_map, List.getElem?_range (by omega)]
      rfl

theorem mem_pairs {N n m : ℕ} : (n, m) ∈ recompPairs N ↔ m ≤ n ∧ n ≤ N := by
  simp only [recompPairs, List.mem_flatMap, List.mem_range, List.mem_map, Prod.mk.injEq]
  constructor
  · rintro ⟨a, ha, b, hb, rfl, rfl⟩; omega
  · rintro ⟨h1, h2⟩; exact ⟨n, by omega, m, by omega, rfl, rfl⟩

theorem nodup_pairs (N : ℕ) : (recompPairs N).Nodup := by
  induction N with
  | zero => simp [recompPairs]
  | succ N ih =>
    rw [pairs_succ, List.nodup_append]
    refine ⟨ih, ?_, ?_⟩
    · exact (List.nodup_range).map (fun a b h => by simpa using h)
    · rintro ⟨a, b⟩ h1 ⟨a', b'⟩ h2 heq
      rw [mem_pairs] at h1
      simp only [List.mem_map, List.mem_range, Prod.mk.injEq] at h2
      obtain ⟨x, hx, rfl, rfl⟩ := h2
      simp only [Prod.mk.injEq] at heq
      omega

theorem sum_pairs (N : ℕ) {M : Type} [AddCommMonoid M] (g : ℕ × ℕ → M) :
    ((recompPairs N).map g).sum = ∑ n ∈ Finset.range (N + 1), ∑ m ∈ Finset.range (n + 1), g (n, m) := by
  induction N with
  | zero => simp [recompPairs]
  | succ N ih =>
    rw [pairs_succ, List.map_append, List.sum_append, ih, Finset.sum_range_succ _ (N + 1)]
    congr 1
    rw [List.map_map]
    rfl

theorem ofFn_get {α β : Type} (l : List α) (g : α → β) : List.ofFn (fun h : Fin l.length => g (l.get h)) = l.map g := by
  conv_rhs => rw [← List.ofFn_get l, List.map_ofFn]
  rfl

/-- one coefficient of the decomposition -/
noncomputable def coefficient (Y : ℕ → ℕ → ℝ → ℝ → ℂ) {r c : ℕ} (data scale theta phi : Fin r → Fin c → ℝ) (n m : ℕ) : ℂ :=
  (∑ i, ∑ j, (data i j : ℂ) * scale i j * Y n m (phi i j) (theta i j)) *
    (((if m = 0 then 1 else 2 : ℕ) : ℂ) * (1 / ((∑ i, ∑ j, (scale i j : ℂ)) * Y 0 0 0 0 ^ 2)))

theorem decomp_eq (lib : SciPy) (old : Bool) (ty : Container) {r c : ℕ} (data scale theta phi : Fin r → Fin c → ℝ) (N : ℕ) :
    decomposition lib old ty data scale theta phi N
      = (ty, (recompPairs N).map (fun p => coefficient (sphHarmY lib old) data scale theta phi p.1 p.2)) := by
  have h := ofFn_get (decompPairs N) (fun q => (∑ i, ∑ j, (data i j : ℂ) * scale i j * sphHarmY lib old q.1 q.2.1 (phi i j) (theta i j)) *
    ((q.2.2 : ℂ) * (1 / ((∑ i, ∑ j, (scale i j : ℂ)) * sphHarmY lib old 0 0 0 0 ^ 2))))
  have h2 : (decompPairs N).map (fun q => (∑ i, ∑ j, (data i j : ℂ) * scale i j * sphHarmY lib old q.1 q.2.1 (phi i j) (theta i j)) *
    ((q.2.2 : ℂ) * (1 / ((∑ i, ∑ j, (scale i j : ℂ)) * sphHarmY lib old 0 0 0 0 ^ 2))))
      = (recompPairs N).map (fun p => coefficient (sphHarmY lib old) data scale theta phi p.1 p.2) := by
    rw [decompPairs_eq, List.map_map]; rfl
  rw [← h2, ← h]
  cases ty <;> rfl

theorem get_index {N : ℕ} (h : Fin (recompPairs N).length) : (h : ℕ) = index ((recompPairs N).get h).1 ((recompPairs N).get h).2 := by
  have hm : ((recompPairs N).get h) ∈ recompPairs N := List.get_mem _ _
  obtain ⟨h1, h2⟩ := mem_pairs.mp (show (((recompPairs N).get h).1, ((recompPairs N).get h).2) ∈ recompPairs N from hm)
  have h3 := pairs_get h1 h2
  have h4 : (recompPairs N)[(h : ℕ)]? = some (((recompPairs N).get h).1, ((recompPairs N).get h).2) := by
    rw [List.getElem?_eq_getElem h.2]; rfl
  exact (List.getElem?_inj h.2 (nodup_pairs N)).mp (h4.trans h3.symm)

theorem recomp_eq (lib : SciPy) (old : Bool) (ty : Container) {r c : ℕ} (coef : List ℂ) (theta phi : Fin r → Fin c → ℝ) (N : ℕ)
    (hc : coef.length = count N) :
    recomposition lib old ty coef theta phi N = .ok (ty, synthesis (sphHarmY lib old) N coef theta phi) := by
  have hl : coef.length = (recompPairs N).length := by rw [pairs_length, hc]
  unfold recomposition
  simp only [if_pos hl, Except.ok.injEq, Prod.mk.injEq, true_and]
  funext i j
  rw [← Finset.sum_add_distrib]
  have h1 : ∀ h : Fin (recompPairs N).length,
      (sphHarmY lib old ((recompPairs N).get h).1 ((recompPairs N).get h).2 (phi i j) (theta i j)).re * (coef.getD h 0).re
        + (sphHarmY lib old ((recompPairs N).get h).1 ((recompPairs N).get h).2 (phi i j) (theta i j)).im * (coef.getD h 0).im
      = (fun p : ℕ × ℕ => (coef.getD (index p.1 p.2) 0).re * gridRe (sphHarmY lib old) theta phi p.1 p.2 i j
          + (coef.getD (index p.1 p.2) 0).im * gridIm (sphHarmY lib old) theta phi p.1 p.2 i j) ((recompPairs N).get h) := by
    intro h
    simp only [gridRe, gridIm]
    rw [← get_index h]; ring
  rw [Finset.sum_congr rfl (fun h _ => h1 h)]
  have h2 := sum_pairs N (fun p : ℕ × ℕ => (coef.getD (index p.1 p.2) 0).re * gridRe (sphHarmY lib old) theta phi p.1 p.2 i j
          + (coef.getD (index p.1 p.2) 0).im * gridIm (sphHarmY lib old) theta phi p.1 p.2 i j)
  rw [synthesis]
  rw [← h2, ← ofFn_get, List.sum_ofFn]

theorem pairing_combination {r c : ℕ} (w g : Fin r → Fin c → ℝ) (N : ℕ) (a b : ℕ → ℕ → ℝ) (R I : ℕ → ℕ → Fin r → Fin c → ℝ) :
    pairing w (fun i j => ∑ n ∈ Finset.range (N + 1), ∑ m ∈ Finset.range (n + 1), (a n m * R n m i j + b n m * I n m i j)) g
      = ∑ n ∈ Finset.range (N + 1), ∑ m ∈ Finset.range (n + 1), (a n m * pairing w (R n m) g + b n m * pairing w (I n m) g) := by
  simp only [pairing, Finset.mul_sum, Finset.sum_mul]
  have e : ∀ (F : ℕ → ℕ → Fin r → Fin c → ℝ), ∑ i, ∑ j, ∑ n ∈ Finset.range (N + 1), ∑ m ∈ Finset.range (n + 1), F n m i j
      = ∑ n ∈ Finset.range (N + 1), ∑ m ∈ Finset.range (n + 1), ∑ i, ∑ j, F n m i j := by
    intro F
    have s1 : ∀ i, ∑ j, ∑ n ∈ Finset.range (N + 1), ∑ m ∈ Finset.range (n + 1), F n m i j
        = ∑ n ∈ Finset.range (N + 1), ∑ m ∈ Finset.range (n + 1), ∑ j, F n m i j := by
      intro i
      rw [Finset.sum_comm]
      exact Finset.sum_congr rfl (fun n _ => Finset.sum_comm)
    rw [Finset.sum_congr rfl (fun i _ => s1 i), Finset.sum_comm]
    exact Finset.sum_congr rfl (fun n _ => Finset.sum_comm)
  rw [e]
  refine Finset.sum_congr rfl (fun n _ => Finset.sum_congr rfl (fun m _ => ?_))
  rw [← Finset.sum_add_distrib]
  refine Finset.sum_congr rfl (fun i _ => ?_)
  rw [← Finset.sum_add_distrib]
  exact Finset.sum_congr rfl (fun j _ => by ring)

theorem pairing_comm {r c : ℕ} (w f g : Fin r → Fin c → ℝ) : pairing w f g = pairing w g f :=
  Finset.sum_congr rfl (fun i _ => Finset.sum_congr rfl (fun j _ => by ring))

theorem sum_single {N n m : ℕ} (hm : m ≤ n) (hn : n ≤ N) (F : ℕ → ℕ → ℝ)
    (h0 : ∀ n' m', m' ≤ n' → n' ≤ N → ¬ (n' = n ∧ m' = m) → F n' m' = 0) :
    ∑ n' ∈ Finset.range (N + 1), ∑ m' ∈ Finset.range (n' + 1), F n' m' = F n m := by
  rw [Finset.sum_eq_single n, Finset.sum_eq_single m]
  · intro m' hm' hne
    exact h0 n m' (by simpa [Nat.lt_succ_iff] using hm') hn (by tauto)
  · intro h; exact absurd (Finset.mem_range.mpr (by omega)) h
  · intro n' hn' hne
    refine Finset.sum_eq_zero (fun m' hm' => ?_)
    exact h0 n' m' (by simpa [Nat.lt_succ_iff] using hm') (by simpa [Nat.lt_succ_iff] using hn') (by tauto)
  · intro h; exact absurd (Finset.mem_range.mpr (by omega)) h

/-- the coefficient in terms of the weighted sums -/
theorem coefficient_eq {Y : ℕ → ℕ → ℝ → ℝ → ℂ} (hY : Harmonics Y) {r c : ℕ} (data scale theta phi : Fin r → Fin c → ℝ) (n m : ℕ) :
    coefficient Y data scale theta phi n m
      = ⟨pairing scale data (gridRe Y theta phi n m) * ((if m = 0 then 1 else 2) * (4 * Real.pi / total scale)),
         pairing scale data (gridIm Y theta phi n m) * ((if m = 0 then 1 else 2) * (4 * Real.pi / total scale))⟩ := by
  have h1 : (((if m = 0 then 1 else 2 : ℕ) : ℂ) * (1 / ((∑ i, ∑ j, (scale i j : ℂ)) * Y 0 0 0 0 ^ 2)))
      = (((if m = 0 then 1 else 2) * (4 * Real.pi / total scale) : ℝ) : ℂ) := by
    rw [hY.constant, total]
    split <;> push_cast <;> field_simp
  rw [coefficient, h1]
  apply Complex.ext
  · rw [Complex.re_mul_ofReal]
    congr 1
    simp only [Complex.re_sum, pairing, gridRe]
    refine Finset.sum_congr rfl (fun i _ => Finset.sum_congr rfl (fun j _ => ?_))
    rw [← Complex.ofReal_mul, Complex.re_ofReal_mul]; ring
  · rw [Complex.im_mul_ofReal]
    congr 1
    simp only [Complex.im_sum, pairing, gridIm]
    refine Finset.sum_congr rfl (fun i _ => Finset.sum_congr rfl (fun j _ => ?_))
    rw [← Complex.ofReal_mul, Complex.im_ofReal_mul]; ring

/-- the coefficients of a combination of harmonics -/
theorem coefficient_of_combination {Y : ℕ → ℕ → ℝ → ℝ → ℂ} (hY : Harmonics Y) {r c : ℕ} {N : ℕ} {scale theta phi : Fin r → Fin c → ℝ}
    (hq : QuadratureExact Y N scale theta phi) (a b : ℕ → ℕ → ℝ) {n m : ℕ} (hm : m ≤ n) (hn : n ≤ N) :
    coefficient Y (fun i j => ∑ n ∈ Finset.range (N + 1), ∑ m ∈ Finset.range (n + 1),
      (a n m * gridRe Y theta phi n m i j + b n m * gridIm Y theta phi n m i j)) scale theta phi n m
      = ⟨a n m, if m = 0 then 0 else b n m⟩ := by
  have hpi : (4 * Real.pi) ≠ 0 := by positivity
  have hw := hq.nonzero
  rw [coefficient_eq hY, pairing_combination, pairing_combination]
  rw [sum_single hm hn, sum_single hm hn]
  · rw [hq.re_re n m n m hm hn hm hn, hq.re_im n m n m hm hn hm hn, hq.im_im n m n m hm hn hm hn,
      pairing_comm scale (gridIm Y theta phi n m), hq.re_im n m n m hm hn hm hn]
    by_cases h0 : m = 0
    · simp only [h0, and_self, if_true]
      apply Complex.ext <;> simp only <;> field_simp <;> ring
    · simp only [h0, and_self, if_true, if_false]
      apply Complex.ext <;> simp only <;> field_simp <;> ring
  · intro n' m' h1 h2 hne
    rw [hq.re_im n' m' n m h1 h2 hm hn, hq.im_im n' m' n m h1 h2 hm hn, if_neg hne]; ring
  · intro n' m' h1 h2 hne
    rw [hq.re_re n' m' n m h1 h2 hm hn, pairing_comm, hq.re_im n m n' m' hm hn h1 h2, if_neg hne]; ring

end Verif.Lemmas.Spherical
