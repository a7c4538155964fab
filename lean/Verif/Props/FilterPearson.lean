import Verif.Props.FilterError
import Verif.Props.PearsonThree

/-
Property C227: correlations of filtered records.
-/

namespace Verif.Spec

/-- the samples of a record as an array -/
def samplesOf {n : ℕ} (x : ZMod n → ℝ) : List (Option ℝ) := (List.range n).map fun i : ℕ => some (x (i : ZMod n))

end Verif.Spec

namespace Verif.Props
open Verif.Model Verif.Spec Verif.Lemmas

variable {n : ℕ} [NeZero n]

namespace FilterPearson

theorem sum_samples (g : ZMod n → ℝ) : ((List.range n).map fun i : ℕ => g (i : ZMod n)).sum = ∑ t, g t := by
  have e : ((List.range n).map fun i : ℕ => g (i : ZMod n)).sum = ∑ i ∈ Finset.range n, g (i : ZMod n) := rfl
  rw [e]
  refine Finset.sum_nbij' (fun i : ℕ => (i : ZMod n)) ZMod.val (fun _ _ => Finset.mem_univ _) (fun t _ => Finset.mem_range.mpr (ZMod.val_lt t))
    (fun i hi => ZMod.val_cast_of_lt (Finset.mem_range.mp hi)) (fun t _ => ZMod.natCast_zmod_val t) (fun _ _ => rfl)

/-- the pairs of samples of two records -/
noncomputable def pairs (a b : ZMod n → ℝ) : List (ℝ × ℝ × ℝ) := (List.range n).map fun i : ℕ => (1, a (i : ZMod n), b (i : ZMod n))

omit [NeZero n] in
theorem valid_samples (a b : ZMod n → ℝ) : validCells (List.replicate n 1) (samplesOf a) (samplesOf b) = pairs a b := by
  have h : List.replicate n (1 : ℝ) = (List.range n).map fun _ => 1 := by
    rw [List.map_const', List.length_range]
  unfold validCells samplesOf pairs
  rw [h, List.zip_map', List.zip_map', List.filterMap_map]
  rw [← List.filterMap_eq_map]
  rfl

theorem sum_pairs (a b : ZMod n → ℝ) (g : ℝ × ℝ × ℝ → ℝ) : ((pairs a b).map g).sum = ∑ t, g (1, a t, b t) := by
  unfold pairs
  rw [List.map_map]
  exact sum_samples fun t => g (1, a t, b t)

theorem mean_pairs (a b : ZMod n → ℝ) (g : ℝ × ℝ × ℝ → ℝ) : wMean (pairs a b) (·.1) g = (∑ t, g (1, a t, b t)) / n := by
  unfold wMean
  rw [sum_pairs, sum_pairs]
  simp [ZMod.card]

/-- covariance and variances of two records -/
theorem correlation_pairs (a b : ZMod n → ℝ) : correlation (pairs a b) =
    (∑ t, (a t - (∑ s, a s) / n) * (b t - (∑ s, b s) / n)) /
      Real.sqrt ((∑ t, (a t - (∑ s, a s) / n) ^ 2) * ∑ t, (b t - (∑ s, b s) / n) ^ 2) := by
  unfold correlation
  simp only [mean_pairs, sum_pairs, one_mul]

theorem sum_centered (a b : ZMod n → ℝ) : ∑ t, (a t - (∑ s, a s) / n) * (b t - (∑ s, b s) / n) = ∑ t, a t * b t - (∑ s, a s) * (∑ s, b s) / n := by
  have hn : (n : ℝ) ≠ 0 := Nat.cast_ne_zero.mpr (NeZero.ne n)
  generalize hp : (∑ s, a s) / (n : ℝ) = p
  generalize hq : (∑ s, b s) / (n : ℝ) = q
  have e : ∀ t, (a t - p) * (b t - q) = a t * b t - p * b t - q * a t + p * q := fun t => by ring
  simp only [e, Finset.sum_add_distrib, Finset.sum_sub_distrib, ← Finset.mul_sum, Finset.sum_const, Finset.card_univ, ZMod.card, nsmul_eq_mul]
  rw [← hp, ← hq]
  field_simp
  ring

/-- a filter keeps all means or removes all means -/
theorem mean_or (fl : Flags) (f cl ch : ℝ) (hf : 0 < f) (h1 : 0 ≤ cl) (h2 : 0 ≤ ch) :
    (∀ x : ZMod n → ℝ, ∑ t, fourierFilter fl f cl ch x t = ∑ t, x t) ∨ ∀ x : ZMod n → ℝ, ∑ t, fourierFilter fl f cl ch x t = 0 := by
  by_cases h : zeroPred fl n (loBin n f cl) (hiBin n f ch) (0 : ZMod n).val
  · right
    intro x
    have := fft_fourierFilter fl f cl ch hf h1 h2 x 0
    rw [if_pos h, npFft_zero_bin] at this
    exact_mod_cast this
  · left
    intro x
    apply sum_eq_of_fft0
    rw [fft_fourierFilter fl f cl ch hf h1 h2 x 0, if_neg h]

theorem covariance (fl : Flags) (f cl ch : ℝ) (hf : 0 < f) (h1 : 0 ≤ cl) (h2 : 0 ≤ ch) (x y : ZMod n → ℝ) :
    ∑ t, fourierFilter fl f cl ch x t * y t - (∑ s, fourierFilter fl f cl ch x s) * (∑ s, y s) / n =
    ∑ t, fourierFilter fl f cl ch x t * fourierFilter fl f cl ch y t - (∑ s, fourierFilter fl f cl ch x s) * (∑ s, fourierFilter fl f cl ch y s) / n := by
  rw [(C226_either fl f cl ch hf h1 h2 x y).1]
  rcases mean_or (n := n) fl f cl ch hf h1 h2 with h | h
  · rw [h y]
  · rw [h x]; ring

theorem variance (fl : Flags) (f cl ch : ℝ) (hf : 0 < f) (h1 : 0 ≤ cl) (h2 : 0 ≤ ch) (y : ZMod n → ℝ) :
    ∑ t, (fourierFilter fl f cl ch y t - (∑ s, fourierFilter fl f cl ch y s) / n) ^ 2 ≤ ∑ t, (y t - (∑ s, y s) / n) ^ 2 := by
  have hc := covariance fl f cl ch hf h1 h2 y y
  have e1 := sum_centered (fourierFilter fl f cl ch y) y
  have e2 := sum_centered (fourierFilter fl f cl ch y) (fourierFilter fl f cl ch y)
  have hp : 0 ≤ ∑ t, ((y t - (∑ s, y s) / n) - (fourierFilter fl f cl ch y t - (∑ s, fourierFilter fl f cl ch y s) / n)) ^ 2 :=
    Finset.sum_nonneg fun t _ => sq_nonneg _
  have e3 : ∀ t, ((y t - (∑ s, y s) / n) - (fourierFilter fl f cl ch y t - (∑ s, fourierFilter fl f cl ch y s) / n)) ^ 2 =
      (y t - (∑ s, y s) / n) ^ 2 - 2 * ((fourierFilter fl f cl ch y t - (∑ s, fourierFilter fl f cl ch y s) / n) * (y t - (∑ s, y s) / n)) +
      (fourierFilter fl f cl ch y t - (∑ s, fourierFilter fl f cl ch y s) / n) ^ 2 := fun t => by ring
  simp only [e3, Finset.sum_add_distrib, Finset.sum_sub_distrib, ← Finset.mul_sum] at hp
  simp only [← sq] at e2
  rw [e1, hc] at hp
  simp only [← sq] at hp
  linarith

theorem positive (a b : ZMod n → ℝ) : ∀ z ∈ pairs a b, 0 < z.1 := by
  intro z hz
  obtain ⟨i, -, rfl⟩ := List.mem_map.mp hz
  exact one_pos

end FilterPearson

open FilterPearson

/-- **C227.** Correlating a filtered record with an unfiltered one gives a coefficient of the same sign as correlating it with the other record filtered in the
same way, and not larger in size. -/
theorem C227_filtered {X : Type} (xs : StatArg X → StatArg X → Option (List (XF ℝ)) → Bool → Except PyErr X) (skipna : Bool) (fl : Flags) (f cl ch : ℝ)
    (hf : 0 < f) (h1 : 0 ≤ cl) (h2 : 0 ≤ ch) (x y : ZMod n → ℝ) (r s : ℝ)
    (hr : pearsonR xs (.array ((samplesOf (fourierFilter fl f cl ch x)).map toX)) (.array ((samplesOf y).map toX)) none skipna = .ok (some (.number (.fin r))))
    (hs : pearsonR xs (.array ((samplesOf (fourierFilter fl f cl ch x)).map toX)) (.array ((samplesOf (fourierFilter fl f cl ch y)).map toX)) none skipna
      = .ok (some (.number (.fin s)))) : 0 ≤ r * s ∧ |r| ≤ |s| := by
  have value : ∀ (a b : ZMod n → ℝ) (q : ℝ), pearsonR xs (.array ((samplesOf a).map toX)) (.array ((samplesOf b).map toX)) none skipna = .ok (some (.number (.fin q))) →
      Varies (pairs a b) (·.2.1) ∧ Varies (pairs a b) (·.2.2) ∧ q = correlation (pairs a b) := by
    intro a b q hq
    obtain ⟨q', hq', hp⟩ := C64_value xs (List.replicate n 1) none (.absent n) (samplesOf a) (samplesOf b) (by simp [samplesOf]) (by simp [samplesOf])
      (by simp [NeZero.ne n]) skipna (Or.inr ⟨by simp [samplesOf], by simp [samplesOf]⟩)
    rw [hq] at hq'
    injection hq' with h; injection h with h; injection h with h
    subst h
    rw [valid_samples] at hp
    exact PearsonThree.varies_of hp
  obtain ⟨va, -, rfl⟩ := value _ _ r hr
  obtain ⟨-, vb, rfl⟩ := value _ _ s hs
  have pa := PearsonThree.spread_pos (positive _ _) _ va
  have pb := PearsonThree.spread_pos (positive _ _) _ vb
  simp only [mean_pairs, sum_pairs, one_mul] at pa pb
  rw [correlation_pairs, correlation_pairs, sum_centered, sum_centered, ← covariance fl f cl ch hf h1 h2 x y]
  have hv := variance fl f cl ch hf h1 h2 y
  set A := ∑ t, (fourierFilter fl f cl ch x t - (∑ s, fourierFilter fl f cl ch x s) / n) ^ 2
  set B := ∑ t, (y t - (∑ s, y s) / n) ^ 2
  set B' := ∑ t, (fourierFilter fl f cl ch y t - (∑ s, fourierFilter fl f cl ch y s) / n) ^ 2
  generalize ∑ t, fourierFilter fl f cl ch x t * y t - (∑ s, fourierFilter fl f cl ch x s) * (∑ s, y s) / n = C
  have hs' := Real.sqrt_pos.mpr (mul_pos pa pb)
  have hle : Real.sqrt (A * B') ≤ Real.sqrt (A * B) := Real.sqrt_le_sqrt (mul_le_mul_of_nonneg_left hv pa.le)
  have hs := hs'.trans_le hle
  refine ⟨?_, ?_⟩
  · rw [div_mul_div_comm]
    exact div_nonneg (mul_self_nonneg C) (mul_pos hs hs').le
  · rw [abs_div, abs_div, abs_of_pos hs, abs_of_pos hs']
    exact div_le_div_of_nonneg_left (abs_nonneg C) hs' hle

/-- three samples and a high pass: both coefficients are numbers -/
example : ∃ r s : ℝ,
    pearsonR (X := Unit) (fun _ _ _ _ => .error .valueError) (.array ((samplesOf (fourierHighPass 3 (1 / 2) (fun t : ZMod 3 => if t = 0 then 1 else -1))).map toX))
      (.array ((samplesOf (fun t : ZMod 3 => if t = 1 then (5 : ℝ) else 2)).map toX)) none true = .ok (some (.number (.fin r))) ∧
    pearsonR (X := Unit) (fun _ _ _ _ => .error .valueError) (.array ((samplesOf (fourierHighPass 3 (1 / 2) (fun t : ZMod 3 => if t = 0 then 1 else -1))).map toX))
      (.array ((samplesOf (fourierHighPass 3 (1 / 2) (fun t : ZMod 3 => if t = 1 then (5 : ℝ) else 2))).map toX)) none true = .ok (some (.number (.fin s))) ∧
    0 ≤ r * s ∧ |r| ≤ |s| := by
  have number : ∀ a b : ZMod 3 → ℝ, a 0 ≠ a 1 → b 0 ≠ b 1 → ∃ r : ℝ, pearsonR (X := Unit) (fun _ _ _ _ => .error .valueError) (.array ((samplesOf a).map toX))
      (.array ((samplesOf b).map toX)) none true = .ok (some (.number (.fin r))) := by
    intro a b ha hb
    obtain ⟨q, hq, hp⟩ := C64_value (X := Unit) (fun _ _ _ _ => .error .valueError) (List.replicate 3 1) none (.absent 3) (samplesOf a) (samplesOf b)
      (by simp [samplesOf]) (by simp [samplesOf]) (by simp) true (Or.inl rfl)
    rw [valid_samples] at hp
    have m0 : ((1 : ℝ), a 0, b 0) ∈ pairs a b := List.mem_map.mpr ⟨0, by simp, by simp⟩
    have m1 : ((1 : ℝ), a 1, b 1) ∈ pairs a b := List.mem_map.mpr ⟨1, by simp, by simp⟩
    exact ⟨_, by rw [hq, hp.1 ⟨⟨_, m0, _, m1, ha⟩, ⟨_, m0, _, m1, hb⟩⟩]⟩
  have hx : fourierHighPass 3 (1 / 2) (fun t : ZMod 3 => if t = 0 then (1 : ℝ) else -1) 0 ≠ fourierHighPass 3 (1 / 2) (fun t : ZMod 3 => if t = 0 then (1 : ℝ) else -1) 1 := by
    rw [high_pass_mean 3 (1 / 2) (by norm_num) (by norm_num) (by norm_num), high_pass_mean 3 (1 / 2) (by norm_num) (by norm_num) (by norm_num), if_pos rfl,
      if_neg (by decide)]
    intro h; linarith
  have hy : fourierHighPass 3 (1 / 2) (fun t : ZMod 3 => if t = 1 then (5 : ℝ) else 2) 0 ≠ fourierHighPass 3 (1 / 2) (fun t : ZMod 3 => if t = 1 then (5 : ℝ) else 2) 1 := by
    rw [high_pass_mean 3 (1 / 2) (by norm_num) (by norm_num) (by norm_num), high_pass_mean 3 (1 / 2) (by norm_num) (by norm_num) (by norm_num), if_pos rfl,
      if_neg (by decide)]
    intro h; linarith
  obtain ⟨r, hr⟩ := number _ (fun t : ZMod 3 => if t = 1 then (5 : ℝ) else 2) hx (by rw [if_pos rfl, if_neg (by decide)]; norm_num)
  obtain ⟨s, hs⟩ := number _ _ hx hy
  exact ⟨r, s, hr, hs, C227_filtered _ true { highPass := true } 3 0 (1 / 2) (by norm_num) le_rfl (by norm_num) _ _ r s hr hs⟩

end Verif.Props
