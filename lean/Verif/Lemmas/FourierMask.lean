import Verif.Lemmas.Fourier

set_option linter.unusedSectionVars false

namespace Verif.Lemmas
open Verif.Model Verif.Spec Complex

/-- bins removed by the band-block branch: `l ≤ k < h` or `l ≤ n-k < h` (for `k ≥ 1`) -/
def blockZ (n : ℕ) (l h : ℤ) (k : ℕ) : Prop :=
  (l ≤ (k : ℤ) ∧ (k : ℤ) < h) ∨ (1 < h ∧ (n : ℤ) + 1 - h ≤ k ∧ (1 < l → (k : ℤ) < n + 1 - l))

instance (n : ℕ) (l h : ℤ) (k : ℕ) : Decidable (blockZ n l h k) := by unfold blockZ; infer_instance

/-- all bins removed by `zeroBins`, as a predicate -/
def zeroPred (fl : Flags) (n : ℕ) (l h : ℤ) (k : ℕ) : Prop :=
  (fl.lowPass = true ∧ ¬ lowPasses l (harmonic n k)) ∨
  (fl.highPass = true ∧ ¬ highPasses h (harmonic n k)) ∨
  (fl.bandPass = true ∧ ¬ bandPasses l h (harmonic n k)) ∨
  (fl.bandBlock = true ∧ blockZ n l h k)

instance (fl : Flags) (n : ℕ) (l h : ℤ) (k : ℕ) : Decidable (zeroPred fl n l h k) := by
  unfold zeroPred; infer_instance

theorem inSlice_iff (n : ℕ) (a b : ℤ) (k : ℕ) :
    Py.inSlice n a b k = true ↔ Py.clampBound n a ≤ k ∧ k < Py.clampBound n b := by
  simp [Py.inSlice]

variable {n : ℕ} [NeZero n] {α : Type _} [Zero α]

theorem zeroSlice_apply (a b : Option Int) (X : ZMod n → α) (k : ZMod n) :
    zeroSlice a b X k = if Py.inSlice n (a.getD 0) (b.getD n) k.val = true then 0 else X k := rfl

theorem lowStep (l : ℤ) (hl : 0 ≤ l) (X : ZMod n → α) (k : ZMod n) :
    (if l > 1 then zeroSlice (some l) (some (1 - l)) X else zeroSlice (some l) none X) k
      = if ¬ lowPasses l (harmonic n k.val) then 0 else X k := by
  have hk := ZMod.val_lt k
  unfold lowPasses harmonic
  split
  · rw [zeroSlice_apply]
    refine if_congr ?_ rfl rfl
    rw [inSlice_iff]
    simp only [Option.getD_some, Py.clampBound]
    split_ifs <;> omega
  · rw [zeroSlice_apply]
    refine if_congr ?_ rfl rfl
    rw [inSlice_iff]
    simp only [Option.getD_some, Option.getD_none, Py.clampBound]
    split_ifs <;> omega

theorem highStep (h : ℤ) (hh : 0 ≤ h) (X : ZMod n → α) (k : ZMod n) :
    (let X := zeroSlice none (some h) X
      if h > 1 then zeroSlice (some (1 - h)) none X else X) k
      = if ¬ highPasses h (harmonic n k.val) then 0 else X k := by
  have hk := ZMod.val_lt k
  unfold highPasses harmonic
  simp only
  split
  · rw [zeroSlice_apply, zeroSlice_apply, ← ite_or]
    refine if_congr ?_ rfl rfl
    rw [inSlice_iff, inSlice_iff]
    simp only [Option.getD_some, Option.getD_none, Py.clampBound]
    split_ifs <;> omega
  · rw [zeroSlice_apply]
    refine if_congr ?_ rfl rfl
    rw [inSlice_iff]
    simp only [Option.getD_some, Option.getD_none, Py.clampBound]
    split_ifs <;> omega

theorem bandPassStep (l h : ℤ) (hl : 0 ≤ l) (hh : 0 ≤ h) (X : ZMod n → α) (k : ZMod n) :
    (let X := zeroSlice none (some l) X
      let X := if h > 1 then zeroSlice (some h) (some (1 - h)) X else zeroSlice (some h) none X
      if l > 1 then zeroSlice (some (1 - l)) none X else X) k
      = if ¬ bandPasses l h (harmonic n k.val) then 0 else X k := by
  have hk := ZMod.val_lt k
  have h1 := lowStep h hh (zeroSlice none (some l) X) k
  have h2 : ∀ Y : ZMod n → α, zeroSlice none (some l) X k = (zeroSlice none (some l) X) k := fun _ => rfl
  unfold bandPasses
  simp only
  by_cases hl1 : l > 1
  · rw [if_pos hl1, zeroSlice_apply, h1, zeroSlice_apply, ← ite_or, ← ite_or]
    refine if_congr ?_ rfl rfl
    rw [inSlice_iff, inSlice_iff]
    unfold lowPasses harmonic
    simp only [Option.getD_some, Option.getD_none, Py.clampBound]
    split_ifs <;> omega
  · rw [if_neg hl1, h1, zeroSlice_apply, ← ite_or]
    refine if_congr ?_ rfl rfl
    rw [inSlice_iff]
    unfold lowPasses harmonic
    simp only [Option.getD_some, Option.getD_none, Py.clampBound]
    split_ifs <;> omega

theorem bandBlockStep (l h : ℤ) (hl : 0 ≤ l) (hh : 0 ≤ h) (X : ZMod n → α) (k : ZMod n) :
    (let X := zeroSlice (some l) (some h) X
      if l > 1 ∧ h > 1 then zeroSlice (some (1 - h)) (some (1 - l)) X
      else if h > 1 then zeroSlice (some (1 - h)) none X
      else X) k
      = if blockZ n l h k.val then 0 else X k := by
  have hk := ZMod.val_lt k
  unfold blockZ
  simp only
  by_cases h1 : l > 1 ∧ h > 1
  · rw [if_pos h1, zeroSlice_apply, zeroSlice_apply, ← ite_or]
    refine if_congr ?_ rfl rfl
    rw [inSlice_iff, inSlice_iff]
    simp only [Option.getD_some, Py.clampBound]
    split_ifs <;> omega
  · rw [if_neg h1]
    by_cases h2 : h > 1
    · rw [if_pos h2, zeroSlice_apply, zeroSlice_apply, ← ite_or]
      refine if_congr ?_ rfl rfl
      rw [inSlice_iff, inSlice_iff]
      simp only [Option.getD_some, Option.getD_none, Py.clampBound]
      split_ifs <;> omega
    · rw [if_neg h2, zeroSlice_apply]
      refine if_congr ?_ rfl rfl
      rw [inSlice_iff]
      simp only [Option.getD_some, Py.clampBound]
      split_ifs <;> omega

/-- The zeroing code removes exactly the bins of `zeroPred`. -/
theorem zeroBins_apply (fl : Flags) (l h : ℤ) (hl : 0 ≤ l) (hh : 0 ≤ h) (X : ZMod n → α) (k : ZMod n) :
    zeroBins fl l h X k = if zeroPred fl n l h k.val then 0 else X k := by
  have a1 : ∀ (b : Bool) (Y Z : ZMod n → α) (P : Prop) [Decidable P], (Y k = if P then 0 else Z k) →
      (if b = true then Y else Z) k = if (b = true ∧ P) then 0 else Z k := by
    intro b Y Z P _ hY
    cases b <;> simp [hY]
  unfold zeroBins
  simp only
  rw [a1 fl.bandBlock _ _ _ (bandBlockStep l h hl hh _ k)]
  rw [a1 fl.bandPass _ _ _ (bandPassStep l h hl hh _ k)]
  rw [a1 fl.highPass _ _ _ (highStep h hh _ k)]
  rw [a1 fl.lowPass _ _ _ (lowStep l hl _ k)]
  rw [← ite_or, ← ite_or, ← ite_or]
  refine if_congr ?_ rfl rfl
  unfold zeroPred
  tauto

theorem val_neg_cases (k : ZMod n) : (k.val = 0 ∧ (-k).val = 0) ∨ (0 < k.val ∧ (-k).val = n - k.val) := by
  by_cases h : k = 0
  · left; simp [h]
  · right
    have : NeZero k := ⟨h⟩
    exact ⟨Nat.pos_of_ne_zero (fun h0 => h ((ZMod.val_eq_zero k).1 h0)), ZMod.val_neg_of_ne_zero k⟩

theorem harmonic_neg (k : ZMod n) : harmonic n (-k).val = harmonic n k.val := by
  have hk := ZMod.val_lt k
  unfold harmonic
  rcases val_neg_cases k with ⟨h1, h2⟩ | ⟨h1, h2⟩ <;> rw [h2] <;> omega

theorem zeroPred_neg (fl : Flags) (l h : ℤ) (hl : 0 ≤ l) (hh : 0 ≤ h) (k : ZMod n) :
    zeroPred fl n l h (-k).val ↔ zeroPred fl n l h k.val := by
  have hk := ZMod.val_lt k
  have hb : blockZ n l h (-k).val ↔ blockZ n l h k.val := by
    unfold blockZ
    rcases val_neg_cases k with ⟨h1, h2⟩ | ⟨h1, h2⟩
    · rw [h1, h2]
    · rw [h2]; omega
  unfold zeroPred
  rw [harmonic_neg, hb]

/-- within the Nyquist range the band-block branch is the complement of the band-pass branch -/
theorem blockZ_iff (l h : ℤ) (k : ℕ) (hk : k < n) (hl : 0 ≤ l) (hh : 0 ≤ h) (hlh : l + h ≤ n + 1) :
    blockZ n l h k ↔ bandPasses l h (harmonic n k) := by
  unfold blockZ bandPasses harmonic
  omega

/-! ### the filter as a multiplier -/

theorem zeroBins_mask (fl : Flags) (l h : ℤ) (hl : 0 ≤ l) (hh : 0 ≤ h) (X : ZMod n → ℂ) :
    zeroBins fl l h X = fun k => if (decide (zeroPred fl n l h k.val) : Bool) then 0 else X k := by
  funext k; rw [zeroBins_apply fl l h hl hh]; simp

theorem symmetric_zero (fl : Flags) (l h : ℤ) (hl : 0 ≤ l) (hh : 0 ≤ h) :
    SymmetricMask (fun k : ZMod n => (decide (zeroPred fl n l h k.val) : Bool)) := by
  intro k; simp only [zeroPred_neg fl l h hl hh]

/-- The inverse transform is real before the real part is taken. -/
theorem filter_im_zero (fl : Flags) (l h : ℤ) (hl : 0 ≤ l) (hh : 0 ≤ h) (x : ZMod n → ℝ) (t : ZMod n) :
    (npIfft (zeroBins fl l h (npFft (fun t => (x t : ℂ)))) t).im = 0 := by
  rw [zeroBins_mask fl l h hl hh]
  exact ifft_mask_real _ (symmetric_zero fl l h hl hh) x t

theorem cut_nonneg {cl res : ℝ} (hc : 0 ≤ cl) (hr : 0 < res) : (0 : ℤ) ≤ ⌊cl / res⌋ :=
  Int.floor_nonneg.2 (div_nonneg hc hr.le)

theorem cut_nonneg' {ch res : ℝ} (hc : 0 ≤ ch) (hr : 0 < res) : (0 : ℤ) ≤ ⌈ch / res⌉ :=
  Int.ceil_nonneg (div_nonneg hc hr.le)

/-- Spectrum of the filtered signal. -/
theorem fft_filterRes (fl : Flags) (res cl ch : ℝ) (hr : 0 < res) (h1 : 0 ≤ cl) (h2 : 0 ≤ ch) (x : ZMod n → ℝ)
    (k : ZMod n) :
    npFft (fun t => ((filterRes fl res cl ch x t : ℝ) : ℂ)) k
      = if zeroPred fl n ⌊cl / res⌋ ⌈ch / res⌉ k.val then 0 else npFft (fun t => (x t : ℂ)) k := by
  have hl := cut_nonneg h1 hr
  have hh := cut_nonneg' h2 hr
  have : (fun t => ((filterRes fl res cl ch x t : ℝ) : ℂ))
      = npIfft (zeroBins fl ⌊cl / res⌋ ⌈ch / res⌉ (npFft (fun t => (x t : ℂ)))) := by
    funext t
    exact re_eq_of_im_zero _ (filter_im_zero fl _ _ hl hh x t)
  rw [this, npFft_npIfft, zeroBins_apply fl _ _ hl hh]

/-- A real signal is determined by its spectrum. -/
theorem eq_of_fft (x y : ZMod n → ℝ) (h : ∀ k, npFft (fun t => (x t : ℂ)) k = npFft (fun t => (y t : ℂ)) k) : x = y := by
  have : (fun t => (x t : ℂ)) = fun t => (y t : ℂ) := by
    rw [← npIfft_npFft (fun t => (x t : ℂ)), ← npIfft_npFft (fun t => (y t : ℂ))]
    congr 1; funext k; exact h k
  funext t
  have := congrFun this t
  exact_mod_cast this

theorem npFft_zero_bin (x : ZMod n → ℝ) : npFft (fun t => (x t : ℂ)) 0 = ((∑ t, x t : ℝ) : ℂ) := by
  unfold npFft; simp

end Verif.Lemmas
