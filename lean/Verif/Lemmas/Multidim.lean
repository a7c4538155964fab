import Verif.Model.Multidim
import Verif.Spec.Grid
import Verif.Lemmas.Interp1d
import Mathlib.Tactic.FieldSimp
import Mathlib.Tactic.Linarith

set_option linter.unusedSectionVars false
namespace Verif.Lemmas
open Model Spec
variable {K : Type _} [Field K] [LinearOrder K] [IsStrictOrderedRing K]

theorem eqb_iff (a m : XF K) : a.eqb m = true ↔ m ≠ .nan ∧ a = m := by
  cases a <;> cases m <;> simp [XF.eqb]

/-- sorting an increasing axis does nothing -/
theorem sortPairs_inc (n : ℕ) (x : ℕ → K) (y : ℕ → XF K) (h : IncAxis n x) :
    (sortPairs (column n x) (column n y)).map (·.1) = column n x ∧ (sortPairs (column n x) (column n y)).map (·.2) = column n y := by
  have hz : (column n x).zip (column n y) = (List.range n).map (fun k => (x k, y k)) := by
    simp [column, List.zip, List.zipWith_map, List.zipWith_self]
  have hs : sortPairs (column n x) (column n y) = (List.range n).map (fun k => (x k, y k)) := by
    unfold sortPairs
    rw [hz]
    refine List.Pairwise.insertionSort_eq ?_
    rw [List.pairwise_map, List.pairwise_iff_getElem]
    intro i j hi hj hij
    simp only [List.getElem_range]
    exact (h i j hij (by simpa using hj)).le
  rw [hs]
  simp [column, Function.comp_def]

theorem column_getD {α : Type _} (n : ℕ) (f : ℕ → α) (d : α) (k : ℕ) (h : k < n) : (column n f).getD k d = f k := by
  simp [column, h]

theorem column_headD {α : Type _} (n : ℕ) (f : ℕ → α) (d : α) (h : 0 < n) : (column n f).headD d = f 0 := by
  obtain ⟨m, rfl⟩ := Nat.exists_eq_succ_of_ne_zero h.ne'
  simp [column, List.range_succ_eq_map]

theorem column_getLastD {α : Type _} (n : ℕ) (f : ℕ → α) (d : α) (h : 0 < n) : (column n f).getLastD d = f (n - 1) := by
  obtain ⟨m, rfl⟩ := Nat.exists_eq_succ_of_ne_zero h.ne'
  simp [column, List.range_succ, List.getLastD_eq_getLast?]

/-- `searchsorted` on an increasing axis -/
theorem searchLeft_column (n : ℕ) (x : ℕ → K) (h : IncAxis n x) (q : K) :
    searchLeft (column n x) q ≤ n ∧ (∀ k < n, x k < q ↔ k < searchLeft (column n x) q) := by
  obtain ⟨h1, h2, h3⟩ := takeWhile_length_spec (fun a => decide (a < q)) (column n x)
  rw [column_length] at h3
  refine ⟨h3, fun k hk => ⟨fun hlt => ?_, fun hlt => ?_⟩⟩
  · by_contra hge
    push Not at hge
    have hs : searchLeft (column n x) q < n := lt_of_le_of_lt hge hk
    have := h2 (x (searchLeft (column n x) q)) (column_getElem? _ _ _ hs)
    have hnl : ¬ x (searchLeft (column n x) q) < q := by simpa using this
    rcases eq_or_lt_of_le hge with he | hl
    · rw [he] at hnl; exact hnl hlt
    · exact hnl ((h _ k hl hk).trans hlt)
  · have := h1 k (x k) (column_getElem? _ _ _ hk) hlt
    simpa using this

/-- value on the line through two points, as scipy computes it -/
def seg (x0 x1 : K) (y0 y1 : XF K) (q : K) : XF K := (y1 - y0) / .fin (x1 - x0) * .fin (q - x0) + y0

theorem seg_fin (x0 x1 y0 y1 q : K) (h : x0 < x1) :
    seg x0 x1 (.fin y0) (.fin y1) q = .fin ((1 - (q - x0) / (x1 - x0)) * y0 + (q - x0) / (x1 - x0) * y1) := by
  have hne : x1 - x0 ≠ 0 := (sub_pos.mpr h).ne'
  unfold seg
  rw [XF.fin_sub, XF.fin_div _ _ hne, XF.fin_mul, XF.fin_add]
  congr 1
  field_simp
  ring

theorem seg_nan (x0 x1 : K) (y0 y1 : XF K) (q : K) (h : y0 = .nan ∨ y1 = .nan) : seg x0 x1 y0 y1 q = .nan := by
  unfold seg
  rcases h with rfl | rfl <;> simp

/-- scipy uses the cell whose right end is the first point at or after `q`, moved inside the axis -/
theorem scipyLinear_cell (n : ℕ) (x : ℕ → K) (y : ℕ → XF K) (h : IncAxis n x) (q : K) (k : ℕ) (hk : k + 1 < n)
    (hl : k = 0 ∨ x k < q) (hr : k + 2 = n ∨ q ≤ x (k + 1)) :
    scipyLinear (column n x) (column n y) q = seg (x k) (x (k + 1)) (y k) (y (k + 1)) q := by
  obtain ⟨hs1, hs2⟩ := searchLeft_column n x h q
  have hhi : min (max (searchLeft (column n x) q) 1) (n - 1) = k + 1 := by
    have a1 : k = 0 ∨ k < searchLeft (column n x) q := hl.imp id (fun hh => (hs2 k (by omega)).mp hh)
    have a2 : k + 2 = n ∨ searchLeft (column n x) q ≤ k + 1 := by
      refine hr.imp id (fun hh => ?_)
      by_contra hc
      push Not at hc
      exact absurd ((hs2 (k + 1) hk).mpr hc) (not_lt.mpr hh)
    omega
  unfold scipyLinear
  simp only [column_length, hhi]
  rw [if_neg (by omega), Nat.add_sub_cancel, column_getD n y _ _ hk, column_getD n y _ k (by omega), column_getD n x _ _ hk,
    column_getD n x _ k (by omega)]
  rfl

/-- one axis, inside the range, linear -/
theorem interpAxis_cell (fill : Option (XF K)) (n : ℕ) (x : ℕ → K) (y : ℕ → XF K) (h : IncAxis n x) (q : K) (k : ℕ) (hk : k + 1 < n)
    (hl : x k < q ∨ k = 0 ∧ x 0 ≤ q) (hr : q ≤ x (k + 1)) :
    interpAxis .linear fill (column n x) (column n y) q = seg (x k) (x (k + 1)) (y k) (y (k + 1)) q := by
  obtain ⟨hs1, hs2⟩ := sortPairs_inc n x y h
  unfold interpAxis
  simp only [hs1, hs2]
  rw [scipyLinear_cell n x y h q k hk (by tauto) (Or.inr hr), column_headD n x 0 (by omega), column_getLastD n x 0 (by omega)]
  cases fill with
  | none => rfl
  | some f =>
    simp only
    rw [if_neg]
    push Not
    constructor
    · rcases hl with hl | ⟨rfl, hl⟩
      · rcases Nat.eq_zero_or_pos k with rfl | hpos
        · exact hl.le
        · exact ((h 0 k hpos (by omega)).trans hl).le
      · exact hl
    · rcases eq_or_lt_of_le (show k + 1 ≤ n - 1 by omega) with he | hlt
      · rw [← he]; exact hr
      · exact hr.trans (h _ _ hlt (by omega)).le

/-- outside the range the fill value is used -/
theorem interpAxis_outside (m : GridMethod) (f : XF K) (n : ℕ) (hn : 0 < n) (x : ℕ → K) (y : ℕ → XF K) (h : IncAxis n x) (q : K)
    (hq : q < x 0 ∨ x (n - 1) < q) : interpAxis m (some f) (column n x) (column n y) q = f := by
  obtain ⟨hs1, hs2⟩ := sortPairs_inc n x y h
  unfold interpAxis
  simp only [hs1]
  rw [column_headD n x 0 hn, column_getLastD n x 0 hn, if_pos hq]

/-- the cell used for a point in range -/
theorem exists_cell (n : ℕ) (hn : 2 ≤ n) (x : ℕ → K) (h : IncAxis n x) (q : K) (h0 : x 0 ≤ q) (h1 : q ≤ x (n - 1)) :
    ∃ k, k + 1 < n ∧ (x k < q ∨ k = 0 ∧ x 0 ≤ q) ∧ q ≤ x (k + 1) := by
  rcases eq_or_lt_of_le h0 with he | hlt
  · exact ⟨0, by omega, Or.inr ⟨rfl, h0⟩, by rw [← he]; exact (h 0 1 (by omega) (by omega)).le⟩
  · obtain ⟨hs1, hs2⟩ := searchLeft_column n x h q
    have hp : 0 < searchLeft (column n x) q := (hs2 0 (by omega)).mp hlt
    have hlt2 : searchLeft (column n x) q < n := by
      by_contra hc
      have : searchLeft (column n x) q = n := by omega
      have := (hs2 (n - 1) (by omega)).mpr (by omega)
      exact absurd this (not_lt.mpr h1)
    refine ⟨searchLeft (column n x) q - 1, by omega, Or.inl ((hs2 _ (by omega)).mpr (by omega)), ?_⟩
    rw [Nat.sub_add_cancel hp]
    by_contra hc
    push Not at hc
    exact absurd ((hs2 _ hlt2).mp hc) (lt_irrefl _)

/-- in a strictly increasing axis, a point inside a cell determines the cell -/
theorem inside_unique (n : ℕ) (x : ℕ → K) (h : IncAxis n x) (q : K) (i k : ℕ) (hi : InsideCell n x q i) (hk : k + 1 < n)
    (hl : x k ≤ q) (hr : q ≤ x (k + 1)) : k = i := by
  obtain ⟨h1, h2, h3⟩ := hi
  rcases lt_trichotomy k i with hlt | he | hgt
  · have : x (k + 1) ≤ x i := by
      rcases eq_or_lt_of_le (show k + 1 ≤ i from hlt) with he | hl'
      · rw [he]
      · exact (h _ _ hl' (by omega)).le
    linarith
  · exact he
  · have : x (i + 1) ≤ x k := by
      rcases eq_or_lt_of_le (show i + 1 ≤ k from hgt) with he | hl'
      · rw [he]
      · exact (h _ _ hl' (by omega)).le
    linarith

end Verif.Lemmas
