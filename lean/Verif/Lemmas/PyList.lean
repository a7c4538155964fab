import Verif.Basic.Py
import Mathlib.Data.List.Basic
import Mathlib.Tactic.Linarith

namespace Verif

theorem Py.index_nat {α : Type _} (l : List α) (i : ℕ) (h : i < l.length) :
    Py.index l (i : Int) = .ok l[i] := by
  have h0 : ¬ ((i : Int) < 0) := by omega
  simp [Py.index, h, h0]

theorem Py.index_nat' {α : Type _} (l : List α) (z : Int) (i : ℕ) (hz : z = i) (h : i < l.length) :
    Py.index l z = .ok l[i] := by
  subst hz; exact Py.index_nat l i h

theorem Py.index_neg_one {α : Type _} (l : List α) (h : 0 < l.length) :
    Py.index l (-1) = .ok (l[l.length - 1]'(by omega)) := by
  have h1 : ((-1 : Int) + l.length).toNat = l.length - 1 := by omega
  have h2 : l.length - 1 < l.length := by omega
  have h3 : ¬ ((-1 : Int) + l.length < 0) := by omega
  simp [Py.index, h1, h2, h3]

theorem Py.index_oob {α : Type _} (l : List α) (i : ℕ) (h : l.length ≤ i) :
    Py.index l (i : Int) = .error .indexError := by
  have h0 : ¬ ((i : Int) < 0) := by omega
  simp [Py.index, h, h0]

theorem Py.setIndex_nat {α : Type _} (l : List α) (i : ℕ) (v : α) (h : i < l.length) :
    Py.setIndex l (i : Int) v = .ok (l.set i v) := by
  have h0 : ¬ ((i : Int) < 0) := by omega
  simp [Py.setIndex, h, h0]

theorem Py.clampBound_nat (n i : ℕ) : Py.clampBound n (i : Int) = min i n := by
  have h0 : ¬ ((i : Int) < 0) := by omega
  simp [Py.clampBound, h0]

theorem Py.slice_nat {α : Type _} (l : List α) (a b : ℕ) :
    Py.slice l (a : Int) (b : Int) = (l.take b).drop (min a l.length) := by
  simp only [Py.slice, Py.clampBound_nat]
  rcases le_total b l.length with h | h
  · rw [min_eq_left h]
  · rw [min_eq_right h, List.take_of_length_le (le_refl _), List.take_of_length_le h]

theorem foldl_min_of_le (l : List ℕ) (a : ℕ) (h : ∀ x ∈ l, a ≤ x) : l.foldl min a = a := by
  induction l with
  | nil => rfl
  | cons x xs ih =>
    simp only [List.foldl_cons]
    rw [min_eq_left (h x (by simp))]
    exact ih (fun y hy => h y (by simp [hy]))

theorem foldl_max_le (l : List ℕ) (a b : ℕ) (ha : a ≤ b) (h : ∀ x ∈ l, x ≤ b) : l.foldl max a ≤ b := by
  induction l generalizing a with
  | nil => simpa
  | cons x xs ih =>
    simp only [List.foldl_cons]
    exact ih _ (max_le ha (h x (by simp))) (fun y hy => h y (by simp [hy]))

theorem le_foldl_max_init (l : List ℕ) (a : ℕ) : a ≤ l.foldl max a := by
  induction l generalizing a with
  | nil => simp
  | cons y ys ih => simp only [List.foldl_cons]; exact le_trans (le_max_left _ _) (ih _)

theorem le_foldl_max (l : List ℕ) (a x : ℕ) (h : x = a ∨ x ∈ l) : x ≤ l.foldl max a := by
  induction l generalizing a with
  | nil => have : x = a := by simpa using h
           simp [this]
  | cons y ys ih =>
    simp only [List.foldl_cons]
    rcases h with h | h
    · subst h; exact le_trans (le_max_left x y) (le_foldl_max_init _ _)
    · rcases List.mem_cons.1 h with h | h
      · subst h; exact le_trans (le_max_right a x) (le_foldl_max_init _ _)
      · exact ih _ (Or.inr h)

theorem foldl_max_mem (l : List ℕ) (a : ℕ) : l.foldl max a = a ∨ l.foldl max a ∈ l := by
  induction l generalizing a with
  | nil => simp
  | cons y ys ih =>
    simp only [List.foldl_cons]
    rcases ih (max a y) with h | h
    · rcases le_total a y with h' | h'
      · right; rw [h, max_eq_right h']; simp
      · left; rw [h, max_eq_left h']
    · right; exact List.mem_cons_of_mem _ h

theorem foldl_min_mem (l : List ℕ) (a : ℕ) : l.foldl min a = a ∨ l.foldl min a ∈ l := by
  induction l generalizing a with
  | nil => simp
  | cons y ys ih =>
    simp only [List.foldl_cons]
    rcases ih (min a y) with h | h
    · rcases le_total a y with h' | h'
      · left; rw [h, min_eq_left h']
      · right; rw [h, min_eq_right h']; simp
    · right; exact List.mem_cons_of_mem _ h

theorem foldl_min_le (l : List ℕ) (a x : ℕ) (h : x = a ∨ x ∈ l) : l.foldl min a ≤ x := by
  have init : ∀ (l : List ℕ) a, l.foldl min a ≤ a := by
    intro l; induction l with
    | nil => simp
    | cons y ys ih => intro a; simp only [List.foldl_cons]; exact le_trans (ih _) (min_le_left _ _)
  induction l generalizing a with
  | nil => have : x = a := by simpa using h
           simp [this]
  | cons y ys ih =>
    simp only [List.foldl_cons]
    rcases h with h | h
    · subst h; exact le_trans (init _ _) (min_le_left x y)
    · rcases List.mem_cons.1 h with h | h
      · subst h; exact le_trans (init _ _) (min_le_right a x)
      · exact ih _ (Or.inr h)

/-- `max(seq)` is characterised by membership and being an upper bound. -/
theorem Py.maxNat_eq (l : List ℕ) (e : ℕ) (hm : e ∈ l) (hu : ∀ x ∈ l, x ≤ e) : Py.maxNat l = .ok e := by
  cases l with
  | nil => simp at hm
  | cons x xs =>
    simp only [Py.maxNat]
    congr 1
    apply le_antisymm
    · exact foldl_max_le _ _ _ (hu x (by simp)) (fun y hy => hu y (by simp [hy]))
    · exact le_foldl_max _ _ _ (by simpa using hm)

/-- `min(seq)` is characterised by membership and being a lower bound. -/
theorem Py.minNat_eq (l : List ℕ) (e : ℕ) (hm : e ∈ l) (hu : ∀ x ∈ l, e ≤ x) : Py.minNat l = .ok e := by
  cases l with
  | nil => simp at hm
  | cons x xs =>
    simp only [Py.minNat]
    congr 1
    apply le_antisymm
    · exact foldl_min_le _ _ _ (by simpa using hm)
    · rcases foldl_min_mem xs x with h | h
      · rw [h]; exact hu x (by simp)
      · exact hu _ (by simp [h])

theorem Np.mem_nonzero (c : List Bool) (i : ℕ) : i ∈ Np.nonzero c ↔ c[i]? = some true := by
  simp only [Np.nonzero, List.mem_filter, List.mem_range, beq_iff_eq]
  constructor
  · exact fun h => h.2
  · intro h; refine ⟨?_, h⟩
    by_contra hc
    rw [List.getElem?_eq_none (by omega)] at h
    simp at h

theorem Np.roll1_length {α : Type _} (l : List α) : (Np.roll1 l).length = l.length := by
  unfold Np.roll1
  cases h : l.getLast? with
  | none => simp at h; simp [h]
  | some a =>
    have : l ≠ [] := by intro hl; simp [hl] at h
    have := List.length_pos_iff.2 this
    simp; omega

theorem Np.roll1_getElem_succ {α : Type _} (l : List α) (k : ℕ) (h : k + 1 < l.length) :
    (Np.roll1 l)[k + 1]'(by rw [Np.roll1_length]; exact h) = l[k] := by
  have hl : l ≠ [] := by intro hl; simp [hl] at h
  have : l.getLast? = some (l.getLast hl) := List.getLast?_eq_some_getLast hl
  simp [Np.roll1, this]

end Verif
